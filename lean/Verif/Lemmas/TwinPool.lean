import Verif.Lemmas.TwinKinds

/-! # Two runs: pooling, random flip, and all classes -/

namespace BeeDNN
open Finset HasWF

namespace Layer

variable {first : Bool} {s s' : Form} {l l' : Layer} {e : Env} {N : Nat} {x x' : Nat → Nat → ℝ} {o : Mat ℝ}

theorem core_maxIndex {l m : Layer} (h : m.core = l.core) : m.maxIndex = l.maxIndex := by have := congrArg maxIndex h; exact this

theorem det_maxPool (h : l.Fits first s s') {p : Pool} (hk : l.kind = .maxPool p) (he : e.Exact) (hN : 0 < N) :
    Det first s s' l e N x := by
  have ht := h.takes
  have hmd := h.valid.made
  rw [hk] at ht hmd
  obtain ⟨R, C, K, rf, cf, hp⟩ := hmd
  obtain ⟨hrf, hcf, rfl⟩ := Pool.create_inv hp
  obtain ⟨hw, hw', hfl, hfi⟩ := ht
  change s.width = R * C * K at hw
  change s'.width = R / rf * (C / cf) * K at hw'
  change first = false → s.floor = true ∧ R * C ≤ 2 ^ 24 at hfi
  have hK : 0 < K := by
    have := h.pos.1
    rw [hw] at this
    exact Nat.pos_of_mul_pos_left this
  have p0 : ∀ {l : Layer}, l.kind = .maxPool (Pool.std R C K rf cf) → ∀ b, l.kind.parShape b s.width s'.width = none := fun hk b => by rw [hk]; rfl
  have hin : Mat.ofFn N s.width x = imgMat N K R C (fun i => px R C (x i)) := by rw [hw]; exact ofFn_px N K R C x
  have hsel : (∀ i j, i < N → j < s.width → low < x i j) → ∀ i k r c, i < N → k < K → r < R / rf → c < C / cf → ∃ t, t < rf * cf ∧
      winSel low (fun t => px R C (x i) k (r * rf + t / cf) (c * cf + t % cf))
        (fun t => (((r * rf + t / cf) * C + (c * cf + t % cf) : Nat) : Int)) (rf * cf) =
      (px R C (x i) k (r * rf + t / cf) (c * cf + t % cf), (((r * rf + t / cf) * C + (c * cf + t % cf) : Nat) : Int)) ∧
      low < px R C (x i) k (r * rf + t / cf) (c * cf + t % cf) ∧ (r * rf + t / cf) * C + (c * cf + t % cf) < R * C := by
    intro hlo i k r c hi hk' hr hc
    have hb : ∀ t, t < rf * cf → low < px R C (x i) k (r * rf + t / cf) (c * cf + t % cf) := fun t ht => by
      obtain ⟨a, b, -⟩ := idx_decomp ht
      exact hlo i _ hi (by rw [hw]; exact px_lt hk' (win_lt hr a) (win_lt hc b))
    obtain ⟨t, ⟨h1, -, -⟩, h4⟩ := winSel_spec (low := low) (n := rf * cf)
      (f := fun t => px R C (x i) k (r * rf + t / cf) (c * cf + t % cf))
      (idx := fun t => (((r * rf + t / cf) * C + (c * cf + t % cf) : Nat) : Int)) (Nat.mul_pos hrf hcf) hb
    obtain ⟨a, b, -⟩ := idx_decomp h1
    exact ⟨t, h1, h4, hb t h1, idx_lt (win_lt hr a) (win_lt hc b)⟩
  refine ⟨core { l with maxIndex := if l.train = true then imgMat N K (R / rf) (C / cf) (fun i k r c =>
      e.fl (winSel low (fun t => px R C (x i) k (r * rf + t / cf) (c * cf + t % cf))
        (fun t => (((r * rf + t / cf) * C + (c * cf + t % cf) : Nat) : Int)) (rf * cf)).2) else l.maxIndex }, fun i => planes (R / rf) (C / cf) (fun k r c =>
      (winSel low (fun t => px R C (x i) k (r * rf + t / cf) (c * cf + t % cf))
        (fun t => (((r * rf + t / cf) * C + (c * cf + t % cf) : Nat) : Int)) (rf * cf)).1), fun _ => True, fun m f o hm hc hf ho => ?_, fun htr hfirst hlo gr => ?_⟩
  · have hkm : m.kind = _ := (core_kind hc).trans hk
    obtain ⟨g, gi, rfl⟩ := hf
    have hf := maxPoolForward_imgMat (N := N) (K := K) (R := R) (C := C) (rf := rf) (cf := cf) g gi e.fl low m.train
      (fun i => px R C (x i)) ho hm.valid.maxIndex
    refine ⟨?m, ?eq, ?co, trivial⟩
    case eq =>
      rw [hin, hw']
      simp only [forward, hkm, hf, bind_ok', pure_ok]
      rfl
    case co => obtain ⟨_, _, _, _, _, rfl⟩ := core_eq hc; first | rfl | simp only [core, hk]
  · by_cases hfv : l.first = true
    · refine ⟨core { l with maxIndex := if l.train = true then imgMat N K (R / rf) (C / cf) (fun i k r c =>
      e.fl (winSel low (fun t => px R C (x i) k (r * rf + t / cf) (c * cf + t % cf))
        (fun t => (((r * rf + t / cf) * C + (c * cf + t % cf) : Nat) : Int)) (rf * cf)).2) else l.maxIndex }, ⟨0, 0, []⟩, fun b => ⟨0, 0, []⟩, fun m' f gIn hm hc hP hg => ?_⟩
      have hkm : m'.kind = _ := (core_kind hc).trans hk
      have hfm : m'.first = true := (core_first hc).trans hfv
      refine ⟨m', ?_, hc, fun b hb => absurd (by rw [hk]; rfl) hb⟩
      rw [if_pos hfv]
      simp only [backprop, hkm, hfm, maxPoolBackward, if_true, pure_ok, bind_ok']
    have hfv : l.first = false := by simpa using hfv
    obtain ⟨f1, f2⟩ := hfi (hfirst.symm.trans hfv)
    have hlo := hlo f1
    have hch : ∀ r c, ∃ t, r < R / rf → c < C / cf → t < rf * cf ∧ e.fl (winSel low (fun t => px R C (x 0) 0 (r * rf + t / cf) (c * cf + t % cf))
      (fun t => (((r * rf + t / cf) * C + (c * cf + t % cf) : Nat) : Int)) (rf * cf)).2 = (((r * rf + t / cf) * C + (c * cf + t % cf) : Nat) : Int) := by
      intro r c
      by_cases hrc : r < R / rf ∧ c < C / cf
      · obtain ⟨t, h1, h2, -, h3⟩ := hsel hlo 0 0 r c hN hK hrc.1 hrc.2
        refine ⟨t, fun _ _ => ⟨h1, ?_⟩⟩
        rw [h2]
        exact he _ (Int.natCast_nonneg _) (by have := h3.trans_le f2; dsimp only; exact_mod_cast this.le)
      · exact ⟨0, fun h1 h2 => absurd ⟨h1, h2⟩ hrc⟩
    choose w hw2 using hch
    have hgo : Mat.ofFn N s'.width gr = imgMat N K (R / rf) (C / cf) (fun i => px (R / rf) (C / cf) (gr i)) := by
      rw [hw']; exact ofFn_px N K _ _ gr
    rw [hin, hgo]
    refine ⟨core { l with maxIndex := if l.train = true then imgMat N K (R / rf) (C / cf) (fun i k r c =>
      e.fl (winSel low (fun t => px R C (x i) k (r * rf + t / cf) (c * cf + t % cf))
        (fun t => (((r * rf + t / cf) * C + (c * cf + t % cf) : Nat) : Int)) (rf * cf)).2) else l.maxIndex }, ?G, fun b => ⟨0, 0, []⟩, fun m' f gIn hm hc hP hg => ?main⟩
    case main =>
      have hkm : m'.kind = _ := (core_kind hc).trans hk
      have hfm : m'.first = false := (core_first hc).trans hfv
      have hmm : m'.maxIndex = _ := core_maxIndex hc
      refine ⟨m', ?eq, hc, fun b hb => absurd (by rw [hk]; rfl) hb⟩
      case eq =>
        rw [if_neg (by rw [hfv]; decide)]
        simp only [backprop, hkm, hfm, hmm, htr, if_true]
        rw [maxPoolBackward_imgMat f.g hrf hcf _ _ w (fun r c hr hc => hw2 r c hr hc) hg, bind_ok']
        rfl

theorem det_globalMaxPool (h : l.Fits first s s') {R C K : Nat} (hk : l.kind = .globalMaxPool R C K) (he : e.Exact) :
    Det first s s' l e N x := by
  have ht := h.takes
  rw [hk] at ht
  obtain ⟨hw, hw', hfl, hfi⟩ := ht
  have hRC : 0 < R * C := by
    have := h.pos.1
    rw [hw] at this
    exact Nat.pos_of_mul_pos_right this
  have p0 : ∀ {l : Layer}, l.kind = .globalMaxPool R C K → ∀ b, l.kind.parShape b s.width s'.width = none := fun hk b => by rw [hk]; rfl
  have hin : Mat.ofFn N s.width x = imgMat N K R C (fun i => px R C (x i)) := by rw [hw]; exact ofFn_px N K R C x
  have hsel : (∀ i j, i < N → j < s.width → low < x i j) → ∀ i k, i < N → k < K → ∃ t, t < R * C ∧
      winSel low (fun t => px R C (x i) k (t / C) (t % C)) (fun t => ((k * (R * C) + (t / C * C + t % C) : Nat) : Int)) (R * C) =
      (px R C (x i) k (t / C) (t % C), ((k * (R * C) + (t / C * C + t % C) : Nat) : Int)) ∧
      low < px R C (x i) k (t / C) (t % C) ∧ k * (R * C) + (t / C * C + t % C) < R * C * K := by
    intro hlo i k hi hk'
    have hb : ∀ t, t < R * C → low < px R C (x i) k (t / C) (t % C) := fun t ht => by
      obtain ⟨a, b, -⟩ := idx_decomp ht
      exact hlo i _ hi (by rw [hw]; exact px_lt hk' a b)
    obtain ⟨t, ⟨h1, -, -⟩, h4⟩ := winSel_spec (low := low) (n := R * C) (f := fun t => px R C (x i) k (t / C) (t % C))
      (idx := fun t => ((k * (R * C) + (t / C * C + t % C) : Nat) : Int)) hRC hb
    obtain ⟨a, b, -⟩ := idx_decomp h1
    exact ⟨t, h1, h4, hb t h1, px_lt hk' a b⟩
  refine ⟨core { l with maxIndex := if l.train = true then Mat.ofFn N K (fun i k =>
      e.fl (winSel low (fun t => px R C (x i) k (t / C) (t % C)) (fun t => ((k * (R * C) + (t / C * C + t % C) : Nat) : Int)) (R * C)).2)
        else l.maxIndex }, fun i k => (winSel low (fun t => px R C (x i) k (t / C) (t % C)) (fun t => ((k * (R * C) + (t / C * C + t % C) : Nat) : Int)) (R * C)).1, fun _ => True, fun m f o hm hc hf ho => ?_, fun htr hfirst hlo gr => ?_⟩
  · have hkm : m.kind = _ := (core_kind hc).trans hk
    obtain ⟨g, gi, rfl⟩ := hf
    have hf := globalMaxPoolForward_imgMat (N := N) (K := K) (R := R) (C := C) g gi e.fl low m.train
      (fun i => px R C (x i)) ho hm.valid.maxIndex
    refine ⟨?m, ?eq, ?co, trivial⟩
    case eq =>
      rw [hin, hw']
      simp only [forward, hkm, hf, bind_ok', pure_ok]
      rfl
    case co => obtain ⟨_, _, _, _, _, rfl⟩ := core_eq hc; first | rfl | simp only [core, hk]
  · by_cases hfv : l.first = true
    · refine ⟨core { l with maxIndex := if l.train = true then Mat.ofFn N K (fun i k =>
      e.fl (winSel low (fun t => px R C (x i) k (t / C) (t % C)) (fun t => ((k * (R * C) + (t / C * C + t % C) : Nat) : Int)) (R * C)).2)
        else l.maxIndex }, ⟨0, 0, []⟩, fun b => ⟨0, 0, []⟩, fun m' f gIn hm hc hP hg => ?_⟩
      have hkm : m'.kind = _ := (core_kind hc).trans hk
      have hfm : m'.first = true := (core_first hc).trans hfv
      refine ⟨m', ?_, hc, fun b hb => absurd (by rw [hk]; rfl) hb⟩
      rw [if_pos hfv]
      simp only [backprop, hkm, hfm, globalMaxPoolBackward, if_true, pure_ok, bind_ok']
    have hfv : l.first = false := by simpa using hfv
    obtain ⟨f1, f2⟩ := hfi (hfirst.symm.trans hfv)
    have hlo := hlo f1
    have hch : ∀ i k, ∃ t, i < N → k < K → t < R * C ∧ e.fl (winSel low (fun t => px R C (x i) k (t / C) (t % C))
        (fun t => ((k * (R * C) + (t / C * C + t % C) : Nat) : Int)) (R * C)).2 = ((k * (R * C) + (t / C * C + t % C) : Nat) : Int) := by
      intro i k
      by_cases hrc : i < N ∧ k < K
      · obtain ⟨t, h1, h2, -, h3⟩ := hsel hlo i k hrc.1 hrc.2
        refine ⟨t, fun _ _ => ⟨h1, ?_⟩⟩
        rw [h2]
        exact he _ (Int.natCast_nonneg _) (by have := h3.trans_le f2; dsimp only; exact_mod_cast this.le)
      · exact ⟨0, fun h1 h2 => absurd ⟨h1, h2⟩ hrc⟩
    choose w hw2 using hch
    have hidx := Mat.ofFn_congr (r := N) (c := K) (fun i k hi hk => (hw2 i k hi hk).2)
    rw [hin, hw']
    refine ⟨core { l with maxIndex := if l.train = true then Mat.ofFn N K (fun i k =>
      e.fl (winSel low (fun t => px R C (x i) k (t / C) (t % C)) (fun t => ((k * (R * C) + (t / C * C + t % C) : Nat) : Int)) (R * C)).2)
        else l.maxIndex }, ?G, fun b => ⟨0, 0, []⟩, fun m' f gIn hm hc hP hg => ?main⟩
    case main =>
      have hkm : m'.kind = _ := (core_kind hc).trans hk
      have hfm : m'.first = false := (core_first hc).trans hfv
      have hmm : m'.maxIndex = _ := core_maxIndex hc
      refine ⟨m', ?eq, hc, fun b hb => absurd (by rw [hk]; rfl) hb⟩
      case eq =>
        rw [if_neg (by rw [hfv]; decide)]
        simp only [backprop, hkm, hfm, hmm, htr, if_true]
        rw [hidx, globalMaxPoolBackward_imgMat f.g gr w (fun i k hi hk => (hw2 i k hi hk).1) hg, bind_ok']
        rfl

theorem det_randomFlip (h : l.Fits first s s') {R C K : Nat} (hk : l.kind = .randomFlip R C K) : Det first s s' l e N x := by
  have ht := h.takes
  rw [hk] at ht
  obtain ⟨hw, hw', hfl, hfi⟩ := ht
  have hC : 0 < C := by
    have := h.pos.1
    rw [hw] at this
    exact Nat.pos_of_mul_pos_left (Nat.pos_of_mul_pos_right this)
  have hm : ∃ (m : Mat ℝ) (y : Nat → Nat → ℝ), ∀ (g : Nat → ℝ) (o : Mat ℝ), o.WF →
      flipForward g R C K l.train e.rng l.mask (Mat.ofFn N s.width x) o = .ok (m, Mat.ofFn N s.width y) := by
    unfold flipForward
    cases htr : l.train
    · refine ⟨?m, ?y, fun g o ho => ?main⟩
      case main =>
        obtain ⟨d, hd⟩ := Mat.resize_ofFn g h.valid.mask N 1
        simp only [Mat.assign_ofFn g ho, bind_ok', Bool.false_eq_true, if_false, Mat.ofFn_rows, hd, Mat.setQuickBernoulli_ofFn]
        rw [hw, ofFn_px, flipSamples_imgMat hC, bind_ok']
        rfl
    · exact ⟨l.mask, x, fun g o ho => by simp only [Mat.assign_ofFn g ho, bind_ok', if_true, pure_ok]⟩
  obtain ⟨mk, y, hm⟩ := hm
  refine ⟨core { l with mask := mk }, y, fun _ => True, fun m f o hmf hc he ho => ?_, fun htr hfirst _ gr => ?_⟩
  · have hkm : m.kind = _ := (core_kind hc).trans hk
    obtain ⟨g, gi, rfl⟩ := he
    refine ⟨{ m with mask := mk }, ?_, ?co, trivial⟩
    · simp only [forward, hkm, core_train hc, core_mask hc, hm g o ho, bind_ok', pure_ok, hw']
    case co => obtain ⟨_, _, _, _, _, rfl⟩ := core_eq hc; rfl
  · rw [hfi] at hfirst
    refine ⟨core { l with mask := mk }, ⟨0, 0, []⟩, fun b => ⟨0, 0, []⟩, fun m' f gIn hm hc hP hg => ?_⟩
    have hkm : m'.kind = _ := (core_kind hc).trans hk
    have hfm : m'.first = true := (core_first hc).trans hfirst
    refine ⟨m', ?_, hc, fun b hb => absurd (by rw [hk]; rfl) hb⟩
    rw [if_pos hfirst]
    simp only [backprop, hkm, hfm, flipBackward]
    rfl

/-- The forward and the backward pass of every class. -/
theorem Fits.det (h : l.Fits first s s') (he : e.Exact) (hN : 0 < N) (x : Nat → Nat → ℝ) : Det first s s' l e N x := by
  have ht := h.takes
  have hm := h.valid.made
  cases hk : l.kind with
  | dense i n =>
    rw [hk] at ht hm
    exact det_ply h (h.full (by rw [hk]; rfl)) .dense ⟨i, n, hk⟩ trivial (fun b => by rw [hk]; rfl)
  | dot i n =>
    rw [hk] at ht hm
    exact det_ply h (h.full (by rw [hk]; rfl)) .dot ⟨i, n, hk⟩ trivial (fun b => by rw [hk]; cases b <;> rfl)
  | bias => exact det_bias h hk
  | gain => exact det_gain h hk
  | affine => exact det_affine h hk
  | globalBias => exact det_globalBias h hk
  | globalGain => exact det_globalGain h hk
  | globalAffine => exact det_globalAffine h hk
  | channelBias R C K =>
    rw [hk] at ht hm
    exact det_ply h (h.full (by rw [hk]; rfl)) (.channelBias R C K) hk ⟨ht.1, ht.2.1⟩ (fun b => by rw [hk]; cases b <;> rfl)
  | activation a =>
    rw [hk] at ht hm
    exact det_ply h (h.full (by rw [hk]; rfl)) (.act a) hk ⟨ht.1, hm⟩ (fun b => by rw [hk]; cases b <;> rfl)
  | softmax =>
    rw [hk] at ht hm
    exact det_ply h (h.full (by rw [hk]; rfl)) .softmax hk ht (fun b => by rw [hk]; cases b <;> rfl)
  | softmin => exact det_softmin h hk
  | maxPool p => exact det_maxPool h hk he hN
  | globalMaxPool R C K => exact det_globalMaxPool h hk he
  | avgPool p =>
    rw [hk] at ht hm
    obtain ⟨R, C, K, rf, cf, hp⟩ := hm
    obtain ⟨hrf, hcf, rfl⟩ := Pool.create_inv hp
    exact det_ply h (h.full (by rw [hk]; rfl)) (.avgPool R C K rf cf) ⟨_, hp, hk⟩ ⟨ht.1, ht.2.1, hrf, hcf⟩ (fun b => by rw [hk]; cases b <;> rfl)
  | globalAvgPool R C K =>
    rw [hk] at ht hm
    exact det_ply h (h.full (by rw [hk]; rfl)) (.globalAvgPool R C K) hk ⟨ht.1, ht.2.1⟩ (fun b => by rw [hk]; cases b <;> rfl)
  | zeroPad R C K b =>
    rw [hk] at ht hm
    exact det_ply h (h.full (by rw [hk]; rfl)) (.zeroPad R C K b) hk ⟨ht.1, ht.2.1⟩ (fun b => by rw [hk]; cases b <;> rfl)
  | conv p =>
    rw [hk] at ht hm
    obtain ⟨R, C, K, kR, kC, O, rs, cs, hp⟩ := hm
    obtain ⟨h1, h2, rfl⟩ := Conv.create_inv hp
    exact det_ply h (h.full (by rw [hk]; rfl)) (.conv R C K kR kC O rs cs) ⟨_, hp, hk⟩ ⟨ht.1, ht.2.1, h1, h2, ht.2.2.1, ht.2.2.2.1⟩
      (fun b => by rw [hk]; cases b <;> rfl)
  | dropout r => exact det_dropout h hk
  | gaussianDropout r => rw [hk] at ht; exact ht.elim
  | gaussianNoise r => exact det_noise h (.inl hk)
  | uniformNoise r => exact det_noise h (.inr hk)
  | randomFlip R C K => exact det_randomFlip h hk
  | crelu =>
    rw [hk] at ht hm
    exact det_ply h (h.full (by rw [hk]; rfl)) .crelu hk ht (fun b => by rw [hk]; cases b <;> rfl)
  | gated a b =>
    rw [hk] at ht hm
    obtain ⟨s1, s2, b1, b2, h1, h2, rfl, rfl⟩ := hm
    exact det_ply h (h.full (by rw [hk]; rfl)) (.gated b1 b2) hk ⟨ht.1, ⟨_, h1⟩, ⟨_, h2⟩⟩ (fun b => by rw [hk]; cases b <;> rfl)
  | prelu => exact det_prelu h hk
  | pelu => exact det_pelu h hk
  | terelu => exact det_terelu h hk
  | rrelu a₁ a₂ => exact det_rrelu h hk
  | tdBias f =>
    rw [hk] at ht hm
    obtain ⟨⟨n, h1⟩, h2, h3⟩ := ht
    exact det_ply h (h.full (by rw [hk]; rfl)) (.tdBias n f) hk ⟨h1, h2⟩ (fun b => by rw [hk]; cases b <;> rfl)
  | tdDot f n =>
    rw [hk] at ht hm
    obtain ⟨⟨n, h1, h2⟩, h3⟩ := ht
    exact det_ply h (h.full (by rw [hk]; rfl)) (.tdDot n f _) hk ⟨h1, h2⟩ (fun b => by rw [hk]; cases b <;> rfl)
  | tdDense f n =>
    rw [hk] at ht hm
    obtain ⟨⟨n, h1, h2⟩, h3⟩ := ht
    exact det_ply h (h.full (by rw [hk]; rfl)) (.tdDense n f _) hk ⟨h1, h2⟩ (fun b => by rw [hk]; cases b <;> rfl)
  | simpleRNN f u => rw [hk] at ht; exact ht.elim
  | simplestRNN f => rw [hk] at ht; exact ht.elim

end Layer

end BeeDNN
