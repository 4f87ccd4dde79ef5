import Verif.Lemmas.FitsKinds

/-! # Sizes: pooling layers, random flip and the layers of `Ply` -/

namespace BeeDNN
open Finset HasWF

theorem planes_lt {K R C j : Nat} (h : j < R * C * K) : j / (R * C) < K ∧ j % (R * C) / C < R ∧ j % (R * C) % C < C := by
  rw [Nat.mul_comm] at h
  obtain ⟨h1, h2, -⟩ := idx_decomp h
  obtain ⟨h3, h4, -⟩ := idx_decomp h2
  exact ⟨h1, h3, h4⟩

namespace Layer

variable {first : Bool} {s s' : Form} {l l' : Layer} {e : Env} {N : Nat} {x x' : Nat → Nat → ℝ} {o : Mat ℝ}

theorem works_maxPool (h : l.Fits first s s') {p : Pool} (hk : l.kind = .maxPool p) (he : e.Exact) (hN : 0 < N) (ho : o.WF) :
    Works first s s' l e N x o := by
  have ht := h.takes
  have hmd := h.valid.made
  rw [hk] at ht hmd
  obtain ⟨R, C, K, rf, cf, hp⟩ := hmd
  obtain ⟨hrf, hcf, rfl⟩ := Pool.create_inv hp
  obtain ⟨hw, hw', hfl, hfi⟩ := ht
  change s.width = R * C * K at hw
  change s'.width = R / rf * (C / cf) * K at hw'
  change first = false → s.floor = true ∧ R * C ≤ 2 ^ 24 at hfi
  have hK : 0 < K := by
    have := h.pos.1
    rw [hw] at this
    exact Nat.pos_of_mul_pos_left this
  have p0 : ∀ {l : Layer}, l.kind = .maxPool (Pool.std R C K rf cf) → ∀ b, l.kind.parShape b s.width s'.width = none := fun hk b => by rw [hk]; rfl
  have hin : Mat.ofFn N s.width x = imgMat N K R C (fun i => px R C (x i)) := by rw [hw]; exact ofFn_px N K R C x
  have hf := maxPoolForward_imgMat (N := N) (K := K) (R := R) (C := C) (rf := rf) (cf := cf) e.g e.gi e.fl low l.train
      (fun i => px R C (x i)) ho h.valid.maxIndex
  have hsel : (∀ i j, i < N → j < s.width → low < x i j) → ∀ i k r c, i < N → k < K → r < R / rf → c < C / cf → ∃ t, t < rf * cf ∧
      winSel low (fun t => px R C (x i) k (r * rf + t / cf) (c * cf + t % cf))
        (fun t => (((r * rf + t / cf) * C + (c * cf + t % cf) : Nat) : Int)) (rf * cf) =
      (px R C (x i) k (r * rf + t / cf) (c * cf + t % cf), (((r * rf + t / cf) * C + (c * cf + t % cf) : Nat) : Int)) ∧
      low < px R C (x i) k (r * rf + t / cf) (c * cf + t % cf) ∧ (r * rf + t / cf) * C + (c * cf + t % cf) < R * C := by
    intro hlo i k r c hi hk' hr hc
    have hb : ∀ t, t < rf * cf → low < px R C (x i) k (r * rf + t / cf) (c * cf + t % cf) := fun t ht => by
      obtain ⟨a, b, -⟩ := idx_decomp ht
      exact hlo i _ hi (by rw [hw]; exact px_lt hk' (win_lt hr a) (win_lt hc b))
    obtain ⟨t, ⟨h1, -, -⟩, h4⟩ := winSel_spec (low := low) (n := rf * cf)
      (f := fun t => px R C (x i) k (r * rf + t / cf) (c * cf + t % cf))
      (idx := fun t => (((r * rf + t / cf) * C + (c * cf + t % cf) : Nat) : Int)) (Nat.mul_pos hrf hcf) hb
    obtain ⟨a, b, -⟩ := idx_decomp h1
    exact ⟨t, h1, h4, hb t h1, idx_lt (win_lt hr a) (win_lt hc b)⟩
  refine h.passed ho (l' := { l with maxIndex := if l.train = true then imgMat N K (R / rf) (C / cf) (fun i k r c =>
      e.fl (winSel low (fun t => px R C (x i) k (r * rf + t / cf) (c * cf + t % cf))
        (fun t => (((r * rf + t / cf) * C + (c * cf + t % cf) : Nat) : Int)) (rf * cf)).2) else l.maxIndex })
      (x' := fun i => planes (R / rf) (C / cf) (fun k r c =>
      (winSel low (fun t => px R C (x i) k (r * rf + t / cf) (c * cf + t % cf))
        (fun t => (((r * rf + t / cf) * C + (c * cf + t % cf) : Nat) : Int)) (rf * cf)).1)) ?_ (full_none (p0 hk))
      (by rw [hk]; intro h0; cases h0) ?_ ?_
  · rw [hin, hw']
    simp only [forward, hk, hf, bind_ok', pure_ok]
    rfl
  · intro h1 h2 i j hi hj
    rw [hw'] at hj
    obtain ⟨a, b, c⟩ := planes_lt hj
    obtain ⟨t, -, h3, h4, -⟩ := hsel (h2 (hfl h1)) i _ _ _ hi a b c
    simp only [planes, h3]
    exact h4
  · intro htr hfirst hlo e' gr gIn hg
    change l.first = first at hfirst
    cases hfv : l.first
    · obtain ⟨f1, f2⟩ := hfi (hfirst.symm.trans hfv)
      have hlo := hlo f1
      have hch : ∀ r c, ∃ t, r < R / rf → c < C / cf → t < rf * cf ∧ e.fl (winSel low (fun t => px R C (x 0) 0 (r * rf + t / cf) (c * cf + t % cf))
        (fun t => (((r * rf + t / cf) * C + (c * cf + t % cf) : Nat) : Int)) (rf * cf)).2 = (((r * rf + t / cf) * C + (c * cf + t % cf) : Nat) : Int) := by
        intro r c
        by_cases hrc : r < R / rf ∧ c < C / cf
        · obtain ⟨t, h1, h2, -, h3⟩ := hsel hlo 0 0 r c hN hK hrc.1 hrc.2
          refine ⟨t, fun _ _ => ⟨h1, ?_⟩⟩
          rw [h2]
          exact he _ (Int.natCast_nonneg _) (by have := h3.trans_le f2; dsimp only; exact_mod_cast this.le)
        · exact ⟨0, fun h1 h2 => absurd ⟨h1, h2⟩ hrc⟩
      choose w hw2 using hch
      have hgo : Mat.ofFn N s'.width gr = imgMat N K (R / rf) (C / cf) (fun i => px (R / rf) (C / cf) (gr i)) := by
        rw [hw']; exact ofFn_px N K _ _ gr
      rw [hin, hgo]
      refine ⟨?l, ?gi, ?eq, ?a, ?b, ?c⟩
      case eq =>
        simp only [backprop, hk, htr, if_true, hfv]
        rw [maxPoolBackward_imgMat e'.g hrf hcf _ _ w (fun r c hr hc => hw2 r c hr hc) hg, bind_ok', ← hk]
        rfl
      case a =>
        intro _
        rw [hw]
        exact ⟨imgMat_WF _, rfl, rfl⟩
      case b => exact full_none (p0 hk)
      case c => exact graded_none (p0 hk)
    · refine ⟨?l2, gIn, ?eq2, (fun h0 => by cases h0), ?b2, ?c2⟩
      case eq2 =>
        simp only [backprop, hk, hfv, maxPoolBackward, if_true, pure_ok, bind_ok']
        rw [← hk]
      case b2 => exact full_none (p0 hk)
      case c2 => exact graded_none (p0 hk)

theorem works_globalMaxPool (h : l.Fits first s s') {R C K : Nat} (hk : l.kind = .globalMaxPool R C K) (he : e.Exact) (ho : o.WF) :
    Works first s s' l e N x o := by
  have ht := h.takes
  rw [hk] at ht
  obtain ⟨hw, hw', hfl, hfi⟩ := ht
  have hRC : 0 < R * C := by
    have := h.pos.1
    rw [hw] at this
    exact Nat.pos_of_mul_pos_right this
  have p0 : ∀ {l : Layer}, l.kind = .globalMaxPool R C K → ∀ b, l.kind.parShape b s.width s'.width = none := fun hk b => by rw [hk]; rfl
  have hin : Mat.ofFn N s.width x = imgMat N K R C (fun i => px R C (x i)) := by rw [hw]; exact ofFn_px N K R C x
  have hf := globalMaxPoolForward_imgMat (N := N) (K := K) (R := R) (C := C) e.g e.gi e.fl low l.train
      (fun i => px R C (x i)) ho h.valid.maxIndex
  have hsel : (∀ i j, i < N → j < s.width → low < x i j) → ∀ i k, i < N → k < K → ∃ t, t < R * C ∧
      winSel low (fun t => px R C (x i) k (t / C) (t % C)) (fun t => ((k * (R * C) + (t / C * C + t % C) : Nat) : Int)) (R * C) =
      (px R C (x i) k (t / C) (t % C), ((k * (R * C) + (t / C * C + t % C) : Nat) : Int)) ∧
      low < px R C (x i) k (t / C) (t % C) ∧ k * (R * C) + (t / C * C + t % C) < R * C * K := by
    intro hlo i k hi hk'
    have hb : ∀ t, t < R * C → low < px R C (x i) k (t / C) (t % C) := fun t ht => by
      obtain ⟨a, b, -⟩ := idx_decomp ht
      exact hlo i _ hi (by rw [hw]; exact px_lt hk' a b)
    obtain ⟨t, ⟨h1, -, -⟩, h4⟩ := winSel_spec (low := low) (n := R * C) (f := fun t => px R C (x i) k (t / C) (t % C))
      (idx := fun t => ((k * (R * C) + (t / C * C + t % C) : Nat) : Int)) hRC hb
    obtain ⟨a, b, -⟩ := idx_decomp h1
    exact ⟨t, h1, h4, hb t h1, px_lt hk' a b⟩
  refine h.passed ho (l' := { l with maxIndex := if l.train = true then Mat.ofFn N K (fun i k =>
      e.fl (winSel low (fun t => px R C (x i) k (t / C) (t % C)) (fun t => ((k * (R * C) + (t / C * C + t % C) : Nat) : Int)) (R * C)).2)
        else l.maxIndex })
      (x' := fun i k => (winSel low (fun t => px R C (x i) k (t / C) (t % C)) (fun t => ((k * (R * C) + (t / C * C + t % C) : Nat) : Int)) (R * C)).1)
      ?_ (full_none (p0 hk)) (by rw [hk]; intro h0; cases h0) ?_ ?_
  · rw [hin, hw']
    simp only [forward, hk, hf, bind_ok', pure_ok]
  · intro h1 h2 i j hi hj
    rw [hw'] at hj
    obtain ⟨t, -, h3, h4, -⟩ := hsel (h2 (hfl h1)) i _ hi hj
    simp only [h3]
    exact h4
  · intro htr hfirst hlo e' gr gIn hg
    change l.first = first at hfirst
    cases hfv : l.first
    · obtain ⟨f1, f2⟩ := hfi (hfirst.symm.trans hfv)
      have hlo := hlo f1
      have hch : ∀ i k, ∃ t, i < N → k < K → t < R * C ∧ e.fl (winSel low (fun t => px R C (x i) k (t / C) (t % C))
          (fun t => ((k * (R * C) + (t / C * C + t % C) : Nat) : Int)) (R * C)).2 = ((k * (R * C) + (t / C * C + t % C) : Nat) : Int) := by
        intro i k
        by_cases hrc : i < N ∧ k < K
        · obtain ⟨t, h1, h2, -, h3⟩ := hsel hlo i k hrc.1 hrc.2
          refine ⟨t, fun _ _ => ⟨h1, ?_⟩⟩
          rw [h2]
          exact he _ (Int.natCast_nonneg _) (by have := h3.trans_le f2; dsimp only; exact_mod_cast this.le)
        · exact ⟨0, fun h1 h2 => absurd ⟨h1, h2⟩ hrc⟩
      choose w hw2 using hch
      have hidx := Mat.ofFn_congr (r := N) (c := K) (fun i k hi hk => (hw2 i k hi hk).2)
      rw [hin, hw']
      refine ⟨?l, ?gi, ?eq, ?a, ?b, ?c⟩
      case eq =>
        simp only [backprop, hk, htr, if_true, hfv]
        rw [hidx, globalMaxPoolBackward_imgMat e'.g gr w (fun i k hi hk => (hw2 i k hi hk).1) hg, bind_ok', ← hidx, ← hk]
        rfl
      case a =>
        intro _
        rw [hw]
        exact ⟨imgMat_WF _, rfl, rfl⟩
      case b => exact full_none (p0 hk)
      case c => exact graded_none (p0 hk)
    · refine ⟨?l2, gIn, ?eq2, (fun h0 => by cases h0), ?b2, ?c2⟩
      case eq2 =>
        simp only [backprop, hk, hfv, globalMaxPoolBackward, if_true, pure_ok, bind_ok']
        rw [← hk]
      case b2 => exact full_none (p0 hk)
      case c2 => exact graded_none (p0 hk)

theorem works_randomFlip (h : l.Fits first s s') {R C K : Nat} (hk : l.kind = .randomFlip R C K) (ho : o.WF) :
    Works first s s' l e N x o := by
  have ht := h.takes
  rw [hk] at ht
  obtain ⟨hw, hw', hfl, hfi⟩ := ht
  have hC : 0 < C := by
    have := h.pos.1
    rw [hw] at this
    exact Nat.pos_of_mul_pos_left (Nat.pos_of_mul_pos_right this)
  have p0 : ∀ {l : Layer}, l.kind = .randomFlip R C K → ∀ b, l.kind.parShape b s.width s'.width = none := fun hk b => by rw [hk]; rfl
  have hm : ∃ (m : Mat ℝ) (y : Nat → Nat → ℝ), flipForward e.g R C K l.train e.rng l.mask (Mat.ofFn N s.width x) o = .ok (m, Mat.ofFn N s.width y) := by
    unfold flipForward
    cases htr : l.train
    · obtain ⟨d, hd⟩ := Mat.resize_ofFn e.g h.valid.mask N 1
      simp only [Mat.assign_ofFn e.g ho, bind_ok', Bool.false_eq_true, if_false, Mat.ofFn_rows, hd, Mat.setQuickBernoulli_ofFn]
      rw [hw, ofFn_px, flipSamples_imgMat hC, bind_ok']
      exact ⟨_, _, rfl⟩
    · exact ⟨l.mask, x, by simp only [Mat.assign_ofFn e.g ho, bind_ok', if_true, pure_ok]⟩
  obtain ⟨m, y, hm⟩ := hm
  refine h.passed ho (l' := { l with mask := m }) (x' := y) ?_ (full_none (p0 hk)) (by rw [hk]; intro h0; cases h0) (by rw [hfl]; intro h0; cases h0) ?_
  · simp only [forward, hk, hm, bind_ok', pure_ok, hw']
  · intro htr hfirst _ e' gr gIn hg
    rw [hfi] at hfirst
    change l.first = true at hfirst
    refine ⟨{ l with mask := m }, gIn, ?_, fun h0 => ?_, full_none (p0 hk), graded_none (p0 hk)⟩
    · simp only [backprop, hk, hfirst, flipBackward]
      rfl
    · change l.first = false at h0
      rw [hfirst] at h0
      cases h0

end Layer

end BeeDNN
