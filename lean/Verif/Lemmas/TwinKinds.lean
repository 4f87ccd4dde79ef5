import Verif.Spec.Reproducible
import Verif.Lemmas.FitsAll

/-! # Two runs: the classes of layers -/

namespace BeeDNN
open Finset HasWF

theorem Env.Twin.refl (e : Env) : e.Twin e := ⟨_, _, rfl⟩

theorem Env.Twin.exact {e f : Env} (h : e.Twin f) (he : e.Exact) : f.Exact := by
  obtain ⟨g, gi, rfl⟩ := h
  exact he

namespace Layer

theorem core_eq {l m : Layer} (h : m.core = l.core) :
    ∃ gw gb n a t, m = { l with gradWeight := gw, gradBias := gb, samples := n, im2colT := a, tempImg := t } := by
  refine ⟨m.gradWeight, m.gradBias, m.samples, m.im2colT, m.tempImg, ?_⟩
  obtain ⟨⟩ := l
  obtain ⟨⟩ := m
  simp only [core, mk.injEq] at h
  simp [h]

theorem core_grads (l : Layer) (gw gb : Mat ℝ) (n : Nat) (a t : Mat ℝ) :
    core { l with gradWeight := gw, gradBias := gb, samples := n, im2colT := a, tempImg := t } = l.core := rfl

theorem Scratch.core {l l' : Layer} (h : l.Scratch l') : l'.core = l.core := by
  obtain ⟨_, _, _, rfl⟩ := h
  rfl

variable {first : Bool} {s s' : Form} {l l' : Layer} {e : Env} {N : Nat} {x x' : Nat → Nat → ℝ} {o : Mat ℝ}

/-- What both passes compute is determined by the core of the layer, the input and the draws: `y` is the output, `c` the core
of the layer after the forward pass, and `P` what the forward pass prepares for the backward pass. -/
def Det (first : Bool) (s s' : Form) (l : Layer) (e : Env) (N : Nat) (x : Nat → Nat → ℝ) : Prop :=
  ∃ (c : Layer) (y : Nat → Nat → ℝ) (P : Layer → Prop),
    (∀ (m : Layer) (f : Env) (o : Mat ℝ), m.Fits first s s' → m.core = l.core → e.Twin f → o.WF →
      ∃ m', m.forward f (Mat.ofFn N s.width x) o = .ok (m', Mat.ofFn N s'.width y) ∧ m'.core = c ∧ P m') ∧
    (l.train = true → l.first = first → (s.floor = true → ∀ i j, i < N → j < s.width → low < x i j) → ∀ gr : Nat → Nat → ℝ,
      ∃ (c₂ : Layer) (G : Mat ℝ) (D : Bool → Mat ℝ), ∀ (m' : Layer) (f : Env) (gIn : Mat ℝ), m'.Fits first s s' → m'.core = c → P m' → gIn.WF →
        ∃ m₂, m'.backprop f (Mat.ofFn N s.width x) (Mat.ofFn N s'.width gr) gIn = .ok (m₂, if l.first = true then gIn else G) ∧
          m₂.core = c₂ ∧ ∀ b, l.kind.parShape b s.width s'.width ≠ none → m₂.grad b = D b)

theorem initCompute_twin (draw : Nat → ℝ) {n : String} (hs : n ∈ initNames) (i o : Nat) :
    ∃ x, ∀ (g : Nat → ℝ) (m : Mat ℝ), m.WF → initCompute g draw n m i o = .ok (Mat.ofFn i o x) := by
  unfold initCompute
  simp only [initNames, List.mem_cons, List.not_mem_nil, or_false] at hs
  iterate 10
    split
    · first
        | exact ⟨_, fun g m hm => initUniform_ofFn g draw _ hm i o⟩
        | exact ⟨_, fun g m hm => initNormal_ofFn g draw _ hm i o⟩
        | exact ⟨_, fun g m hm => setRandom_ofFn g hm i o draw⟩
        | exact ⟨_, fun g m hm => Mat.setConstantRC_ofFn g hm i o _⟩
  tauto

theorem core_kind {l m : Layer} (h : m.core = l.core) : m.kind = l.kind := by have := congrArg kind h; exact this
theorem core_weight {l m : Layer} (h : m.core = l.core) : m.weight = l.weight := by have := congrArg weight h; exact this
theorem core_bias {l m : Layer} (h : m.core = l.core) : m.bias = l.bias := by have := congrArg bias h; exact this
theorem core_first {l m : Layer} (h : m.core = l.core) : m.first = l.first := by have := congrArg Layer.first h; exact this
theorem core_train {l m : Layer} (h : m.core = l.core) : m.train = l.train := by have := congrArg train h; exact this
theorem core_mask {l m : Layer} (h : m.core = l.core) : m.mask = l.mask := by have := congrArg mask h; exact this

theorem det_bias (h : l.Fits first s s') (hk : l.kind = .bias) : Det first s s' l e N x := by
  have ht := h.takes
  rw [hk] at ht
  obtain ⟨hw, hfl⟩ := ht
  have hC := h.pos.1
  have p1 : l.kind.parShape true s.width s'.width = some (1, s.width) := by rw [hk]; rfl
  have hb : ∃ b, ∀ (m : Layer) (f : Env), m.Fits first s s' → m.core = l.core → e.Twin f → lazyBias f m s.width = .ok (Mat.ofFn 1 s.width b) := by
    by_cases h0 : l.bias.size = 0
    · obtain ⟨b, hb⟩ := initCompute_twin e.draw (h.inits hk h0) 1 s.width
      refine ⟨b, fun m f hm hc hf => ?_⟩
      obtain ⟨gw, gb, n, a, t, rfl⟩ := core_eq hc
      obtain ⟨g, gi, rfl⟩ := hf
      unfold lazyBias
      rw [if_pos h0]
      exact hb _ _ hm.valid.bias
    · rcases h.params with hf | hf
      · obtain ⟨b, hb⟩ := (hf true _ p1).exists_ofFn
        refine ⟨b, fun m f hm hc hf => ?_⟩
        obtain ⟨gw, gb, n, a, t, rfl⟩ := core_eq hc
        unfold lazyBias
        rw [if_neg h0]
        exact congrArg _ hb
      · exact absurd (hf.2 true) h0
  obtain ⟨b, hb⟩ := hb
  refine ⟨core { l with bias := Mat.ofFn 1 s.width b }, fun i j => x i j + b 0 j, fun _ => True, fun m f o hm hc he ho => ?_, fun _ _ _ gr => ?_⟩
  · have hb := hb m f hm hc he
    have hkm : m.kind = _ := (core_kind hc).trans hk
    refine ⟨?m, ?eq, ?co, trivial⟩
    case eq =>
      simp only [forward, hkm, Mat.ofFn_cols, hb, bind_ok', biasForward_ofFn f.g _ N _ hC x b ho, pure_ok, hw]
      rfl
    case co => obtain ⟨_, _, _, _, _, rfl⟩ := core_eq hc; first | rfl | simp only [core, hk]
  · rw [hw]
    refine ⟨core { l with bias := Mat.ofFn 1 s.width b }, ?G, fun b => bif b then ?B else ⟨0, 0, []⟩, fun m' f gIn hm hc hP hg => ?main⟩
    case main =>
      have hkm : m'.kind = _ := (core_kind hc).trans hk
      have hwm : m'.weight = _ := core_weight hc
      have hbm : m'.bias = _ := core_bias hc
      rw [show l.first = m'.first from (core_first hc).symm]
      refine ⟨?m2, ?eq, ?co, ?gr⟩
      case eq =>
        simp only [backprop, hkm]
        rw [biasBackward_ofFn f.g _ N _ gr (by exact hm.valid.gradBias) (by exact hg), bind_ok']
        rfl
      case co => obtain ⟨_, _, _, _, _, rfl⟩ := core_eq hc; first | rfl | simp only [core, hk]
      case gr =>
        intro b hb
        cases b
        · exact absurd (by rw [hk]; rfl) hb
        · rfl

theorem det_gain (h : l.Fits first s s') (hk : l.kind = .gain) : Det first s s' l e N x := by
  have ht := h.takes
  rw [hk] at ht
  obtain ⟨hw, hfl⟩ := ht
  have hC := h.pos.1
  have p1 : l.kind.parShape false s.width s'.width = some (1, s.width) := by rw [hk]; rfl
  have hb : ∃ (w : Nat → Nat → ℝ) (y : Nat → Nat → ℝ), ∀ (g : Nat → ℝ) (o : Mat ℝ), o.WF →
      gainForward g l.weight (Mat.ofFn N s.width x) o = .ok (Mat.ofFn 1 s.width w, Mat.ofFn N s.width y) := by
    rcases h.params with hf | hf
    · obtain ⟨f, hf⟩ := (hf false _ p1).exists_ofFn
      have hf : l.weight = _ := hf
      rw [hf]
      exact ⟨_, _, fun g o ho => gainForward_ofFn g N _ hC x f ho⟩
    · exact ⟨_, _, fun g o ho => gainForward_first g N _ x h.valid.weight (hf.2 false) ho⟩
  obtain ⟨w, y, hb⟩ := hb
  refine ⟨core { l with weight := Mat.ofFn 1 s.width w }, y, fun _ => True, fun m f o hm hc he ho => ?_, fun _ _ _ gr => ?_⟩
  · have hkm : m.kind = _ := (core_kind hc).trans hk
    have hwm : m.weight = _ := core_weight hc
    refine ⟨?m, ?eq, ?co, trivial⟩
    case eq =>
      simp only [forward, hkm, hwm, hb f.g o ho, bind_ok', pure_ok, hw]
      rfl
    case co => obtain ⟨_, _, _, _, _, rfl⟩ := core_eq hc; first | rfl | simp only [core, hk]
  · rw [hw]
    refine ⟨core { l with weight := Mat.ofFn 1 s.width w }, ?G, fun b => bif b then ⟨0, 0, []⟩ else ?W, fun m' f gIn hm hc hP hg => ?main⟩
    case main =>
      have hkm : m'.kind = _ := (core_kind hc).trans hk
      have hwm : m'.weight = _ := core_weight hc
      have hbm : m'.bias = _ := core_bias hc
      rw [show l.first = m'.first from (core_first hc).symm]
      refine ⟨?m2, ?eq, ?co, ?gr⟩
      case eq =>
        simp only [backprop, hkm]
        rw [hwm, gainBackward_ofFn f.g _ N _ x w gr (by exact hm.valid.gradWeight) (by exact hg), bind_ok']
        rfl
      case co => obtain ⟨_, _, _, _, _, rfl⟩ := core_eq hc; first | rfl | simp only [core, hk]
      case gr =>
        intro b hb
        cases b
        · rfl
        · exact absurd (by rw [hk]; rfl) hb

theorem det_affine (h : l.Fits first s s') (hk : l.kind = .affine) : Det first s s' l e N x := by
  have ht := h.takes
  rw [hk] at ht
  obtain ⟨hw, hfl⟩ := ht
  have hC := h.pos.1
  have p0 : l.kind.parShape false s.width s'.width = some (1, s.width) := by rw [hk]; rfl
  have p1 : l.kind.parShape true s.width s'.width = some (1, s.width) := by rw [hk]; rfl
  have hb : ∃ (w b y : Nat → Nat → ℝ), ∀ (g : Nat → ℝ) (o : Mat ℝ), o.WF → affineForward g l.weight l.bias (Mat.ofFn N s.width x) o =
      .ok (Mat.ofFn 1 s.width w, Mat.ofFn 1 s.width b, Mat.ofFn N s.width y) := by
    rcases h.params with hf | hf
    · obtain ⟨f, hf1⟩ := (hf false _ p0).exists_ofFn
      obtain ⟨f', hf2⟩ := (hf true _ p1).exists_ofFn
      have hf1 : l.weight = _ := hf1
      have hf2 : l.bias = _ := hf2
      rw [hf1, hf2]
      exact ⟨_, _, _, fun g o ho => affineForward_ofFn g N _ hC x f f' ho⟩
    · exact ⟨_, _, _, fun g o ho => affineForward_first g N _ x h.valid.weight h.valid.bias (hf.2 true) ho⟩
  obtain ⟨w, b, y, hb⟩ := hb
  refine ⟨core { l with weight := Mat.ofFn 1 s.width w, bias := Mat.ofFn 1 s.width b }, y, fun _ => True, fun m f o hm hc he ho => ?_, fun _ _ _ gr => ?_⟩
  · have hkm : m.kind = _ := (core_kind hc).trans hk
    have hwm : m.weight = _ := core_weight hc
    have hbm : m.bias = _ := core_bias hc
    refine ⟨?m, ?eq, ?co, trivial⟩
    case eq =>
      simp only [forward, hkm, hwm, hbm, hb f.g o ho, bind_ok', pure_ok, hw]
      rfl
    case co => obtain ⟨_, _, _, _, _, rfl⟩ := core_eq hc; first | rfl | simp only [core, hk]
  · rw [hw]
    refine ⟨core { l with weight := Mat.ofFn 1 s.width w, bias := Mat.ofFn 1 s.width b }, ?G, fun b => bif b then ?B else ?W, fun m' f gIn hm hc hP hg => ?main⟩
    case main =>
      have hkm : m'.kind = _ := (core_kind hc).trans hk
      have hwm : m'.weight = _ := core_weight hc
      have hbm : m'.bias = _ := core_bias hc
      rw [show l.first = m'.first from (core_first hc).symm]
      refine ⟨?m2, ?eq, ?co, ?gr⟩
      case eq =>
        simp only [backprop, hkm]
        rw [hwm, affineBackward_ofFn f.g _ N _ x w gr (by exact hm.valid.gradWeight) (by exact hm.valid.gradBias) (by exact hg), bind_ok']
        rfl
      case co => obtain ⟨_, _, _, _, _, rfl⟩ := core_eq hc; first | rfl | simp only [core, hk]
      case gr =>
        intro b hb
        cases b
        · rfl
        · rfl

theorem core_full (h : l.Full s s') (hc : l'.core = l.core) : l'.Full s s' := by
  intro b rc hb
  rw [core_kind hc] at hb
  have := h b rc hb
  cases b
  · show l'.weight.Shape _ _
    rw [core_weight hc]; exact this
  · show l'.bias.Shape _ _
    rw [core_bias hc]; exact this

theorem det_globalBias (h : l.Fits first s s') (hk : l.kind = .globalBias) : Det first s s' l e N x := by
  have ht := h.takes
  rw [hk] at ht
  obtain ⟨hw, hfl⟩ := ht
  have hfull := h.full (by rw [hk]; rfl)
  obtain ⟨b, hb⟩ := (hfull true (1, 1) (by rw [hk]; rfl)).exists_ofFn
  have hB : l.bias = _ := hb
  refine ⟨core l, fun i j => x i j + b 0 0, fun _ => True, fun m f o hm hc he ho => ?_, fun _ _ _ gr => ?_⟩
  · have hkm : m.kind = _ := (core_kind hc).trans hk
    have hwm : m.weight = _ := core_weight hc
    have hbm : m.bias = _ := core_bias hc
    refine ⟨?m, ?eq, ?co, trivial⟩
    case eq =>
      simp only [forward, hkm, hbm, hB, globalBiasForward_ofFn f.g N _ x b ho, bind_ok', pure_ok, hw]
      rfl
    case co => exact hc
  · rw [hw]
    refine ⟨core l, ?G, fun b => bif b then ?B else ⟨0, 0, []⟩, fun m' f gIn hm hc hP hg => ?main⟩
    case main =>
      have hkm : m'.kind = _ := (core_kind hc).trans hk
      have hwm : m'.weight = _ := core_weight hc
      have hbm : m'.bias = _ := core_bias hc
      rw [show l.first = m'.first from (core_first hc).symm]
      have hgr := hm.grads (by rw [hkm]; rfl) (core_full hfull hc)
      obtain ⟨b', hb'⟩ := (hgr true (1, 1) (by rw [hkm]; rfl)).exists_ofFn
      have hb' : m'.gradBias = _ := hb'
      refine ⟨?m2, ?eq, ?co, ?gr⟩
      case eq =>
        simp only [backprop, hkm]
        rw [globalBiasBackward_ofFn f.g _ N _ gr b' (by exact hb') (by exact hg), bind_ok']
        rfl
      case co => obtain ⟨_, _, _, _, _, rfl⟩ := core_eq hc; first | rfl | simp only [core, hk]
      case gr =>
        intro b hb
        cases b
        · exact absurd (by rw [hk]; rfl) hb
        · rfl

theorem det_globalGain (h : l.Fits first s s') (hk : l.kind = .globalGain) : Det first s s' l e N x := by
  have ht := h.takes
  rw [hk] at ht
  obtain ⟨hw, hfl⟩ := ht
  have hfull := h.full (by rw [hk]; rfl)
  obtain ⟨w, hW⟩ := (hfull false (1, 1) (by rw [hk]; rfl)).exists_ofFn
  have hW : l.weight = _ := hW
  refine ⟨core l, fun i j => x i j * w 0 0, fun _ => True, fun m f o hm hc he ho => ?_, fun _ _ _ gr => ?_⟩
  · have hkm : m.kind = _ := (core_kind hc).trans hk
    have hwm : m.weight = _ := core_weight hc
    have hbm : m.bias = _ := core_bias hc
    refine ⟨?m, ?eq, ?co, trivial⟩
    case eq =>
      simp only [forward, hkm, hwm, hW, globalGainForward_ofFn f.g N _ x w ho, bind_ok', pure_ok, hw]
      rfl
    case co => exact hc
  · rw [hw]
    refine ⟨core l, ?G, fun b => bif b then ⟨0, 0, []⟩ else ?W, fun m' f gIn hm hc hP hg => ?main⟩
    case main =>
      have hkm : m'.kind = _ := (core_kind hc).trans hk
      have hwm : m'.weight = _ := core_weight hc
      have hbm : m'.bias = _ := core_bias hc
      rw [show l.first = m'.first from (core_first hc).symm]
      have hgr := hm.grads (by rw [hkm]; rfl) (core_full hfull hc)
      obtain ⟨w', hw'⟩ := (hgr false (1, 1) (by rw [hkm]; rfl)).exists_ofFn
      have hw' : m'.gradWeight = _ := hw'
      refine ⟨?m2, ?eq, ?co, ?gr⟩
      case eq =>
        simp only [backprop, hkm]
        rw [hwm, hW, globalGainBackward_ofFn f.g _ N _ x w gr w' (by exact hw') (by exact hg), bind_ok']
        rfl
      case co => obtain ⟨_, _, _, _, _, rfl⟩ := core_eq hc; first | rfl | simp only [core, hk]
      case gr =>
        intro b hb
        cases b
        · rfl
        · exact absurd (by rw [hk]; rfl) hb

theorem det_globalAffine (h : l.Fits first s s') (hk : l.kind = .globalAffine) : Det first s s' l e N x := by
  have ht := h.takes
  rw [hk] at ht
  obtain ⟨hw, hfl⟩ := ht
  have hfull := h.full (by rw [hk]; rfl)
  obtain ⟨w, hW⟩ := (hfull false (1, 1) (by rw [hk]; rfl)).exists_ofFn
  have hW : l.weight = _ := hW
  obtain ⟨b, hb⟩ := (hfull true (1, 1) (by rw [hk]; rfl)).exists_ofFn
  have hB : l.bias = _ := hb
  refine ⟨core l, fun i j => x i j * w 0 0 + b 0 0, fun _ => True, fun m f o hm hc he ho => ?_, fun _ _ _ gr => ?_⟩
  · have hkm : m.kind = _ := (core_kind hc).trans hk
    have hwm : m.weight = _ := core_weight hc
    have hbm : m.bias = _ := core_bias hc
    refine ⟨?m, ?eq, ?co, trivial⟩
    case eq =>
      simp only [forward, hkm, hwm, hW, hbm, hB, globalAffineForward_ofFn f.g N _ x w b ho, bind_ok', pure_ok, hw]
      rfl
    case co => exact hc
  · rw [hw]
    refine ⟨core l, ?G, fun b => bif b then ?B else ?W, fun m' f gIn hm hc hP hg => ?main⟩
    case main =>
      have hkm : m'.kind = _ := (core_kind hc).trans hk
      have hwm : m'.weight = _ := core_weight hc
      have hbm : m'.bias = _ := core_bias hc
      rw [show l.first = m'.first from (core_first hc).symm]
      have hgr := hm.grads (by rw [hkm]; rfl) (core_full hfull hc)
      obtain ⟨w', hw'⟩ := (hgr false (1, 1) (by rw [hkm]; rfl)).exists_ofFn
      have hw' : m'.gradWeight = _ := hw'
      obtain ⟨b', hb'⟩ := (hgr true (1, 1) (by rw [hkm]; rfl)).exists_ofFn
      have hb' : m'.gradBias = _ := hb'
      refine ⟨?m2, ?eq, ?co, ?gr⟩
      case eq =>
        simp only [backprop, hkm]
        rw [hwm, hW, globalAffineBackward_ofFn f.g _ N _ x w gr w' b' (by exact hw') (by exact hb') (by exact hg), bind_ok']
        rfl
      case co => obtain ⟨_, _, _, _, _, rfl⟩ := core_eq hc; first | rfl | simp only [core, hk]
      case gr =>
        intro b hb
        cases b
        · rfl
        · rfl

theorem det_prelu (h : l.Fits first s s') (hk : l.kind = .prelu) : Det first s s' l e N x := by
  have ht := h.takes
  rw [hk] at ht
  obtain ⟨hw, hfl⟩ := ht
  have hC := h.pos.1
  have p1 : ∀ {l : Layer}, l.kind = .prelu → l.kind.parShape false s.width s'.width = some (1, s.width) := fun hk => by rw [hk]; rfl
  have hb : ∃ (w y : Nat → Nat → ℝ), ∀ (m : Layer) (g : Nat → ℝ) (o : Mat ℝ), m.Fits first s s' → m.core = l.core → o.WF →
      ∃ gw, preluForward g m.weight m.gradWeight (Mat.ofFn N s.width x) o =
        .ok (Mat.ofFn 1 s.width w, Mat.ofFn 1 s.width gw, Mat.ofFn N s.width y) := by
    rcases h.params with hf | hf
    · have hfull := hf
      obtain ⟨f, hf⟩ := (hf false _ (p1 hk)).exists_ofFn
      have hf : l.weight = Mat.ofFn 1 s.width f := hf
      refine ⟨f, fun s j => preluFn (f 0 j) (x s j), fun m g o hm hc ho => ?main⟩
      case main =>
        have hkm : m.kind = _ := (core_kind hc).trans hk
        have hgr := hm.grads (by rw [hkm]; rfl) (core_full hfull hc)
        obtain ⟨f', hf'⟩ := (hgr false _ (p1 hkm)).exists_ofFn
        have hf' : m.gradWeight = Mat.ofFn 1 s.width f' := hf'
        rw [core_weight hc, hf, hf']
        exact ⟨f', preluForward_ofFn g ho N _ hC x f⟩
    · refine ⟨fun _ _ => 0.25, fun s j => preluFn 0.25 (x s j), fun m g o hm hc ho => ?main⟩
      case main =>
        obtain ⟨d, hd⟩ := Mat.resize_ofFn g hm.valid.gradWeight 1 s.width
        exact ⟨d, (preluForward_first g hm.valid.weight (by rw [core_weight hc]; exact hf.2 false) ho N _ hC x).trans (by rw [hd])⟩
  obtain ⟨w, y, hb⟩ := hb
  refine ⟨core { l with weight := Mat.ofFn 1 s.width w }, y, fun m => ∃ gw, m.gradWeight = Mat.ofFn 1 s.width gw, fun m f o hm hc he ho => ?_, fun _ _ _ gr => ?_⟩
  · have hkm : m.kind = _ := (core_kind hc).trans hk
    obtain ⟨gw, hb⟩ := hb m f.g o hm hc ho
    refine ⟨?m, ?eq, ?co, ?P⟩
    case eq =>
      simp only [forward, hkm, hb, bind_ok', pure_ok, hw]
      rfl
    case co => obtain ⟨_, _, _, _, _, rfl⟩ := core_eq hc; first | rfl | simp only [core, hk]
    case P => exact ⟨gw, rfl⟩
  · rw [hw]
    refine ⟨core { l with weight := Mat.ofFn 1 s.width w }, ?G, fun b => bif b then ⟨0, 0, []⟩ else ?W, fun m' f gIn hm hc hP hg => ?main⟩
    case main =>
      have hkm : m'.kind = _ := (core_kind hc).trans hk
      have hwm : m'.weight = _ := core_weight hc
      have hbm : m'.bias = _ := core_bias hc
      rw [show l.first = m'.first from (core_first hc).symm]
      obtain ⟨gw, hP⟩ := hP
      refine ⟨?m2, ?eq, ?co, ?gr⟩
      case eq =>
        simp only [backprop, hkm]
        rw [hwm, hP, preluBackward_ofFn f.g _ hg N _ w gw x gr, bind_ok']
        rfl
      case co => obtain ⟨_, _, _, _, _, rfl⟩ := core_eq hc; first | rfl | simp only [core, hk]
      case gr =>
        intro b hb
        cases b
        · rfl
        · exact absurd (by rw [hk]; rfl) hb

theorem det_pelu (h : l.Fits first s s') (hk : l.kind = .pelu) : Det first s s' l e N x := by
  have ht := h.takes
  rw [hk] at ht
  obtain ⟨hw, hfl⟩ := ht
  have hC := h.pos.1
  have p1 : ∀ {l : Layer}, l.kind = .pelu → l.kind.parShape false s.width s'.width = some (2, s.width) := fun hk => by rw [hk]; rfl
  have hb : ∃ (w y : Nat → Nat → ℝ), ∀ (m : Layer) (g : Nat → ℝ) (o : Mat ℝ), m.Fits first s s' → m.core = l.core → o.WF →
      ∃ gw, peluForward g m.weight m.gradWeight (Mat.ofFn N s.width x) o =
        .ok (Mat.ofFn 2 s.width w, Mat.ofFn 2 s.width gw, Mat.ofFn N s.width y) := by
    rcases h.params with hf | hf
    · have hfull := hf
      obtain ⟨f, hf⟩ := (hf false _ (p1 hk)).exists_ofFn
      have hf : l.weight = Mat.ofFn 2 s.width f := hf
      refine ⟨f, fun s j => peluFn (f 0 j) (f 1 j) (x s j), fun m g o hm hc ho => ?main⟩
      case main =>
        have hkm : m.kind = _ := (core_kind hc).trans hk
        have hgr := hm.grads (by rw [hkm]; rfl) (core_full hfull hc)
        obtain ⟨f', hf'⟩ := (hgr false _ (p1 hkm)).exists_ofFn
        have hf' : m.gradWeight = Mat.ofFn 2 s.width f' := hf'
        rw [core_weight hc, hf, hf']
        exact ⟨f', peluForward_ofFn g ho N _ hC x f⟩
    · refine ⟨fun _ _ => 1, fun s j => peluFn 1 1 (x s j), fun m g o hm hc ho => ?main⟩
      case main =>
        obtain ⟨d, hd⟩ := Mat.resize_ofFn g hm.valid.gradWeight 2 s.width
        exact ⟨d, (peluForward_first g hm.valid.weight (by rw [core_weight hc]; exact hf.2 false) ho N _ hC x).trans (by rw [hd])⟩
  obtain ⟨w, y, hb⟩ := hb
  refine ⟨core { l with weight := Mat.ofFn 2 s.width w }, y, fun m => ∃ gw, m.gradWeight = Mat.ofFn 2 s.width gw, fun m f o hm hc he ho => ?_, fun _ _ _ gr => ?_⟩
  · have hkm : m.kind = _ := (core_kind hc).trans hk
    obtain ⟨gw, hb⟩ := hb m f.g o hm hc ho
    refine ⟨?m, ?eq, ?co, ?P⟩
    case eq =>
      simp only [forward, hkm, hb, bind_ok', pure_ok, hw]
      rfl
    case co => obtain ⟨_, _, _, _, _, rfl⟩ := core_eq hc; first | rfl | simp only [core, hk]
    case P => exact ⟨gw, rfl⟩
  · rw [hw]
    refine ⟨core { l with weight := Mat.ofFn 2 s.width (fun p j => max 0.1 (w p j)) }, ?G, fun b => bif b then ⟨0, 0, []⟩ else ?W, fun m' f gIn hm hc hP hg => ?main⟩
    case main =>
      have hkm : m'.kind = _ := (core_kind hc).trans hk
      have hwm : m'.weight = _ := core_weight hc
      have hbm : m'.bias = _ := core_bias hc
      rw [show l.first = m'.first from (core_first hc).symm]
      obtain ⟨gw, hP⟩ := hP
      refine ⟨?m2, ?eq, ?co, ?gr⟩
      case eq =>
        simp only [backprop, hkm]
        rw [hwm, hP, peluBackward_ofFn f.g _ hg N _ w gw x gr, bind_ok']
        rfl
      case co => obtain ⟨_, _, _, _, _, rfl⟩ := core_eq hc; first | rfl | simp only [core, hk]
      case gr =>
        intro b hb
        cases b
        · rfl
        · exact absurd (by rw [hk]; rfl) hb

theorem det_terelu (h : l.Fits first s s') (hk : l.kind = .terelu) : Det first s s' l e N x := by
  have ht := h.takes
  rw [hk] at ht
  obtain ⟨hw, hfl⟩ := ht
  have hC := h.pos.1
  have p1 : ∀ {l : Layer}, l.kind = .terelu → l.kind.parShape false s.width s'.width = some (1, s.width) := fun hk => by rw [hk]; rfl
  have hb : ∃ (w y : Nat → Nat → ℝ), ∀ (m : Layer) (g : Nat → ℝ) (o : Mat ℝ), m.Fits first s s' → m.core = l.core → o.WF →
      ∃ gw, tereluForward g 1 1 m.weight m.gradWeight (Mat.ofFn N s.width x) o =
        .ok (Mat.ofFn 1 s.width w, Mat.ofFn 1 s.width gw, Mat.ofFn N s.width y) := by
    rcases h.params with hf | hf
    · have hfull := hf
      obtain ⟨f, hf⟩ := (hf false _ (p1 hk)).exists_ofFn
      have hf : l.weight = Mat.ofFn 1 s.width f := hf
      refine ⟨f, fun s j => tereluFn 1 1 (f 0 j) (x s j), fun m g o hm hc ho => ?main⟩
      case main =>
        have hkm : m.kind = _ := (core_kind hc).trans hk
        have hgr := hm.grads (by rw [hkm]; rfl) (core_full hfull hc)
        obtain ⟨f', hf'⟩ := (hgr false _ (p1 hkm)).exists_ofFn
        have hf' : m.gradWeight = Mat.ofFn 1 s.width f' := hf'
        rw [core_weight hc, hf, hf']
        exact ⟨f', tereluForward_ofFn g 1 1 ho N _ hC x f⟩
    · refine ⟨fun _ _ => 1, fun s j => tereluFn 1 1 1 (x s j), fun m g o hm hc ho => ?main⟩
      case main =>
        obtain ⟨d, hd⟩ := Mat.resize_ofFn g hm.valid.gradWeight 1 s.width
        exact ⟨d, (tereluForward_first g 1 1 hm.valid.weight (by rw [core_weight hc]; exact hf.2 false) ho N _ hC x).trans (by rw [hd])⟩
  obtain ⟨w, y, hb⟩ := hb
  refine ⟨core { l with weight := Mat.ofFn 1 s.width w }, y, fun m => ∃ gw, m.gradWeight = Mat.ofFn 1 s.width gw, fun m f o hm hc he ho => ?_, fun _ _ _ gr => ?_⟩
  · have hkm : m.kind = _ := (core_kind hc).trans hk
    obtain ⟨gw, hb⟩ := hb m f.g o hm hc ho
    refine ⟨?m, ?eq, ?co, ?P⟩
    case eq =>
      simp only [forward, hkm, hb, bind_ok', pure_ok, hw]
      rfl
    case co => obtain ⟨_, _, _, _, _, rfl⟩ := core_eq hc; first | rfl | simp only [core, hk]
    case P => exact ⟨gw, rfl⟩
  · rw [hw]
    refine ⟨core { l with weight := Mat.ofFn 1 s.width w }, ?G, fun b => bif b then ⟨0, 0, []⟩ else ?W, fun m' f gIn hm hc hP hg => ?main⟩
    case main =>
      have hkm : m'.kind = _ := (core_kind hc).trans hk
      have hwm : m'.weight = _ := core_weight hc
      have hbm : m'.bias = _ := core_bias hc
      rw [show l.first = m'.first from (core_first hc).symm]
      obtain ⟨gw, hP⟩ := hP
      refine ⟨?m2, ?eq, ?co, ?gr⟩
      case eq =>
        simp only [backprop, hkm]
        rw [hwm, hP, tereluBackward_ofFn f.g 1 1 _ hg N _ w gw x gr, bind_ok']
        rfl
      case co => obtain ⟨_, _, _, _, _, rfl⟩ := core_eq hc; first | rfl | simp only [core, hk]
      case gr =>
        intro b hb
        cases b
        · rfl
        · exact absurd (by rw [hk]; rfl) hb


theorem backprop_core {M gOut gIn gi : Mat ℝ} (h : l.backprop e M gOut gIn = .ok (l', gi)) (h1 : ∀ a b, l.kind ≠ .simpleRNN a b)
    (h2 : ∀ a, l.kind ≠ .simplestRNN a) :
    l'.core = core { l with weight := l'.weight } ∧ ((∀ p, l.kind ≠ .conv p) → l.kind ≠ .pelu → l'.weight = l.weight) := by
  unfold backprop at h
  split at h
  all_goals first
    | (rename_i hk; exact absurd hk (h1 _ _))
    | (rename_i hk; exact absurd hk (h2 _))
    | (obtain ⟨r, -, h⟩ := ok_bind h
       simp only [pure, Except.pure, Except.ok.injEq, setGrads, Prod.mk.injEq] at h
       obtain ⟨rfl, -⟩ := h
       first
         | exact ⟨rfl, fun _ _ => rfl⟩
         | (rename_i hk; exact ⟨rfl, fun h _ => absurd hk (h _)⟩)
         | (rename_i hk; exact ⟨rfl, fun _ h => absurd hk h⟩))

theorem det_ply (h : l.Fits first s s') (hfull : l.Full s s') (k : PlyKind) (hk : k.Of l.kind) (hf : k.Fits s.width s'.width)
    (hs : ∀ b, l.kind.parShape b s.width s'.width = if k.has b then some (k.shape b s.width s'.width) else none) :
    Det first s s' l e N x := by
  have hw : ∀ b, ∃ f, k.has b = true → l.par b = Mat.ofFn (k.shape b s.width s'.width).1 (k.shape b s.width s'.width).2 f := by
    intro b
    by_cases hb : k.has b = true
    · obtain ⟨f, hf⟩ := (hfull b _ (by rw [hs, if_pos hb])).exists_ofFn
      exact ⟨f, fun _ => hf⟩
    · exact ⟨fun _ _ => 0, fun h => absurd h hb⟩
  obtain ⟨W, hW⟩ := hw false
  obtain ⟨B, hB⟩ := hw true
  have hIs : ∀ {m : Layer}, m.core = l.core → (Ply.mk k W B).Is s.width s'.width m := by
    intro m hc
    obtain ⟨_, _, _, _, _, rfl⟩ := core_eq hc
    exact ⟨hk, hW, hB⟩
  refine ⟨l.core, fun i => (Ply.mk k W B).apply s.width (x i), (Ply.mk k W B).Primed N x, fun m f o hm hc _ ho => ?_, fun _ _ _ gr => ?_⟩
  · obtain ⟨l', f1, f2, -, f4⟩ := Ply.forward (e := f) (hIs hc) hf h.pos.1 h.pos.2 hm.valid ho N x
    exact ⟨l', f1, f2.core.trans hc, f4⟩
  · refine ⟨l.core, Mat.ofFn N s.width (fun i j => k.inRate * (Ply.mk k W B).back s.width s'.width (x i) (gr i) j), fun b => Mat.ofFn (k.shape b s.width s'.width).1 (k.shape b s.width s'.width).2 ((Ply.mk k W B).batchGrad b N x gr),
      fun m' f gIn hm hc hP hg => ?_⟩
    rw [show l.first = m'.first from (core_first hc).symm]
    obtain ⟨l₂, b1, b2, -, -, b5⟩ := Ply.backward (e := f) (hIs hc) hf h.pos.1 h.pos.2 hm.valid hg N x gr hP
    refine ⟨l₂, b1, ?_, fun b hb => b5 b ?_⟩
    · have hkm := core_kind hc
      have hn : (∀ a b, m'.kind ≠ .simpleRNN a b) ∧ ∀ a, m'.kind ≠ .simplestRNN a := by
        rw [hkm]
        constructor
        · intro a b h0
          have := h.takes
          rw [h0] at this
          exact this
        · intro a h0
          have := h.takes
          rw [h0] at this
          exact this
      obtain ⟨c1, c2⟩ := backprop_core b1 hn.1 hn.2
      have hww : l₂.weight = m'.weight := by
        by_cases hh : k.has false = true
        · exact (b2.weight hh).trans ((hIs hc).weight hh).symm
        · refine c2 (fun q h0 => ?_) (fun h0 => ?_)
          · rw [hkm] at h0
            rw [h0] at hk
            cases k <;> simp [PlyKind.Of, PlyKind.has] at hk hh
          · rw [hkm] at h0
            rw [h0] at hk
            cases k <;> simp [PlyKind.Of] at hk
      rw [c1, hww, ← hc]
    · rw [hs] at hb
      by_contra hn
      exact hb (if_neg hn)

theorem det_softmin (h : l.Fits first s s') (hk : l.kind = .softmin) : Det first s s' l e N x := by
  have ht := h.takes
  rw [hk] at ht
  have hw : s'.width = s.width := ht
  refine ⟨l.core, fun i j => softmaxAt s.width (fun k => -x i k) j, fun _ => True, fun m f o hm hc _ ho => ?_, fun _ _ _ gr => ?_⟩
  · have hkm : m.kind = _ := (core_kind hc).trans hk
    refine ⟨m, ?_, hc, trivial⟩
    simp only [forward, hkm, softminForward_ofFn f.g N _ x ho, bind_ok', pure_ok, hw]
  · rw [hw]
    refine ⟨l.core, ?G, fun b => ⟨0, 0, []⟩, fun m' f gIn hm hc hP hg => ?main⟩
    case main =>
      have hkm : m'.kind = _ := (core_kind hc).trans hk
      have hfm := core_first hc
      refine ⟨m', ?eq, hc, fun b hb => absurd (by rw [hk]; rfl) hb⟩
      case eq =>
        cases hf : l.first
        · rw [hf] at hfm
          simp only [backprop, hkm, hfm]
          rw [softminBackward_ofFn f.g N _ x gr hg, bind_ok']
          rfl
        · rw [hf] at hfm
          simp only [backprop, hkm, hfm, softminBackward]
          rfl

theorem det_noise (h : l.Fits first s s') {r : ℝ} (hk : l.kind = .gaussianNoise r ∨ l.kind = .uniformNoise r) : Det first s s' l e N x := by
  have ht := h.takes
  have hw : s'.width = s.width ∧ s'.floor = false := by rcases hk with hk | hk <;> (rw [hk] at ht; exact ht)
  obtain ⟨hw, hfl⟩ := hw
  refine ⟨l.core, fun i j => if l.train = true ∧ 0 < r then x i j + e.draw (i * s.width + j) else x i j, fun _ => True,
    fun m f o hm hc he ho => ?_, fun _ _ _ gr => ?_⟩
  · have hkm := core_kind hc
    obtain ⟨g, gi, rfl⟩ := he
    refine ⟨m, ?_, hc, trivial⟩
    rw [← core_train hc]
    rcases hk with hk | hk <;> (rw [hk] at hkm; simp only [forward, hkm, noiseForward_ofFn g m.train r e.draw ho N _ x, bind_ok', pure_ok, hw])
  · rw [hw]
    refine ⟨l.core, Mat.ofFn N s.width gr, fun b => ⟨0, 0, []⟩, fun m' f gIn hm hc hP hg => ?_⟩
    have hkm := core_kind hc
    rw [← core_first hc]
    refine ⟨m', ?_, hc, fun b hb => absurd (by rcases hk with hk | hk <;> (rw [hk]; rfl)) hb⟩
    rcases hk with hk | hk <;> (rw [hk] at hkm; simp only [backprop, hkm, noiseBackward]) <;> cases m'.first <;>
      simp only [Bool.false_eq_true, if_false, if_true, Mat.assign_ofFn f.g hg, bind_ok', pure_ok]

theorem det_dropout (h : l.Fits first s s') {r : ℝ} (hk : l.kind = .dropout r) : Det first s s' l e N x := by
  have ht := h.takes
  rw [hk] at ht
  obtain ⟨hw, hfl⟩ := ht
  have hm : ∃ (m : Mat ℝ) (y : Nat → Nat → ℝ), (∀ (g : Nat → ℝ) (o : Mat ℝ), o.WF →
      dropoutForward g e.lim l.train r e.rng l.mask (Mat.ofFn N s.width x) o = .ok (m, Mat.ofFn N s.width y)) ∧
      (l.train = true → r ≠ 0 → ∃ f, m = Mat.ofFn N s.width f) := by
    by_cases h0 : l.train = true ∧ r ≠ 0
    · rw [h0.1]
      exact ⟨_, _, fun g o ho => dropoutForward_train g e.lim r h0.2 e.rng h.valid.mask ho N _ x, fun _ _ => ⟨_, rfl⟩⟩
    · have h1 : l.train = false ∨ r = 0 := by
        rcases Bool.eq_false_or_eq_true l.train with ht | ht
        · exact .inr (by by_contra hr; exact h0 ⟨ht, hr⟩)
        · exact .inl ht
      exact ⟨_, _, fun g o ho => dropoutForward_test g e.lim _ r h1 e.rng ho N _ x, fun h2 h3 => absurd ⟨h2, h3⟩ h0⟩
  obtain ⟨mk, y, hm, hm'⟩ := hm
  refine ⟨core { l with mask := mk }, y, fun _ => True, fun m f o hmf hc he ho => ?_, fun htr _ _ gr => ?_⟩
  · have hkm : m.kind = _ := (core_kind hc).trans hk
    obtain ⟨g, gi, rfl⟩ := he
    refine ⟨{ m with mask := mk }, ?_, ?co, trivial⟩
    · simp only [forward, hkm, core_train hc, core_mask hc, hm g o ho, bind_ok', pure_ok, hw]
    case co => obtain ⟨_, _, _, _, _, rfl⟩ := core_eq hc; rfl
  · rw [hw]
    by_cases hr : r = 0
    · refine ⟨core { l with mask := mk }, Mat.ofFn N s.width gr, fun b => ⟨0, 0, []⟩, fun m' f gIn hmf hc hP hg => ?_⟩
      have hkm : m'.kind = _ := (core_kind hc).trans hk
      refine ⟨m', ?_, hc, fun b hb => absurd (by rw [hk]; rfl) hb⟩
      rw [show l.first = m'.first from (core_first hc).symm]
      cases hf : m'.first <;>
      simp only [backprop, hkm, hf, dropoutBackward, hr, Bool.false_eq_true, if_false, if_true, ne_eq, not_true_eq_false, Mat.assign_ofFn f.g hg, bind_ok', pure_ok]
    · obtain ⟨fm, rfl⟩ := hm' htr hr
      refine ⟨core { l with mask := Mat.ofFn N s.width fm }, ?G, fun b => ⟨0, 0, []⟩, fun m' f gIn hmf hc hP hg => ?main⟩
      case main =>
        have hkm : m'.kind = _ := (core_kind hc).trans hk
        have hmm : m'.mask = _ := core_mask hc
        refine ⟨m', ?eq, hc, fun b hb => absurd (by rw [hk]; rfl) hb⟩
        case eq =>
          rw [show l.first = m'.first from (core_first hc).symm]
          cases hf : m'.first
          · simp only [backprop, hkm, hf, hmm]
            rw [dropoutBackward_ofFn f.g r hr hg N _ fm gr, bind_ok']
            rfl
          · simp only [backprop, hkm, hf, dropoutBackward]
            rfl

theorem det_rrelu (h : l.Fits first s s') {a₁ a₂ : ℝ} (hk : l.kind = .rrelu a₁ a₂) : Det first s s' l e N x := by
  have ht := h.takes
  rw [hk] at ht
  obtain ⟨hw, hfl, hle⟩ := ht
  have hm : ∃ (m : Mat ℝ) (y : Nat → Nat → ℝ), (∀ (g : Nat → ℝ) (o : Mat ℝ), o.WF →
      rreluForward g a₁ a₂ l.train e.draw l.mask (Mat.ofFn N s.width x) o = .ok (m, Mat.ofFn N s.width y)) ∧
      (l.train = true → ∃ f, m = Mat.ofFn N s.width f) := by
    cases htr : l.train
    · exact ⟨_, _, fun g o ho => rreluForward_test g a₁ a₂ e.draw ho N _ x, fun h => by cases h⟩
    · exact ⟨_, _, fun g o ho => rreluForward_train g a₁ a₂ hle e.draw h.valid.mask ho N _ x, fun _ => ⟨_, rfl⟩⟩
  obtain ⟨mk, y, hm, hm'⟩ := hm
  refine ⟨core { l with mask := mk }, y, fun _ => True, fun m f o hmf hc he ho => ?_, fun htr _ _ gr => ?_⟩
  · have hkm : m.kind = _ := (core_kind hc).trans hk
    obtain ⟨g, gi, rfl⟩ := he
    refine ⟨{ m with mask := mk }, ?_, ?co, trivial⟩
    · simp only [forward, hkm, core_train hc, core_mask hc, hm g o ho, bind_ok', pure_ok, hw]
    case co => obtain ⟨_, _, _, _, _, rfl⟩ := core_eq hc; rfl
  · rw [hw]
    obtain ⟨fm, rfl⟩ := hm' htr
    refine ⟨core { l with mask := Mat.ofFn N s.width fm }, ?G, fun b => ⟨0, 0, []⟩, fun m' f gIn hmf hc hP hg => ?main⟩
    case main =>
      have hkm : m'.kind = _ := (core_kind hc).trans hk
      have hmm : m'.mask = _ := core_mask hc
      refine ⟨m', ?eq, hc, fun b hb => absurd (by rw [hk]; rfl) hb⟩
      case eq =>
        rw [show l.first = m'.first from (core_first hc).symm]
        cases hf : m'.first
        · simp only [backprop, hkm, hf, hmm]
          rw [rreluBackward_ofFn f.g hg N _ fm x gr, bind_ok']
          rfl
        · simp only [backprop, hkm, hf, rreluBackward]
          rfl

end Layer

end BeeDNN
