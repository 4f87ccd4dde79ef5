import Verif.Lemmas.Fits

/-! # Sizes: all classes of layers -/

namespace BeeDNN
open Finset HasWF

theorem initCompute_known (g draw : Nat → ℝ) {s : String} (hs : s ∈ initNames) {m : Mat ℝ} (hm : m.WF) (i o : Nat) :
    ∃ x, initCompute g draw s m i o = .ok (Mat.ofFn i o x) := by
  unfold initCompute
  simp only [initNames, List.mem_cons, List.not_mem_nil, or_false] at hs
  iterate 10
    split
    · first
        | exact ⟨_, initUniform_ofFn g draw _ hm i o⟩
        | exact ⟨_, initNormal_ofFn g draw _ hm i o⟩
        | exact ⟨_, setRandom_ofFn g hm i o draw⟩
        | exact ⟨_, Mat.setConstantRC_ofFn g hm i o _⟩
  tauto

namespace Layer

variable {first : Bool} {s s' : Form} {l l' : Layer} {e : Env} {N : Nat} {x x' : Nat → Nat → ℝ} {o : Mat ℝ}

/-- A class whose parameters, if it has any, are one matrix in `_weight`. -/
theorem full_weight {r c : Nat} (h0 : l.kind.parShape true s.width s'.width = none) (h1 : l.kind.parShape false s.width s'.width = some (r, c))
    (h : l.weight.Shape r c) : l.Full s s' := by
  intro b rc hb
  cases b
  · rw [h1] at hb; injection hb with hb; subst hb; exact h
  · rw [h0] at hb; cases hb

theorem full_bias {r c : Nat} (h0 : l.kind.parShape false s.width s'.width = none) (h1 : l.kind.parShape true s.width s'.width = some (r, c))
    (h : l.bias.Shape r c) : l.Full s s' := by
  intro b rc hb
  cases b
  · rw [h0] at hb; cases hb
  · rw [h1] at hb; injection hb with hb; subst hb; exact h

theorem full_both {r c r' c' : Nat} (h0 : l.kind.parShape false s.width s'.width = some (r, c)) (h1 : l.kind.parShape true s.width s'.width = some (r', c'))
    (h : l.weight.Shape r c) (h' : l.bias.Shape r' c') : l.Full s s' := by
  intro b rc hb
  cases b
  · rw [h0] at hb; injection hb with hb; subst hb; exact h
  · rw [h1] at hb; injection hb with hb; subst hb; exact h'

theorem graded_weight {r c : Nat} (h0 : l.kind.parShape true s.width s'.width = none) (h1 : l.kind.parShape false s.width s'.width = some (r, c))
    (h : l.gradWeight.Shape r c) : l.Graded s s' := by
  intro b rc hb
  cases b
  · rw [h1] at hb; injection hb with hb; subst hb; exact h
  · rw [h0] at hb; cases hb

theorem graded_bias {r c : Nat} (h0 : l.kind.parShape false s.width s'.width = none) (h1 : l.kind.parShape true s.width s'.width = some (r, c))
    (h : l.gradBias.Shape r c) : l.Graded s s' := by
  intro b rc hb
  cases b
  · rw [h0] at hb; cases hb
  · rw [h1] at hb; injection hb with hb; subst hb; exact h

theorem graded_both {r c r' c' : Nat} (h0 : l.kind.parShape false s.width s'.width = some (r, c)) (h1 : l.kind.parShape true s.width s'.width = some (r', c'))
    (h : l.gradWeight.Shape r c) (h' : l.gradBias.Shape r' c') : l.Graded s s' := by
  intro b rc hb
  cases b
  · rw [h0] at hb; injection hb with hb; subst hb; exact h
  · rw [h1] at hb; injection hb with hb; subst hb; exact h'

theorem Shape.ite {first : Bool} {gi : Mat ℝ} {N C : Nat} {f : Nat → Nat → ℝ} (h : first = false) :
    (if first = true then gi else Mat.ofFn N C f).Shape N C := by
  rw [h, if_neg (by decide)]
  exact Mat.shape_ofFn _ _ _

/-- What a forward pass of a fitting layer does. -/
def Works (first : Bool) (s s' : Form) (l : Layer) (e : Env) (N : Nat) (x : Nat → Nat → ℝ) (o : Mat ℝ) : Prop :=
  ∃ l' M', l.forward e (Mat.ofFn N s.width x) o = .ok (l', M') ∧ Passed first s s' N l (Mat.ofFn N s.width x) l' M'

theorem works_bias (h : l.Fits first s s') (hk : l.kind = .bias) (ho : o.WF) : Works first s s' l e N x o := by
  have ht := h.takes
  rw [hk] at ht
  obtain ⟨hw, hfl⟩ := ht
  have hC := h.pos.1
  have p0 : ∀ {l : Layer}, l.kind = .bias → l.kind.parShape false s.width s'.width = none := fun hk => by rw [hk]; rfl
  have p1 : ∀ {l : Layer}, l.kind = .bias → l.kind.parShape true s.width s'.width = some (1, s.width) := fun hk => by rw [hk]; rfl
  have hb : ∃ b, lazyBias e l s.width = .ok (Mat.ofFn 1 s.width b) := by
    unfold lazyBias
    by_cases h0 : l.bias.size = 0
    · rw [if_pos h0]
      exact initCompute_known _ _ (h.inits hk h0) h.valid.bias 1 _
    · rw [if_neg h0]
      rcases h.params with hf | hf
      · obtain ⟨f, hf⟩ := (hf true _ (p1 hk)).exists_ofFn
        exact ⟨f, congrArg _ hf⟩
      · exact absurd (hf.2 true) h0
  obtain ⟨b, hb⟩ := hb
  refine h.passed ho (l' := { l with bias := Mat.ofFn 1 s.width b }) (x' := fun i j => x i j + b 0 j) ?_
    (full_bias (p0 hk) (p1 hk) (Mat.shape_ofFn _ _ _)) (by rw [hk]; intro h0; cases h0) (by rw [hfl]; intro h0; cases h0) ?_
  · simp only [forward, hk, Mat.ofFn_cols, hb, bind_ok', biasForward_ofFn e.g _ N _ hC x b ho, pure_ok, hw]
  · intro _ _ _ e' gr gIn hg
    rw [hw]
    refine ⟨?l, ?gi, ?eq, ?a, ?b, ?c⟩
    case eq =>
      simp only [backprop, hk]
      rw [biasBackward_ofFn e'.g _ N _ gr (by exact h.valid.gradBias) (by exact hg), bind_ok']
      rfl
    case a => exact fun h0 => Shape.ite h0
    case b => exact full_bias (p0 (by first | exact hk | rfl)) (p1 (by first | exact hk | rfl)) (Mat.shape_ofFn _ _ _)
    case c => exact graded_bias (p0 (by first | exact hk | rfl)) (p1 (by first | exact hk | rfl)) (Mat.shape_ofFn _ _ _)

theorem works_gain (h : l.Fits first s s') (hk : l.kind = .gain) (ho : o.WF) : Works first s s' l e N x o := by
  have ht := h.takes
  rw [hk] at ht
  obtain ⟨hw, hfl⟩ := ht
  have hC := h.pos.1
  have p0 : ∀ {l : Layer}, l.kind = .gain → l.kind.parShape true s.width s'.width = none := fun hk => by rw [hk]; rfl
  have p1 : ∀ {l : Layer}, l.kind = .gain → l.kind.parShape false s.width s'.width = some (1, s.width) := fun hk => by rw [hk]; rfl
  have hb : ∃ (w : Nat → Nat → ℝ) (y : Nat → Nat → ℝ), gainForward e.g l.weight (Mat.ofFn N s.width x) o = .ok (Mat.ofFn 1 s.width w, Mat.ofFn N s.width y) := by
    rcases h.params with hf | hf
    · obtain ⟨f, hf⟩ := (hf false _ (p1 hk)).exists_ofFn
      have hf : l.weight = _ := hf
      rw [hf]
      exact ⟨_, _, gainForward_ofFn e.g N _ hC x f ho⟩
    · exact ⟨_, _, gainForward_first e.g N _ x h.valid.weight (hf.2 false) ho⟩
  obtain ⟨w, y, hb⟩ := hb
  refine h.passed ho (l' := { l with weight := Mat.ofFn 1 s.width w }) (x' := y) ?_
    (full_weight (p0 hk) (p1 hk) (Mat.shape_ofFn _ _ _)) (by rw [hk]; intro h0; cases h0) (by rw [hfl]; intro h0; cases h0) ?_
  · simp only [forward, hk, hb, bind_ok', pure_ok, hw]
  · intro _ _ _ e' gr gIn hg
    rw [hw]
    refine ⟨?l, ?gi, ?eq, ?a, ?b, ?c⟩
    case eq =>
      simp only [backprop, hk]
      rw [gainBackward_ofFn e'.g _ N _ x w gr (by exact h.valid.gradWeight) (by exact hg), bind_ok']
      rfl
    case a => exact fun h0 => Shape.ite h0
    case b => exact full_weight (p0 (by first | exact hk | rfl)) (p1 (by first | exact hk | rfl)) (Mat.shape_ofFn _ _ _)
    case c => exact graded_weight (p0 (by first | exact hk | rfl)) (p1 (by first | exact hk | rfl)) (Mat.shape_ofFn _ _ _)

theorem works_affine (h : l.Fits first s s') (hk : l.kind = .affine) (ho : o.WF) : Works first s s' l e N x o := by
  have ht := h.takes
  rw [hk] at ht
  obtain ⟨hw, hfl⟩ := ht
  have hC := h.pos.1
  have p0 : ∀ {l : Layer}, l.kind = .affine → l.kind.parShape false s.width s'.width = some (1, s.width) := fun hk => by rw [hk]; rfl
  have p1 : ∀ {l : Layer}, l.kind = .affine → l.kind.parShape true s.width s'.width = some (1, s.width) := fun hk => by rw [hk]; rfl
  have hb : ∃ (w b y : Nat → Nat → ℝ), affineForward e.g l.weight l.bias (Mat.ofFn N s.width x) o =
      .ok (Mat.ofFn 1 s.width w, Mat.ofFn 1 s.width b, Mat.ofFn N s.width y) := by
    rcases h.params with hf | hf
    · obtain ⟨f, hf1⟩ := (hf false _ (p0 hk)).exists_ofFn
      obtain ⟨f', hf2⟩ := (hf true _ (p1 hk)).exists_ofFn
      have hf1 : l.weight = _ := hf1
      have hf2 : l.bias = _ := hf2
      rw [hf1, hf2]
      exact ⟨_, _, _, affineForward_ofFn e.g N _ hC x f f' ho⟩
    · exact ⟨_, _, _, affineForward_first e.g N _ x h.valid.weight h.valid.bias (hf.2 true) ho⟩
  obtain ⟨w, b, y, hb⟩ := hb
  refine h.passed ho (l' := { l with weight := Mat.ofFn 1 s.width w, bias := Mat.ofFn 1 s.width b }) (x' := y) ?_
    (full_both (p0 hk) (p1 hk) (Mat.shape_ofFn _ _ _) (Mat.shape_ofFn _ _ _)) (by rw [hk]; intro h0; cases h0) (by rw [hfl]; intro h0; cases h0) ?_
  · simp only [forward, hk, hb, bind_ok', pure_ok, hw]
  · intro _ _ _ e' gr gIn hg
    rw [hw]
    refine ⟨?l, ?gi, ?eq, ?a, ?b, ?c⟩
    case eq =>
      simp only [backprop, hk]
      rw [affineBackward_ofFn e'.g _ N _ x w gr (by exact h.valid.gradWeight) (by exact h.valid.gradBias) (by exact hg), bind_ok']
      rfl
    case a => exact fun h0 => Shape.ite h0
    case b => exact full_both (p0 (by first | exact hk | rfl)) (p1 (by first | exact hk | rfl)) (Mat.shape_ofFn _ _ _) (Mat.shape_ofFn _ _ _)
    case c => exact graded_both (p0 (by first | exact hk | rfl)) (p1 (by first | exact hk | rfl)) (Mat.shape_ofFn _ _ _) (Mat.shape_ofFn _ _ _)

/-- A class that is not lazy has its parameters. -/
theorem Fits.full (h : l.Fits first s s') (hk : l.kind.isLazy = false) : l.Full s s' := by
  rcases h.params with hf | hf
  · exact hf
  · rw [hk] at hf; cases hf.1

theorem works_globalBias (h : l.Fits first s s') (hk : l.kind = .globalBias) (ho : o.WF) : Works first s s' l e N x o := by
  have ht := h.takes
  rw [hk] at ht
  obtain ⟨hw, hfl⟩ := ht
  have p0 : ∀ {l : Layer}, l.kind = .globalBias → l.kind.parShape false s.width s'.width = none := fun hk => by rw [hk]; rfl
  have p1 : ∀ {l : Layer}, l.kind = .globalBias → l.kind.parShape true s.width s'.width = some (1, 1) := fun hk => by rw [hk]; rfl
  have hfull := h.full (by rw [hk]; rfl)
  have hgr := h.grads (by rw [hk]; rfl) hfull
  obtain ⟨b, hb⟩ := (hfull true _ (p1 hk)).exists_ofFn
  obtain ⟨b', hb'⟩ := (hgr true _ (p1 hk)).exists_ofFn
  have hb : l.bias = _ := hb
  have hb' : l.gradBias = _ := hb'
  refine h.passed ho (l' := l) (x' := fun i j => x i j + b 0 0) ?_ hfull (fun _ => hgr) (by rw [hfl]; intro h0; cases h0) ?_
  · simp only [forward, hk, hb, globalBiasForward_ofFn e.g N _ x b ho, bind_ok', pure_ok, hw]
  · intro _ _ _ e' gr gIn hg
    rw [hw]
    refine ⟨?l, ?gi, ?eq, ?a, ?b, ?c⟩
    case eq =>
      simp only [backprop, hk]
      rw [globalBiasBackward_ofFn e'.g _ N _ gr b' (by exact hb') (by exact hg), bind_ok']
      rfl
    case a => exact fun h0 => Shape.ite h0
    case b => exact full_bias (p0 (by first | exact hk | rfl)) (p1 (by first | exact hk | rfl)) (by show Mat.Shape l.bias _ _; rw [hb]; exact Mat.shape_ofFn _ _ _)
    case c => exact graded_bias (p0 (by first | exact hk | rfl)) (p1 (by first | exact hk | rfl)) (Mat.shape_ofFn _ _ _)

theorem works_globalGain (h : l.Fits first s s') (hk : l.kind = .globalGain) (ho : o.WF) : Works first s s' l e N x o := by
  have ht := h.takes
  rw [hk] at ht
  obtain ⟨hw, hfl⟩ := ht
  have p0 : ∀ {l : Layer}, l.kind = .globalGain → l.kind.parShape true s.width s'.width = none := fun hk => by rw [hk]; rfl
  have p1 : ∀ {l : Layer}, l.kind = .globalGain → l.kind.parShape false s.width s'.width = some (1, 1) := fun hk => by rw [hk]; rfl
  have hfull := h.full (by rw [hk]; rfl)
  have hgr := h.grads (by rw [hk]; rfl) hfull
  obtain ⟨b, hb⟩ := (hfull false _ (p1 hk)).exists_ofFn
  obtain ⟨b', hb'⟩ := (hgr false _ (p1 hk)).exists_ofFn
  have hb : l.weight = _ := hb
  have hb' : l.gradWeight = _ := hb'
  refine h.passed ho (l' := l) (x' := fun i j => x i j * b 0 0) ?_ hfull (fun _ => hgr) (by rw [hfl]; intro h0; cases h0) ?_
  · simp only [forward, hk, hb, globalGainForward_ofFn e.g N _ x b ho, bind_ok', pure_ok, hw]
  · intro _ _ _ e' gr gIn hg
    rw [hw]
    refine ⟨?l, ?gi, ?eq, ?a, ?b, ?c⟩
    case eq =>
      simp only [backprop, hk, hb]
      rw [globalGainBackward_ofFn e'.g _ N _ x b gr b' (by exact hb') (by exact hg), bind_ok']
      rfl
    case a => exact fun h0 => Shape.ite h0
    case b => exact full_weight (p0 (by first | exact hk | rfl)) (p1 (by first | exact hk | rfl)) (by show Mat.Shape l.weight _ _; rw [hb]; exact Mat.shape_ofFn _ _ _)
    case c => exact graded_weight (p0 (by first | exact hk | rfl)) (p1 (by first | exact hk | rfl)) (Mat.shape_ofFn _ _ _)

theorem works_globalAffine (h : l.Fits first s s') (hk : l.kind = .globalAffine) (ho : o.WF) : Works first s s' l e N x o := by
  have ht := h.takes
  rw [hk] at ht
  obtain ⟨hw, hfl⟩ := ht
  have p0 : ∀ {l : Layer}, l.kind = .globalAffine → l.kind.parShape true s.width s'.width = some (1, 1) := fun hk => by rw [hk]; rfl
  have p1 : ∀ {l : Layer}, l.kind = .globalAffine → l.kind.parShape false s.width s'.width = some (1, 1) := fun hk => by rw [hk]; rfl
  have hfull := h.full (by rw [hk]; rfl)
  have hgr := h.grads (by rw [hk]; rfl) hfull
  obtain ⟨w, hW⟩ := (hfull false _ (p1 hk)).exists_ofFn
  obtain ⟨w', hw'⟩ := (hgr false _ (p1 hk)).exists_ofFn
  obtain ⟨b, hb⟩ := (hfull true _ (p0 hk)).exists_ofFn
  obtain ⟨b', hb'⟩ := (hgr true _ (p0 hk)).exists_ofFn
  have hW : l.weight = _ := hW
  have hw' : l.gradWeight = _ := hw'
  have hb : l.bias = _ := hb
  have hb' : l.gradBias = _ := hb'
  refine h.passed ho (l' := l) (x' := fun i j => x i j * w 0 0 + b 0 0) ?_ hfull (fun _ => hgr) (by rw [hfl]; intro h0; cases h0) ?_
  · simp only [forward, hk, hb, hW, globalAffineForward_ofFn e.g N _ x w b ho, bind_ok', pure_ok, hw]
  · intro _ _ _ e' gr gIn hg
    rw [hw]
    refine ⟨?l, ?gi, ?eq, ?a, ?b, ?c⟩
    case eq =>
      simp only [backprop, hk, hW]
      rw [globalAffineBackward_ofFn e'.g _ N _ x w gr w' b' (by exact hw') (by exact hb') (by exact hg), bind_ok']
      rfl
    case a => exact fun h0 => Shape.ite h0
    case b => exact full_both (p1 (by first | exact hk | rfl)) (p0 (by first | exact hk | rfl)) (by show Mat.Shape l.weight _ _; rw [hW]; exact Mat.shape_ofFn _ _ _)
                (by show Mat.Shape l.bias _ _; rw [hb]; exact Mat.shape_ofFn _ _ _)
    case c => exact graded_both (p1 (by first | exact hk | rfl)) (p0 (by first | exact hk | rfl)) (Mat.shape_ofFn _ _ _) (Mat.shape_ofFn _ _ _)

theorem works_softmin (h : l.Fits first s s') (hk : l.kind = .softmin) (ho : o.WF) : Works first s s' l e N x o := by
  have ht := h.takes
  rw [hk] at ht
  have hw : s'.width = s.width := ht
  have p0 : ∀ {l : Layer}, l.kind = .softmin → ∀ b, l.kind.parShape b s.width s'.width = none := fun hk b => by rw [hk]; rfl
  refine h.passed ho (l' := l) (x' := fun i j => softmaxAt s.width (fun k => -x i k) j) ?_ (full_none (p0 hk)) (by rw [hk]; intro h0; cases h0) ?_ ?_
  · simp only [forward, hk, softminForward_ofFn e.g N _ x ho, bind_ok', pure_ok, hw]
  · intro _ _ i j _ _
    refine lt_of_lt_of_le low_neg ?_
    unfold softmaxAt
    positivity
  · intro _ _ _ e' gr gIn hg
    rw [hw]
    cases hf : l.first
    · refine ⟨l, ?gi, ?eq, ?a, full_none (p0 hk), graded_none (p0 hk)⟩
      case eq =>
        simp only [backprop, hk, hf]
        rw [softminBackward_ofFn e'.g N _ x gr hg, bind_ok']
        rfl
      case a => exact fun _ => Mat.shape_ofFn _ _ _
    · refine ⟨l, gIn, ?_, (fun h0 => by cases h0), full_none (p0 hk), graded_none (p0 hk)⟩
      simp only [backprop, hk, hf, softminBackward]
      rfl

theorem works_noise (h : l.Fits first s s') {r : ℝ} (hk : l.kind = .gaussianNoise r ∨ l.kind = .uniformNoise r) (ho : o.WF) : Works first s s' l e N x o := by
  have ht := h.takes
  have hw : s'.width = s.width ∧ s'.floor = false := by rcases hk with hk | hk <;> (rw [hk] at ht; exact ht)
  obtain ⟨hw, hfl⟩ := hw
  have p0 : ∀ b, l.kind.parShape b s.width s'.width = none := fun b => by rcases hk with hk | hk <;> (rw [hk]; rfl)
  refine h.passed ho (l' := l) (x' := fun i j => if l.train = true ∧ 0 < r then x i j + e.draw (i * s.width + j) else x i j) ?_ (full_none p0)
    (by rcases hk with hk | hk <;> (rw [hk]; intro h0; cases h0)) (by rw [hfl]; intro h0; cases h0) ?_
  · rcases hk with hk | hk <;> simp only [forward, hk, noiseForward_ofFn e.g l.train r e.draw ho N _ x, bind_ok', pure_ok, hw]
  · intro _ _ _ e' gr gIn hg
    rw [hw]
    refine ⟨l, if l.first = true then gIn else Mat.ofFn N s.width gr, ?_, fun h0 => Shape.ite h0, full_none p0, graded_none p0⟩
    rcases hk with hk | hk <;> simp only [backprop, hk, noiseBackward] <;> cases l.first <;>
      simp only [Bool.false_eq_true, if_false, if_true, Mat.assign_ofFn e'.g hg, bind_ok', pure_ok]

theorem works_dropout (h : l.Fits first s s') {r : ℝ} (hk : l.kind = .dropout r) (ho : o.WF) : Works first s s' l e N x o := by
  have ht := h.takes
  rw [hk] at ht
  obtain ⟨hw, hfl⟩ := ht
  have p0 : ∀ {l : Layer}, l.kind = .dropout r → ∀ b, l.kind.parShape b s.width s'.width = none := fun hk b => by rw [hk]; rfl
  have hm : ∃ (m : Mat ℝ) (y : Nat → Nat → ℝ), dropoutForward e.g e.lim l.train r e.rng l.mask (Mat.ofFn N s.width x) o = .ok (m, Mat.ofFn N s.width y) ∧
      (l.train = true → r ≠ 0 → ∃ f, m = Mat.ofFn N s.width f) := by
    by_cases h0 : l.train = true ∧ r ≠ 0
    · rw [h0.1]
      exact ⟨_, _, dropoutForward_train e.g e.lim r h0.2 e.rng h.valid.mask ho N _ x, fun _ _ => ⟨_, rfl⟩⟩
    · have h1 : l.train = false ∨ r = 0 := by
        rcases Bool.eq_false_or_eq_true l.train with ht | ht
        · exact .inr (by by_contra hr; exact h0 ⟨ht, hr⟩)
        · exact .inl ht
      exact ⟨_, _, dropoutForward_test e.g e.lim _ r h1 e.rng ho N _ x, fun h2 h3 => absurd ⟨h2, h3⟩ h0⟩
  obtain ⟨m, y, hm, hm'⟩ := hm
  refine h.passed ho (l' := { l with mask := m }) (x' := y) ?_ (full_none (p0 hk)) (by rw [hk]; intro h0; cases h0) (by rw [hfl]; intro h0; cases h0) ?_
  · simp only [forward, hk, hm, bind_ok', pure_ok, hw]
  · intro htr _ _ e' gr gIn hg
    rw [hw]
    cases hf : l.first
    · by_cases hr : r = 0
      · refine ⟨{ l with mask := m }, Mat.ofFn N s.width gr, ?_, fun _ => Mat.shape_ofFn _ _ _, full_none (p0 hk), graded_none (p0 hk)⟩
        simp only [backprop, hk, hf, dropoutBackward, hr, Bool.false_eq_true, if_false, ne_eq, not_true_eq_false, Mat.assign_ofFn e'.g hg, bind_ok', pure_ok]
      · obtain ⟨f, rfl⟩ := hm' htr hr
        refine ⟨{ l with mask := Mat.ofFn N s.width f }, ?gi, ?eq, ?a, full_none (p0 hk), graded_none (p0 hk)⟩
        case eq =>
          simp only [backprop, hk, hf, dropoutBackward_ofFn e'.g r hr hg N _ f gr, bind_ok']
          rfl
        case a => exact fun _ => Mat.shape_ofFn _ _ _
    · refine ⟨{ l with mask := m }, gIn, ?_, fun h0 => ?_, full_none (p0 hk), graded_none (p0 hk)⟩
      · simp only [backprop, hk, hf, dropoutBackward]
        rfl
      · cases h0

theorem works_prelu (h : l.Fits first s s') (hk : l.kind = .prelu) (ho : o.WF) : Works first s s' l e N x o := by
  have ht := h.takes
  rw [hk] at ht
  obtain ⟨hw, hfl⟩ := ht
  have hC := h.pos.1
  have p0 : ∀ {l : Layer}, l.kind = .prelu → l.kind.parShape true s.width s'.width = none := fun hk => by rw [hk]; rfl
  have p1 : ∀ {l : Layer}, l.kind = .prelu → l.kind.parShape false s.width s'.width = some (1, s.width) := fun hk => by rw [hk]; rfl
  have hb : ∃ (w gw y : Nat → Nat → ℝ), preluForward e.g l.weight l.gradWeight (Mat.ofFn N s.width x) o =
      .ok (Mat.ofFn 1 s.width w, Mat.ofFn 1 s.width gw, Mat.ofFn N s.width y) := by
    rcases h.params with hf | hf
    · have hgr := h.grads (by rw [hk]; rfl) hf
      obtain ⟨f, hf⟩ := (hf false _ (p1 hk)).exists_ofFn
      obtain ⟨f', hf'⟩ := (hgr false _ (p1 hk)).exists_ofFn
      have hf : l.weight = _ := hf
      have hf' : l.gradWeight = _ := hf'
      rw [hf, hf']
      exact ⟨_, _, _, preluForward_ofFn e.g ho N _ hC x f⟩
    · obtain ⟨d, hd⟩ := Mat.resize_ofFn e.g h.valid.gradWeight 1 s.width
      exact ⟨_, d, _, (preluForward_first e.g h.valid.weight (hf.2 false) ho N _ hC x).trans (by rw [hd])⟩
  obtain ⟨w, gw, y, hb⟩ := hb
  refine h.passed ho (l' := { l with weight := Mat.ofFn 1 s.width w, gradWeight := Mat.ofFn 1 s.width gw }) (x' := y) ?_
    (full_weight (p0 hk) (p1 hk) (Mat.shape_ofFn _ _ _)) (fun _ => graded_weight (p0 hk) (p1 hk) (Mat.shape_ofFn _ _ _)) (by rw [hfl]; intro h0; cases h0) ?_
  · simp only [forward, hk, hb, bind_ok', pure_ok, hw]
  · intro _ _ _ e' gr gIn hg
    rw [hw]
    refine ⟨?l, ?gi, ?eq, ?a, ?b, ?c⟩
    case eq =>
      simp only [backprop, hk]
      rw [preluBackward_ofFn e'.g _ hg N _ w gw x gr, bind_ok']
      rfl
    case a => exact fun h0 => Shape.ite h0
    case b => exact full_weight (p0 (by first | exact hk | rfl)) (p1 (by first | exact hk | rfl)) (Mat.shape_ofFn _ _ _)
    case c => exact graded_weight (p0 (by first | exact hk | rfl)) (p1 (by first | exact hk | rfl)) (Mat.shape_ofFn _ _ _)

theorem works_pelu (h : l.Fits first s s') (hk : l.kind = .pelu) (ho : o.WF) : Works first s s' l e N x o := by
  have ht := h.takes
  rw [hk] at ht
  obtain ⟨hw, hfl⟩ := ht
  have hC := h.pos.1
  have p0 : ∀ {l : Layer}, l.kind = .pelu → l.kind.parShape true s.width s'.width = none := fun hk => by rw [hk]; rfl
  have p1 : ∀ {l : Layer}, l.kind = .pelu → l.kind.parShape false s.width s'.width = some (2, s.width) := fun hk => by rw [hk]; rfl
  have hb : ∃ (w gw y : Nat → Nat → ℝ), peluForward e.g l.weight l.gradWeight (Mat.ofFn N s.width x) o =
      .ok (Mat.ofFn 2 s.width w, Mat.ofFn 2 s.width gw, Mat.ofFn N s.width y) := by
    rcases h.params with hf | hf
    · have hgr := h.grads (by rw [hk]; rfl) hf
      obtain ⟨f, hf⟩ := (hf false _ (p1 hk)).exists_ofFn
      obtain ⟨f', hf'⟩ := (hgr false _ (p1 hk)).exists_ofFn
      have hf : l.weight = _ := hf
      have hf' : l.gradWeight = _ := hf'
      rw [hf, hf']
      exact ⟨_, _, _, peluForward_ofFn e.g ho N _ hC x f⟩
    · obtain ⟨d, hd⟩ := Mat.resize_ofFn e.g h.valid.gradWeight 2 s.width
      exact ⟨_, d, _, (peluForward_first e.g h.valid.weight (hf.2 false) ho N _ hC x).trans (by rw [hd])⟩
  obtain ⟨w, gw, y, hb⟩ := hb
  refine h.passed ho (l' := { l with weight := Mat.ofFn 2 s.width w, gradWeight := Mat.ofFn 2 s.width gw }) (x' := y) ?_
    (full_weight (p0 hk) (p1 hk) (Mat.shape_ofFn _ _ _)) (fun _ => graded_weight (p0 hk) (p1 hk) (Mat.shape_ofFn _ _ _)) (by rw [hfl]; intro h0; cases h0) ?_
  · simp only [forward, hk, hb, bind_ok', pure_ok, hw]
  · intro _ _ _ e' gr gIn hg
    rw [hw]
    refine ⟨?l, ?gi, ?eq, ?a, ?b, ?c⟩
    case eq =>
      simp only [backprop, hk]
      rw [peluBackward_ofFn e'.g _ hg N _ w gw x gr, bind_ok']
      rfl
    case a => exact fun h0 => Shape.ite h0
    case b => exact full_weight (p0 (by first | exact hk | rfl)) (p1 (by first | exact hk | rfl)) (Mat.shape_ofFn _ _ _)
    case c => exact graded_weight (p0 (by first | exact hk | rfl)) (p1 (by first | exact hk | rfl)) (Mat.shape_ofFn _ _ _)

theorem works_terelu (h : l.Fits first s s') (hk : l.kind = .terelu) (ho : o.WF) : Works first s s' l e N x o := by
  have ht := h.takes
  rw [hk] at ht
  obtain ⟨hw, hfl⟩ := ht
  have hC := h.pos.1
  have p0 : ∀ {l : Layer}, l.kind = .terelu → l.kind.parShape true s.width s'.width = none := fun hk => by rw [hk]; rfl
  have p1 : ∀ {l : Layer}, l.kind = .terelu → l.kind.parShape false s.width s'.width = some (1, s.width) := fun hk => by rw [hk]; rfl
  have hb : ∃ (w gw y : Nat → Nat → ℝ), tereluForward e.g 1 1 l.weight l.gradWeight (Mat.ofFn N s.width x) o =
      .ok (Mat.ofFn 1 s.width w, Mat.ofFn 1 s.width gw, Mat.ofFn N s.width y) := by
    rcases h.params with hf | hf
    · have hgr := h.grads (by rw [hk]; rfl) hf
      obtain ⟨f, hf⟩ := (hf false _ (p1 hk)).exists_ofFn
      obtain ⟨f', hf'⟩ := (hgr false _ (p1 hk)).exists_ofFn
      have hf : l.weight = _ := hf
      have hf' : l.gradWeight = _ := hf'
      rw [hf, hf']
      exact ⟨_, _, _, tereluForward_ofFn e.g 1 1 ho N _ hC x f⟩
    · obtain ⟨d, hd⟩ := Mat.resize_ofFn e.g h.valid.gradWeight 1 s.width
      exact ⟨_, d, _, (tereluForward_first e.g 1 1 h.valid.weight (hf.2 false) ho N _ hC x).trans (by rw [hd])⟩
  obtain ⟨w, gw, y, hb⟩ := hb
  refine h.passed ho (l' := { l with weight := Mat.ofFn 1 s.width w, gradWeight := Mat.ofFn 1 s.width gw }) (x' := y) ?_
    (full_weight (p0 hk) (p1 hk) (Mat.shape_ofFn _ _ _)) (fun _ => graded_weight (p0 hk) (p1 hk) (Mat.shape_ofFn _ _ _)) (by rw [hfl]; intro h0; cases h0) ?_
  · simp only [forward, hk, hb, bind_ok', pure_ok, hw]
  · intro _ _ _ e' gr gIn hg
    rw [hw]
    refine ⟨?l, ?gi, ?eq, ?a, ?b, ?c⟩
    case eq =>
      simp only [backprop, hk]
      rw [tereluBackward_ofFn e'.g 1 1 _ hg N _ w gw x gr, bind_ok']
      rfl
    case a => exact fun h0 => Shape.ite h0
    case b => exact full_weight (p0 (by first | exact hk | rfl)) (p1 (by first | exact hk | rfl)) (Mat.shape_ofFn _ _ _)
    case c => exact graded_weight (p0 (by first | exact hk | rfl)) (p1 (by first | exact hk | rfl)) (Mat.shape_ofFn _ _ _)

theorem works_rrelu (h : l.Fits first s s') {a₁ a₂ : ℝ} (hk : l.kind = .rrelu a₁ a₂) (ho : o.WF) : Works first s s' l e N x o := by
  have ht := h.takes
  rw [hk] at ht
  obtain ⟨hw, hfl, hle⟩ := ht
  have p0 : ∀ {l : Layer}, l.kind = .rrelu a₁ a₂ → ∀ b, l.kind.parShape b s.width s'.width = none := fun hk b => by rw [hk]; rfl
  have hm : ∃ (m : Mat ℝ) (y : Nat → Nat → ℝ), rreluForward e.g a₁ a₂ l.train e.draw l.mask (Mat.ofFn N s.width x) o = .ok (m, Mat.ofFn N s.width y) ∧
      (l.train = true → ∃ f, m = Mat.ofFn N s.width f) := by
    cases htr : l.train
    · exact ⟨_, _, rreluForward_test e.g a₁ a₂ e.draw ho N _ x, fun h => by cases h⟩
    · exact ⟨_, _, rreluForward_train e.g a₁ a₂ hle e.draw h.valid.mask ho N _ x, fun _ => ⟨_, rfl⟩⟩
  obtain ⟨m, y, hm, hm'⟩ := hm
  refine h.passed ho (l' := { l with mask := m }) (x' := y) ?_ (full_none (p0 hk)) (by rw [hk]; intro h0; cases h0) (by rw [hfl]; intro h0; cases h0) ?_
  · simp only [forward, hk, hm, bind_ok', pure_ok, hw]
  · intro htr _ _ e' gr gIn hg
    rw [hw]
    obtain ⟨f, rfl⟩ := hm' htr
    cases hf : l.first
    · refine ⟨{ l with mask := Mat.ofFn N s.width f }, ?gi, ?eq, ?a, full_none (p0 hk), graded_none (p0 hk)⟩
      case eq =>
        simp only [backprop, hk, hf, rreluBackward_ofFn e'.g hg N _ f x gr, bind_ok']
        rfl
      case a => exact fun _ => Mat.shape_ofFn _ _ _
    · refine ⟨{ l with mask := Mat.ofFn N s.width f }, gIn, ?_, fun h0 => ?_, full_none (p0 hk), graded_none (p0 hk)⟩
      · simp only [backprop, hk, hf, rreluBackward]
        rfl
      · cases h0

end Layer

end BeeDNN
