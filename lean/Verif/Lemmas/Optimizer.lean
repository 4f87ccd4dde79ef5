import Verif.Model.Optimizer
import Verif.Spec.Optimizer
import Verif.Lemmas.LayersMisc
import Mathlib.Tactic.Ring
import Mathlib.Tactic.FieldSimp

/-! # The optimizers on matrices given entry by entry -/

set_option linter.unusedSimpArgs false

namespace BeeDNN

variable {α : Type} [Field α] [LinearOrder α]

section ops
variable (g : Nat → α) (sq : α → α) (R C : Nat) (f h : Nat → Nat → α)

theorem Mat.add_ofFn : (Mat.ofFn R C f).add (Mat.ofFn R C h) = .ok (Mat.ofFn R C (fun i j => f i j + h i j)) :=
  Mat.cwise2_ofFn _ _ _ _ _

theorem Mat.subI_ofFn : (Mat.ofFn R C f).sub (Mat.ofFn R C h) = .ok (Mat.ofFn R C (fun i j => f i j - h i j)) :=
  Mat.cwise2_ofFn _ _ _ _ _

theorem Mat.negI_ofFn : (Mat.ofFn R C f).neg = .ok (Mat.ofFn R C (fun i j => -f i j)) := Mat.cwise_ofFn _ _ _ _

theorem Mat.cwiseAbs2_ofFn : (Mat.ofFn R C f).cwiseAbs2 = .ok (Mat.ofFn R C (fun i j => f i j * f i j)) :=
  Mat.cwise_ofFn _ _ _ _

theorem Mat.cwiseSign_ofFn :
    (Mat.ofFn R C f).cwiseSign = .ok (Mat.ofFn R C (fun i j => if f i j < 0 then -1 else 1)) :=
  Mat.cwise_ofFn _ _ _ _

theorem Mat.cwiseQuotient_ofFn :
    (Mat.ofFn R C f).cwiseQuotient (Mat.ofFn R C h) = .ok (Mat.ofFn R C (fun i j => f i j / h i j)) :=
  Mat.cwise2_ofFn _ _ _ _ _

theorem Mat.cwiseMaxS_ofFn (b : α) :
    (Mat.ofFn R C f).cwiseMaxS b = .ok (Mat.ofFn R C (fun i j => max (f i j) b)) := by
  unfold Mat.cwiseMaxS
  rw [Mat.cwise_ofFn]
  congr 1
  apply Mat.ofFn_congr
  intro i j _ _
  rcases lt_or_ge (f i j) b with h1 | h1
  · rw [if_pos h1, max_eq_right h1.le]
  · rw [if_neg (not_lt.mpr h1), max_eq_left h1]

theorem Mat.cwiseMaxM_ofFn :
    (Mat.ofFn R C f).cwiseMaxM (Mat.ofFn R C h) = .ok (Mat.ofFn R C (fun i j => max (f i j) (h i j))) := by
  unfold Mat.cwiseMaxM
  rw [Mat.cwise2_ofFn]
  congr 1
  apply Mat.ofFn_congr
  intro i j _ _
  rcases lt_or_ge (f i j) (h i j) with h1 | h1
  · rw [if_pos h1, max_eq_right h1.le]
  · rw [if_neg (not_lt.mpr h1), max_eq_left h1]

theorem lerpM_ofFn (a b : α) :
    lerpM g (Mat.ofFn R C f) (Mat.ofFn R C h) a b = .ok (Mat.ofFn R C (fun i j => f i j * a + h i j * b)) := by
  have : Inhabited α := ⟨0⟩
  unfold lerpM
  simp only [Mat.scale_ofFn, bind_ok', Mat.add_ofFn, Mat.assign_ofFn g (Mat.ofFn_WF _ _ _)]

theorem ratio_ofFn (b : α) :
    ratio sq (Mat.ofFn R C f) (Mat.ofFn R C h) b =
      .ok (Mat.ofFn R C (fun i j => f i j / max (sq (h i j)) 1e-8 * b)) := by
  unfold ratio
  simp only [Mat.cwise_ofFn, bind_ok', Mat.cwiseMaxS_ofFn, Mat.cwiseQuotient_ofFn, Mat.scale_ofFn]

theorem rpropMu_eq (d old mu : α) : rpropMu (d * old) mu = rpropSize mu d old := by
  unfold rpropMu rpropSize
  split
  · dsimp only
    split
    · next h1 => rw [max_eq_right h1.le]
    · next h1 => rw [max_eq_left (not_lt.mp h1)]
  · split
    · dsimp only
      split
      · next h1 => rw [min_eq_right h1.le]
      · next h1 => rw [min_eq_left (not_lt.mp h1)]
    · rfl

theorem rpropMove_eq (w d mu : α) : rpropMove w d mu = againstSign w mu d := rfl

end ops

section loops
variable {R C : Nat}

/-- A loop updating two matrices cell by cell. -/
theorem Mat.forN_two {a b a' b' : Nat → Nat → α} {body : Nat → Mat α × Mat α → Out (Mat α × Mat α)}
    (h : ∀ i, i < R * C → ∀ x y : Nat → α, x i = a (i / C) (i % C) → y i = b (i / C) (i % C) →
      body i (Mat.flat R C x, Mat.flat R C y) =
        .ok (Mat.flat R C (fun j => if j = i then a' (i / C) (i % C) else x j),
          Mat.flat R C (fun j => if j = i then b' (i / C) (i % C) else y j))) :
    forN (R * C) body (Mat.ofFn R C a, Mat.ofFn R C b) = .ok (Mat.ofFn R C a', Mat.ofFn R C b') := by
  refine forN_closed' (fun i => (Mat.flat R C (fun j => if j < i then a' (j / C) (j % C) else a (j / C) (j % C)),
    Mat.flat R C (fun j => if j < i then b' (j / C) (j % C) else b (j / C) (j % C)))) ?_ ?_ ?_
  · simp [Mat.ofFn_eq_flat]
  · simp only [Mat.ofFn_eq_flat]
    rw [Mat.flat_congr (e := fun i => a' (i / C) (i % C)) (fun i hi => if_pos hi),
      Mat.flat_congr (e := fun i => b' (i / C) (i % C)) (fun i hi => if_pos hi)]
  · intro i hi
    rw [h i hi _ _ (by simp) (by simp)]
    congr 2
    · apply Mat.flat_congr
      intro j _
      by_cases hj : j = i
      · subst hj; simp
      · simp only [hj, if_false]
        have : (j < i + 1) = (j < i) := by simp; omega
        simp only [this]
    · apply Mat.flat_congr
      intro j _
      by_cases hj : j = i
      · subst hj; simp
      · simp only [hj, if_false]
        have : (j < i + 1) = (j < i) := by simp; omega
        simp only [this]

/-- A loop updating three matrices cell by cell. -/
theorem Mat.forN_three {a b c a' b' c' : Nat → Nat → α}
    {body : Nat → Mat α × Mat α × Mat α → Out (Mat α × Mat α × Mat α)}
    (h : ∀ i, i < R * C → ∀ x y z : Nat → α, x i = a (i / C) (i % C) → y i = b (i / C) (i % C) →
      z i = c (i / C) (i % C) →
      body i (Mat.flat R C x, Mat.flat R C y, Mat.flat R C z) =
        .ok (Mat.flat R C (fun j => if j = i then a' (i / C) (i % C) else x j),
          Mat.flat R C (fun j => if j = i then b' (i / C) (i % C) else y j),
          Mat.flat R C (fun j => if j = i then c' (i / C) (i % C) else z j))) :
    forN (R * C) body (Mat.ofFn R C a, Mat.ofFn R C b, Mat.ofFn R C c) =
      .ok (Mat.ofFn R C a', Mat.ofFn R C b', Mat.ofFn R C c') := by
  refine forN_closed' (fun i => (Mat.flat R C (fun j => if j < i then a' (j / C) (j % C) else a (j / C) (j % C)),
    Mat.flat R C (fun j => if j < i then b' (j / C) (j % C) else b (j / C) (j % C)),
    Mat.flat R C (fun j => if j < i then c' (j / C) (j % C) else c (j / C) (j % C)))) ?_ ?_ ?_
  · simp [Mat.ofFn_eq_flat]
  · simp only [Mat.ofFn_eq_flat]
    rw [Mat.flat_congr (e := fun i => a' (i / C) (i % C)) (fun i hi => if_pos hi),
      Mat.flat_congr (e := fun i => b' (i / C) (i % C)) (fun i hi => if_pos hi),
      Mat.flat_congr (e := fun i => c' (i / C) (i % C)) (fun i hi => if_pos hi)]
  · intro i hi
    rw [h i hi _ _ _ (by simp) (by simp) (by simp)]
    congr 2
    · apply Mat.flat_congr
      intro j _
      by_cases hj : j = i
      · subst hj; simp
      · simp only [hj, if_false]
        have : (j < i + 1) = (j < i) := by simp; omega
        simp only [this]
    · congr 1
      · apply Mat.flat_congr
        intro j _
        by_cases hj : j = i
        · subst hj; simp
        · simp only [hj, if_false]
          have : (j < i + 1) = (j < i) := by simp; omega
          simp only [this]
      · apply Mat.flat_congr
        intro j _
        by_cases hj : j = i
        · subst hj; simp
        · simp only [hj, if_false]
          have : (j < i + 1) = (j < i) := by simp; omega
          simp only [this]

end loops

/-- Which state matrices an optimizer keeps. -/
def OptKind.usesV : OptKind → Bool
  | .none | .step | .sgd => false
  | _ => true

def OptKind.usesM : OptKind → Bool
  | .adam | .adamW | .amsgrad | .nadam | .adamax | .rpropm | .irpropm => true
  | _ => false

def OptKind.usesVh : OptKind → Bool
  | .amsgrad => true
  | _ => false

def OptKind.usesP1 : OptKind → Bool
  | .adam | .adamW | .nadam | .adamax => true
  | _ => false

def OptKind.usesP2 : OptKind → Bool
  | .adam | .adamW | .nadam => true
  | _ => false

/-- The three state matrices are well formed. -/
def Opt.WF (o : Opt α) : Prop := o.v.WF ∧ o.m.WF ∧ o.vh.WF

/-- The state matrices of `o` hold the memory `s` and the powers of update `t`. -/
def Opt.Tracks (o : Opt α) (R C t : Nat) (s : Nat → Nat → Coord α) : Prop :=
  (o.kind.usesV → o.v = Mat.ofFn R C (fun i j => (s i j).v)) ∧
  (o.kind.usesM → o.m = Mat.ofFn R C (fun i j => (s i j).m)) ∧
  (o.kind.usesVh → o.vh = Mat.ofFn R C (fun i j => (s i j).vh)) ∧
  (o.kind.usesP1 → o.p1 = o.beta1 ^ (t + 1)) ∧ (o.kind.usesP2 → o.p2 = o.beta2 ^ (t + 1))

/-- After the "init if needed" part of `optimize` the state matrices hold the memory `s`. -/
def Opt.Prep (g : Nat → α) (o : Opt α) (R C t : Nat) (d : Nat → Nat → α) (s : Nat → Nat → Coord α) : Prop :=
  (o.kind.usesV → o.kind ≠ .momentumNg → o.kind ≠ .rpropm → o.kind ≠ .irpropm → ∀ e : Nat → Nat → α,
    zeroIf g (o.v.size = 0) o.v (Mat.ofFn R C e) = .ok (Mat.ofFn R C (fun i j => (s i j).v))) ∧
  (o.kind.usesM → o.kind ≠ .rpropm → o.kind ≠ .irpropm →
    zeroIf g (o.v.size = 0) o.m (Mat.ofFn R C d) = .ok (Mat.ofFn R C (fun i j => (s i j).m))) ∧
  (o.kind.usesVh →
    zeroIf g (o.v.size = 0) o.vh (Mat.ofFn R C d) = .ok (Mat.ofFn R C (fun i j => (s i j).vh))) ∧
  (o.kind = .momentumNg →
    copyIf g (o.v.size = 0) o.v (Mat.ofFn R C d) = .ok (Mat.ofFn R C (fun i j => (s i j).v))) ∧
  ((o.kind = .rpropm ∨ o.kind = .irpropm) →
    rpropFirst g o (Mat.ofFn R C d) =
      .ok (Mat.ofFn R C (fun i j => (s i j).v), Mat.ofFn R C (fun i j => (s i j).m))) ∧
  (o.kind.usesP1 → o.p1 = o.beta1 ^ (t + 1)) ∧ (o.kind.usesP2 → o.p2 = o.beta2 ^ (t + 1))

theorem Opt.optimize_prep (g : Nat → α) (sq ab : α → α) (o : Opt α) (R C t : Nat) (d : Nat → Nat → α)
    (s : Nat → Nat → Coord α) (hwf : o.WF) (hp : Opt.Prep g o R C t d s) :
    ∃ o' : Opt α, o.optimize g sq ab (Mat.ofFn R C (fun i j => (s i j).w)) (Mat.ofFn R C d) =
        .ok (o', Mat.ofFn R C (fun i j => (Coord.step sq ab o.hyper o.kind t (s i j) (d i j)).w)) ∧
      o'.WF ∧ o'.kind = o.kind ∧ o'.hyper = o.hyper ∧
      o'.Tracks R C (t + 1) (fun i j => Coord.step sq ab o.hyper o.kind t (s i j) (d i j)) := by
  have : Inhabited α := ⟨0⟩
  obtain ⟨hv, hm, hvh, hng, hrp, hp1, hp2⟩ := hp
  obtain ⟨wv, wm, wvh⟩ := hwf
  obtain ⟨kind, lr, mom, decay, beta1, beta2, lambda, p1, p2, v, m, vh⟩ := o
  dsimp only at *
  have hc1 : ∀ a b : Nat → Nat → α, check ((Mat.ofFn R C a).rows = (Mat.ofFn R C b).rows) = .ok () :=
    fun _ _ => check_true rfl
  have hc2 : ∀ a b : Nat → Nat → α, check ((Mat.ofFn R C a).cols = (Mat.ofFn R C b).cols) = .ok () :=
    fun _ _ => check_true rfl
  have hA : ∀ (c : Nat → Nat → α) (e : Nat → Nat → α), (Mat.ofFn R C c).assign g (Mat.ofFn R C e) =
      .ok (Mat.ofFn R C e) := fun c e => Mat.assign_ofFn g (Mat.ofFn_WF _ _ _) R C e
  cases kind
  case none =>
    exact ⟨_, rfl, ⟨wv, wm, wvh⟩, rfl, rfl, by simp [Tracks, OptKind.usesV, OptKind.usesM, OptKind.usesVh,
      OptKind.usesP1, OptKind.usesP2]⟩
  case step =>
    simp only [Opt.optimize, hc1, hc2, bind_ok', Mat.cwiseSign_ofFn, Mat.scale_ofFn, Mat.subI_ofFn, Mat.add_ofFn,
      Mat.negI_ofFn, Mat.cwiseAbs2_ofFn, Mat.cwiseQuotient_ofFn, Mat.cwiseMaxS_ofFn, Mat.cwiseMaxM_ofFn, Mat.cwise_ofFn,
      lerpM_ofFn, ratio_ofFn, Mat.divScalar_ofFn', hA, pure_ok]
    refine ⟨_, congrArg Except.ok (congrArg (Prod.mk _) (Mat.ofFn_congr fun i j _ _ => ?_)), ⟨wv, wm, wvh⟩, rfl, rfl, ?_⟩
    · simp only [Coord.step, Opt.hyper]
      first | ring1 | (ring_nf; done)
    · refine ⟨fun hu => ?_, fun hu => ?_, fun hu => ?_, fun hu => ?_, fun hu => ?_⟩ <;>
        first
        | exact absurd hu Bool.false_ne_true
        | (dsimp only; refine Mat.ofFn_congr fun i j _ _ => ?_; simp only [Coord.step, Opt.hyper]; first | rfl | ring1 | (ring_nf; done))
        | (simp only [hp1]; ring1)
        | (simp only [hp2]; ring1)
  case sgd =>
    simp only [Opt.optimize, hc1, hc2, bind_ok', Mat.cwiseSign_ofFn, Mat.scale_ofFn, Mat.subI_ofFn, Mat.add_ofFn,
      Mat.negI_ofFn, Mat.cwiseAbs2_ofFn, Mat.cwiseQuotient_ofFn, Mat.cwiseMaxS_ofFn, Mat.cwiseMaxM_ofFn, Mat.cwise_ofFn,
      lerpM_ofFn, ratio_ofFn, Mat.divScalar_ofFn', hA, pure_ok]
    refine ⟨_, congrArg Except.ok (congrArg (Prod.mk _) (Mat.ofFn_congr fun i j _ _ => ?_)), ⟨wv, wm, wvh⟩, rfl, rfl, ?_⟩
    · simp only [Coord.step, Opt.hyper]
      first | ring1 | (ring_nf; done)
    · refine ⟨fun hu => ?_, fun hu => ?_, fun hu => ?_, fun hu => ?_, fun hu => ?_⟩ <;>
        first
        | exact absurd hu Bool.false_ne_true
        | (dsimp only; refine Mat.ofFn_congr fun i j _ _ => ?_; simp only [Coord.step, Opt.hyper]; first | rfl | ring1 | (ring_nf; done))
        | (simp only [hp1]; ring1)
        | (simp only [hp2]; ring1)
  case momentum =>
    have hv := hv rfl (by decide) (by decide) (by decide)
    simp only [Opt.optimize, hc1, hc2, bind_ok', Mat.cwiseSign_ofFn, Mat.scale_ofFn, Mat.subI_ofFn, Mat.add_ofFn,
      Mat.negI_ofFn, Mat.cwiseAbs2_ofFn, Mat.cwiseQuotient_ofFn, Mat.cwiseMaxS_ofFn, Mat.cwiseMaxM_ofFn, Mat.cwise_ofFn,
      lerpM_ofFn, ratio_ofFn, Mat.divScalar_ofFn', hA, pure_ok, hv]
    refine ⟨_, congrArg Except.ok (congrArg (Prod.mk _) (Mat.ofFn_congr fun i j _ _ => ?_)), ⟨Mat.ofFn_WF _ _ _, wm, wvh⟩, rfl, rfl, ?_⟩
    · simp only [Coord.step, Opt.hyper]
      first | ring1 | (ring_nf; done)
    · refine ⟨fun hu => ?_, fun hu => ?_, fun hu => ?_, fun hu => ?_, fun hu => ?_⟩ <;>
        first
        | exact absurd hu Bool.false_ne_true
        | (dsimp only; refine Mat.ofFn_congr fun i j _ _ => ?_; simp only [Coord.step, Opt.hyper]; first | rfl | ring1 | (ring_nf; done))
        | (simp only [hp1]; ring1)
        | (simp only [hp2]; ring1)
  case momentumNg =>
    simp only [Opt.optimize, hc1, hc2, bind_ok', Mat.cwiseSign_ofFn, Mat.scale_ofFn, Mat.subI_ofFn, Mat.add_ofFn,
      Mat.negI_ofFn, Mat.cwiseAbs2_ofFn, Mat.cwiseQuotient_ofFn, Mat.cwiseMaxS_ofFn, Mat.cwiseMaxM_ofFn, Mat.cwise_ofFn,
      lerpM_ofFn, ratio_ofFn, Mat.divScalar_ofFn', hA, pure_ok, hng rfl]
    refine ⟨_, congrArg Except.ok (congrArg (Prod.mk _) (Mat.ofFn_congr fun i j _ _ => ?_)), ⟨Mat.ofFn_WF _ _ _, wm, wvh⟩, rfl, rfl, ?_⟩
    · simp only [Coord.step, Opt.hyper]
      first | ring1 | (ring_nf; done)
    · refine ⟨fun hu => ?_, fun hu => ?_, fun hu => ?_, fun hu => ?_, fun hu => ?_⟩ <;>
        first
        | exact absurd hu Bool.false_ne_true
        | (dsimp only; refine Mat.ofFn_congr fun i j _ _ => ?_; simp only [Coord.step, Opt.hyper]; first | rfl | ring1 | (ring_nf; done))
        | (simp only [hp1]; ring1)
        | (simp only [hp2]; ring1)
  case nesterov =>
    have hv := hv rfl (by decide) (by decide) (by decide)
    simp only [Opt.optimize, hc1, hc2, bind_ok', Mat.cwiseSign_ofFn, Mat.scale_ofFn, Mat.subI_ofFn, Mat.add_ofFn,
      Mat.negI_ofFn, Mat.cwiseAbs2_ofFn, Mat.cwiseQuotient_ofFn, Mat.cwiseMaxS_ofFn, Mat.cwiseMaxM_ofFn, Mat.cwise_ofFn,
      lerpM_ofFn, ratio_ofFn, Mat.divScalar_ofFn', hA, pure_ok, hv, Mat.assign_ofFn g wm]
    refine ⟨_, congrArg Except.ok (congrArg (Prod.mk _) (Mat.ofFn_congr fun i j _ _ => ?_)), ⟨Mat.ofFn_WF _ _ _, Mat.ofFn_WF _ _ _, wvh⟩, rfl, rfl, ?_⟩
    · simp only [Coord.step, Opt.hyper]
      first | ring1 | (ring_nf; done)
    · refine ⟨fun hu => ?_, fun hu => ?_, fun hu => ?_, fun hu => ?_, fun hu => ?_⟩ <;>
        first
        | exact absurd hu Bool.false_ne_true
        | (dsimp only; refine Mat.ofFn_congr fun i j _ _ => ?_; simp only [Coord.step, Opt.hyper]; first | rfl | ring1 | (ring_nf; done))
        | (simp only [hp1]; ring1)
        | (simp only [hp2]; ring1)
  case adagrad =>
    have hv := hv rfl (by decide) (by decide) (by decide)
    simp only [Opt.optimize, hc1, hc2, bind_ok', Mat.cwiseSign_ofFn, Mat.scale_ofFn, Mat.subI_ofFn, Mat.add_ofFn,
      Mat.negI_ofFn, Mat.cwiseAbs2_ofFn, Mat.cwiseQuotient_ofFn, Mat.cwiseMaxS_ofFn, Mat.cwiseMaxM_ofFn, Mat.cwise_ofFn,
      lerpM_ofFn, ratio_ofFn, Mat.divScalar_ofFn', hA, pure_ok, hv]
    refine ⟨_, congrArg Except.ok (congrArg (Prod.mk _) (Mat.ofFn_congr fun i j _ _ => ?_)), ⟨Mat.ofFn_WF _ _ _, wm, wvh⟩, rfl, rfl, ?_⟩
    · simp only [Coord.step, Opt.hyper]
      first | ring1 | (ring_nf; done)
    · refine ⟨fun hu => ?_, fun hu => ?_, fun hu => ?_, fun hu => ?_, fun hu => ?_⟩ <;>
        first
        | exact absurd hu Bool.false_ne_true
        | (dsimp only; refine Mat.ofFn_congr fun i j _ _ => ?_; simp only [Coord.step, Opt.hyper]; first | rfl | ring1 | (ring_nf; done))
        | (simp only [hp1]; ring1)
        | (simp only [hp2]; ring1)
  case rmsprop =>
    have hv := hv rfl (by decide) (by decide) (by decide)
    simp only [Opt.optimize, hc1, hc2, bind_ok', Mat.cwiseSign_ofFn, Mat.scale_ofFn, Mat.subI_ofFn, Mat.add_ofFn,
      Mat.negI_ofFn, Mat.cwiseAbs2_ofFn, Mat.cwiseQuotient_ofFn, Mat.cwiseMaxS_ofFn, Mat.cwiseMaxM_ofFn, Mat.cwise_ofFn,
      lerpM_ofFn, ratio_ofFn, Mat.divScalar_ofFn', hA, pure_ok, hv]
    refine ⟨_, congrArg Except.ok (congrArg (Prod.mk _) (Mat.ofFn_congr fun i j _ _ => ?_)), ⟨Mat.ofFn_WF _ _ _, wm, wvh⟩, rfl, rfl, ?_⟩
    · simp only [Coord.step, Opt.hyper]
      first | ring1 | (ring_nf; done)
    · refine ⟨fun hu => ?_, fun hu => ?_, fun hu => ?_, fun hu => ?_, fun hu => ?_⟩ <;>
        first
        | exact absurd hu Bool.false_ne_true
        | (dsimp only; refine Mat.ofFn_congr fun i j _ _ => ?_; simp only [Coord.step, Opt.hyper]; first | rfl | ring1 | (ring_nf; done))
        | (simp only [hp1]; ring1)
        | (simp only [hp2]; ring1)
  case adam =>
    have hv := hv rfl (by decide) (by decide) (by decide)
    have hm := hm rfl (by decide) (by decide)
    have hp1 := hp1 rfl
    have hp2 := hp2 rfl
    simp only [Opt.optimize, hc1, hc2, bind_ok', Mat.cwiseSign_ofFn, Mat.scale_ofFn, Mat.subI_ofFn, Mat.add_ofFn,
      Mat.negI_ofFn, Mat.cwiseAbs2_ofFn, Mat.cwiseQuotient_ofFn, Mat.cwiseMaxS_ofFn, Mat.cwiseMaxM_ofFn, Mat.cwise_ofFn,
      lerpM_ofFn, ratio_ofFn, Mat.divScalar_ofFn', hA, pure_ok, hv, hm]
    refine ⟨_, congrArg Except.ok (congrArg (Prod.mk _) (Mat.ofFn_congr fun i j _ _ => ?_)), ⟨Mat.ofFn_WF _ _ _, Mat.ofFn_WF _ _ _, wvh⟩, rfl, rfl, ?_⟩
    · simp only [Coord.step, Opt.hyper, hp1, hp2]
      first | ring1 | (ring_nf; done)
    · refine ⟨fun hu => ?_, fun hu => ?_, fun hu => ?_, fun hu => ?_, fun hu => ?_⟩ <;>
        first
        | exact absurd hu Bool.false_ne_true
        | (dsimp only; refine Mat.ofFn_congr fun i j _ _ => ?_; simp only [Coord.step, Opt.hyper]; first | rfl | ring1 | (ring_nf; done))
        | (simp only [hp1]; ring1)
        | (simp only [hp2]; ring1)
  case adamW =>
    have hv := hv rfl (by decide) (by decide) (by decide)
    have hm := hm rfl (by decide) (by decide)
    have hp1 := hp1 rfl
    have hp2 := hp2 rfl
    simp only [Opt.optimize, hc1, hc2, bind_ok', Mat.cwiseSign_ofFn, Mat.scale_ofFn, Mat.subI_ofFn, Mat.add_ofFn,
      Mat.negI_ofFn, Mat.cwiseAbs2_ofFn, Mat.cwiseQuotient_ofFn, Mat.cwiseMaxS_ofFn, Mat.cwiseMaxM_ofFn, Mat.cwise_ofFn,
      lerpM_ofFn, ratio_ofFn, Mat.divScalar_ofFn', hA, pure_ok, hv, hm]
    refine ⟨_, congrArg Except.ok (congrArg (Prod.mk _) (Mat.ofFn_congr fun i j _ _ => ?_)), ⟨Mat.ofFn_WF _ _ _, Mat.ofFn_WF _ _ _, wvh⟩, rfl, rfl, ?_⟩
    · simp only [Coord.step, Opt.hyper, hp1, hp2]
      first | ring1 | (ring_nf; done)
    · refine ⟨fun hu => ?_, fun hu => ?_, fun hu => ?_, fun hu => ?_, fun hu => ?_⟩ <;>
        first
        | exact absurd hu Bool.false_ne_true
        | (dsimp only; refine Mat.ofFn_congr fun i j _ _ => ?_; simp only [Coord.step, Opt.hyper]; first | rfl | ring1 | (ring_nf; done))
        | (simp only [hp1]; ring1)
        | (simp only [hp2]; ring1)
  case amsgrad =>
    have hv := hv rfl (by decide) (by decide) (by decide)
    have hm := hm rfl (by decide) (by decide)
    have hvh := hvh rfl
    simp only [Opt.optimize, hc1, hc2, bind_ok', Mat.cwiseSign_ofFn, Mat.scale_ofFn, Mat.subI_ofFn, Mat.add_ofFn,
      Mat.negI_ofFn, Mat.cwiseAbs2_ofFn, Mat.cwiseQuotient_ofFn, Mat.cwiseMaxS_ofFn, Mat.cwiseMaxM_ofFn, Mat.cwise_ofFn,
      lerpM_ofFn, ratio_ofFn, Mat.divScalar_ofFn', hA, pure_ok, hv, hm, hvh]
    refine ⟨_, congrArg Except.ok (congrArg (Prod.mk _) (Mat.ofFn_congr fun i j _ _ => ?_)), ⟨Mat.ofFn_WF _ _ _, Mat.ofFn_WF _ _ _, Mat.ofFn_WF _ _ _⟩, rfl, rfl, ?_⟩
    · simp only [Coord.step, Opt.hyper]
      first | ring1 | (ring_nf; done)
    · refine ⟨fun hu => ?_, fun hu => ?_, fun hu => ?_, fun hu => ?_, fun hu => ?_⟩ <;>
        first
        | exact absurd hu Bool.false_ne_true
        | (dsimp only; refine Mat.ofFn_congr fun i j _ _ => ?_; simp only [Coord.step, Opt.hyper]; first | rfl | ring1 | (ring_nf; done))
        | (simp only [hp1]; ring1)
        | (simp only [hp2]; ring1)
  case nadam =>
    have hv := hv rfl (by decide) (by decide) (by decide)
    have hm := hm rfl (by decide) (by decide)
    have hp1 := hp1 rfl
    have hp2 := hp2 rfl
    simp only [Opt.optimize, hc1, hc2, bind_ok', Mat.cwiseSign_ofFn, Mat.scale_ofFn, Mat.subI_ofFn, Mat.add_ofFn,
      Mat.negI_ofFn, Mat.cwiseAbs2_ofFn, Mat.cwiseQuotient_ofFn, Mat.cwiseMaxS_ofFn, Mat.cwiseMaxM_ofFn, Mat.cwise_ofFn,
      lerpM_ofFn, ratio_ofFn, Mat.divScalar_ofFn', hA, pure_ok, hv, hm]
    refine ⟨_, congrArg Except.ok (congrArg (Prod.mk _) (Mat.ofFn_congr fun i j _ _ => ?_)), ⟨Mat.ofFn_WF _ _ _, Mat.ofFn_WF _ _ _, wvh⟩, rfl, rfl, ?_⟩
    · simp only [Coord.step, Opt.hyper, hp1, hp2]
      first | ring1 | (ring_nf; done)
    · refine ⟨fun hu => ?_, fun hu => ?_, fun hu => ?_, fun hu => ?_, fun hu => ?_⟩ <;>
        first
        | exact absurd hu Bool.false_ne_true
        | (dsimp only; refine Mat.ofFn_congr fun i j _ _ => ?_; simp only [Coord.step, Opt.hyper]; first | rfl | ring1 | (ring_nf; done))
        | (simp only [hp1]; ring1)
        | (simp only [hp2]; ring1)
  case adamax =>
    have hv := hv rfl (by decide) (by decide) (by decide)
    have hm := hm rfl (by decide) (by decide)
    have hp1 := hp1 rfl
    simp only [Opt.optimize, hc1, hc2, bind_ok', Mat.cwiseSign_ofFn, Mat.scale_ofFn, Mat.subI_ofFn, Mat.add_ofFn,
      Mat.negI_ofFn, Mat.cwiseAbs2_ofFn, Mat.cwiseQuotient_ofFn, Mat.cwiseMaxS_ofFn, Mat.cwiseMaxM_ofFn, Mat.cwise_ofFn,
      lerpM_ofFn, ratio_ofFn, Mat.divScalar_ofFn', hA, pure_ok, hv, hm]
    refine ⟨_, congrArg Except.ok (congrArg (Prod.mk _) (Mat.ofFn_congr fun i j _ _ => ?_)), ⟨Mat.ofFn_WF _ _ _, Mat.ofFn_WF _ _ _, wvh⟩, rfl, rfl, ?_⟩
    · simp only [Coord.step, Opt.hyper, hp1]
      first | ring1 | (ring_nf; done)
    · refine ⟨fun hu => ?_, fun hu => ?_, fun hu => ?_, fun hu => ?_, fun hu => ?_⟩ <;>
        first
        | exact absurd hu Bool.false_ne_true
        | (dsimp only; refine Mat.ofFn_congr fun i j _ _ => ?_; simp only [Coord.step, Opt.hyper]; first | rfl | ring1 | (ring_nf; done))
        | (simp only [hp1]; ring1)
        | (simp only [hp2]; ring1)
  case rpropm =>
    simp only [Opt.optimize, hc1, hc2, bind_ok', hrp (Or.inl rfl)]
    have hsz : (Mat.ofFn R C (fun i j => (s i j).v)).size = R * C := rfl
    rw [hsz, Mat.forN_two (a' := fun i j => rpropSize (s i j).v (d i j) (s i j).m)
      (b' := fun i j => againstSign (s i j).w (rpropSize (s i j).v (d i j) (s i j).m) (d i j))]
    · simp only [bind_ok', hA, pure_ok]
      refine ⟨_, rfl, ⟨Mat.ofFn_WF _ _ _, Mat.ofFn_WF _ _ _, wvh⟩, rfl, rfl, ?_⟩
      refine ⟨fun hu => rfl, fun hu => rfl, fun hu => ?_, fun hu => ?_, fun hu => ?_⟩ <;>
        exact absurd hu Bool.false_ne_true
    · intro i hi x y hx hy
      simp only [Mat.getI_ofFn hi, Mat.getI_flat hi, Mat.setI_flat hi, bind_ok', rpropMu_eq, rpropMove_eq, hx, hy,
        pure_ok]
  case irpropm =>
    simp only [Opt.optimize, hc1, hc2, bind_ok', hrp (Or.inr rfl)]
    have hsz : (Mat.ofFn R C (fun i j => (s i j).v)).size = R * C := rfl
    rw [hsz, Mat.forN_three (a' := fun i j => rpropSize (s i j).v (d i j) (s i j).m)
      (b' := fun i j => if d i j * (s i j).m < 0 then 0 else d i j)
      (c' := fun i j => againstSign (s i j).w (rpropSize (s i j).v (d i j) (s i j).m)
        (if d i j * (s i j).m < 0 then 0 else d i j))]
    · simp only [bind_ok', hA, pure_ok]
      refine ⟨_, rfl, ⟨Mat.ofFn_WF _ _ _, Mat.ofFn_WF _ _ _, wvh⟩, rfl, rfl, ?_⟩
      refine ⟨fun hu => rfl, fun hu => rfl, fun hu => ?_, fun hu => ?_, fun hu => ?_⟩ <;>
        exact absurd hu Bool.false_ne_true
    · intro i hi x y z hx hy hz
      simp only [Mat.getI_ofFn hi, Mat.getI_flat hi, Mat.setI_flat hi, bind_ok', rpropMu_eq, rpropMove_eq, hx, hy,
        hz, pure_ok]

theorem zeroIf_fresh (g : Nat → α) {m : Mat α} (hm : m.WF) (R C : Nat) (e : Nat → Nat → α) :
    zeroIf g true m (Mat.ofFn R C e) = .ok (Mat.ofFn R C (fun _ _ => 0)) := by
  have : Inhabited α := ⟨0⟩
  unfold zeroIf
  rw [if_pos rfl, Mat.setConstantRC_ofFn g hm]
  rfl

theorem zeroIf_tracks (g : Nat → α) (c : Bool) (R C : Nat) (f e : Nat → Nat → α) (hc : c = true → R * C = 0) :
    zeroIf g c (Mat.ofFn R C f) (Mat.ofFn R C e) = .ok (Mat.ofFn R C f) := by
  unfold zeroIf
  cases c
  · rfl
  · have : Inhabited α := ⟨0⟩
    rw [if_pos rfl, Mat.setConstantRC_ofFn g (Mat.ofFn_WF _ _ _)]
    refine congrArg Except.ok (Mat.ofFn_congr (r := R) (c := C) fun i j hi hj => ?_)
    rcases Nat.mul_eq_zero.mp (hc rfl) with h | h <;> omega

/-- `init` leaves the state matrices empty. -/
def Opt.Fresh (o : Opt α) : Prop :=
  (o.kind.usesV → o.v.size = 0) ∧ (o.kind.usesM → o.kind ≠ .amsgrad → o.m.size = 0) ∧
  (o.kind.usesP1 → o.p1 = o.beta1) ∧ (o.kind.usesP2 → o.p2 = o.beta2)

theorem Opt.Fresh.prep (g : Nat → α) {o : Opt α} (hwf : o.WF) (hf : o.Fresh) (R C : Nat) (w d : Nat → Nat → α) :
    Opt.Prep g o R C 0 d (fun i j => Coord.fresh o.kind (w i j) (d i j)) := by
  have : Inhabited α := ⟨0⟩
  obtain ⟨fv, fm, fp1, fp2⟩ := hf
  obtain ⟨wv, wm, wvh⟩ := hwf
  refine ⟨fun hu h1 h2 h3 e => ?_, fun hu h2 h3 => ?_, fun hu => ?_, fun hk => ?_, fun hk => ?_, fun hu => ?_,
    fun hu => ?_⟩
  · rw [decide_eq_true (fv hu), zeroIf_fresh g wv]
    refine congrArg Except.ok (Mat.ofFn_congr fun i j _ _ => ?_)
    cases hk : o.kind <;> simp_all [Coord.fresh]
  · have hV : o.kind.usesV = true := by revert hu; cases o.kind <;> simp [OptKind.usesV, OptKind.usesM]
    rw [decide_eq_true (fv hV), zeroIf_fresh g wm]
    refine congrArg Except.ok (Mat.ofFn_congr fun i j _ _ => ?_)
    cases hk : o.kind <;> simp_all [Coord.fresh]
  · have hV : o.kind.usesV = true := by revert hu; cases o.kind <;> simp [OptKind.usesV, OptKind.usesVh]
    rw [decide_eq_true (fv hV), zeroIf_fresh g wvh]
    refine congrArg Except.ok (Mat.ofFn_congr fun i j _ _ => ?_)
    cases hk : o.kind <;> simp_all [Coord.fresh]
  · rw [decide_eq_true (fv (by rw [hk]; rfl))]
    unfold copyIf
    rw [if_pos rfl, Mat.assign_ofFn g wv]
    refine congrArg Except.ok (Mat.ofFn_congr fun i j _ _ => ?_)
    rw [hk]; rfl
  · have hM : o.m.size = 0 := by
      apply fm <;> rcases hk with hk | hk <;> rw [hk] <;> first | rfl | decide
    unfold rpropFirst
    obtain ⟨e, he⟩ := Mat.resize_ofFn g wv R C
    have hd : (Mat.ofFn R C d).rows = R ∧ (Mat.ofFn R C d).cols = C := ⟨rfl, rfl⟩
    rw [if_pos hM, hd.1, hd.2, he, Mat.setConstant_ofFn, bind_ok', Mat.assign_ofFn g wm, bind_ok', pure_ok]
    rcases hk with hk | hk <;> rw [hk] <;> rfl
  · rw [fp1 hu, zero_add, pow_one]
  · rw [fp2 hu, zero_add, pow_one]

theorem Opt.Tracks.prep (g : Nat → α) {o : Opt α} {R C t : Nat} {s : Nat → Nat → Coord α} (h : o.Tracks R C t s)
    (d : Nat → Nat → α) : Opt.Prep g o R C t d s := by
  have : Inhabited α := ⟨0⟩
  obtain ⟨hv, hm, hvh, hp1, hp2⟩ := h
  have hz : o.kind.usesV = true → ∀ b, decide (o.v.size = 0) = b → b = true → R * C = 0 := by
    intro hu b hb hb'
    rw [hb', hv hu] at hb
    exact of_decide_eq_true hb
  refine ⟨fun hu h1 h2 h3 e => ?_, fun hu h2 h3 => ?_, fun hu => ?_, fun hk => ?_, fun hk => ?_, hp1, hp2⟩
  · have := hz hu
    rw [hv hu] at this ⊢
    exact zeroIf_tracks _ _ _ _ _ _ (this _ rfl)
  · have hV : o.kind.usesV = true := by revert hu; cases o.kind <;> simp [OptKind.usesV, OptKind.usesM]
    have := hz hV
    rw [hm hu]
    exact zeroIf_tracks _ _ _ _ _ _ (this _ rfl)
  · have hV : o.kind.usesV = true := by revert hu; cases o.kind <;> simp [OptKind.usesV, OptKind.usesVh]
    have := hz hV
    rw [hvh hu]
    exact zeroIf_tracks _ _ _ _ _ _ (this _ rfl)
  · have hu : o.kind.usesV = true := by rw [hk]; rfl
    have h0 := hz hu
    have hw : o.v.WF := by rw [hv hu]; exact Mat.ofFn_WF _ _ _
    unfold copyIf
    by_cases hb : o.v.size = 0
    · rw [if_pos (by simpa using hb), Mat.assign_ofFn g hw]
      refine congrArg Except.ok (Mat.ofFn_congr fun i j hi hj => ?_)
      rcases Nat.mul_eq_zero.mp (h0 _ rfl (decide_eq_true hb)) with h | h <;> omega
    · rw [if_neg (by simpa using hb), hv hu]
  · have hu : o.kind.usesV = true := by rcases hk with hk | hk <;> rw [hk] <;> rfl
    have hu' : o.kind.usesM = true := by rcases hk with hk | hk <;> rw [hk] <;> rfl
    have wv : o.v.WF := by rw [hv hu]; exact Mat.ofFn_WF _ _ _
    have wm : o.m.WF := by rw [hm hu']; exact Mat.ofFn_WF _ _ _
    unfold rpropFirst
    by_cases hb : o.m.size = 0
    · have h0 : R * C = 0 := by rw [hm hu'] at hb; exact hb
      obtain ⟨e, he⟩ := Mat.resize_ofFn g wv R C
      have hd : (Mat.ofFn R C d).rows = R ∧ (Mat.ofFn R C d).cols = C := ⟨rfl, rfl⟩
      rw [if_pos hb, hd.1, hd.2, he, Mat.setConstant_ofFn, bind_ok', Mat.assign_ofFn g wm, bind_ok', pure_ok]
      refine congrArg Except.ok (congrArg₂ Prod.mk (Mat.ofFn_congr fun i j hi hj => ?_)
        (Mat.ofFn_congr fun i j hi hj => ?_)) <;>
        rcases Nat.mul_eq_zero.mp h0 with h | h <;> omega
    · rw [if_neg hb, ← hv hu, ← hm hu']

/-- A run of the matrix optimizer is, cell by cell, a run of the scalar one. -/
theorem Opt.run_fresh (g : Nat → α) (sq ab : α → α) {o : Opt α} (hwf : o.WF) (hf : o.Fresh) (R C : Nat)
    (w : Nat → Nat → α) (D : Nat → Nat → Nat → α) (n : Nat) :
    ∃ o' : Opt α, o.run g sq ab (Mat.ofFn R C w) (fun t => Mat.ofFn R C (D t)) n =
        .ok (o', Mat.ofFn R C (fun i j => (Coord.run sq ab o.hyper o.kind (w i j) (fun t => D t i j) n).w)) ∧
      o'.WF ∧ o'.kind = o.kind ∧ o'.hyper = o.hyper ∧
      (0 < n → o'.Tracks R C n (fun i j => Coord.run sq ab o.hyper o.kind (w i j) (fun t => D t i j) n)) := by
  induction n with
  | zero =>
    refine ⟨o, ?_, hwf, rfl, rfl, fun h => absurd h (lt_irrefl _)⟩
    unfold Opt.run
    rw [forN_zero]
    refine congrArg Except.ok (congrArg (Prod.mk _) (Mat.ofFn_congr fun i j _ _ => ?_))
    unfold Coord.run Coord.fresh
    cases o.kind <;> rfl
  | succ n ih =>
    obtain ⟨o1, h1, wf1, hk1, hh1, ht1⟩ := ih
    have hprep : Opt.Prep g o1 R C n (D n)
        (fun i j => Coord.run sq ab o.hyper o.kind (w i j) (fun t => D t i j) n) := by
      rcases Nat.eq_zero_or_pos n with h0 | h0
      · subst h0
        have : o1 = o := by
          unfold Opt.run at h1
          rw [forN_zero] at h1
          exact (congrArg Prod.fst (Except.ok.inj h1)).symm
        subst this
        exact Opt.Fresh.prep g hwf hf R C w (D 0)
      · exact (ht1 h0).prep g (D n)
    obtain ⟨o2, h2, wf2, hk2, hh2, ht2⟩ := Opt.optimize_prep g sq ab o1 R C n (D n) _ wf1 hprep
    refine ⟨o2, ?_, wf2, hk2.trans hk1, hh2.trans hh1, fun _ => ?_⟩
    · unfold Opt.run at h1 ⊢
      rw [forN_succ, h1]
      show optimize g sq ab o1 _ (Mat.ofFn R C (D n)) = _
      rw [h2, hk1, hh1]
      rfl
    · rw [hk1, hh1] at ht2
      exact ht2

theorem Mat.resize_zero_WF {α : Type} [Inhabited α] (g : Nat → α) {m : Mat α} (h : m.WF) :
    (m.resize g 0 0).WF ∧ (m.resize g 0 0).size = 0 := by
  obtain ⟨d, hd⟩ := Mat.resize_ofFn g h 0 0
  rw [hd]
  exact ⟨Mat.ofFn_WF _ _ _, rfl⟩

theorem Opt.init_WF (g : Nat → α) {o : Opt α} (h : o.WF) : (o.init g).WF := by
  have : Inhabited α := ⟨0⟩
  obtain ⟨h1, h2, h3⟩ := h
  have r1 := (Mat.resize_zero_WF g h1).1
  have r2 := (Mat.resize_zero_WF g h2).1
  unfold Opt.init
  cases hk : o.kind <;> simp only [] <;> exact ⟨by assumption, by assumption, by assumption⟩

theorem Opt.init_kind (g : Nat → α) (o : Opt α) : (o.init g).kind = o.kind := by
  unfold Opt.init
  cases hk : o.kind <;> simp [hk]

theorem Opt.init_fresh (g : Nat → α) {o : Opt α} (h : o.WF) : (o.init g).Fresh := by
  have : Inhabited α := ⟨0⟩
  obtain ⟨h1, h2, h3⟩ := h
  have r1 := (Mat.resize_zero_WF g h1).2
  have r2 := (Mat.resize_zero_WF g h2).2
  unfold Opt.Fresh
  rw [Opt.init_kind]
  unfold Opt.init
  cases hk : o.kind <;> simp [OptKind.usesV, OptKind.usesM, OptKind.usesP1, OptKind.usesP2, r1, r2]

end BeeDNN
