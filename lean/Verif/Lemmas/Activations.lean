import Verif.Spec.Activations
import Mathlib.Tactic.Ring
import Mathlib.Tactic.FieldSimp
import Mathlib.Tactic.Linarith
import Mathlib.Tactic.Positivity
import Mathlib.Tactic.NormNum

/-! # Derivatives of the activation functions -/

namespace BeeDNN
open Set Filter Topology

/-- On the region `S`, `d` is the derivative of `f` wherever `f` is differentiable, and `f` is differentiable
outside `K`. -/
def GoodOn (S : ℝ → Prop) (f d : ℝ → ℝ) (K : List ℝ) : Prop :=
  ∀ x, S x → (x ∉ K → HasDerivAt f (d x) x) ∧ (DifferentiableAt ℝ f x → HasDerivAt f (d x) x)

theorem GoodOn.leaf {S : ℝ → Prop} {f d : ℝ → ℝ} (h : ∀ x, S x → HasDerivAt f (d x) x) : GoodOn S f d [] :=
  fun x hx => ⟨fun _ => h x hx, fun _ => h x hx⟩

theorem GoodOn.mono {S : ℝ → Prop} {f d : ℝ → ℝ} {K K' : List ℝ} (h : GoodOn S f d K) (hK : K ⊆ K') :
    GoodOn S f d K' :=
  fun x hx => ⟨fun hn => (h x hx).1 (fun hk => hn (hK hk)), (h x hx).2⟩

theorem GoodOn.congr {S : ℝ → Prop} {f f' d d' : ℝ → ℝ} {K : List ℝ} (h : GoodOn S f' d' K)
    (hf : ∀ x, f x = f' x) (hd : ∀ x, d x = d' x) : GoodOn S f d K := by
  have e1 : f = f' := funext hf
  have e2 : d = d' := funext hd
  rw [e1, e2]; exact h

theorem hasDerivAt_right {f h : ℝ → ℝ} {d a : ℝ} (hf : DifferentiableAt ℝ f a)
    (he : ∀ y, a ≤ y → f y = h y) (hh : HasDerivAt h d a) : HasDerivAt f d a := by
  have h1 := hf.hasDerivAt.hasDerivWithinAt (s := Ici a)
  have h2 : HasDerivWithinAt f d (Ici a) a :=
    (hh.hasDerivWithinAt (s := Ici a)).congr (fun y hy => he y hy) (he a le_rfl)
  rw [← (uniqueDiffOn_Ici a a self_mem_Ici).eq_deriv _ h1 h2]
  exact hf.hasDerivAt

theorem hasDerivAt_left {f h : ℝ → ℝ} {d a : ℝ} (hf : DifferentiableAt ℝ f a)
    (he : ∀ y, y ≤ a → f y = h y) (hh : HasDerivAt h d a) : HasDerivAt f d a := by
  have h1 := hf.hasDerivAt.hasDerivWithinAt (s := Iic a)
  have h2 : HasDerivWithinAt f d (Iic a) a :=
    (hh.hasDerivWithinAt (s := Iic a)).congr (fun y hy => he y hy) (he a le_rfl)
  rw [← (uniqueDiffOn_Iic a a self_mem_Iic).eq_deriv _ h1 h2]
  exact hf.hasDerivAt

/-- Two formulas, the switch point belongs to the right one. -/
theorem GoodOn.ite_ge {S : ℝ → Prop} {f1 f2 d1 d2 : ℝ → ℝ} {K1 K2 : List ℝ} {a : ℝ}
    (h1 : GoodOn (fun x => S x ∧ x < a) f1 d1 K1) (h2 : GoodOn (fun x => S x ∧ a ≤ x) f2 d2 K2)
    (ha : a ∉ K2) :
    GoodOn S (fun x => if x ≥ a then f2 x else f1 x) (fun x => if x ≥ a then d2 x else d1 x)
      (K1 ++ a :: K2) := by
  intro x hx
  rcases lt_trichotomy x a with h | h | h
  · have e : (fun x => if x ≥ a then f2 x else f1 x) =ᶠ[𝓝 x] f1 := by
      filter_upwards [Iio_mem_nhds h] with y hy
      rw [if_neg (not_le.mpr hy)]
    simp only [if_neg (not_le.mpr h)]
    refine ⟨fun hn => ?_, fun hd => ?_⟩
    · exact ((h1 x ⟨hx, h⟩).1 (fun hk => hn (by simp [hk]))).congr_of_eventuallyEq e
    · exact ((h1 x ⟨hx, h⟩).2 (hd.congr_of_eventuallyEq e.symm)).congr_of_eventuallyEq e
  · subst h
    refine ⟨fun hn => absurd (by simp) hn, fun hd => ?_⟩
    simp only [ge_iff_le, le_refl, if_true]
    exact hasDerivAt_right hd (fun y hy => by simp [hy]) ((h2 x ⟨hx, le_rfl⟩).1 ha)
  · have e : (fun x => if x ≥ a then f2 x else f1 x) =ᶠ[𝓝 x] f2 := by
      filter_upwards [Ioi_mem_nhds h] with y hy
      rw [if_pos (le_of_lt hy)]
    simp only [if_pos (le_of_lt h)]
    refine ⟨fun hn => ?_, fun hd => ?_⟩
    · exact ((h2 x ⟨hx, h.le⟩).1 (fun hk => hn (by simp [hk]))).congr_of_eventuallyEq e
    · exact ((h2 x ⟨hx, h.le⟩).2 (hd.congr_of_eventuallyEq e.symm)).congr_of_eventuallyEq e

/-- Two formulas, the switch point belongs to the left one. -/
theorem GoodOn.ite_gt {S : ℝ → Prop} {f1 f2 d1 d2 : ℝ → ℝ} {K1 K2 : List ℝ} {a : ℝ}
    (h1 : GoodOn (fun x => S x ∧ x ≤ a) f1 d1 K1) (h2 : GoodOn (fun x => S x ∧ a < x) f2 d2 K2)
    (ha : a ∉ K1) :
    GoodOn S (fun x => if x > a then f2 x else f1 x) (fun x => if x > a then d2 x else d1 x)
      (K1 ++ a :: K2) := by
  intro x hx
  rcases lt_trichotomy x a with h | h | h
  · have e : (fun x => if x > a then f2 x else f1 x) =ᶠ[𝓝 x] f1 := by
      filter_upwards [Iio_mem_nhds h] with y hy
      rw [if_neg (not_lt.mpr (le_of_lt hy))]
    simp only [if_neg (not_lt.mpr h.le)]
    refine ⟨fun hn => ?_, fun hd => ?_⟩
    · exact ((h1 x ⟨hx, h.le⟩).1 (fun hk => hn (by simp [hk]))).congr_of_eventuallyEq e
    · exact ((h1 x ⟨hx, h.le⟩).2 (hd.congr_of_eventuallyEq e.symm)).congr_of_eventuallyEq e
  · subst h
    refine ⟨fun hn => absurd (by simp) hn, fun hd => ?_⟩
    simp only [gt_iff_lt, lt_irrefl, if_false]
    exact hasDerivAt_left hd (fun y hy => by simp [not_lt.mpr hy]) ((h1 x ⟨hx, le_rfl⟩).1 ha)
  · have e : (fun x => if x > a then f2 x else f1 x) =ᶠ[𝓝 x] f2 := by
      filter_upwards [Ioi_mem_nhds h] with y hy
      rw [if_pos (show y > a from hy)]
    simp only [if_pos h]
    refine ⟨fun hn => ?_, fun hd => ?_⟩
    · exact ((h2 x ⟨hx, h⟩).1 (fun hk => hn (by simp [hk]))).congr_of_eventuallyEq e
    · exact ((h2 x ⟨hx, h⟩).2 (hd.congr_of_eventuallyEq e.symm)).congr_of_eventuallyEq e

theorem GoodOn.ite_lt {S : ℝ → Prop} {f1 f2 d1 d2 : ℝ → ℝ} {K1 K2 : List ℝ} {a : ℝ}
    (h1 : GoodOn (fun x => S x ∧ x < a) f1 d1 K1) (h2 : GoodOn (fun x => S x ∧ a ≤ x) f2 d2 K2)
    (ha : a ∉ K2) :
    GoodOn S (fun x => if x < a then f1 x else f2 x) (fun x => if x < a then d1 x else d2 x)
      (K1 ++ a :: K2) := by
  refine (GoodOn.ite_ge h1 h2 ha).congr ?_ ?_ <;>
  · intro x
    rcases lt_or_ge x a with h | h
    · simp [h]
    · simp [h, not_lt.mpr h]

theorem GoodOn.ite_le {S : ℝ → Prop} {f1 f2 d1 d2 : ℝ → ℝ} {K1 K2 : List ℝ} {a : ℝ}
    (h1 : GoodOn (fun x => S x ∧ x ≤ a) f1 d1 K1) (h2 : GoodOn (fun x => S x ∧ a < x) f2 d2 K2)
    (ha : a ∉ K1) :
    GoodOn S (fun x => if x ≤ a then f1 x else f2 x) (fun x => if x ≤ a then d1 x else d2 x)
      (K1 ++ a :: K2) := by
  refine (GoodOn.ite_gt h1 h2 ha).congr ?_ ?_ <;>
  · intro x
    rcases le_or_gt x a with h | h
    · simp [h, not_lt.mpr h]
    · simp [h]

/-- The statement proved for each activation. -/
def Good (A : Activation) : Prop := GoodOn (fun _ => True) A.apply A.derivation (kinks A.name)

theorem Good.of_hasDerivAt {A : Activation} (h : ∀ x, HasDerivAt A.apply (A.derivation x) x) : Good A :=
  (GoodOn.leaf (fun x _ => h x)).mono (by simp)

theorem hasDerivAt_tanh' (x : ℝ) : HasDerivAt Real.tanh (1 - Real.tanh x * Real.tanh x) x := by
  have h := (Real.hasDerivAt_sinh x).div (Real.hasDerivAt_cosh x) (Real.cosh_pos x).ne'
  have e : Real.tanh = fun y => Real.sinh y / Real.cosh y := funext Real.tanh_eq_sinh_div_cosh
  rw [e]
  refine h.congr_deriv ?_
  have := (Real.cosh_pos x).ne'
  simp only
  field_simp

theorem cosh_sq_inv (x : ℝ) : 1 - Real.tanh x * Real.tanh x = 1 / (Real.cosh x * Real.cosh x) := by
  have h := (Real.cosh_pos x).ne'
  have h2 := Real.cosh_sq x
  rw [Real.tanh_eq_sinh_div_cosh]
  field_simp
  linarith

theorem hasDerivAt_expNeg (x : ℝ) : HasDerivAt (fun y : ℝ => Real.exp (-y)) (-Real.exp (-x)) x := by
  simpa using (hasDerivAt_neg x).exp

theorem one_add_exp_ne (x : ℝ) : 1 + Real.exp x ≠ 0 := by positivity

theorem hasDerivAt_sigm (x : ℝ) :
    HasDerivAt (fun y : ℝ => 1 / (1 + Real.exp (-y))) (Real.exp (-x) / (1 + Real.exp (-x)) ^ 2) x := by
  have h := ((hasDerivAt_expNeg x).const_add 1).inv (one_add_exp_ne (-x))
  simp only [one_div]
  refine h.congr_deriv ?_
  ring

theorem hasDerivAt_swish (x : ℝ) :
    HasDerivAt (fun y : ℝ => y / (1 + Real.exp (-y)))
      ((1 + Real.exp (-x) + x * Real.exp (-x)) / (1 + Real.exp (-x)) ^ 2) x := by
  have h := (hasDerivAt_id x).div ((hasDerivAt_expNeg x).const_add 1) (one_add_exp_ne (-x))
  refine h.congr_deriv ?_
  simp only [id]
  ring

end BeeDNN
