import Verif.Lemmas.Activations

/-! # Each activation in turn -/

namespace BeeDNN
open Set Filter Topology
namespace Act

/-- closes side goals `a ∉ []` etc. -/
macro "kk" : tactic => `(tactic| first | (simp; done) | (norm_num; done))

theorem hasDerivAt_mulC (c x : ℝ) : HasDerivAt (fun y : ℝ => c * y) c x := by
  simpa using (hasDerivAt_id x).const_mul c
theorem hasDerivAt_Cmul (c x : ℝ) : HasDerivAt (fun y : ℝ => y * c) c x := by
  simpa using (hasDerivAt_id x).mul_const c
theorem hasDerivAt_sq (x : ℝ) : HasDerivAt (fun y : ℝ => y * y) (x + x) x :=
  ((hasDerivAt_id x).mul (hasDerivAt_id x)).congr_deriv (by simp)

theorem good_absolute : Good absolute := by
  refine (GoodOn.congr (GoodOn.ite_ge (a := 0) (f1 := fun x => -x) (f2 := fun x => x) (d1 := fun _ => -1)
    (d2 := fun _ => 1) (GoodOn.leaf fun x _ => hasDerivAt_neg x) (GoodOn.leaf fun x _ => hasDerivAt_id x)
    (by kk)) ?_ (fun x => rfl)).mono (fun _ h => h)
  intro x
  rcases le_or_gt 0 x with h | h
  · simp [absolute, h, abs_of_nonneg h]
  · simp [absolute, not_le.mpr h, abs_of_neg h]

theorem good_asinh : Good asinh := .of_hasDerivAt fun x =>
  (Real.hasDerivAt_arsinh x).congr_deriv (by simp [asinh, sq])

theorem good_atan : Good atan := .of_hasDerivAt fun x =>
  (Real.hasDerivAt_arctan x).congr_deriv (by simp [atan, sq])

theorem good_bipolar : Good bipolar :=
  ((GoodOn.ite_gt (a := 0) (f1 := fun _ => -1) (f2 := fun _ => 1) (d1 := fun _ => 0)
    (d2 := fun _ => 0) (GoodOn.leaf fun x _ => hasDerivAt_const x _)
    (GoodOn.leaf fun x _ => hasDerivAt_const x _) (by kk)).congr (fun x => rfl)
    (fun x => by simp [bipolar])).mono (fun _ h => h)

theorem good_binaryStep : Good binaryStep :=
  ((GoodOn.ite_gt (a := 0) (f1 := fun _ => 0) (f2 := fun _ => 1) (d1 := fun _ => 0)
    (d2 := fun _ => 0) (GoodOn.leaf fun x _ => hasDerivAt_const x _)
    (GoodOn.leaf fun x _ => hasDerivAt_const x _) (by kk)).congr (fun x => rfl)
    (fun x => by simp [binaryStep])).mono (fun _ h => h)

theorem good_bipolarSigmoid : Good bipolarSigmoid := .of_hasDerivAt fun x => by
  have h0 : Real.exp x + 1 ≠ 0 := by positivity
  have h := ((Real.hasDerivAt_exp x).sub_const 1).div ((Real.hasDerivAt_exp x).add_const 1) h0
  refine h.congr_deriv ?_
  simp only [bipolarSigmoid]
  field_simp; ring

theorem good_complementaryLogLog : Good complementaryLogLog := .of_hasDerivAt fun x => by
  have h := (Real.hasDerivAt_exp x).neg.exp.const_sub 1
  refine h.congr_deriv ?_
  simp only [complementaryLogLog, sub_eq_add_neg, Real.exp_add, Pi.neg_apply]
  ring

theorem good_divideBy256 : Good divideBy256 := .of_hasDerivAt fun x => hasDerivAt_Cmul _ x

theorem good_elish : Good elish := by
  refine ((GoodOn.ite_ge (a := 0) (f1 := fun x => (1 / Real.exp (-x) - 1) / (1 + Real.exp (-x)))
    (f2 := fun x => x / (1 + Real.exp (-x)))
    (d1 := fun x => 1 / Real.exp (-x) * (1 / (Real.exp (-x) + 1)) + Real.exp (-x) * (1 / Real.exp (-x) - 1) *
      (1 / (Real.exp (-x) + 1)) * (1 / (Real.exp (-x) + 1)))
    (d2 := fun x => 1 / (Real.exp (-x) + 1) + x * Real.exp (-x) * (1 / (Real.exp (-x) + 1)) *
      (1 / (Real.exp (-x) + 1))) (GoodOn.leaf fun x _ => ?_) (GoodOn.leaf fun x _ => ?_) (by kk)).congr
        (fun x => rfl) (fun x => rfl)).mono (fun _ h => h)
  · have h0 := one_add_exp_ne (-x)
    have h1 := (Real.exp_pos (-x)).ne'
    have h := ((((hasDerivAt_expNeg x).inv h1).sub_const 1).div ((hasDerivAt_expNeg x).const_add 1) h0)
    simp only [one_div]
    refine h.congr_deriv ?_
    simp only [Pi.inv_apply]
    have h2 : Real.exp (-x) + 1 ≠ 0 := by rw [add_comm]; exact h0
    field_simp; ring
  · refine (hasDerivAt_swish x).congr_deriv ?_
    have h0 := one_add_exp_ne (-x)
    have h2 : Real.exp (-x) + 1 ≠ 0 := by rw [add_comm]; exact h0
    field_simp; ring

theorem good_softSign : Good softSign := by
  refine ((GoodOn.ite_ge (a := 0) (f1 := fun x => x / (1 - x)) (f2 := fun x => x / (1 + x))
    (d1 := fun x => 1 / ((1 - x) * (1 - x))) (d2 := fun x => 1 / ((1 + x) * (1 + x)))
    (GoodOn.leaf fun x hx => ?_) (GoodOn.leaf fun x hx => ?_) (by kk)).congr ?_ ?_).mono (fun _ h => h)
  · have h0 : 1 - x ≠ 0 := by linarith [hx.2]
    refine ((hasDerivAt_id x).div ((hasDerivAt_id x).const_sub 1) h0).congr_deriv ?_
    simp only [id]; field_simp; ring
  · have h0 : 1 + x ≠ 0 := by linarith [hx.2]
    refine ((hasDerivAt_id x).div ((hasDerivAt_id x).const_add 1) h0).congr_deriv ?_
    simp only [id]; field_simp; ring
  all_goals
    intro x
    rcases le_or_gt 0 x with h | h
    · simp [softSign, h, abs_of_nonneg h]
    · simp [softSign, not_le.mpr h, abs_of_neg h, sub_eq_add_neg]

theorem good_elliot : Good elliot := by
  refine ((GoodOn.ite_ge (a := 0) (f1 := fun x => 0.5 * (x / (1 - x)) + 0.5)
    (f2 := fun x => 0.5 * (x / (1 + x)) + 0.5)
    (d1 := fun x => 0.5 / ((1 - x) * (1 - x))) (d2 := fun x => 0.5 / ((1 + x) * (1 + x)))
    (GoodOn.leaf fun x hx => ?_) (GoodOn.leaf fun x hx => ?_) (by kk)).congr ?_ ?_).mono (fun _ h => h)
  · have h0 : 1 - x ≠ 0 := by linarith [hx.2]
    refine ((((hasDerivAt_id x).div ((hasDerivAt_id x).const_sub 1) h0).const_mul 0.5).add_const
      0.5).congr_deriv ?_
    simp only [id]; field_simp; ring
  · have h0 : 1 + x ≠ 0 := by linarith [hx.2]
    refine ((((hasDerivAt_id x).div ((hasDerivAt_id x).const_add 1) h0).const_mul 0.5).add_const
      0.5).congr_deriv ?_
    simp only [id]; field_simp; ring
  all_goals
    intro x
    rcases le_or_gt 0 x with h | h
    · simp [elliot, h, abs_of_nonneg h]
    · simp [elliot, not_le.mpr h, abs_of_neg h, sub_eq_add_neg]

theorem good_eswish : Good eswish := .of_hasDerivAt fun x => by
  have h := (hasDerivAt_swish x).const_mul 1.75
  have e : eswish.apply = fun y => 1.75 * (y / (1 + Real.exp (-y))) := by
    funext y; simp only [eswish]; ring
  rw [e]
  refine h.congr_deriv ?_
  simp only [eswish]
  have h0 := one_add_exp_ne (-x)
  field_simp; ring

theorem good_exponential : Good exponential := .of_hasDerivAt fun x => Real.hasDerivAt_exp x

theorem good_e2ru : Good e2ru := by
  refine ((GoodOn.ite_ge (a := 0) (f1 := fun x => Real.exp (x * 2) - 0.5)
    (f2 := fun x => √(2 * 2 * x + 1) - 0.5) (d1 := fun x => 2 * Real.exp (2 * x))
    (d2 := fun x => 2 / √(2 * 2 * x + 1))
    (GoodOn.leaf fun x hx => ?_) (GoodOn.leaf fun x hx => ?_) (by kk)).congr
    (fun x => rfl) (fun x => rfl)).mono (fun _ h => h)
  · refine ((hasDerivAt_Cmul 2 x).exp.sub_const _).congr_deriv ?_
    rw [mul_comm x 2]; ring
  · have h0 : 2 * 2 * x + 1 ≠ 0 := by linarith [hx.2]
    have hp : 0 < 2 * 2 * x + 1 := by linarith [hx.2]
    refine ((((hasDerivAt_mulC (2 * 2) x).add_const 1).sqrt h0).sub_const _).congr_deriv ?_
    have := (Real.sqrt_pos.mpr hp).ne'
    field_simp

theorem good_o2ru : Good o2ru := by
  refine ((GoodOn.ite_ge (a := 0) (f1 := fun x => -√(-2 * 2 * x + 1) + 1)
    (f2 := fun x => √(2 * 2 * x + 1) - 1) (d1 := fun x => 2 / √(-2 * 2 * x + 1))
    (d2 := fun x => 2 / √(2 * 2 * x + 1))
    (GoodOn.leaf fun x hx => ?_) (GoodOn.leaf fun x hx => ?_) (by kk)).congr
    (fun x => rfl) (fun x => rfl)).mono (fun _ h => h)
  · have h0 : -2 * 2 * x + 1 ≠ 0 := by linarith [hx.2]
    have hp : 0 < -2 * 2 * x + 1 := by linarith [hx.2]
    refine ((((hasDerivAt_mulC (-2 * 2) x).add_const 1).sqrt h0).neg.add_const _).congr_deriv ?_
    have := (Real.sqrt_pos.mpr hp).ne'
    field_simp
  · have h0 : 2 * 2 * x + 1 ≠ 0 := by linarith [hx.2]
    have hp : 0 < 2 * 2 * x + 1 := by linarith [hx.2]
    refine ((((hasDerivAt_mulC (2 * 2) x).add_const 1).sqrt h0).sub_const _).congr_deriv ?_
    have := (Real.sqrt_pos.mpr hp).ne'
    field_simp

theorem good_e3ru : Good e3ru := by
  refine ((GoodOn.ite_ge (a := 0) (f1 := fun x => Real.exp (x * 3) - 1 / 3)
    (f2 := fun x => (3 * 3 * x + 1) ^ (1 / 3 : ℝ) - 1 / 3) (d1 := fun x => 3 * Real.exp (3 * x))
    (d2 := fun x => 3 * (3 * 3 * x + 1) ^ (-2 / 3 : ℝ))
    (GoodOn.leaf fun x hx => ?_) (GoodOn.leaf fun x hx => ?_) (by kk)).congr
    (fun x => rfl) (fun x => rfl)).mono (fun _ h => h)
  · refine ((hasDerivAt_Cmul 3 x).exp.sub_const _).congr_deriv ?_
    rw [mul_comm x 3]; ring
  · have h0 : 3 * 3 * x + 1 ≠ 0 := by linarith [hx.2]
    refine ((((hasDerivAt_mulC (3 * 3) x).add_const 1).rpow_const (p := 1 / 3) (Or.inl h0)).sub_const
      _).congr_deriv ?_
    rw [show (1 / 3 - 1 : ℝ) = -2 / 3 by norm_num]; ring

theorem good_o3ru : Good o3ru := by
  refine ((GoodOn.ite_ge (a := 0) (f1 := fun x => -(-3 * 3 * x + 1) ^ (1 / 3 : ℝ) + 1)
    (f2 := fun x => (3 * 3 * x + 1) ^ (1 / 3 : ℝ) - 1) (d1 := fun x => 3 * (-3 * 3 * x + 1) ^ (-2 / 3 : ℝ))
    (d2 := fun x => 3 * (3 * 3 * x + 1) ^ (-2 / 3 : ℝ))
    (GoodOn.leaf fun x hx => ?_) (GoodOn.leaf fun x hx => ?_) (by kk)).congr
    (fun x => rfl) (fun x => rfl)).mono (fun _ h => h)
  · have h0 : -3 * 3 * x + 1 ≠ 0 := by linarith [hx.2]
    refine ((((hasDerivAt_mulC (-3 * 3) x).add_const 1).rpow_const (p := 1 / 3) (Or.inl h0)).neg.add_const
      _).congr_deriv ?_
    rw [show (1 / 3 - 1 : ℝ) = -2 / 3 by norm_num]; ring
  · have h0 : 3 * 3 * x + 1 ≠ 0 := by linarith [hx.2]
    refine ((((hasDerivAt_mulC (3 * 3) x).add_const 1).rpow_const (p := 1 / 3) (Or.inl h0)).sub_const
      _).congr_deriv ?_
    rw [show (1 / 3 - 1 : ℝ) = -2 / 3 by norm_num]; ring

theorem good_fts : Good fts := by
  refine ((GoodOn.ite_lt (a := 0) (f1 := fun x => -0.2) (f2 := fun x => x / (1 + Real.exp (-x)) - 0.2)
    (d1 := fun x => 0) (d2 := fun x => 1 / (1 + Real.exp (-x)) * (x + 1 - x * (1 / (1 + Real.exp (-x)))))
    (GoodOn.leaf fun x hx => hasDerivAt_const x _) (GoodOn.leaf fun x hx => ?_) (by kk)).congr
    (fun x => rfl) (fun x => rfl)).mono (fun _ h => h)
  refine ((hasDerivAt_swish x).sub_const _).congr_deriv ?_
  have h0 := one_add_exp_ne (-x)
  field_simp; ring

theorem good_ftsPlus : Good ftsPlus := by
  refine ((GoodOn.ite_lt (a := 0) (f1 := fun x => -0.25) (f2 := fun x => x / (1 + Real.exp (-x)) - 0.25)
    (d1 := fun x => 0) (d2 := fun x => 1 / (1 + Real.exp (-x)) * (x + 1 - x * (1 / (1 + Real.exp (-x)))))
    (GoodOn.leaf fun x hx => hasDerivAt_const x _) (GoodOn.leaf fun x hx => ?_) (by kk)).congr
    (fun x => rfl) (fun x => rfl)).mono (fun _ h => h)
  refine ((hasDerivAt_swish x).sub_const _).congr_deriv ?_
  have h0 := one_add_exp_ne (-x)
  field_simp; ring

theorem good_bent : Good bent := .of_hasDerivAt fun x => by
  have hp : 0 < x * x + 1 := by nlinarith [mul_self_nonneg x]
  refine (((((hasDerivAt_sq x).add_const 1).sqrt hp.ne').sub_const 1).mul_const 0.5 |>.add
    (hasDerivAt_id x)).congr_deriv ?_
  simp only [bent]
  have := (Real.sqrt_pos.mpr hp).ne'
  field_simp; ring

theorem good_gauss : Good gauss := .of_hasDerivAt fun x => by
  have h := ((hasDerivAt_neg x).mul (hasDerivAt_id x)).exp
  refine h.congr_deriv ?_
  simp only [gauss, Pi.mul_apply, id]
  ring

theorem good_bump : Good bump := by
  refine ((GoodOn.ite_ge (a := 1) (f2 := fun _ => 0) (d2 := fun _ => 0)
    (f1 := fun x => if x > -1 then Real.exp (-1 / (1 - x * x)) else 0)
    (d1 := fun x => if x > -1 then -2 * x * Real.exp (1 / (x * x - 1)) / ((x * x - 1) * (x * x - 1)) else 0)
    (GoodOn.ite_gt (a := -1) (f1 := fun _ => 0) (d1 := fun _ => 0)
      (f2 := fun x => Real.exp (-1 / (1 - x * x)))
      (d2 := fun x => -2 * x * Real.exp (1 / (x * x - 1)) / ((x * x - 1) * (x * x - 1)))
      (GoodOn.leaf fun x _ => hasDerivAt_const x _) (GoodOn.leaf fun x hx => ?_) (by kk))
    (GoodOn.leaf fun x _ => hasDerivAt_const x _) (by kk)).congr ?_ ?_).mono (fun _ h => h)
  · have h0 : 1 - x * x ≠ 0 := by nlinarith [hx.2, hx.1.2]
    have h1 : x * x - 1 ≠ 0 := fun h => h0 (by linarith)
    have h := ((((hasDerivAt_sq x).const_sub 1).inv h0).const_mul (-1)).exp
    have e : (fun y : ℝ => Real.exp (-1 / (1 - y * y))) = fun y => Real.exp (-1 * (1 - y * y)⁻¹) := by
      funext y; rw [div_eq_mul_inv]
    rw [e]
    refine h.congr_deriv ?_
    simp only [Pi.inv_apply]
    have e2 : (-1 : ℝ) * (1 - x * x)⁻¹ = 1 / (x * x - 1) := by
      rw [show x * x - 1 = -(1 - x * x) by ring]; field_simp
    rw [e2, show (1 - x * x) = -(x * x - 1) by ring]
    field_simp; ring
  all_goals
    intro x
    simp only [bump]
    by_cases h1 : x ≥ 1
    · have : ¬ |x| < 1 := by rw [abs_lt]; intro h; linarith [h.2]
      simp [this, h1]
    · by_cases h2 : x > -1
      · have : |x| < 1 := abs_lt.mpr ⟨h2, not_le.mp h1⟩
        simp [this, h1, h2]
      · have : ¬ |x| < 1 := by rw [abs_lt]; intro h; exact h2 h.1
        simp [this, h1, h2]

theorem good_hann : Good hann := by
  refine ((GoodOn.ite_gt (a := 1) (f2 := fun _ => 0) (d2 := fun _ => 0)
    (f1 := fun x => if x ≥ -1 then Real.cos ((3.14159265359 * 0.5) * x) * Real.cos ((3.14159265359 * 0.5) * x)
      else 0)
    (d1 := fun x => if x ≥ -1 then -3.14159265359 * 0.5 * Real.sin (3.14159265359 * x) else 0)
    (GoodOn.ite_ge (a := -1) (f1 := fun _ => 0) (d1 := fun _ => 0)
      (f2 := fun x => Real.cos ((3.14159265359 * 0.5) * x) * Real.cos ((3.14159265359 * 0.5) * x))
      (d2 := fun x => -3.14159265359 * 0.5 * Real.sin (3.14159265359 * x))
      (GoodOn.leaf fun x _ => hasDerivAt_const x _) (GoodOn.leaf fun x hx => ?_) (by kk))
    (GoodOn.leaf fun x _ => hasDerivAt_const x _) (by norm_num)).congr ?_ ?_).mono (fun _ h => h)
  · have h1 := (hasDerivAt_mulC (3.14159265359 * 0.5) x).cos
    refine (h1.mul h1).congr_deriv ?_
    rw [show (3.14159265359 * x : ℝ) = 2 * (3.14159265359 * 0.5 * x) by ring, Real.sin_two_mul]
    ring
  all_goals
    intro x
    simp only [hann]
    by_cases h1 : x > 1
    · have : |x| > 1 := lt_of_lt_of_le h1 (le_abs_self x)
      simp [this, h1]
    · by_cases h2 : x ≥ -1
      · have : ¬ |x| > 1 := not_lt.mpr (abs_le.mpr ⟨h2, not_lt.mp h1⟩)
        simp [this, h1, h2]
      · have : |x| > 1 := lt_abs.mpr (Or.inr (by linarith [not_le.mp h2]))
        simp [this, h1, h2]

theorem good_hardELU : Good hardELU :=
  ((GoodOn.ite_ge (a := 0) (f2 := fun x => x) (d2 := fun _ => 1)
    (GoodOn.ite_le (a := -2) (f1 := fun _ => -1) (d1 := fun _ => 0) (f2 := fun x => x * 0.5)
      (d2 := fun _ => 0.5) (GoodOn.leaf fun x _ => hasDerivAt_const x _)
      (GoodOn.leaf fun x _ => hasDerivAt_Cmul _ x) (by kk))
    (GoodOn.leaf fun x _ => hasDerivAt_id x) (by kk)).congr (fun x => rfl) (fun x => rfl)).mono (fun _ h => h)

theorem good_hardShrink : Good hardShrink :=
  ((GoodOn.ite_gt (a := 0.5) (f2 := fun x => x) (d2 := fun _ => 1)
    (GoodOn.ite_lt (a := -0.5) (f1 := fun x => x) (d1 := fun _ => 1) (f2 := fun x => 0)
      (d2 := fun _ => 0) (GoodOn.leaf fun x _ => hasDerivAt_id x)
      (GoodOn.leaf fun x _ => hasDerivAt_const x _) (by kk))
    (GoodOn.leaf fun x _ => hasDerivAt_id x) (by norm_num)).congr (fun x => rfl) (fun x => rfl)).mono (fun _ h => h)

theorem good_softShrink : Good softShrink :=
  ((GoodOn.ite_gt (a := 0.5) (f2 := fun x => x - 0.5) (d2 := fun _ => 1)
    (GoodOn.ite_lt (a := -0.5) (f1 := fun x => x + 0.5) (d1 := fun _ => 1) (f2 := fun x => 0)
      (d2 := fun _ => 0) (GoodOn.leaf fun x _ => (hasDerivAt_id x).add_const _)
      (GoodOn.leaf fun x _ => hasDerivAt_const x _) (by kk))
    (GoodOn.leaf fun x _ => (hasDerivAt_id x).sub_const _) (by norm_num)).congr (fun x => rfl)
    (fun x => rfl)).mono (fun _ h => h)

theorem good_hardSwish : Good hardSwish := by
  refine ((GoodOn.ite_ge (a := 3) (f2 := fun x => x) (d2 := fun _ => 1)
    (GoodOn.ite_lt (a := -3) (f1 := fun _ => 0) (d1 := fun _ => 0) (f2 := fun x => x * (x + 3) * (1 / 6))
      (d2 := fun x => x * (1 / 3) + 0.5) (GoodOn.leaf fun x _ => hasDerivAt_const x _)
      (GoodOn.leaf fun x _ => ?_) (by kk))
    (GoodOn.leaf fun x _ => hasDerivAt_id x) (by kk)).congr (fun x => rfl) (fun x => rfl)).mono (fun _ h => h)
  refine (((hasDerivAt_id x).mul ((hasDerivAt_id x).add_const 3)).mul_const (1 / 6)).congr_deriv ?_
  simp only [id]; ring

theorem good_hardTanh : Good hardTanh :=
  ((GoodOn.ite_gt (a := 1) (f2 := fun _ => 1) (d2 := fun _ => 0)
    (GoodOn.ite_lt (a := -1) (f1 := fun _ => -1) (d1 := fun _ => 0) (f2 := fun x => x)
      (d2 := fun _ => 1) (GoodOn.leaf fun x _ => hasDerivAt_const x _)
      (GoodOn.leaf fun x _ => hasDerivAt_id x) (by kk))
    (GoodOn.leaf fun x _ => hasDerivAt_const x _) (by norm_num)).congr (fun x => rfl)
    (fun x => rfl)).mono (fun _ h => h)

theorem good_hardSigmoid : Good hardSigmoid :=
  ((GoodOn.ite_gt (a := 2.5) (f2 := fun _ => 1) (d2 := fun _ => 0)
    (GoodOn.ite_lt (a := -2.5) (f1 := fun _ => 0) (d1 := fun _ => 0) (f2 := fun x => 0.2 * x + 0.5)
      (d2 := fun _ => 0.2) (GoodOn.leaf fun x _ => hasDerivAt_const x _)
      (GoodOn.leaf fun x _ => (hasDerivAt_mulC _ x).add_const _) (by kk))
    (GoodOn.leaf fun x _ => hasDerivAt_const x _) (by norm_num)).congr (fun x => rfl)
    (fun x => rfl)).mono (fun _ h => h)

theorem good_identity : Good identity := .of_hasDerivAt fun x => hasDerivAt_id x

theorem good_isrlu : Good isrlu := by
  refine ((GoodOn.ite_ge (a := 0) (f1 := fun x => x / √(1 + 1 * x * x)) (f2 := fun x => x)
    (d1 := fun x => 1 / √(1 + 1 * x * x) * (1 / √(1 + 1 * x * x)) * (1 / √(1 + 1 * x * x)))
    (d2 := fun x => 1) (GoodOn.leaf fun x hx => ?_) (GoodOn.leaf fun x hx => hasDerivAt_id x) (by kk)).congr
    (fun x => rfl) (fun x => rfl)).mono (fun _ h => h)
  simp only [one_mul]
  have hp : 0 < 1 + x * x := by nlinarith [mul_self_nonneg x]
  have hs := Real.sqrt_pos.mpr hp
  refine ((hasDerivAt_id x).div (((hasDerivAt_sq x).const_add 1).sqrt hp.ne') hs.ne').congr_deriv ?_
  have h2 : √(1 + x ^ 2) ^ 2 = 1 + x ^ 2 := by rw [← sq] at hp; exact Real.sq_sqrt hp.le
  simp only [id]
  field_simp
  rw [h2]
  ring

theorem hasDerivAt_softPlus (x : ℝ) :
    HasDerivAt (fun y => log1p (Real.exp y)) (Real.exp x / (1 + Real.exp x)) x :=
  ((Real.hasDerivAt_exp x).const_add 1).log (one_add_exp_ne x)

theorem good_mish : Good mish := .of_hasDerivAt fun x => by
  have h := (hasDerivAt_id x).mul ((hasDerivAt_tanh' _).comp x (hasDerivAt_softPlus x))
  refine h.congr_deriv ?_
  simp only [mish, Function.comp, id, cosh_sq_inv]
  have h0 : Real.exp x + 1 ≠ 0 := by positivity
  have h1 := (Real.cosh_pos (log1p (Real.exp x))).ne'
  have h3 := one_add_exp_ne x
  field_simp; ring

theorem good_sin : Good sin := .of_hasDerivAt fun x => Real.hasDerivAt_sin x

theorem good_sinC : Good sinC := by
  have e : sinC.derivation = fun x => if x = 0 then 0 else Real.cos x / x - Real.sin x / (x * x) := rfl
  have key : ∀ x, x ≠ 0 → HasDerivAt sinC.apply (sinC.derivation x) x := by
    intro x hx
    have h : HasDerivAt (fun y => Real.sin y / y) (Real.cos x / x - Real.sin x / (x * x)) x := by
      refine ((Real.hasDerivAt_sin x).div (hasDerivAt_id x) hx).congr_deriv ?_
      simp only [id]; field_simp
    rw [e]
    simp only [if_neg hx]
    refine h.congr_of_eventuallyEq ?_
    filter_upwards [isOpen_ne.mem_nhds hx] with y hy
    simp only [sinC]
    rw [if_neg hy]
  intro x _
  by_cases hx : x = 0
  · subst hx
    refine ⟨fun hn => absurd (by simp [kinks, sinC]) hn, fun hd => ?_⟩
    have hev : ∀ y, sinC.apply (-y) = sinC.apply y := by
      intro y
      simp only [sinC, neg_eq_zero, Real.sin_neg, neg_div_neg_eq]
    have h1 := hd.hasDerivAt
    have h2 : HasDerivAt (fun y => sinC.apply (-y)) (deriv sinC.apply 0 * -1) 0 :=
      HasDerivAt.comp (h₂ := sinC.apply) (h := fun y => -y) (0 : ℝ) (by simpa using h1) (hasDerivAt_neg 0)
    have h3 : (fun y => sinC.apply (-y)) = sinC.apply := funext hev
    rw [h3] at h2
    have h4 := h1.unique h2
    have h5 : deriv sinC.apply 0 = 0 := by linarith
    rw [h5] at h1
    simpa [e] using h1
  · exact ⟨fun _ => key x hx, fun _ => key x hx⟩

theorem good_logSigmoid : Good logSigmoid := .of_hasDerivAt fun x => by
  have h0 : 1 / (1 + Real.exp (-x)) ≠ 0 := by positivity
  refine ((hasDerivAt_sigm x).log h0).congr_deriv ?_
  simp only [logSigmoid, Real.exp_neg]
  have := Real.exp_pos x
  field_simp
  ring

theorem good_relu : Good relu :=
  ((GoodOn.ite_gt (a := 0) (f1 := fun _ => 0) (d1 := fun _ => 0) (f2 := fun x => x) (d2 := fun _ => 1)
    (GoodOn.leaf fun x _ => hasDerivAt_const x _) (GoodOn.leaf fun x _ => hasDerivAt_id x) (by kk)).congr
    (fun x => rfl) (fun x => rfl)).mono (fun _ h => h)

theorem good_relu6 : Good relu6 :=
  ((GoodOn.ite_ge (a := 6) (f2 := fun _ => 6) (d2 := fun _ => 0)
    (GoodOn.ite_le (a := 0) (f1 := fun _ => 0) (d1 := fun _ => 0) (f2 := fun x => x)
      (d2 := fun _ => 1) (GoodOn.leaf fun x _ => hasDerivAt_const x _)
      (GoodOn.leaf fun x _ => hasDerivAt_id x) (by kk))
    (GoodOn.leaf fun x _ => hasDerivAt_const x _) (by kk)).congr (fun x => rfl)
    (fun x => rfl)).mono (fun _ h => h)

theorem good_leakyRelu : Good leakyRelu :=
  ((GoodOn.ite_ge (a := 0) (f1 := fun x => 0.01 * x) (d1 := fun _ => 0.01) (f2 := fun x => x)
    (d2 := fun _ => 1) (GoodOn.leaf fun x _ => hasDerivAt_mulC _ x) (GoodOn.leaf fun x _ => hasDerivAt_id x)
    (by kk)).congr (fun x => rfl) (fun x => rfl)).mono (fun _ h => h)

theorem good_leakyRelu256 : Good leakyRelu256 :=
  ((GoodOn.ite_ge (a := 0) (f1 := fun x => x * 0.00390625) (d1 := fun _ => 0.00390625) (f2 := fun x => x)
    (d2 := fun _ => 1) (GoodOn.leaf fun x _ => hasDerivAt_Cmul _ x) (GoodOn.leaf fun x _ => hasDerivAt_id x)
    (by kk)).congr (fun x => rfl) (fun x => rfl)).mono (fun _ h => h)

theorem good_leakyTwiceRelu6 : Good leakyTwiceRelu6 := by
  refine ((GoodOn.ite_lt (a := 0) (f1 := fun x => 0.2 * x) (d1 := fun _ => 0.2)
    (GoodOn.leaf fun x _ => hasDerivAt_mulC _ x)
    (GoodOn.ite_gt (a := 6) (f1 := fun x => x) (d1 := fun _ => 1) (f2 := fun x => 6 + 0.2 * (x - 6))
      (d2 := fun _ => 0.2) (GoodOn.leaf fun x _ => hasDerivAt_id x)
      (GoodOn.leaf fun x _ => ?_) (by kk)) (by norm_num)).congr ?_ (fun x => rfl)).mono (fun _ h => h)
  · refine ((((hasDerivAt_id x).sub_const 6).const_mul 0.2).const_add 6).congr_deriv ?_
    simp
  · intro x
    simp only [leakyTwiceRelu6]
    split_ifs with h1 h2 h3 h4
    · rfl
    · linarith
    · rfl
    · rfl
    · have : x = 6 := by linarith
      rw [this]; norm_num

theorem good_lecunTanh : Good lecunTanh := .of_hasDerivAt fun x => by
  have h := ((hasDerivAt_tanh' _).comp x (hasDerivAt_Cmul 0.666666 x)).const_mul 1.7159
  refine h.congr_deriv ?_
  simp only [lecunTanh, cosh_sq_inv]
  ring

theorem good_lisht : Good lisht := .of_hasDerivAt fun x => by
  refine ((hasDerivAt_id x).mul (hasDerivAt_tanh' x)).congr_deriv ?_
  simp only [lisht, id]; ring

theorem good_nlrelu : Good nlrelu := by
  refine ((GoodOn.ite_gt (a := 0) (f1 := fun _ => 0) (d1 := fun _ => 0) (f2 := fun x => log1p x)
    (d2 := fun x => 1 / (1 + x)) (GoodOn.leaf fun x _ => hasDerivAt_const x _)
    (GoodOn.leaf fun x hx => ?_) (by kk)).congr (fun x => rfl) (fun x => rfl)).mono (fun _ h => h)
  exact ((hasDerivAt_id x).const_add 1).log (by simp only [id]; linarith [hx.2])

theorem hasDerivAt_expm1 (x : ℝ) : HasDerivAt expm1 (Real.exp x) x :=
  (Real.hasDerivAt_exp x).sub_const 1

theorem good_elu : Good elu := by
  refine ((GoodOn.ite_ge (a := 0) (f1 := fun x => expm1 x) (d1 := fun x => expm1 x + 1) (f2 := fun x => x)
    (d2 := fun _ => 1) (GoodOn.leaf fun x _ => ?_) (GoodOn.leaf fun x _ => hasDerivAt_id x)
    (by kk)).congr (fun x => rfl) (fun x => rfl)).mono (fun _ h => h)
  exact (hasDerivAt_expm1 x).congr_deriv (by simp [expm1])

theorem good_celu : Good celu := by
  refine ((GoodOn.ite_ge (a := 0) (f1 := fun x => 1 * expm1 (x / 1)) (d1 := fun x => Real.exp (x / 1))
    (f2 := fun x => x) (d2 := fun _ => 1) (GoodOn.leaf fun x _ => ?_)
    (GoodOn.leaf fun x _ => hasDerivAt_id x) (by kk)).congr (fun x => rfl) (fun x => rfl)).mono (fun _ h => h)
  simp only [one_mul, div_one]
  exact hasDerivAt_expm1 x

theorem good_selu : Good selu := by
  refine ((GoodOn.ite_ge (a := 0) (f1 := fun x => 1.05070 * 1.67326 * expm1 x)
    (d1 := fun x => 1.05070 * 1.67326 * expm1 x + 1.05070 * 1.67326)
    (f2 := fun x => 1.05070 * x) (d2 := fun _ => 1.05070) (GoodOn.leaf fun x _ => ?_)
    (GoodOn.leaf fun x _ => hasDerivAt_mulC _ x) (by kk)).congr (fun x => rfl) (fun x => rfl)).mono (fun _ h => h)
  exact ((hasDerivAt_expm1 x).const_mul _).congr_deriv (by simp only [expm1]; ring)

theorem good_softPlus : Good softPlus := .of_hasDerivAt fun x => by
  refine (hasDerivAt_softPlus x).congr_deriv ?_
  simp only [softPlus, Real.exp_neg]
  have := Real.exp_pos x
  field_simp; ring

theorem good_sigmoid : Good sigmoid := .of_hasDerivAt fun x => by
  refine (hasDerivAt_sigm x).congr_deriv ?_
  simp only [sigmoid]
  have h0 := one_add_exp_ne (-x)
  field_simp; ring

theorem good_silu : Good silu := .of_hasDerivAt fun x => by
  refine (hasDerivAt_swish x).congr_deriv ?_
  simp only [silu]
  have h0 := one_add_exp_ne (-x)
  field_simp

theorem good_swish : Good swish := .of_hasDerivAt fun x => by
  refine (hasDerivAt_swish x).congr_deriv ?_
  simp only [swish]
  have h0 := one_add_exp_ne (-x)
  field_simp; ring

theorem good_dsilu : Good dsilu := .of_hasDerivAt fun x => by
  have hs := hasDerivAt_sigm x
  have h := hs.mul ((((hasDerivAt_id x).mul (hasDerivAt_expNeg x)).mul hs).const_add 1)
  refine h.congr_deriv ?_
  simp only [dsilu, id, Pi.mul_apply]
  have h0 := one_add_exp_ne (-x)
  field_simp; ring

theorem good_sqnl : Good sqnl := by
  refine ((GoodOn.ite_ge (a := 0)
    (GoodOn.ite_le (a := -2) (f1 := fun _ => -1) (d1 := fun _ => 0) (f2 := fun x => x + x * x * 0.25)
      (d2 := fun x => 1 + x * 0.5) (GoodOn.leaf fun x _ => hasDerivAt_const x _)
      (GoodOn.leaf fun x _ => ?_) (by kk))
    (GoodOn.ite_ge (a := 2) (f2 := fun _ => 1) (d2 := fun _ => 0) (f1 := fun x => x - x * x * 0.25)
      (d1 := fun x => 1 - x * 0.5) (GoodOn.leaf fun x _ => ?_)
      (GoodOn.leaf fun x _ => hasDerivAt_const x _) (by kk)) (by norm_num)).congr
    (fun x => rfl) (fun x => rfl)).mono (fun _ h => h)
  · refine ((hasDerivAt_id x).add ((hasDerivAt_sq x).mul_const 0.25)).congr_deriv ?_
    ring
  · refine ((hasDerivAt_id x).sub ((hasDerivAt_sq x).mul_const 0.25)).congr_deriv ?_
    ring

theorem good_smoothTanh : Good smoothTanh := by
  refine ((GoodOn.ite_gt (a := 0)
    (GoodOn.ite_lt (a := -2) (f1 := fun _ => -1) (d1 := fun _ => -0) (f2 := fun x => x + x * x * 0.25)
      (d2 := fun x => 1 + x * 0.5) (GoodOn.leaf fun x _ => by simpa using hasDerivAt_const x (-1 : ℝ))
      (GoodOn.leaf fun x _ => ?_) (by kk))
    (GoodOn.ite_gt (a := 2) (f2 := fun _ => 1) (d2 := fun _ => 0) (f1 := fun x => x - x * x * 0.25)
      (d1 := fun x => 1 - x * 0.5) (GoodOn.leaf fun x _ => ?_)
      (GoodOn.leaf fun x _ => hasDerivAt_const x _) (by kk)) (by norm_num)).congr
    (fun x => rfl) (fun x => rfl)).mono (fun _ h => h)
  · refine ((hasDerivAt_id x).add ((hasDerivAt_sq x).mul_const 0.25)).congr_deriv ?_
    ring
  · refine ((hasDerivAt_id x).sub ((hasDerivAt_sq x).mul_const 0.25)).congr_deriv ?_
    ring

theorem good_smoothSigmoid : Good smoothSigmoid := by
  refine ((GoodOn.ite_gt (a := 0)
    (GoodOn.ite_lt (a := -4) (f1 := fun _ => 0) (d1 := fun _ => 0)
      (f2 := fun x => 0.5 + x * 0.25 + x * x * (1 / 32))
      (d2 := fun x => 0.25 + x * (1 / 16)) (GoodOn.leaf fun x _ => hasDerivAt_const x _)
      (GoodOn.leaf fun x _ => ?_) (by kk))
    (GoodOn.ite_gt (a := 4) (f2 := fun _ => 1) (d2 := fun _ => 0)
      (f1 := fun x => 0.5 + x * 0.25 - x * x * (1 / 32))
      (d1 := fun x => 0.25 - x * (1 / 16)) (GoodOn.leaf fun x _ => ?_)
      (GoodOn.leaf fun x _ => hasDerivAt_const x _) (by kk)) (by norm_num)).congr
    (fun x => rfl) (fun x => rfl)).mono (fun _ h => h)
  · refine (((hasDerivAt_Cmul 0.25 x).const_add 0.5).add ((hasDerivAt_sq x).mul_const (1 / 32))).congr_deriv ?_
    ring
  · refine (((hasDerivAt_Cmul 0.25 x).const_add 0.5).sub ((hasDerivAt_sq x).mul_const (1 / 32))).congr_deriv ?_
    ring

theorem good_smoothSoftPlus : Good smoothSoftPlus :=
  ((GoodOn.ite_lt (a := 0) (f1 := fun _ => 0) (d1 := fun _ => 0)
    (GoodOn.leaf fun x _ => hasDerivAt_const x _)
    (GoodOn.ite_gt (a := 0.5) (f1 := fun x => x * x) (d1 := fun x => x + x) (f2 := fun x => x - 0.25)
      (d2 := fun _ => 1) (GoodOn.leaf fun x _ => hasDerivAt_sq x)
      (GoodOn.leaf fun x _ => (hasDerivAt_id x).sub_const _) (by kk)) (by norm_num)).congr (fun x => rfl)
      (fun x => rfl)).mono (fun _ h => h)

theorem good_tanh : Good tanh := .of_hasDerivAt fun x => hasDerivAt_tanh' x

theorem good_tanhShrink : Good tanhShrink := .of_hasDerivAt fun x =>
  ((hasDerivAt_id x).sub (hasDerivAt_tanh' x)).congr_deriv (by simp [tanhShrink])

theorem good_thresholdedRelu : Good thresholdedRelu :=
  ((GoodOn.ite_ge (a := 1) (f1 := fun _ => 0) (d1 := fun _ => 0) (f2 := fun x => x)
    (d2 := fun _ => 1) (GoodOn.leaf fun x _ => hasDerivAt_const x _) (GoodOn.leaf fun x _ => hasDerivAt_id x)
    (by kk)).congr (fun x => rfl) (fun x => rfl)).mono (fun _ h => h)

end Act
end BeeDNN
