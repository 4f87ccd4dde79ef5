import Verif.Lemmas.ActivationsGood
import Mathlib.Analysis.Real.Pi.Bounds
import Mathlib.Analysis.Calculus.Deriv.MeanValue
import Mathlib.Analysis.Complex.ExponentialBounds

/-!
# Activation functions (claims C23, C24, C25)

`getActivation s` is what `get_activation` creates for the name `s`.
-/

namespace BeeDNN

theorem mem_of_getActivation {s : String} {A : Activation} (h : getActivation s = some A) :
    (s, A) ∈ activationTable := by
  unfold getActivation at h
  rw [Option.map_eq_some_iff] at h
  obtain ⟨p, hp, rfl⟩ := h
  have h1 := List.mem_of_find?_eq_some hp
  have h2 := List.find?_some hp
  simp only [beq_iff_eq] at h2
  rw [h2]; exact h1

theorem activationTable_good : ∀ p ∈ activationTable, p.1 ∉ wrongDerivations → p.1 ∉ inexactDerivations →
    Good p.2 := by
  simp only [activationTable, List.forall_mem_cons]
  exact ⟨fun _ _ => Act.good_absolute,
    fun _ _ => Act.good_asinh,
    fun _ _ => Act.good_atan,
    fun _ _ => Act.good_bent,
    fun _ _ => Act.good_binaryStep,
    fun _ _ => Act.good_bipolar,
    fun _ _ => Act.good_bipolarSigmoid,
    fun _ _ => Act.good_bump,
    fun _ _ => Act.good_celu,
    fun _ _ => Act.good_complementaryLogLog,
    fun _ _ => Act.good_divideBy256,
    fun _ _ => Act.good_dsilu,
    fun _ _ => Act.good_elish,
    fun _ _ => Act.good_elliot,
    fun _ _ => Act.good_elu,
    fun _ _ => Act.good_eswish,
    fun _ _ => Act.good_exponential,
    fun _ _ => Act.good_e2ru,
    fun _ _ => Act.good_e3ru,
    fun _ _ => Act.good_fts,
    fun _ _ => Act.good_ftsPlus,
    fun _ _ => Act.good_gauss,
    fun _ h => absurd (by decide) h,
    fun _ _ => Act.good_hann,
    fun _ _ => Act.good_hardELU,
    fun _ _ => Act.good_hardSigmoid,
    fun _ _ => Act.good_hardShrink,
    fun _ _ => Act.good_hardSwish,
    fun _ _ => Act.good_hardTanh,
    fun _ _ => Act.good_identity,
    fun _ _ => Act.good_isrlu,
    fun _ _ => Act.good_leakyRelu,
    fun _ _ => Act.good_leakyRelu256,
    fun _ _ => Act.good_leakyTwiceRelu6,
    fun _ _ => Act.good_lecunTanh,
    fun _ _ => Act.good_lisht,
    fun h _ => absurd (by decide) h,
    fun _ _ => Act.good_logSigmoid,
    fun _ _ => Act.good_mish,
    fun _ _ => Act.good_nlrelu,
    fun _ _ => Act.good_o2ru,
    fun _ _ => Act.good_o3ru,
    fun _ _ => Act.good_smoothSigmoid,
    fun _ _ => Act.good_smoothSoftPlus,
    fun _ _ => Act.good_smoothTanh,
    fun _ _ => Act.good_relu,
    fun _ _ => Act.good_relu6,
    fun _ _ => Act.good_selu,
    fun _ _ => Act.good_sqnl,
    fun h _ => absurd (by decide) h,
    fun _ _ => Act.good_softPlus,
    fun _ _ => Act.good_sigmoid,
    fun _ _ => Act.good_silu,
    fun _ _ => Act.good_sin,
    fun h _ => absurd (by decide) h,
    fun _ _ => Act.good_sinC,
    fun _ _ => Act.good_swish,
    fun _ _ => Act.good_softShrink,
    fun _ _ => Act.good_softSign,
    fun _ h => absurd (by decide) h,
    fun _ _ => Act.good_tanh,
    fun h _ => absurd (by decide) h,
    fun _ _ => Act.good_tanhShrink,
    fun _ _ => Act.good_thresholdedRelu,
    by simp⟩

theorem activationTable_names : ∀ p ∈ activationTable, p.2.name = p.1 := by
  simp only [activationTable, List.forall_mem_cons]
  exact ⟨rfl, rfl, rfl, rfl, rfl, rfl, rfl, rfl, rfl, rfl, rfl, rfl, rfl, rfl, rfl, rfl,
    rfl, rfl, rfl, rfl, rfl, rfl, rfl, rfl, rfl, rfl, rfl, rfl, rfl, rfl, rfl, rfl,
    rfl, rfl, rfl, rfl, rfl, rfl, rfl, rfl, rfl, rfl, rfl, rfl, rfl, rfl, rfl, rfl,
    rfl, rfl, rfl, rfl, rfl, rfl, rfl, rfl, rfl, rfl, rfl, rfl, rfl, rfl, rfl, rfl, by simp⟩

/-! ## C23 -/

/-- C23: for every name other than the six listed ones, `derivation` returns the derivative of `apply` at
every point where `apply` is differentiable. -/
theorem C23_derivation (s : String) (A : Activation) (h : getActivation s = some A)
    (h1 : s ∉ ["SineReLU", "Logit", "TanhExp", "SQ-RBF"]) (h2 : s ∉ ["GELU", "SoftSteps"]) (x : ℝ)
    (hx : DifferentiableAt ℝ A.apply x) : HasDerivAt A.apply (A.derivation x) x :=
  (activationTable_good _ (mem_of_getActivation h) h1 h2 x trivial).2 hx

/-- C23: and `apply` is differentiable at all points other than the finitely many `kinks`. -/
theorem C23_differentiable (s : String) (A : Activation) (h : getActivation s = some A)
    (h1 : s ∉ ["SineReLU", "Logit", "TanhExp", "SQ-RBF"]) (h2 : s ∉ ["GELU", "SoftSteps"]) (x : ℝ)
    (hx : x ∉ kinks s) : HasDerivAt A.apply (A.derivation x) x := by
  have hn := activationTable_names _ (mem_of_getActivation h)
  have hn' : A.name = s := hn
  exact (activationTable_good _ (mem_of_getActivation h) h1 h2 x trivial).1 (by rw [hn']; exact hx)

example : ∃ A, getActivation "Tanh" = some A ∧ A.derivation 0 = 1 := ⟨Act.tanh, rfl, by simp [Act.tanh]⟩
example : ∃ A, getActivation "Relu6" = some A ∧ (3 : ℝ) ∉ kinks "Relu6" ∧ A.derivation 3 = 1 := by
  refine ⟨Act.relu6, rfl, ?_, ?_⟩
  · show (3 : ℝ) ∉ ([0, 6] : List ℝ)
    norm_num
  · simp only [Act.relu6]; norm_num

/-- C23 for `SoftSteps`: right up to the precision of the two constants. -/
theorem C23_softSteps_close (x : ℝ) :
    ∃ D, HasDerivAt Act.softSteps.apply D x ∧ |Act.softSteps.derivation x - D| ≤ 1 / 10 ^ 8 := by
  refine ⟨_, (hasDerivAt_id x).sub ((Act.hasDerivAt_Cmul 6.283185307 x).sin.mul_const 0.159154943), ?_⟩
  simp only [Act.softSteps]
  have h := Real.abs_cos_le_one (x * 6.283185307)
  have e : 1 - Real.cos (x * 6.283185307) - (1 - Real.cos (x * 6.283185307) * 6.283185307 * 0.159154943) =
      Real.cos (x * 6.283185307) * (6.283185307 * 0.159154943 - 1) := by ring
  rw [e, abs_mul]
  calc _ ≤ 1 * |(6.283185307 * 0.159154943 - 1 : ℝ)| :=
        mul_le_mul_of_nonneg_right h (abs_nonneg _)
    _ ≤ _ := by rw [one_mul, abs_le]; norm_num

theorem hasDerivAt_erf (x : ℝ) : HasDerivAt Act.erf (2 / √Real.pi * Real.exp (-x ^ 2)) x := by
  have hc : Continuous (fun t : ℝ => Real.exp (-t ^ 2)) := by fun_prop
  exact ((hc.integral_hasStrictDerivAt 0 x).hasDerivAt).const_mul _

theorem abs_mul_exp_le (x : ℝ) : |x * Real.exp (-x * x * 0.5)| ≤ 1 := by
  have h1 : Real.exp (-x * x * 0.5) * Real.exp (x * x * 0.5) = 1 := by
    rw [← Real.exp_add]; simp
  have h2 := Real.add_one_le_exp (x * x * 0.5)
  have h3 := Real.exp_pos (-x * x * 0.5)
  have h4 : |x| ≤ x * x * 0.5 + 1 := by
    rw [abs_le]; constructor <;> nlinarith [sq_nonneg (x + 1), sq_nonneg (x - 1)]
  rw [abs_mul, abs_of_pos h3]
  nlinarith

/-- C23 for `GELU`: right up to the precision of the constant used for π. -/
theorem C23_gelu_close (x : ℝ) :
    ∃ D, HasDerivAt Act.gelu.apply D x ∧ |Act.gelu.derivation x - D| ≤ 1 / 10 ^ 12 := by
  have h := ((Act.hasDerivAt_mulC 0.5 x).mul (((hasDerivAt_erf _).comp x
    ((hasDerivAt_id x).div_const √2)).const_add 1))
  refine ⟨_, h, ?_⟩
  have hpi := Real.pi_pos
  have e1 : -(x / √2) ^ 2 = -x * x * 0.5 := by
    rw [div_pow, Real.sq_sqrt (by norm_num : (0 : ℝ) ≤ 2)]; ring
  have e3 : √(3.14159265359 * 2) = √3.14159265359 * √2 := Real.sqrt_mul (by norm_num) 2
  simp only [Act.gelu, id, Function.comp, e1, e3]
  set E := Real.exp (-x * x * 0.5) with hE
  have hs2 : 0 < √2 := by positivity
  have hsp : 0 < √Real.pi := by positivity
  have hsq : 0 < √3.14159265359 := by positivity
  have e2 : 0.5 * (1 + Act.erf (x / √2)) + x * E / (√3.14159265359 * √2) -
      (0.5 * (1 + Act.erf (x / √2)) + 0.5 * x * (2 / √Real.pi * E * (1 / √2))) =
      (x * E) * ((√Real.pi - √3.14159265359) / (√3.14159265359 * √Real.pi * √2)) := by
    field_simp; ring
  rw [e2, abs_mul]
  have hb : |(√Real.pi - √3.14159265359) / (√3.14159265359 * √Real.pi * √2)| ≤ 1 / 10 ^ 12 := by
    have h1 : (1 : ℝ) ≤ √Real.pi := Real.one_le_sqrt.mpr (by linarith [Real.pi_gt_three])
    have h2 : (1 : ℝ) ≤ √3.14159265359 := Real.one_le_sqrt.mpr (by norm_num)
    have h3 : (1 : ℝ) ≤ √2 := Real.one_le_sqrt.mpr (by norm_num)
    have h4 : 1 ≤ √3.14159265359 * √Real.pi * √2 := one_le_mul_of_one_le_of_one_le
      (one_le_mul_of_one_le_of_one_le h2 h1) h3
    rw [abs_div, abs_of_pos (by positivity : 0 < √3.14159265359 * √Real.pi * √2)]
    refine (div_le_self (abs_nonneg _) h4).trans ?_
    have h5 : (√Real.pi - √3.14159265359) * (√Real.pi + √3.14159265359) = Real.pi - 3.14159265359 := by
      have a1 := Real.mul_self_sqrt hpi.le
      have a2 := Real.mul_self_sqrt (by norm_num : (0 : ℝ) ≤ 3.14159265359)
      linear_combination a1 - a2
    have h6 : |√Real.pi - √3.14159265359| * (√Real.pi + √3.14159265359) = |Real.pi - 3.14159265359| := by
      rw [← h5, abs_mul, abs_of_pos (by positivity : 0 < √Real.pi + √3.14159265359)]
    have h7 : |Real.pi - 3.14159265359| ≤ 1 / 10 ^ 12 := by
      rw [abs_le]
      constructor <;> linarith [Real.pi_gt_d20, Real.pi_lt_d20]
    nlinarith [abs_nonneg (√Real.pi - √3.14159265359)]
  calc _ ≤ 1 * (1 / 10 ^ 12 : ℝ) := mul_le_mul (abs_mul_exp_le x) hb (abs_nonneg _) zero_le_one
    _ = _ := one_mul _

/-- C23 is violated by `SineReLU` at every negative point at which the cosine is not zero (Activations.cpp:785
has the wrong sign). -/
theorem C23_sineReLU_wrong (x : ℝ) (hx : x < 0) (hc : Real.cos x ≠ 0) :
    ∃ D, HasDerivAt Act.sineReLU.apply D x ∧ Act.sineReLU.derivation x ≠ D := by
  have h : HasDerivAt Act.sineReLU.apply (0.01 * (Real.cos x - -Real.sin x)) x := by
    refine (((Real.hasDerivAt_sin x).sub (Real.hasDerivAt_cos x)).const_mul 0.01).congr_of_eventuallyEq ?_
    filter_upwards [Iio_mem_nhds hx] with y hy
    simp only [Act.sineReLU]
    rw [if_neg (not_lt.mpr (le_of_lt hy))]
    simp
  refine ⟨_, h, ?_⟩
  simp only [Act.sineReLU, if_neg (not_lt.mpr hx.le)]
  intro he
  apply hc
  linarith

/-- C23, partial, for `SineReLU`: right for positive arguments.  Missing: the negative ones, where it is wrong. -/
theorem C23_sineReLU_partial (x : ℝ) (hx : 0 < x) :
    HasDerivAt Act.sineReLU.apply (Act.sineReLU.derivation x) x := by
  simp only [Act.sineReLU, if_pos hx]
  refine (hasDerivAt_id x).congr_of_eventuallyEq ?_
  filter_upwards [Ioi_mem_nhds hx] with y hy
  rw [if_pos (show y > 0 from hy)]; rfl

/-- C23 is violated by `Logit` at every point of its domain (the derivative is `1/(x(1-x))`). -/
theorem C23_logit_wrong (x : ℝ) (h0 : 0 < x) (h1 : x < 1) :
    ∃ D, HasDerivAt Act.logit.apply D x ∧ Act.logit.derivation x ≠ D := by
  have h2 : (1 : ℝ) - x ≠ 0 := by linarith
  have h3 : x - 1 ≠ 0 := by linarith
  have h := ((hasDerivAt_id x).div ((hasDerivAt_id x).const_sub 1) h2).log (div_ne_zero h0.ne' h2)
  refine ⟨_, h, ?_⟩
  simp only [Act.logit, id, Pi.div_apply]
  intro he
  have h4 : -x / (x - 1) = x / (1 - x) := by
    rw [show x - 1 = -(1 - x) by ring, neg_div_neg_eq]
  rw [h4] at he
  field_simp at he
  nlinarith

/-- C23 is violated by `TanhExp` (at zero the derivative is `tanh 1`, the code gives zero). -/
theorem C23_tanhExp_wrong :
    ∃ D, HasDerivAt Act.tanhExp.apply D 0 ∧ Act.tanhExp.derivation 0 ≠ D := by
  have h := (hasDerivAt_id (0 : ℝ)).mul ((hasDerivAt_tanh' _).comp 0 (Real.hasDerivAt_exp 0))
  refine ⟨_, h, ?_⟩
  simp [Act.tanhExp]
  intro he
  rw [Real.tanh_eq_sinh_div_cosh] at he
  have := Real.sinh_pos_iff.mpr (zero_lt_one' ℝ)
  have h2 := div_pos this (Real.cosh_pos 1)
  linarith

/-- C23 is violated by `SQ-RBF` at every point between -1 and 1 (the derivative is `-x`, the code gives
`1-x`). -/
theorem C23_sqrbf_wrong (x : ℝ) (hx : |x| < 1) :
    ∃ D, HasDerivAt Act.sqrbf.apply D x ∧ Act.sqrbf.derivation x ≠ D := by
  have h : HasDerivAt Act.sqrbf.apply (-((x + x) * 0.5)) x := by
    refine (((Act.hasDerivAt_sq x).mul_const 0.5).const_sub 1).congr_of_eventuallyEq ?_
    have : {y : ℝ | |y| < 1} ∈ nhds x := (isOpen_lt continuous_abs continuous_const).mem_nhds hx
    filter_upwards [this] with y hy
    have hy' : |y| < 1 := hy
    simp only [Act.sqrbf]
    rw [if_neg (not_le.mpr (by linarith)), if_pos hy'.le]
  refine ⟨_, h, ?_⟩
  simp only [Act.sqrbf]
  rw [if_neg (not_le.mpr (by linarith)), if_pos hx.le]
  intro he
  linarith

/-- C23, partial, for `SQ-RBF`: right outside `[-1,1]` (and off ±2).  Missing: `[-1,1]`, where it is wrong. -/
theorem C23_sqrbf_partial (x : ℝ) (hx : 1 < |x|) (h2 : |x| ≠ 2) :
    HasDerivAt Act.sqrbf.apply (Act.sqrbf.derivation x) x := by
  simp only [Act.sqrbf]
  rcases lt_or_gt_of_ne h2 with h2 | h2
  · rw [if_neg (not_le.mpr h2), if_neg (not_le.mpr hx)]
    have hO : {y : ℝ | 1 < |y| ∧ |y| < 2} ∈ nhds x := ((isOpen_lt continuous_const continuous_abs).inter
      (isOpen_lt continuous_abs continuous_const)).mem_nhds ⟨hx, h2⟩
    rcases le_or_gt 0 x with h0 | h0
    · rw [if_pos h0]
      have h0' : 0 < x := lt_of_le_of_ne h0 (fun h => by rw [← h] at hx; norm_num at hx)
      have hd : HasDerivAt (fun y : ℝ => y * y * 0.5 - 2 * y + 2) (x - 2) x := by
        refine ((((Act.hasDerivAt_sq x).mul_const 0.5).sub (Act.hasDerivAt_mulC 2 x)).add_const 2).congr_deriv ?_
        ring
      refine hd.congr_of_eventuallyEq ?_
      filter_upwards [hO, Ioi_mem_nhds h0'] with y hy hy0
      rw [if_neg (not_le.mpr hy.2), if_neg (not_le.mpr hy.1), if_pos (le_of_lt hy0)]
    · rw [if_neg (not_le.mpr h0)]
      have hd : HasDerivAt (fun y : ℝ => y * y * 0.5 + 2 * y + 2) (x + 2) x := by
        refine ((((Act.hasDerivAt_sq x).mul_const 0.5).add (Act.hasDerivAt_mulC 2 x)).add_const 2).congr_deriv ?_
        ring
      refine hd.congr_of_eventuallyEq ?_
      filter_upwards [hO, Iio_mem_nhds h0] with y hy hy0
      rw [if_neg (not_le.mpr hy.2), if_neg (not_le.mpr hy.1), if_neg (not_le.mpr hy0)]
  · rw [if_pos (le_of_lt h2)]
    have hO : {y : ℝ | 2 < |y|} ∈ nhds x := (isOpen_lt continuous_const continuous_abs).mem_nhds h2
    refine (hasDerivAt_const x (0 : ℝ)).congr_of_eventuallyEq ?_
    filter_upwards [hO] with y hy
    rw [if_pos (le_of_lt hy)]

/-! ## C24 -/

/-- C24: sigmoid-like functions stay strictly between 0 and 1. -/
theorem C24_unit_range (x : ℝ) :
    (0 < Act.sigmoid.apply x ∧ Act.sigmoid.apply x < 1) ∧
    (0 < Act.complementaryLogLog.apply x ∧ Act.complementaryLogLog.apply x < 1) ∧
    (0 < Act.elliot.apply x ∧ Act.elliot.apply x < 1) := by
  have he := Real.exp_pos (-x)
  have hx := Real.exp_pos x
  refine ⟨⟨by simp only [Act.sigmoid]; positivity, ?_⟩, ⟨?_, ?_⟩, ?_⟩
  · simp only [Act.sigmoid]
    rw [div_lt_one (by positivity)]; linarith
  · simp only [Act.complementaryLogLog]
    have := Real.exp_lt_one_iff.mpr (neg_lt_zero.mpr hx)
    linarith
  · simp only [Act.complementaryLogLog]
    have := Real.exp_pos (-Real.exp x)
    linarith
  · simp only [Act.elliot]
    have h1 : 0 < 1 + |x| := by positivity
    have h2 : -1 < x / (1 + |x|) := by
      rw [lt_div_iff₀ h1]; linarith [neg_abs_le x]
    have h3 : x / (1 + |x|) < 1 := by
      rw [div_lt_one h1]; linarith [le_abs_self x]
    constructor <;> linarith

/-- C24: tanh-like functions stay strictly between -1 and 1 (`LecunTanh` within ±1.7159). -/
theorem C24_tanh_range (x : ℝ) :
    (-1 < Act.tanh.apply x ∧ Act.tanh.apply x < 1) ∧
    (-1 < Act.softSign.apply x ∧ Act.softSign.apply x < 1) ∧
    (-1 < Act.bipolarSigmoid.apply x ∧ Act.bipolarSigmoid.apply x < 1) ∧
    (-1.7159 < Act.lecunTanh.apply x ∧ Act.lecunTanh.apply x < 1.7159) := by
  have ht : ∀ y, -1 < Real.tanh y ∧ Real.tanh y < 1 := fun y =>
    ⟨Real.neg_one_lt_tanh y, Real.tanh_lt_one y⟩
  refine ⟨ht x, ?_, ?_, ?_⟩
  · simp only [Act.softSign]
    have h1 : 0 < 1 + |x| := by positivity
    exact ⟨by rw [lt_div_iff₀ h1]; linarith [neg_abs_le x], by rw [div_lt_one h1]; linarith [le_abs_self x]⟩
  · simp only [Act.bipolarSigmoid]
    have hx := Real.exp_pos x
    have h1 : 0 < Real.exp x + 1 := by positivity
    exact ⟨by rw [lt_div_iff₀ h1]; linarith, by rw [div_lt_one h1]; linarith⟩
  · simp only [Act.lecunTanh]
    have := ht (x * 0.666666)
    constructor <;> linarith [this.1, this.2]

/-- C24: the hard and piecewise bounded functions stay in closed ranges, which they reach. -/
theorem C24_hard_range (x : ℝ) :
    (0 ≤ Act.hardSigmoid.apply x ∧ Act.hardSigmoid.apply x ≤ 1) ∧
    (-1 ≤ Act.hardTanh.apply x ∧ Act.hardTanh.apply x ≤ 1) ∧
    (0 ≤ Act.relu6.apply x ∧ Act.relu6.apply x ≤ 6) ∧
    (0 ≤ Act.smoothSigmoid.apply x ∧ Act.smoothSigmoid.apply x ≤ 1) ∧
    (-1 ≤ Act.smoothTanh.apply x ∧ Act.smoothTanh.apply x ≤ 1) ∧
    (-1 ≤ Act.sqnl.apply x ∧ Act.sqnl.apply x ≤ 1) ∧
    (Act.binaryStep.apply x = 0 ∨ Act.binaryStep.apply x = 1) ∧
    (Act.bipolar.apply x = -1 ∨ Act.bipolar.apply x = 1) ∧
    (0 ≤ Act.sqrbf.apply x ∧ Act.sqrbf.apply x ≤ 1) ∧
    (0 ≤ Act.hann.apply x ∧ Act.hann.apply x ≤ 1) := by
  refine ⟨?_, ?_, ?_, ?_, ?_, ?_, ?_, ?_, ?_, ?_⟩
  · simp only [Act.hardSigmoid]
    split_ifs <;> constructor <;> linarith
  · simp only [Act.hardTanh]
    split_ifs <;> constructor <;> linarith
  · simp only [Act.relu6]
    split_ifs <;> constructor <;> linarith
  · simp only [Act.smoothSigmoid]
    split_ifs <;> constructor <;> nlinarith
  · simp only [Act.smoothTanh]
    split_ifs <;> constructor <;> nlinarith
  · simp only [Act.sqnl]
    split_ifs <;> constructor <;> nlinarith
  · simp only [Act.binaryStep]
    split_ifs <;> simp
  · simp only [Act.bipolar]
    split_ifs <;> simp
  · simp only [Act.sqrbf]
    split_ifs with h1 h2 h3
    · norm_num
    · have := abs_le.mp h2
      constructor <;> nlinarith
    · rw [abs_of_nonneg h3] at h1 h2
      constructor <;> nlinarith
    · rw [abs_of_neg (not_le.mp h3)] at h1 h2
      constructor <;> nlinarith
  · simp only [Act.hann]
    split_ifs
    · norm_num
    · have h1 := Real.neg_one_le_cos (3.14159265359 * 0.5 * x)
      have h2 := Real.cos_le_one (3.14159265359 * 0.5 * x)
      constructor <;> nlinarith

/-- C24: other announced bounds. -/
theorem C24_other_range (x : ℝ) :
    0 < Act.exponential.apply x ∧ 0 < Act.softPlus.apply x ∧ Act.logSigmoid.apply x < 0 ∧
    0 ≤ Act.relu.apply x ∧ -1 < Act.elu.apply x ∧ -1 < Act.celu.apply x ∧ -1 < Act.isrlu.apply x ∧
    (0 < Act.gauss.apply x ∧ Act.gauss.apply x ≤ 1) ∧ (0 ≤ Act.bump.apply x ∧ Act.bump.apply x < 1) ∧
    (-(Real.pi / 2) < Act.atan.apply x ∧ Act.atan.apply x < Real.pi / 2) ∧
    |Act.sin.apply x| ≤ 1 ∧ |Act.sinC.apply x| ≤ 1 ∧ 0 ≤ Act.absolute.apply x := by
  have hx := Real.exp_pos x
  have hnx := Real.exp_pos (-x)
  refine ⟨hx, ?_, ?_, ?_, ?_, ?_, ?_, ⟨Real.exp_pos _, ?_⟩, ?_, ⟨Real.neg_pi_div_two_lt_arctan x,
    Real.arctan_lt_pi_div_two x⟩, Real.abs_sin_le_one x, ?_, abs_nonneg x⟩
  · exact Real.log_pos (by linarith)
  · exact Real.log_neg (by positivity) (by rw [div_lt_one (by positivity)]; linarith)
  · simp only [Act.relu]; split_ifs <;> linarith
  · simp only [Act.elu, Act.expm1]; split_ifs <;> linarith
  · simp only [Act.celu, Act.expm1, div_one]; split_ifs <;> linarith
  · simp only [Act.isrlu, one_mul]
    split_ifs with h
    · linarith
    · have h0 : 0 < 1 + x * x := by nlinarith [mul_self_nonneg x]
      have h1 := Real.sqrt_pos.mpr h0
      rw [lt_div_iff₀ h1]
      have h2 : -x < √(1 + x * x) := Real.lt_sqrt_of_sq_lt (by nlinarith)
      linarith
  · simp only [Act.gauss]
    rw [Real.exp_le_one_iff]; nlinarith [mul_self_nonneg x]
  · simp only [Act.bump]
    split_ifs with h
    · refine ⟨(Real.exp_pos _).le, ?_⟩
      rw [Real.exp_lt_one_iff]
      have := abs_lt.mp h
      exact div_neg_of_neg_of_pos (by norm_num) (by nlinarith)
    · norm_num
  · simp only [Act.sinC]
    split_ifs with h
    · simp
    · rw [abs_div, div_le_one (abs_pos.mpr h)]
      exact Real.abs_sin_le_abs

theorem Good.monotone {A : Activation} (h : ∀ x, HasDerivAt A.apply (A.derivation x) x)
    (hd : ∀ x, 0 ≤ A.derivation x) : Monotone A.apply :=
  monotone_of_deriv_nonneg (fun x => (h x).differentiableAt) (fun x => by rw [(h x).deriv]; exact hd x)

theorem Good.hasDerivAt {A : Activation} (h : Good A) (hk : kinks A.name = []) (x : ℝ) :
    HasDerivAt A.apply (A.derivation x) x :=
  (h x trivial).1 (by rw [hk]; simp)

theorem softSign_mono : Monotone Act.softSign.apply := by
  intro x y hxy
  simp only [Act.softSign]
  have h1 : 0 < 1 + |x| := by positivity
  have h2 : 0 < 1 + |y| := by positivity
  rw [div_le_div_iff₀ h1 h2]
  rcases le_or_gt 0 x with hx | hx
  · rw [abs_of_nonneg hx, abs_of_nonneg (hx.trans hxy)]; nlinarith
  · rw [abs_of_neg hx]
    rcases le_or_gt 0 y with hy | hy
    · rw [abs_of_nonneg hy]; nlinarith
    · rw [abs_of_neg hy]; nlinarith

/-- C24: the smooth monotone activations are monotone. -/
theorem C24_monotone_smooth :
    Monotone Act.sigmoid.apply ∧ Monotone Act.tanh.apply ∧ Monotone Act.softPlus.apply ∧
    Monotone Act.logSigmoid.apply ∧ Monotone Act.atan.apply ∧ Monotone Act.asinh.apply ∧
    Monotone Act.exponential.apply ∧ Monotone Act.bent.apply ∧ Monotone Act.complementaryLogLog.apply ∧
    Monotone Act.bipolarSigmoid.apply ∧ Monotone Act.lecunTanh.apply ∧ Monotone Act.tanhShrink.apply ∧
    Monotone Act.identity.apply ∧ Monotone Act.divideBy256.apply ∧ Monotone Act.softSign.apply ∧
    Monotone Act.elliot.apply := by
  refine ⟨?_, ?_, ?_, ?_, ?_, ?_, ?_, ?_, ?_, ?_, ?_, ?_, ?_, ?_, softSign_mono, ?_⟩
  · refine Good.monotone (Act.good_sigmoid.hasDerivAt rfl) (fun x => ?_)
    have h := (C24_unit_range x).1
    simp only [Act.sigmoid] at h ⊢
    nlinarith [h.1, h.2]
  · refine Good.monotone (Act.good_tanh.hasDerivAt rfl) (fun x => ?_)
    have h := (C24_tanh_range x).1
    simp only [Act.tanh] at h ⊢
    nlinarith [h.1, h.2]
  · refine Good.monotone (Act.good_softPlus.hasDerivAt rfl) (fun x => ?_)
    simp only [Act.softPlus]; positivity
  · refine Good.monotone (Act.good_logSigmoid.hasDerivAt rfl) (fun x => ?_)
    simp only [Act.logSigmoid]; positivity
  · exact Real.arctan_strictMono.monotone
  · exact Real.arsinh_strictMono.monotone
  · exact Real.exp_monotone
  · refine Good.monotone (Act.good_bent.hasDerivAt rfl) (fun x => ?_)
    simp only [Act.bent]
    have hp : 0 < x * x + 1 := by nlinarith [mul_self_nonneg x]
    have hs := Real.sqrt_pos.mpr hp
    have h2 : -x < √(x * x + 1) := Real.lt_sqrt_of_sq_lt (by nlinarith)
    have : -1 ≤ x / (2 * √(x * x + 1)) := by
      rw [le_div_iff₀ (by positivity)]; linarith
    linarith
  · refine Good.monotone (Act.good_complementaryLogLog.hasDerivAt rfl) (fun x => ?_)
    simp only [Act.complementaryLogLog]; positivity
  · refine Good.monotone (Act.good_bipolarSigmoid.hasDerivAt rfl) (fun x => ?_)
    simp only [Act.bipolarSigmoid]; positivity
  · refine Good.monotone (Act.good_lecunTanh.hasDerivAt rfl) (fun x => ?_)
    simp only [Act.lecunTanh]
    exact div_nonneg (by norm_num) (mul_self_nonneg _)
  · refine Good.monotone (Act.good_tanhShrink.hasDerivAt rfl) (fun x => ?_)
    simp only [Act.tanhShrink]; exact mul_self_nonneg _
  · exact monotone_id
  · intro x y h
    simp only [Act.divideBy256]; linarith
  · intro x y h
    have := softSign_mono h
    simp only [Act.softSign, Act.elliot] at this ⊢
    linarith

/-- C24: the piecewise monotone activations are monotone. -/
theorem C24_monotone_piecewise :
    Monotone Act.relu.apply ∧ Monotone Act.relu6.apply ∧ Monotone Act.leakyRelu.apply ∧
    Monotone Act.leakyRelu256.apply ∧ Monotone Act.leakyTwiceRelu6.apply ∧ Monotone Act.hardSigmoid.apply ∧
    Monotone Act.hardTanh.apply ∧ Monotone Act.hardELU.apply ∧ Monotone Act.binaryStep.apply ∧
    Monotone Act.bipolar.apply ∧ Monotone Act.elu.apply ∧ Monotone Act.celu.apply ∧
    Monotone Act.selu.apply ∧ Monotone Act.thresholdedRelu.apply ∧ Monotone Act.softShrink.apply ∧
    Monotone Act.hardShrink.apply ∧ Monotone Act.smoothSoftPlus.apply ∧ Monotone Act.smoothTanh.apply ∧
    Monotone Act.smoothSigmoid.apply ∧ Monotone Act.sqnl.apply ∧ Monotone Act.nlrelu.apply := by
  refine ⟨?_, ?_, ?_, ?_, ?_, ?_, ?_, ?_, ?_, ?_, ?_, ?_, ?_, ?_, ?_, ?_, ?_, ?_, ?_, ?_, ?_⟩ <;> intro x y h
  · simp only [Act.relu]; split_ifs <;> linarith
  · simp only [Act.relu6]; split_ifs <;> linarith
  · simp only [Act.leakyRelu]; split_ifs <;> linarith
  · simp only [Act.leakyRelu256]; split_ifs <;> linarith
  · simp only [Act.leakyTwiceRelu6]; split_ifs <;> linarith
  · simp only [Act.hardSigmoid]; split_ifs <;> linarith
  · simp only [Act.hardTanh]; split_ifs <;> linarith
  · simp only [Act.hardELU]; split_ifs <;> linarith
  · simp only [Act.binaryStep]; split_ifs <;> linarith
  · simp only [Act.bipolar]; split_ifs <;> linarith
  · have h1 := Real.exp_le_exp.mpr h
    have h2 : x < 0 → Real.exp x < 1 := fun h => Real.exp_lt_one_iff.mpr h
    simp only [Act.elu, Act.expm1]; split_ifs with a b b
    · exact h
    · linarith
    · linarith [h2 (not_le.mp a)]
    · linarith
  · have h1 := Real.exp_le_exp.mpr h
    have h2 : x < 0 → Real.exp x < 1 := fun h => Real.exp_lt_one_iff.mpr h
    simp only [Act.celu, Act.expm1, div_one, one_mul]; split_ifs with a b b
    · exact h
    · linarith
    · linarith [h2 (not_le.mp a)]
    · linarith
  · have h1 := Real.exp_le_exp.mpr h
    have h2 : x < 0 → Real.exp x < 1 := fun h => Real.exp_lt_one_iff.mpr h
    simp only [Act.selu, Act.expm1]; split_ifs with a b b
    · linarith
    · linarith
    · linarith [h2 (not_le.mp a)]
    · linarith
  · simp only [Act.thresholdedRelu]; split_ifs <;> linarith
  · simp only [Act.softShrink]; split_ifs <;> linarith
  · simp only [Act.hardShrink]; split_ifs <;> linarith
  · simp only [Act.smoothSoftPlus]; split_ifs <;> nlinarith
  · simp only [Act.smoothTanh]; split_ifs <;> nlinarith
  · simp only [Act.smoothSigmoid]; split_ifs <;> nlinarith
  · simp only [Act.sqnl]; split_ifs <;> nlinarith
  · simp only [Act.nlrelu, Act.log1p]; split_ifs with a b b
    · exact Real.log_le_log (by linarith) (by linarith)
    · linarith
    · exact Real.log_nonneg (by linarith)
    · exact le_rfl

example : Act.relu6.apply 7 = 6 ∧ Act.hardTanh.apply (-3) = -1 := by
  simp only [Act.relu6, Act.hardTanh]; norm_num

/-! ## C25 -/

/-- C25: a name is known exactly if it is listed, and the created object answers with that name. -/
theorem C25_known_iff (s : String) : (∃ A, getActivation s = some A) ↔ s ∈ availableActivations := by
  have hk : ∀ t, t ∈ activationTable.map Prod.fst ↔ t ∈ availableActivations := by
    have e : activationTable.map Prod.fst = [
        "Absolute", "Asinh", "Atan", "Bent", "BinaryStep", "Bipolar", "BipolarSigmoid",
        "Bump", "CELU", "ComplementaryLogLog", "DivideBy256", "dSiLU", "ELiSH", "Elliot",
        "ELU", "Eswish", "Exponential", "E2RU", "E3RU", "FTS", "FTS+",
        "Gauss", "GELU", "Hann", "HardELU", "HardSigmoid", "HardShrink", "HardSwish",
        "HardTanh", "Identity", "ISRLU", "LeakyRelu", "LeakyRelu256", "LeakyTwiceRelu6", "LecunTanh",
        "LiSHT", "Logit", "LogSigmoid", "Mish", "NLRelu", "O2RU", "O3RU",
        "SmoothSigmoid", "SmoothSoftPlus", "SmoothTanh", "Relu", "Relu6", "Selu", "SQNL",
        "SQ-RBF", "SoftPlus", "Sigmoid", "SiLU", "Sin", "SineReLU", "SinC",
        "Swish", "SoftShrink", "SoftSign", "SoftSteps", "Tanh", "TanhExp", "TanhShrink",
        "ThresholdedRelu"] := rfl
    have h : (activationTable.map Prod.fst).Perm availableActivations := by
      rw [e]; decide +kernel
    exact fun t => h.mem_iff
  rw [← hk s]
  constructor
  · rintro ⟨A, h⟩
    exact List.mem_map.mpr ⟨_, mem_of_getActivation h, rfl⟩
  · intro h
    obtain ⟨p, hp, rfl⟩ := List.mem_map.mp h
    unfold getActivation
    cases hf : activationTable.find? (fun q => p.1 == q.1) with
    | some q => exact ⟨q.2, rfl⟩
    | none =>
      have := List.find?_eq_none.mp hf p hp
      simp at this

theorem C25_name (s : String) (A : Activation) (h : getActivation s = some A) : A.name = s :=
  activationTable_names _ (mem_of_getActivation h)

/-- C25: no name is listed twice. -/
theorem C25_nodup : availableActivations.Nodup := by decide +kernel

/-- C25: an unlisted name gives no activation. -/
theorem C25_unknown (s : String) (h : s ∉ availableActivations) : getActivation s = none := by
  cases hA : getActivation s with
  | none => rfl
  | some A => exact absurd ((C25_known_iff s).mp ⟨A, hA⟩) h

example : getActivation "relu" = none := C25_unknown _ (by decide +kernel)
example : "FTS+" ∈ availableActivations ∧ getActivation "FTS+" = some Act.ftsPlus := ⟨by decide +kernel, rfl⟩

end BeeDNN
