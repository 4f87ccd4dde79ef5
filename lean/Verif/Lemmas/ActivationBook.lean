import Verif.Lemmas.ActivationsGood
import Verif.Spec.ActivationBook
import Mathlib.Analysis.Real.Pi.Bounds
import Mathlib.Analysis.Calculus.MeanValue
import Mathlib.Analysis.SpecialFunctions.Trigonometric.Bounds
import Mathlib.Analysis.SpecialFunctions.Integrals.Basic

/-! # The bodies of the activation functions and the formulas of Spec/ActivationBook.lean, one by one -/

namespace BeeDNN

namespace Book

theorem exp_neg_pos (x : ℝ) : 0 < 1 + Real.exp (-x) := by positivity

theorem exp_eq (x : ℝ) : Real.exp x = 1 / Real.exp (-x) := by rw [Real.exp_neg]; simp

theorem sq_abs_cases (x : ℝ) : (0 ≤ x ∧ |x| = x) ∨ (x < 0 ∧ |x| = -x) := by
  rcases le_or_gt 0 x with h | h
  · exact Or.inl ⟨h, abs_of_nonneg h⟩
  · exact Or.inr ⟨h, abs_of_neg h⟩

/-- Splits all comparisons, minima, maxima and signs of a goal over the reals. -/
macro "book" : tactic => `(tactic| (
  simp only [rect, clip, leaky, sqnl, max_def, min_def, Real.sign, abs_eq_max_neg]
  split_ifs <;> first | rfl | linarith | ring1 | (exfalso; linarith) | nlinarith))

theorem absolute (x : ℝ) : Act.absolute.apply x = formula "Absolute" x := rfl
theorem asinh (x : ℝ) : Act.asinh.apply x = formula "Asinh" x := by
  simp [Act.asinh, formula, Real.arsinh, add_comm]
theorem bent (x : ℝ) : Act.bent.apply x = formula "Bent" x := by
  simp only [Act.bent, formula]; rw [show x * x = x ^ 2 by ring]; ring
theorem binaryStep (x : ℝ) (h : x ≠ 0) : Act.binaryStep.apply x = formula "BinaryStep" x := by
  simp only [Act.binaryStep, formula]
  rcases lt_or_gt_of_ne h with h | h
  · rw [if_neg (by linarith), if_neg (by linarith)]
  · rw [if_pos h, if_pos h.le]
theorem bipolar (x : ℝ) (h : x ≠ 0) : Act.bipolar.apply x = formula "Bipolar" x := by
  simp only [Act.bipolar, formula]
  rcases lt_or_gt_of_ne h with h | h
  · rw [if_neg (by linarith), Real.sign_of_neg h]
  · rw [if_pos h, Real.sign_of_pos h]
theorem bipolarSigmoid (x : ℝ) : Act.bipolarSigmoid.apply x = formula "BipolarSigmoid" x := by
  simp only [Act.bipolarSigmoid, formula]
  rw [exp_eq x]
  have := Real.exp_pos (-x)
  field_simp
theorem bump (x : ℝ) : Act.bump.apply x = formula "Bump" x := by
  simp only [Act.bump, formula, Set.mem_Ioo, abs_lt]
  split_ifs with h
  · congr 1; rw [neg_div, pow_two]
  · rfl
theorem celu (x : ℝ) : Act.celu.apply x = formula "CELU" x := by
  simp only [Act.celu, formula, Act.expm1, div_one, one_mul]
  rcases le_or_gt 0 x with h | h
  · have := Real.one_le_exp h
    rw [if_pos h, max_eq_right h, min_eq_left (by linarith)]; ring
  · have := (Real.exp_lt_one_iff.mpr h)
    rw [if_neg (by linarith), max_eq_left h.le, min_eq_right (by linarith)]; ring
theorem divideBy256 (x : ℝ) : Act.divideBy256.apply x = formula "DivideBy256" x := by
  simp only [Act.divideBy256, formula]; ring
theorem dsilu (x : ℝ) : Act.dsilu.apply x = formula "dSiLU" x := by
  simp only [Act.dsilu, formula, σ]
  have := exp_neg_pos x
  field_simp; ring
theorem elish (x : ℝ) : Act.elish.apply x = formula "ELiSH" x := by
  simp only [Act.elish, formula, σ]
  rw [exp_eq x]
  split_ifs <;> ring
theorem elliot (x : ℝ) : Act.elliot.apply x = formula "Elliot" x := by
  simp only [Act.elliot, formula]
  have : 0 < 1 + |x| := by positivity
  field_simp; ring
theorem elu (x : ℝ) : Act.elu.apply x = formula "ELU" x := by
  simp only [Act.elu, formula, Act.expm1]
  rcases lt_trichotomy x 0 with h | rfl | h
  · rw [if_neg (by linarith), if_neg (by linarith)]
  · simp
  · rw [if_pos h.le, if_pos h]
theorem eswish (x : ℝ) : Act.eswish.apply x = formula "Eswish" x := by
  simp only [Act.eswish, formula, σ]; ring
theorem e2ru (x : ℝ) : Act.e2ru.apply x = formula "E2RU" x := by
  simp only [Act.e2ru, formula, expRoot]
  rcases lt_trichotomy x 0 with h | rfl | h
  · rw [if_neg (by linarith), if_neg (by linarith), mul_comm x]; norm_num
  · norm_num
  · rw [if_pos h.le, if_pos h, Real.sqrt_eq_rpow]; norm_num
theorem e3ru (x : ℝ) : Act.e3ru.apply x = formula "E3RU" x := by
  simp only [Act.e3ru, formula, expRoot]
  rcases lt_trichotomy x 0 with h | rfl | h
  · rw [if_neg (by linarith), if_neg (by linarith), mul_comm x]
  · norm_num
  · rw [if_pos h.le, if_pos h]; norm_num
theorem fts (x : ℝ) : Act.fts.apply x = formula "FTS" x := by
  simp only [Act.fts, formula, σ, rect]
  rcases le_or_gt 0 x with h | h
  · rw [if_neg (by linarith), max_eq_right h]; ring
  · rw [if_pos h, max_eq_left h.le]; ring
theorem ftsPlus (x : ℝ) : Act.ftsPlus.apply x = formula "FTS+" x := by
  simp only [Act.ftsPlus, formula, σ, rect]
  rcases le_or_gt 0 x with h | h
  · rw [if_neg (by linarith), max_eq_right h]; ring
  · rw [if_pos h, max_eq_left h.le]; ring
theorem gauss (x : ℝ) : Act.gauss.apply x = formula "Gauss" x := by
  simp only [Act.gauss, formula]; congr 1; ring
theorem erf_Φ (x : ℝ) : (1 + Act.erf (x / √2)) / 2 = Φ x := by
  have h2 : (√2 : ℝ) ≠ 0 := by positivity
  have hp : √Real.pi ≠ 0 := by have := Real.pi_pos; positivity
  have key : (∫ t in (0 : ℝ)..x, Real.exp (-t ^ 2 / 2)) =
      √2 * ∫ t in (0 : ℝ)..(x / √2), Real.exp (-t ^ 2) := by
    have h := intervalIntegral.integral_comp_div (a := 0) (b := x) (fun t : ℝ => Real.exp (-t ^ 2)) h2
    rw [zero_div, smul_eq_mul] at h
    rw [← h]
    congr 1; funext t; congr 1
    rw [div_pow, Real.sq_sqrt (by norm_num : (0 : ℝ) ≤ 2)]; ring
  unfold Φ Act.erf
  rw [key, Real.sqrt_mul (by norm_num : (0 : ℝ) ≤ 2)]
  field_simp
theorem gelu (x : ℝ) : Act.gelu.apply x = formula "GELU" x := by
  simp only [Act.gelu, formula]; rw [← erf_Φ]; ring
theorem hardELU (x : ℝ) : Act.hardELU.apply x = formula "HardELU" x := by
  simp only [Act.hardELU, formula]; book
theorem hardSigmoid (x : ℝ) : Act.hardSigmoid.apply x = formula "HardSigmoid" x := by
  simp only [Act.hardSigmoid, formula]; norm_num; book
theorem hardShrink (x : ℝ) : Act.hardShrink.apply x = formula "HardShrink" x := by
  simp only [Act.hardShrink, formula]
  norm_num
  rcases sq_abs_cases x with ⟨h, e⟩ | ⟨h, e⟩ <;> rw [e] <;> split_ifs <;> first | rfl | linarith
theorem hardSwish (x : ℝ) : Act.hardSwish.apply x = formula "HardSwish" x := by
  simp only [Act.hardSwish, formula, rect]
  rcases lt_or_ge x 3 with h | h
  · rcases lt_or_ge x (-3) with g | g
    · rw [if_neg (by linarith), if_pos g, max_eq_left (by linarith), min_eq_right (by norm_num)]; simp
    · rw [if_neg (by linarith), if_neg (by linarith), max_eq_right (by linarith), min_eq_right (by linarith)]
      ring
  · rw [if_pos h, max_eq_right (by linarith), min_eq_left (by linarith)]; ring
theorem hardTanh (x : ℝ) : Act.hardTanh.apply x = formula "HardTanh" x := by
  simp only [Act.hardTanh, formula]; book
theorem isrlu (x : ℝ) : Act.isrlu.apply x = formula "ISRLU" x := by
  simp only [Act.isrlu, formula, rect]
  rw [show 1 + 1 * x * x = 1 + x ^ 2 by ring]
  rcases le_or_gt 0 x with h | h
  · rw [if_pos h, max_eq_right h, max_eq_left (by linarith)]; simp
  · rw [if_neg (by linarith), max_eq_left h.le, max_eq_right (by linarith)]; ring
theorem leakyRelu (x : ℝ) : Act.leakyRelu.apply x = formula "LeakyRelu" x := by
  simp only [Act.leakyRelu, formula]; norm_num; book
theorem leakyRelu256 (x : ℝ) : Act.leakyRelu256.apply x = formula "LeakyRelu256" x := by
  simp only [Act.leakyRelu256, formula]; norm_num; book
theorem leakyTwiceRelu6 (x : ℝ) : Act.leakyTwiceRelu6.apply x = formula "LeakyTwiceRelu6" x := by
  simp only [Act.leakyTwiceRelu6, formula]; norm_num; book
theorem logit (x : ℝ) (h : x ∈ Set.Ioo (0 : ℝ) 1) : Act.logit.apply x = formula "Logit" x := by
  simp only [Act.logit, formula]
  exact Real.log_div (by linarith [h.1]) (by linarith [h.2])
theorem logSigmoid (x : ℝ) : Act.logSigmoid.apply x = formula "LogSigmoid" x := by
  simp only [Act.logSigmoid, formula]; rw [one_div, Real.log_inv]
theorem nlrelu (x : ℝ) : Act.nlrelu.apply x = formula "NLRelu" x := by
  simp only [Act.nlrelu, formula, rect, Act.log1p]
  rcases le_or_gt x 0 with h | h
  · rw [if_neg (by linarith), max_eq_left h]; simp
  · rw [if_pos h, max_eq_right h.le, add_comm]
theorem o2ru (x : ℝ) : Act.o2ru.apply x = formula "O2RU" x := by
  simp only [Act.o2ru, formula, oddRoot]
  rcases lt_trichotomy x 0 with h | rfl | h
  · rw [if_neg (by linarith), Real.sign_of_neg h, abs_of_neg h, Real.sqrt_eq_rpow,
      show -2 * 2 * x + 1 = 2 ^ 2 * -x + 1 by ring]; ring
  · norm_num
  · rw [if_pos h.le, Real.sign_of_pos h, abs_of_pos h, Real.sqrt_eq_rpow,
      show 2 * 2 * x + 1 = 2 ^ 2 * x + 1 by ring]; ring
theorem o3ru (x : ℝ) : Act.o3ru.apply x = formula "O3RU" x := by
  simp only [Act.o3ru, formula, oddRoot]
  rcases lt_trichotomy x 0 with h | rfl | h
  · rw [if_neg (by linarith), Real.sign_of_neg h, abs_of_neg h,
      show -3 * 3 * x + 1 = 3 ^ 2 * -x + 1 by ring]; ring
  · norm_num
  · rw [if_pos h.le, Real.sign_of_pos h, abs_of_pos h,
      show 3 * 3 * x + 1 = 3 ^ 2 * x + 1 by ring]; ring
theorem smoothTanh (x : ℝ) : Act.smoothTanh.apply x = formula "SmoothTanh" x := by
  simp only [Act.smoothTanh, formula, sqnl]
  rcases lt_trichotomy x 0 with h | rfl | h
  · rw [if_neg (by linarith), Real.sign_of_neg h, abs_of_neg h]
    split_ifs with g
    · rw [min_eq_right (by linarith)]; norm_num
    · rw [min_eq_left (by linarith)]; ring
  · norm_num
  · rw [if_pos h, Real.sign_of_pos h, abs_of_pos h]
    split_ifs with g
    · rw [min_eq_right (by linarith)]; norm_num
    · rw [min_eq_left (by linarith)]; ring
theorem sqnl_eq (x : ℝ) : Act.sqnl.apply x = formula "SQNL" x := by
  simp only [Act.sqnl, formula, sqnl]
  rcases lt_trichotomy x 0 with h | rfl | h
  · rw [if_neg (by linarith), Real.sign_of_neg h, abs_of_neg h]
    split_ifs with g
    · rw [min_eq_right (by linarith)]; norm_num
    · rw [min_eq_left (by linarith)]; ring
  · norm_num
  · rw [if_pos h.le, Real.sign_of_pos h, abs_of_pos h]
    split_ifs with g
    · rw [min_eq_right (by linarith)]; norm_num
    · rw [min_eq_left (by linarith)]; ring
theorem smoothSigmoid (x : ℝ) : Act.smoothSigmoid.apply x = formula "SmoothSigmoid" x := by
  simp only [Act.smoothSigmoid, formula, sqnl]
  rcases lt_trichotomy x 0 with h | rfl | h
  · rw [if_neg (by linarith), Real.sign_of_neg (by linarith), abs_of_neg (by linarith)]
    split_ifs with g
    · rw [min_eq_right (by linarith)]; norm_num
    · rw [min_eq_left (by linarith)]; ring
  · norm_num
  · rw [if_pos h, Real.sign_of_pos (by linarith), abs_of_pos (by linarith)]
    split_ifs with g
    · rw [min_eq_right (by linarith)]; norm_num
    · rw [min_eq_left (by linarith)]; ring
theorem smoothSoftPlus (x : ℝ) : Act.smoothSoftPlus.apply x = formula "SmoothSoftPlus" x := by
  simp only [Act.smoothSoftPlus, formula, rect, clip]
  rcases lt_or_ge x 0 with h | h
  · rw [if_pos h, min_eq_right (by linarith), max_eq_left h.le, max_eq_left (by linarith)]; norm_num
  · rw [if_neg (by linarith)]
    split_ifs with g
    · norm_num at g
      rw [min_eq_left (by linarith), max_eq_right (by norm_num), max_eq_right (by linarith)]; ring
    · norm_num at g
      rw [min_eq_right (by linarith), max_eq_right h, max_eq_left (by linarith)]; ring
theorem relu (x : ℝ) : Act.relu.apply x = formula "Relu" x := by
  simp only [Act.relu, formula]; book
theorem relu6 (x : ℝ) : Act.relu6.apply x = formula "Relu6" x := by
  simp only [Act.relu6, formula]; book
theorem sqrbf (x : ℝ) : Act.sqrbf.apply x = formula "SQ-RBF" x := by
  simp only [Act.sqrbf, formula]
  rcases sq_abs_cases x with ⟨h, e⟩ | ⟨h, e⟩ <;> rw [e] <;> split_ifs <;> first | linarith | ring1
theorem silu (x : ℝ) : Act.silu.apply x = formula "SiLU" x := by
  simp only [Act.silu, formula, σ]; ring
theorem swish (x : ℝ) : Act.swish.apply x = formula "Swish" x := by
  simp only [Act.swish, formula, σ]; ring
theorem sineReLU (x : ℝ) : Act.sineReLU.apply x = formula "SineReLU" x := by
  simp only [Act.sineReLU, formula]
  split_ifs <;> first | rfl | ring
theorem softShrink (x : ℝ) : Act.softShrink.apply x = formula "SoftShrink" x := by
  simp only [Act.softShrink, formula, rect]
  norm_num
  rcases lt_trichotomy x 0 with h | rfl | h
  · rw [if_neg (by linarith), Real.sign_of_neg h, abs_of_neg h]
    split_ifs with g
    · rw [max_eq_right (by linarith)]; ring
    · rw [max_eq_left (by linarith)]; ring
  · norm_num
  · rw [Real.sign_of_pos h, abs_of_pos h]
    split_ifs with g g'
    · rw [max_eq_right (by linarith)]; ring
    · linarith
    · rw [max_eq_left (by linarith)]; ring
theorem tanh (x : ℝ) : Act.tanh.apply x = formula "Tanh" x := by
  simp only [Act.tanh, formula]; rw [Real.tanh_eq]
theorem thresholdedRelu (x : ℝ) (h : x ≠ 1) : Act.thresholdedRelu.apply x = formula "ThresholdedRelu" x := by
  simp only [Act.thresholdedRelu, formula]
  rcases lt_or_gt_of_ne h with h | h
  · rw [if_neg (by linarith), if_neg (by linarith)]
  · rw [if_pos h.le, if_pos h]

theorem abs_tanh_sub_le (x y : ℝ) : |Real.tanh x - Real.tanh y| ≤ |x - y| := by
  have h := Convex.norm_image_sub_le_of_norm_hasDerivWithin_le (f := Real.tanh) (s := Set.univ) (C := 1)
    (x := y) (y := x) (fun z _ => (hasDerivAt_tanh' z).hasDerivWithinAt) (fun z _ => by
      rw [cosh_sq_inv, Real.norm_eq_abs, abs_of_pos (by have := Real.cosh_pos z; positivity)]
      have := Real.one_le_cosh z
      rw [div_le_one (by positivity)]; nlinarith) convex_univ trivial trivial
  simpa using h

theorem hann (x : ℝ) : |Act.hann.apply x - formula "Hann" x| ≤ 1 / 10 ^ 11 * |x| := by
  simp only [Act.hann, formula]
  rcases lt_or_ge 1 |x| with h | h
  · rw [if_pos h, if_neg (by linarith)]; simp
  · rw [if_neg (by linarith), if_pos h]
    have e : Real.cos (3.14159265359 * 0.5 * x) * Real.cos (3.14159265359 * 0.5 * x) =
        (1 + Real.cos (3.14159265359 * x)) / 2 := by
      have := Real.cos_sq (3.14159265359 * 0.5 * x)
      rw [← pow_two, this, show 2 * (3.14159265359 * 0.5 * x) = 3.14159265359 * x by ring]; ring
    rw [e, show (1 + Real.cos (3.14159265359 * x)) / 2 - (1 + Real.cos (Real.pi * x)) / 2 =
      (Real.cos (3.14159265359 * x) - Real.cos (Real.pi * x)) / 2 by ring, abs_div]
    have h1 := Real.abs_cos_sub_cos_le (3.14159265359 * x) (Real.pi * x)
    rw [← sub_mul, abs_mul] at h1
    have h7 : |3.14159265359 - Real.pi| ≤ 1 / 10 ^ 11 := by
      rw [abs_le]
      constructor <;> linarith [Real.pi_gt_d20, Real.pi_lt_d20]
    have := mul_le_mul_of_nonneg_right h7 (abs_nonneg x)
    have h2 : |(2 : ℝ)| = 2 := by norm_num
    rw [h2]
    have := abs_nonneg (Real.cos (3.14159265359 * x) - Real.cos (Real.pi * x))
    linarith

theorem lecunTanh (x : ℝ) : |Act.lecunTanh.apply x - formula "LecunTanh" x| ≤ 1 / 10 ^ 5 * |x| := by
  simp only [Act.lecunTanh, formula]
  rw [← mul_sub, abs_mul]
  have h := abs_tanh_sub_le (x * 0.666666) (2 / 3 * x)
  rw [show x * 0.666666 - 2 / 3 * x = (-1 / 1500000) * x by ring, abs_mul] at h
  have e1 : |(1.7159 : ℝ)| = 1.7159 := by norm_num
  have e2 : |(-1 / 1500000 : ℝ)| = 1 / 1500000 := by norm_num [abs_of_neg]
  rw [e1]; rw [e2] at h
  have := abs_nonneg x
  linarith

theorem selu (x : ℝ) : |Act.selu.apply x - formula "Selu" x| ≤ 1 / 10 ^ 5 * |x| := by
  simp only [Act.selu, formula, Act.expm1]
  rcases le_or_gt x 0 with h | h
  · rcases h.lt_or_eq with h | rfl
    · rw [if_neg (by linarith), if_neg (by linarith), ← mul_assoc, ← sub_mul, abs_mul, abs_of_neg h]
      have h1 := Real.add_one_le_exp x
      have h2 := (Real.exp_lt_one_iff.mpr h)
      have h3 : |Real.exp x - 1| ≤ -x := by rw [abs_of_neg (by linarith)]; linarith
      refine mul_le_mul ?_ h3 (abs_nonneg _) (by norm_num)
      rw [abs_le]; norm_num
    · norm_num
  · rw [if_pos h.le, if_pos h, ← sub_mul, abs_mul]
    refine mul_le_mul_of_nonneg_right ?_ (abs_nonneg x)
    rw [abs_le]; norm_num

theorem softSteps (x : ℝ) : |Act.softSteps.apply x - formula "SoftSteps" x| ≤ 1 / 10 ^ 8 * |x| := by
  simp only [Act.softSteps, formula]
  have hp := Real.pi_gt_d20
  have hp' := Real.pi_lt_d20
  have hs := Real.abs_sin_sub_sin_le (2 * Real.pi * x) (x * 6.283185307)
  rw [show 2 * Real.pi * x - x * 6.283185307 = (2 * Real.pi - 6.283185307) * x by ring, abs_mul] at hs
  have h1 : |2 * Real.pi - 6.283185307| ≤ 1 / 10 ^ 9 := by rw [abs_le]; constructor <;> linarith
  have h2 : |1 / (2 * Real.pi) - 0.159154943| ≤ 1 / 10 ^ 9 := by
    have hpos : 0 < 2 * Real.pi := by linarith
    rw [abs_le]; constructor
    · rw [neg_le_sub_iff_le_add, ← sub_le_iff_le_add, le_div_iff₀ hpos]; nlinarith
    · rw [sub_le_iff_le_add, div_le_iff₀ hpos]; nlinarith
  have h3 : |Real.sin (2 * Real.pi * x)| ≤ 2 * Real.pi * |x| := by
    have := Real.abs_sin_sub_sin_le (2 * Real.pi * x) 0
    rw [Real.sin_zero, sub_zero, sub_zero, abs_mul, abs_of_pos (by linarith : 0 < 2 * Real.pi)] at this
    exact this
  have e : x - Real.sin (x * 6.283185307) * 0.159154943 -
      (x - Real.sin (2 * Real.pi * x) / (2 * Real.pi)) =
      (Real.sin (2 * Real.pi * x) - Real.sin (x * 6.283185307)) * 0.159154943 +
      Real.sin (2 * Real.pi * x) * (1 / (2 * Real.pi) - 0.159154943) := by ring
  rw [e]
  refine (abs_add_le _ _).trans ?_
  rw [abs_mul, abs_mul]
  have a1 : |(0.159154943 : ℝ)| = 0.159154943 := by norm_num
  rw [a1]
  have hx := abs_nonneg x
  have b1 := mul_le_mul_of_nonneg_right h1 hx
  have b2 : |Real.sin (2 * Real.pi * x)| * |1 / (2 * Real.pi) - 0.159154943| ≤
      (2 * Real.pi * |x|) * (1 / 10 ^ 9) := mul_le_mul h3 h2 (abs_nonneg _) (by nlinarith)
  nlinarith

end Book

end BeeDNN
