import Verif.Props.Activations
import Verif.Lemmas.ActivationBook

/-!
# Every activation is the function that its name promises (claim C106)
-/

namespace BeeDNN

open Book

theorem activationTable_book : ∀ p ∈ activationTable, p.1 ∉ rounded → ∀ x ∈ domain p.1,
    p.2.apply x = formula p.1 x := by
  simp only [activationTable, List.forall_mem_cons]
  exact ⟨fun _ x _ => absolute x, fun _ x _ => asinh x, fun _ _ _ => rfl, fun _ x _ => bent x,
    fun _ x h => binaryStep x h, fun _ x h => bipolar x h, fun _ x _ => bipolarSigmoid x,
    fun _ x _ => bump x, fun _ x _ => celu x, fun _ _ _ => rfl, fun _ x _ => divideBy256 x,
    fun _ x _ => dsilu x, fun _ x _ => elish x, fun _ x _ => elliot x, fun _ x _ => elu x,
    fun _ x _ => eswish x, fun _ _ _ => rfl, fun _ x _ => e2ru x, fun _ x _ => e3ru x, fun _ x _ => fts x,
    fun _ x _ => ftsPlus x, fun _ x _ => gauss x, fun _ x _ => gelu x, fun h => absurd (by decide) h,
    fun _ x _ => hardELU x, fun _ x _ => hardSigmoid x, fun _ x _ => hardShrink x,
    fun _ x _ => hardSwish x, fun _ x _ => hardTanh x, fun _ _ _ => rfl, fun _ x _ => isrlu x,
    fun _ x _ => leakyRelu x, fun _ x _ => leakyRelu256 x, fun _ x _ => leakyTwiceRelu6 x,
    fun h => absurd (by decide) h, fun _ _ _ => rfl, fun _ x h => logit x h, fun _ x _ => logSigmoid x,
    fun _ _ _ => rfl, fun _ x _ => nlrelu x, fun _ x _ => o2ru x, fun _ x _ => o3ru x,
    fun _ x _ => smoothSigmoid x, fun _ x _ => smoothSoftPlus x, fun _ x _ => smoothTanh x,
    fun _ x _ => relu x, fun _ x _ => relu6 x, fun h => absurd (by decide) h, fun _ x _ => sqnl_eq x,
    fun _ x _ => sqrbf x, fun _ _ _ => rfl, fun _ _ _ => rfl, fun _ x _ => silu x, fun _ _ _ => rfl,
    fun _ x _ => sineReLU x, fun _ _ _ => rfl, fun _ x _ => swish x, fun _ x _ => softShrink x,
    fun _ _ _ => rfl, fun h => absurd (by decide) h, fun _ x _ => tanh x, fun _ _ _ => rfl,
    fun _ _ _ => rfl, fun _ x h => thresholdedRelu x h, by simp⟩

theorem activationTable_rounded : ∀ p ∈ activationTable, p.1 ∈ rounded → ∀ x,
    |p.2.apply x - formula p.1 x| ≤ 1 / 10 ^ 5 * |x| := by
  have weak : ∀ {e : ℝ} {c x : ℝ}, c ≤ 1 / 10 ^ 5 → e ≤ c * |x| → e ≤ 1 / 10 ^ 5 * |x| := fun hc h =>
    h.trans (mul_le_mul_of_nonneg_right hc (abs_nonneg _))
  have no : ∀ {s : String} {P : Prop}, s ∉ rounded → (s ∈ rounded → P) := fun h g => absurd g h
  simp only [activationTable, List.forall_mem_cons]
  exact ⟨no (by decide), no (by decide), no (by decide), no (by decide), no (by decide), no (by decide),
    no (by decide), no (by decide), no (by decide), no (by decide), no (by decide), no (by decide),
    no (by decide), no (by decide), no (by decide), no (by decide), no (by decide), no (by decide),
    no (by decide), no (by decide), no (by decide), no (by decide), no (by decide),
    fun _ x => weak (by norm_num) (hann x), no (by decide), no (by decide), no (by decide),
    no (by decide), no (by decide), no (by decide), no (by decide), no (by decide), no (by decide),
    no (by decide), fun _ x => lecunTanh x, no (by decide), no (by decide), no (by decide),
    no (by decide), no (by decide), no (by decide), no (by decide), no (by decide), no (by decide),
    no (by decide), no (by decide), no (by decide), fun _ x => selu x, no (by decide),
    no (by decide), no (by decide), no (by decide), no (by decide), no (by decide), no (by decide),
    no (by decide), no (by decide), no (by decide), no (by decide),
    fun _ x => weak (by norm_num) (softSteps x), no (by decide), no (by decide), no (by decide),
    no (by decide), by simp⟩

/-! ## C106 -/

/-- C106: the object that `get_activation` creates for a name computes the function of that name, at every number
of its domain, for the 60 names whose constants need no rounding. -/
theorem C106_formula {s : String} {A : Activation} (h : getActivation s = some A) (hr : s ∉ rounded)
    (x : ℝ) (hx : x ∈ domain s) : A.apply x = formula s x :=
  activationTable_book _ (mem_of_getActivation h) hr x hx

/-- C106 for the four names whose constants are rounded: the relative error is that of the constants. -/
theorem C106_rounded {s : String} {A : Activation} (h : getActivation s = some A) (hr : s ∈ rounded) (x : ℝ) :
    |A.apply x - formula s x| ≤ 1 / 10 ^ 5 * |x| :=
  activationTable_rounded _ (mem_of_getActivation h) hr x

/-- C106, at the steps: `BinaryStep`, `Bipolar` and `ThresholdedRelu` take the lower, the lower and the upper
value. -/
theorem C106_steps : Act.binaryStep.apply 0 = 0 ∧ Act.bipolar.apply 0 = -1 ∧ Act.thresholdedRelu.apply 1 = 1 := by
  simp [Act.binaryStep, Act.bipolar, Act.thresholdedRelu]

/-- C106: pairs of names that denote the same function. -/
theorem C106_synonyms (x : ℝ) :
    Act.swish.apply x = Act.silu.apply x ∧ Act.sqnl.apply x = Act.smoothTanh.apply x ∧
      Act.celu.apply x = Act.elu.apply x := by
  refine ⟨rfl, ?_, ?_⟩
  · rw [sqnl_eq, smoothTanh]; rfl
  · simp only [Act.celu, Act.elu, div_one, one_mul]

example : getActivation "SoftShrink" = some Act.softShrink := rfl
example : (2 : ℝ) ∈ domain "SoftShrink" ∧ formula "SoftShrink" 2 = 3 / 2 := by
  refine ⟨trivial, ?_⟩
  simp only [formula, rect, Real.sign_of_pos (by norm_num : (0 : ℝ) < 2)]
  norm_num
example : getActivation "Selu" = some Act.selu ∧ "Selu" ∈ rounded := ⟨rfl, by decide⟩

end BeeDNN
