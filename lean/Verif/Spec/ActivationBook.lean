import Mathlib.Analysis.SpecialFunctions.ExpDeriv
import Mathlib.Analysis.SpecialFunctions.Log.Basic
import Mathlib.Analysis.SpecialFunctions.Pow.Real
import Mathlib.Analysis.SpecialFunctions.Trigonometric.Arctan
import Mathlib.Data.Real.Sign
import Mathlib.MeasureTheory.Integral.IntervalIntegral.FundThmCalculus

/-!
# The activation functions as they are commonly defined

The formulas are the common definitions (Keras, PyTorch, the articles named in the comments of Activations.cpp),
written with `max`, `min`, `sign`, the logistic function and the normal distribution where the code has
comparisons.  No article could be consulted while this was written.  For `DivideBy256`, `E2RU`, `E3RU`, `O2RU`,
`O3RU`, `HardELU`, `LeakyRelu256`, `LeakyTwiceRelu6`, `SmoothSigmoid`, `SmoothSoftPlus`, `SmoothTanh` and for the
factor 1/100 of `SineReLU` there was no source other than the code and its comments, so that here the formula is
a closed form of what the code does, not evidence that the article says the same.  This file does not import the
model.
-/

namespace BeeDNN
namespace Book

/-- The logistic function. -/
noncomputable def σ (x : ℝ) : ℝ := 1 / (1 + Real.exp (-x))

/-- The positive part of a number, the rectifier. -/
noncomputable def rect (x : ℝ) : ℝ := max 0 x

/-- The number nearest to `x` between `a` and `b`. -/
noncomputable def clip (a b x : ℝ) : ℝ := max a (min b x)

/-- The distribution function of the standard normal law, `1/2` at zero. -/
noncomputable def Φ (x : ℝ) : ℝ := 1 / 2 + 1 / √(2 * Real.pi) * ∫ t in (0 : ℝ)..x, Real.exp (-t ^ 2 / 2)

/-- The odd root unit of order `n` (arXiv 1804.11237). -/
noncomputable def oddRoot (n x : ℝ) : ℝ := Real.sign x * ((n ^ 2 * |x| + 1) ^ (1 / n) - 1)

/-- The exponential root unit of order `n` (arXiv 1804.11237). -/
noncomputable def expRoot (n x : ℝ) : ℝ :=
  if 0 < x then (n ^ 2 * x + 1) ^ (1 / n) - 1 / n else Real.exp (n * x) - 1 / n

/-- The square nonlinearity: a parabola from `0` to `1` with top at `2`, continued as an odd function. -/
noncomputable def sqnl (x : ℝ) : ℝ := Real.sign x * (1 - (1 - min |x| 2 / 2) ^ 2)

/-- The leaky rectifier with slope `a` below zero. -/
noncomputable def leaky (a x : ℝ) : ℝ := rect x - a * rect (-x)

/-- The activation function of a name. -/
noncomputable def formula (name : String) (x : ℝ) : ℝ :=
  match name with
  | "Absolute" => max x (-x)
  | "Asinh" => Real.log (x + √(x ^ 2 + 1))
  | "Atan" => Real.arctan x
  | "Bent" => (√(x ^ 2 + 1) - 1) / 2 + x
  | "BinaryStep" => if 0 ≤ x then 1 else 0
  | "Bipolar" => Real.sign x
  | "BipolarSigmoid" => (1 - Real.exp (-x)) / (1 + Real.exp (-x))
  | "Bump" => if x ∈ Set.Ioo (-1) 1 then Real.exp (-(1 / (1 - x ^ 2))) else 0
  | "CELU" => max 0 x + min 0 (Real.exp x - 1)
  | "ComplementaryLogLog" => 1 - Real.exp (-Real.exp x)
  | "DivideBy256" => x / 256
  | "dSiLU" => σ x * (1 + x * (1 - σ x))
  | "ELiSH" => if 0 ≤ x then x * σ x else (Real.exp x - 1) * σ x
  | "Elliot" => x / (2 * (1 + |x|)) + 1 / 2
  | "ELU" => if 0 < x then x else Real.exp x - 1
  | "Eswish" => 1.75 * x * σ x
  | "Exponential" => Real.exp x
  | "E2RU" => expRoot 2 x
  | "E3RU" => expRoot 3 x
  | "FTS" => rect x * σ x - 0.2
  | "FTS+" => rect x * σ x - 0.25
  | "Gauss" => Real.exp (-x ^ 2)
  | "GELU" => x * Φ x
  | "Hann" => if |x| ≤ 1 then (1 + Real.cos (Real.pi * x)) / 2 else 0
  | "HardELU" => if 0 < x then x else max (-1) (x / 2)
  | "HardSigmoid" => clip 0 1 (x / 5 + 1 / 2)
  | "HardShrink" => if |x| ≤ 1 / 2 then 0 else x
  | "HardSwish" => x * min 6 (rect (x + 3)) / 6
  | "HardTanh" => clip (-1) 1 x
  | "Identity" => x
  | "ISRLU" => rect x - rect (-x) / √(1 + x ^ 2)
  | "LeakyRelu" => leaky (1 / 100) x
  | "LeakyRelu256" => leaky (1 / 256) x
  | "LeakyTwiceRelu6" => clip 0 6 x - rect (-x) / 5 + rect (x - 6) / 5
  | "LecunTanh" => 1.7159 * Real.tanh (2 / 3 * x)
  | "LiSHT" => x * Real.tanh x
  | "Logit" => Real.log x - Real.log (1 - x)
  | "LogSigmoid" => -Real.log (1 + Real.exp (-x))
  | "Mish" => x * Real.tanh (Real.log (1 + Real.exp x))
  | "NLRelu" => Real.log (rect x + 1)
  | "O2RU" => oddRoot 2 x
  | "O3RU" => oddRoot 3 x
  | "SmoothSigmoid" => (1 + sqnl (x / 2)) / 2
  | "SmoothSoftPlus" => clip 0 (1 / 2) x ^ 2 + rect (x - 1 / 2)
  | "SmoothTanh" => sqnl x
  | "Relu" => rect x
  | "Relu6" => min 6 (rect x)
  | "Selu" => 1.0507009873554804934193349852946 *
      (if 0 < x then x else 1.6732632423543772848170429916717 * (Real.exp x - 1))
  | "SQNL" => sqnl x
  | "SQ-RBF" => if |x| ≤ 1 then 1 - x ^ 2 / 2 else if |x| < 2 then (2 - |x|) ^ 2 / 2 else 0
  | "SoftPlus" => Real.log (1 + Real.exp x)
  | "Sigmoid" => σ x
  | "SiLU" => x * σ x
  | "Sin" => Real.sin x
  | "SineReLU" => if 0 < x then x else (Real.sin x - Real.cos x) / 100
  | "SinC" => if x = 0 then 1 else Real.sin x / x
  | "Swish" => x * σ x
  | "SoftShrink" => Real.sign x * rect (|x| - 1 / 2)
  | "SoftSign" => x / (1 + |x|)
  | "SoftSteps" => x - Real.sin (2 * Real.pi * x) / (2 * Real.pi)
  | "Tanh" => (Real.exp x - Real.exp (-x)) / (Real.exp x + Real.exp (-x))
  | "TanhExp" => x * Real.tanh (Real.exp x)
  | "TanhShrink" => x - Real.tanh x
  | "ThresholdedRelu" => if 1 < x then x else 0
  | _ => 0

/-- The numbers for which the function of a name is defined and the literature agrees on its value: `Logit` is
defined between 0 and 1; the value of a step at the step itself is a matter of convention. -/
def domain (name : String) : Set ℝ :=
  match name with
  | "BinaryStep" | "Bipolar" => {0}ᶜ
  | "ThresholdedRelu" => {1}ᶜ
  | "Logit" => Set.Ioo 0 1
  | _ => Set.univ

/-- The functions whose definition has constants that the code rounds, such as π. -/
def rounded : List String := ["Hann", "LecunTanh", "Selu", "SoftSteps"]

end Book
end BeeDNN
