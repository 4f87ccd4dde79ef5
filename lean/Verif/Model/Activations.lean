import Mathlib.Analysis.SpecialFunctions.ExpDeriv
import Mathlib.Analysis.SpecialFunctions.Log.Deriv
import Mathlib.Analysis.SpecialFunctions.Sqrt
import Mathlib.Analysis.SpecialFunctions.Pow.Deriv
import Mathlib.Analysis.SpecialFunctions.Arsinh
import Mathlib.Analysis.SpecialFunctions.Trigonometric.ArctanDeriv
import Mathlib.Analysis.SpecialFunctions.Trigonometric.DerivHyp
import Mathlib.MeasureTheory.Integral.IntervalIntegral.FundThmCalculus

/-!
# The activation functions (Activations.cpp)

Simplification: `float` is modelled by `ℝ`, the functions of `<cmath>` by the real functions they approximate,
float constants by their decimal value.  All divisions have non-zero divisors and all `sqrtf`, `powf`, `log1pf`
arguments are in the domain of the function, except in `Logit`, whose domain is `0 < x < 1`.
-/

namespace BeeDNN

/-- Activations.h: an activation object with its three virtual functions. -/
structure Activation where
  name : String
  apply : ℝ → ℝ
  derivation : ℝ → ℝ

namespace Act

/-- `log1pf`. -/
noncomputable def log1p (y : ℝ) : ℝ := Real.log (1 + y)
/-- `expm1f`. -/
noncomputable def expm1 (y : ℝ) : ℝ := Real.exp y - 1
/-- `erff`: the error function `2/√π ∫₀ˣ exp(-t²) dt`. -/
noncomputable def erf (x : ℝ) : ℝ := 2 / √Real.pi * ∫ t in (0 : ℝ)..x, Real.exp (-t ^ 2)

/-- Activations.cpp:22-39 (`Absolute`). -/
noncomputable def absolute : Activation where
  name := "Absolute"
  apply x :=
    |x|
  derivation x :=
    if x ≥ 0 then 1 else -1

/-- Activations.cpp:42-59 (`Asinh`). -/
noncomputable def asinh : Activation where
  name := "Asinh"
  apply x :=
    Real.arsinh x
  derivation x :=
    1 / √(1 + x * x)

/-- Activations.cpp:61-78 (`Atan`). -/
noncomputable def atan : Activation where
  name := "Atan"
  apply x :=
    Real.arctan x
  derivation x :=
    1 / (1 + x * x)

/-- Activations.cpp:81-102 (`Bipolar`). -/
noncomputable def bipolar : Activation where
  name := "Bipolar"
  apply x :=
    if x > 0 then 1 else -1
  derivation _ :=
    0

/-- Activations.cpp:105-123 (`BipolarSigmoid`). -/
noncomputable def bipolarSigmoid : Activation where
  name := "BipolarSigmoid"
  apply x :=
    let s := Real.exp x
    (s - 1) / (s + 1)
  derivation x :=
    let s := Real.exp x
    2 * s / ((s + 1) * (s + 1))

/-- Activations.cpp:126-151 (`Bump`). -/
noncomputable def bump : Activation where
  name := "Bump"
  apply x :=
    if |x| < 1 then Real.exp (-1 / (1 - x * x)) else 0
  derivation x :=
    if |x| < 1 then
      let x2m1 := x * x - 1;
      -2 * x * Real.exp (1 / x2m1) / (x2m1 * x2m1)
    else 0

/-- Activations.cpp:154-170 (`ComplementaryLogLog`). -/
noncomputable def complementaryLogLog : Activation where
  name := "ComplementaryLogLog"
  apply x :=
    1 - Real.exp (-Real.exp x)
  derivation x :=
    Real.exp (x - Real.exp x)

/-- Activations.cpp:172-190 (`DivideBy256`). -/
noncomputable def divideBy256 : Activation where
  name := "DivideBy256"
  apply x :=
    x * 0.00390625
  derivation _ :=
    0.00390625

/-- Activations.cpp:194-226 (`ELiSH`). -/
noncomputable def elish : Activation where
  name := "ELiSH"
  apply x :=
    let exm := Real.exp (-x)
    if x ≥ 0 then x / (1 + exm) else (1 / exm - 1) / (1 + exm)
  derivation x :=
    if x ≥ 0 then
      let exm := Real.exp (-x)
      let invex := 1 / (exm + 1)
      invex + x * exm * invex * invex
    else
      let exm := Real.exp (-x)
      let invex := 1 / (exm + 1)
      let ex := 1 / exm
      ex * invex + exm * (ex - 1) * invex * invex

/-- Activations.cpp:228-246 (`Elliot`). -/
noncomputable def elliot : Activation where
  name := "Elliot"
  apply x :=
    0.5 * (x / (1 + |x|)) + 0.5
  derivation x :=
    let d := 1 + |x|
    0.5 / (d * d)

/-- Activations.cpp:250-268 (`Eswish`). -/
noncomputable def eswish : Activation where
  name := "Eswish"
  apply x :=
    1.75 * x / (1 + Real.exp (-x))
  derivation x :=
    let s := 1 / (1 + Real.exp (-x))
    1.75 * s * (x + 1 - x * s)

/-- Activations.cpp:270-287 (`Exponential`). -/
noncomputable def exponential : Activation where
  name := "Exponential"
  apply x :=
    Real.exp x
  derivation x :=
    Real.exp x

/-- Activations.cpp:290-313 (`E2RU`). -/
noncomputable def e2ru : Activation where
  name := "E2RU"
  apply x :=
    if x ≥ 0 then √(2 * 2 * x + 1) - 0.5 else Real.exp (x * 2) - 0.5
  derivation x :=
    if x ≥ 0 then 2 / √(2 * 2 * x + 1) else 2 * Real.exp (2 * x)

/-- Activations.cpp:316-339 (`E3RU`). -/
noncomputable def e3ru : Activation where
  name := "E3RU"
  apply x :=
    if x ≥ 0 then (3 * 3 * x + 1) ^ (1 / 3 : ℝ) - 1 / 3 else Real.exp (x * 3) - 1 / 3
  derivation x :=
    if x ≥ 0 then 3 * (3 * 3 * x + 1) ^ (-2 / 3 : ℝ) else 3 * Real.exp (3 * x)

/-- Activations.cpp:343-365 (`FTS`). -/
noncomputable def fts : Activation where
  name := "FTS"
  apply x :=
    if x < 0 then -0.2 else x / (1 + Real.exp (-x)) - 0.2
  derivation x :=
    if x < 0 then 0 else
      let s := 1 / (1 + Real.exp (-x))
      s * (x + 1 - x * s)

/-- Activations.cpp:369-391 (`FTS+`). -/
noncomputable def ftsPlus : Activation where
  name := "FTS+"
  apply x :=
    if x < 0 then -0.25 else x / (1 + Real.exp (-x)) - 0.25
  derivation x :=
    if x < 0 then 0 else
      let s := 1 / (1 + Real.exp (-x))
      s * (x + 1 - x * s)

/-- Activations.cpp:393-410 (`Bent`). -/
noncomputable def bent : Activation where
  name := "Bent"
  apply x :=
    (√(x * x + 1) - 1) * 0.5 + x
  derivation x :=
    x / (2 * √(x * x + 1)) + 1

/-- Activations.cpp:413-434 (`BinaryStep`). -/
noncomputable def binaryStep : Activation where
  name := "BinaryStep"
  apply x :=
    if x > 0 then 1 else 0
  derivation _ :=
    0

/-- Activations.cpp:436-453 (`Gauss`). -/
noncomputable def gauss : Activation where
  name := "Gauss"
  apply x :=
    Real.exp (-x * x)
  derivation x :=
    -2 * x * Real.exp (-x * x)

/-- Activations.cpp:459-479 (`GELU`). -/
noncomputable def gelu : Activation where
  name := "GELU"
  apply x :=
    0.5 * x * (1 + erf (x / √2))
  derivation x :=
    0.5 * (1 + erf (x / √2)) + x * Real.exp (-x * x * 0.5) / √(3.14159265359 * 2)

/-- Activations.cpp:483-511 (`Hann`). -/
noncomputable def hann : Activation where
  name := "Hann"
  apply x :=
    if |x| > 1 then 0 else
      let c := Real.cos ((3.14159265359 * 0.5) * x)
      c * c
  derivation x :=
    if |x| > 1 then 0 else -3.14159265359 * 0.5 * Real.sin (3.14159265359 * x)

/-- Activations.cpp:515-544 (`HardELU`). -/
noncomputable def hardELU : Activation where
  name := "HardELU"
  apply x :=
    if x ≥ 0 then x else if x ≤ -2 then -1 else x * 0.5
  derivation x :=
    if x ≥ 0 then 1 else if x ≤ -2 then 0 else 0.5

/-- Activations.cpp:549-577 (`HardShrink`). -/
noncomputable def hardShrink : Activation where
  name := "HardShrink"
  apply x :=
    if x > 0.5 then x else if x < -0.5 then x else 0
  derivation x :=
    if x > 0.5 then 1 else if x < -0.5 then 1 else 0

/-- Activations.cpp:580-608 (`HardSwish`). -/
noncomputable def hardSwish : Activation where
  name := "HardSwish"
  apply x :=
    if x ≥ 3 then x else if x < -3 then 0 else x * (x + 3) * (1 / 6)
  derivation x :=
    if x ≥ 3 then 1 else if x < -3 then 0 else x * (1 / 3) + 0.5

/-- Activations.cpp:611-639 (`HardTanh`). -/
noncomputable def hardTanh : Activation where
  name := "HardTanh"
  apply x :=
    if x > 1 then 1 else if x < -1 then -1 else x
  derivation x :=
    if x > 1 then 0 else if x < -1 then 0 else 1

/-- Activations.cpp:641-659 (`Identity`). -/
noncomputable def identity : Activation where
  name := "Identity"
  apply x :=
    x
  derivation _ :=
    1

/-- Activations.cpp:663-689 (`ISRLU`). -/
noncomputable def isrlu : Activation where
  name := "ISRLU"
  apply x :=
    if x ≥ 0 then x else x / √(1 + 1 * x * x)
  derivation x :=
    if x ≥ 0 then 1 else
      let t := 1 / √(1 + 1 * x * x)
      t * t * t

/-- Activations.cpp:694-714 (`Mish`). -/
noncomputable def mish : Activation where
  name := "Mish"
  apply x :=
    let sp := log1p (Real.exp x)
    x * Real.tanh sp
  derivation x :=
    let ex := Real.exp x
    let sp := log1p ex
    let sech := 1 / Real.cosh sp
    Real.tanh sp + x * ex * sech * sech / (ex + 1)

/-- Activations.cpp:717-734 (`Sin`). -/
noncomputable def sin : Activation where
  name := "Sin"
  apply x :=
    Real.sin x
  derivation x :=
    Real.cos x

/-- Activations.cpp:737-760 (`SinC`). -/
noncomputable def sinC : Activation where
  name := "SinC"
  apply x :=
    if x = 0 then 1 else Real.sin x / x
  derivation x :=
    if x = 0 then 0 else Real.cos x / x - Real.sin x / (x * x)

/-- Activations.cpp:764-787 (`SineReLU`). -/
noncomputable def sineReLU : Activation where
  name := "SineReLU"
  apply x :=
    if x > 0 then x else 0.01 * (Real.sin x - Real.cos x)
  derivation x :=
    if x > 0 then 1 else 0.01 * (-Real.cos x + Real.sin x)

/-- Activations.cpp:790-806 (`Logit`). -/
noncomputable def logit : Activation where
  name := "Logit"
  apply x :=
    Real.log (x / (1 - x))
  derivation x :=
    -x / (x - 1)

/-- Activations.cpp:809-825 (`LogSigmoid`). -/
noncomputable def logSigmoid : Activation where
  name := "LogSigmoid"
  apply x :=
    Real.log (1 / (1 + Real.exp (-x)))
  derivation x :=
    1 / (1 + Real.exp x)

/-- Activations.cpp:827-844 (`Relu`). -/
noncomputable def relu : Activation where
  name := "Relu"
  apply x :=
    if x > 0 then x else 0
  derivation x :=
    if x > 0 then 1 else 0

/-- Activations.cpp:846-875 (`Relu6`). -/
noncomputable def relu6 : Activation where
  name := "Relu6"
  apply x :=
    if x ≥ 6 then 6 else if x ≤ 0 then 0 else x
  derivation x :=
    if x ≥ 6 then 0 else if x ≤ 0 then 0 else 1

/-- Activations.cpp:877-894 (`LeakyRelu`). -/
noncomputable def leakyRelu : Activation where
  name := "LeakyRelu"
  apply x :=
    if x ≥ 0 then x else 0.01 * x
  derivation x :=
    if x ≥ 0 then 1 else 0.01

/-- Activations.cpp:897-914 (`LeakyRelu256`). -/
noncomputable def leakyRelu256 : Activation where
  name := "LeakyRelu256"
  apply x :=
    if x ≥ 0 then x else x * 0.00390625
  derivation x :=
    if x ≥ 0 then 1 else 0.00390625

/-- Activations.cpp:919-948 (`LeakyTwiceRelu6`). -/
noncomputable def leakyTwiceRelu6 : Activation where
  name := "LeakyTwiceRelu6"
  apply x :=
    if x < 0 then 0.2 * x else if x < 6 then x else 6 + 0.2 * (x - 6)
  derivation x :=
    if x < 0 then 0.2 else if x > 6 then 0.2 else 1

/-- Activations.cpp:951-968 (`LecunTanh`). -/
noncomputable def lecunTanh : Activation where
  name := "LecunTanh"
  apply x :=
    1.7159 * Real.tanh (x * 0.666666)
  derivation x :=
    let t := Real.cosh (x * 0.666666)
    (1.7159 * 0.666666) / (t * t)

/-- Activations.cpp:971-988 (`LiSHT`). -/
noncomputable def lisht : Activation where
  name := "LiSHT"
  apply x :=
    x * Real.tanh x
  derivation x :=
    let t := Real.tanh x
    x + t * (1 - x * t)

/-- Activations.cpp:990-1007 (`NLRelu`). -/
noncomputable def nlrelu : Activation where
  name := "NLRelu"
  apply x :=
    if x > 0 then log1p x else 0
  derivation x :=
    if x > 0 then 1 / (1 + x) else 0

/-- Activations.cpp:1013-1036 (`O2RU`). -/
noncomputable def o2ru : Activation where
  name := "O2RU"
  apply x :=
    if x ≥ 0 then √(2 * 2 * x + 1) - 1 else -√(-2 * 2 * x + 1) + 1
  derivation x :=
    if x ≥ 0 then 2 / √(2 * 2 * x + 1) else 2 / √(-2 * 2 * x + 1)

/-- Activations.cpp:1039-1062 (`O3RU`). -/
noncomputable def o3ru : Activation where
  name := "O3RU"
  apply x :=
    if x ≥ 0 then (3 * 3 * x + 1) ^ (1 / 3 : ℝ) - 1 else -(-3 * 3 * x + 1) ^ (1 / 3 : ℝ) + 1
  derivation x :=
    if x ≥ 0 then 3 * (3 * 3 * x + 1) ^ (-2 / 3 : ℝ) else 3 * (-3 * 3 * x + 1) ^ (-2 / 3 : ℝ)

/-- Activations.cpp:1066-1091 (`ELU`). -/
noncomputable def elu : Activation where
  name := "ELU"
  apply x :=
    if x ≥ 0 then x else expm1 x
  derivation x :=
    if x ≥ 0 then 1 else expm1 x + 1

/-- Activations.cpp:1093-1117 (`CELU`). -/
noncomputable def celu : Activation where
  name := "CELU"
  apply x :=
    if x ≥ 0 then x else 1 * expm1 (x / 1)
  derivation x :=
    if x ≥ 0 then 1 else Real.exp (x / 1)

/-- Activations.cpp:1118-1143 (`Selu`). -/
noncomputable def selu : Activation where
  name := "Selu"
  apply x :=
    if x ≥ 0 then 1.05070 * x else 1.05070 * 1.67326 * expm1 x
  derivation x :=
    if x ≥ 0 then 1.05070 else 1.05070 * 1.67326 * expm1 x + 1.05070 * 1.67326

/-- Activations.cpp:1145-1162 (`SoftPlus`). -/
noncomputable def softPlus : Activation where
  name := "SoftPlus"
  apply x :=
    log1p (Real.exp x)
  derivation x :=
    1 / (1 + Real.exp (-x))

/-- Activations.cpp:1166-1194 (`SoftShrink`). -/
noncomputable def softShrink : Activation where
  name := "SoftShrink"
  apply x :=
    if x > 0.5 then x - 0.5 else if x < -0.5 then x + 0.5 else 0
  derivation x :=
    if x > 0.5 then 1 else if x < -0.5 then 1 else 0

/-- Activations.cpp:1196-1214 (`SoftSign`). -/
noncomputable def softSign : Activation where
  name := "SoftSign"
  apply x :=
    x / (1 + |x|)
  derivation x :=
    let d := 1 + |x|
    1 / (d * d)

/-- Activations.cpp:1216-1237 (`SoftSteps`). -/
noncomputable def softSteps : Activation where
  name := "SoftSteps"
  apply x :=
    x - Real.sin (x * 6.283185307) * 0.159154943
  derivation x :=
    1 - Real.cos (x * 6.283185307)

/-- Activations.cpp:1239-1256 (`Sigmoid`). -/
noncomputable def sigmoid : Activation where
  name := "Sigmoid"
  apply x :=
    1 / (1 + Real.exp (-x))
  derivation x :=
    let s := 1 / (1 + Real.exp (-x))
    s * (1 - s)

/-- Activations.cpp:1260-1277 (`SiLU`). -/
noncomputable def silu : Activation where
  name := "SiLU"
  apply x :=
    x / (1 + Real.exp (-x))
  derivation x :=
    let ex := Real.exp (-x)
    let exinv := 1 / (1 + ex)
    exinv * (1 + x * ex * exinv)

/-- Activations.cpp:1281-1302 (`dSiLU`). -/
noncomputable def dsilu : Activation where
  name := "dSiLU"
  apply x :=
    let ex := Real.exp (-x)
    let exinv := 1 / (1 + ex)
    exinv * (1 + x * ex * exinv)
  derivation x :=
    let ex := Real.exp (-x)
    let exinv := 1 / (1 + ex)
    ex * exinv * exinv * (2 + x * (2 * ex * exinv - 1))

/-- Activations.cpp:1305-1333 (`HardSigmoid`). -/
noncomputable def hardSigmoid : Activation where
  name := "HardSigmoid"
  apply x :=
    if x > 2.5 then 1 else if x < -2.5 then 0 else 0.2 * x + 0.5
  derivation x :=
    if x > 2.5 then 0 else if x < -2.5 then 0 else 0.2

/-- Activations.cpp:1336-1353 (`Swish`). -/
noncomputable def swish : Activation where
  name := "Swish"
  apply x :=
    x / (1 + Real.exp (-x))
  derivation x :=
    let s := 1 / (1 + Real.exp (-x))
    s * (x + 1 - x * s)

/-- Activations.cpp:1355-1397 (`SQNL`). -/
noncomputable def sqnl : Activation where
  name := "SQNL"
  apply x :=
    if x ≥ 0 then (if x ≥ 2 then 1 else x - x * x * 0.25)
    else (if x ≤ -2 then -1 else x + x * x * 0.25)
  derivation x :=
    if x ≥ 0 then (if x ≥ 2 then 0 else 1 - x * 0.5)
    else (if x ≤ -2 then 0 else 1 + x * 0.5)

/-- Activations.cpp:1400-1442 (`SmoothSigmoid`). -/
noncomputable def smoothSigmoid : Activation where
  name := "SmoothSigmoid"
  apply x :=
    if x > 0 then (if x > 4 then 1 else 0.5 + x * 0.25 - x * x * (1 / 32))
    else (if x < -4 then 0 else 0.5 + x * 0.25 + x * x * (1 / 32))
  derivation x :=
    if x > 0 then (if x > 4 then 0 else 0.25 - x * (1 / 16))
    else (if x < -4 then 0 else 0.25 + x * (1 / 16))

/-- Activations.cpp:1445-1473 (`SmoothSoftPlus`). -/
noncomputable def smoothSoftPlus : Activation where
  name := "SmoothSoftPlus"
  apply x :=
    if x < 0 then 0 else if x > 0.5 then x - 0.25 else x * x
  derivation x :=
    if x < 0 then 0 else if x > 0.5 then 1 else x + x

/-- Activations.cpp:1476-1518 (`SmoothTanh`). -/
noncomputable def smoothTanh : Activation where
  name := "SmoothTanh"
  apply x :=
    if x > 0 then (if x > 2 then 1 else x - x * x * 0.25)
    else (if x < -2 then -1 else x + x * x * 0.25)
  derivation x :=
    if x > 0 then (if x > 2 then 0 else 1 - x * 0.5)
    else (if x < -2 then -0 else 1 + x * 0.5)

/-- Activations.cpp:1521-1555 (`SQ-RBF`). -/
noncomputable def sqrbf : Activation where
  name := "SQ-RBF"
  apply x :=
    if |x| ≥ 2 then 0 else if |x| ≤ 1 then 1 - x * x * 0.5
    else if x ≥ 0 then x * x * 0.5 - 2 * x + 2 else x * x * 0.5 + 2 * x + 2
  derivation x :=
    if |x| ≥ 2 then 0 else if |x| ≤ 1 then 1 - x
    else if x ≥ 0 then x - 2 else x + 2

/-- Activations.cpp:1557-1574 (`Tanh`). -/
noncomputable def tanh : Activation where
  name := "Tanh"
  apply x :=
    Real.tanh x
  derivation x :=
    let t := Real.tanh x
    1 - t * t

/-- Activations.cpp:1577-1594 (`TanhExp`). -/
noncomputable def tanhExp : Activation where
  name := "TanhExp"
  apply x :=
    x * Real.tanh (Real.exp x)
  derivation x :=
    let f := x * Real.tanh (Real.exp x)
    f - x * (f * f - 1)

/-- Activations.cpp:1596-1613 (`TanhShrink`). -/
noncomputable def tanhShrink : Activation where
  name := "TanhShrink"
  apply x :=
    x - Real.tanh x
  derivation x :=
    let t := Real.tanh x
    t * t

/-- Activations.cpp:1617-1634 (`ThresholdedRelu`). -/
noncomputable def thresholdedRelu : Activation where
  name := "ThresholdedRelu"
  apply x :=
    if x ≥ 1 then x else 0
  derivation x :=
    if x ≥ 1 then 1 else 0

end Act

/-- Activations.cpp:1636-1833: the chain of comparisons, in source order (key, created object). -/
noncomputable def activationTable : List (String × Activation) := [
  ("Absolute", Act.absolute),
  ("Asinh", Act.asinh),
  ("Atan", Act.atan),
  ("Bent", Act.bent),
  ("BinaryStep", Act.binaryStep),
  ("Bipolar", Act.bipolar),
  ("BipolarSigmoid", Act.bipolarSigmoid),
  ("Bump", Act.bump),
  ("CELU", Act.celu),
  ("ComplementaryLogLog", Act.complementaryLogLog),
  ("DivideBy256", Act.divideBy256),
  ("dSiLU", Act.dsilu),
  ("ELiSH", Act.elish),
  ("Elliot", Act.elliot),
  ("ELU", Act.elu),
  ("Eswish", Act.eswish),
  ("Exponential", Act.exponential),
  ("E2RU", Act.e2ru),
  ("E3RU", Act.e3ru),
  ("FTS", Act.fts),
  ("FTS+", Act.ftsPlus),
  ("Gauss", Act.gauss),
  ("GELU", Act.gelu),
  ("Hann", Act.hann),
  ("HardELU", Act.hardELU),
  ("HardSigmoid", Act.hardSigmoid),
  ("HardShrink", Act.hardShrink),
  ("HardSwish", Act.hardSwish),
  ("HardTanh", Act.hardTanh),
  ("Identity", Act.identity),
  ("ISRLU", Act.isrlu),
  ("LeakyRelu", Act.leakyRelu),
  ("LeakyRelu256", Act.leakyRelu256),
  ("LeakyTwiceRelu6", Act.leakyTwiceRelu6),
  ("LecunTanh", Act.lecunTanh),
  ("LiSHT", Act.lisht),
  ("Logit", Act.logit),
  ("LogSigmoid", Act.logSigmoid),
  ("Mish", Act.mish),
  ("NLRelu", Act.nlrelu),
  ("O2RU", Act.o2ru),
  ("O3RU", Act.o3ru),
  ("SmoothSigmoid", Act.smoothSigmoid),
  ("SmoothSoftPlus", Act.smoothSoftPlus),
  ("SmoothTanh", Act.smoothTanh),
  ("Relu", Act.relu),
  ("Relu6", Act.relu6),
  ("Selu", Act.selu),
  ("SQNL", Act.sqnl),
  ("SQ-RBF", Act.sqrbf),
  ("SoftPlus", Act.softPlus),
  ("Sigmoid", Act.sigmoid),
  ("SiLU", Act.silu),
  ("Sin", Act.sin),
  ("SineReLU", Act.sineReLU),
  ("SinC", Act.sinC),
  ("Swish", Act.swish),
  ("SoftShrink", Act.softShrink),
  ("SoftSign", Act.softSign),
  ("SoftSteps", Act.softSteps),
  ("Tanh", Act.tanh),
  ("TanhExp", Act.tanhExp),
  ("TanhShrink", Act.tanhShrink),
  ("ThresholdedRelu", Act.thresholdedRelu)]

/-- Activations.cpp:1636-1833: `get_activation`; `none` is `nullptr`. -/
noncomputable def getActivation (s : String) : Option Activation :=
  (activationTable.find? (fun p => s == p.1)).map Prod.snd

/-- Activations.cpp:1835-1905: `list_activations_available`. -/
def availableActivations : List String := [
  "Absolute", "Asinh", "Atan", "Bent", "BinaryStep", "Bipolar",
  "BipolarSigmoid", "Bump", "CELU", "ComplementaryLogLog", "DivideBy256", "dSiLU",
  "ELiSH", "Elliot", "ELU", "Eswish", "Exponential", "E2RU",
  "E3RU", "FTS", "FTS+", "Gauss", "GELU", "Hann",
  "HardELU", "HardSigmoid", "HardShrink", "HardSwish", "HardTanh", "Identity",
  "ISRLU", "LeakyRelu", "LeakyRelu256", "LeakyTwiceRelu6", "LecunTanh", "LiSHT",
  "Logit", "LogSigmoid", "Mish", "NLRelu", "O2RU", "O3RU",
  "SmoothSigmoid", "SmoothSoftPlus", "SmoothTanh", "Relu", "Relu6", "Selu",
  "SoftPlus", "SoftShrink", "SoftSign", "SoftSteps", "SQNL", "SQ-RBF",
  "Sigmoid", "SiLU", "SinC", "Sin", "SineReLU", "Swish",
  "Tanh", "TanhExp", "TanhShrink", "ThresholdedRelu"]

end BeeDNN
