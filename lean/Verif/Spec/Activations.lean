import Verif.Model.Activations

/-! # Specification vocabulary for activations -/

namespace BeeDNN

/-- The points at which an activation function is put together from different formulas.  Away from these
points it is differentiable. -/
noncomputable def kinks (name : String) : List ℝ :=
  match name with
  | "Absolute" | "BinaryStep" | "Bipolar" | "CELU" | "ELiSH" | "Elliot" | "ELU" | "E2RU" | "E3RU" | "FTS"
  | "FTS+" | "ISRLU" | "LeakyRelu" | "LeakyRelu256" | "NLRelu" | "O2RU" | "O3RU" | "Relu" | "Selu"
  | "SineReLU" | "SinC" | "SoftSign" => [0]
  | "Bump" | "Hann" | "HardTanh" => [-1, 1]
  | "HardELU" => [-2, 0]
  | "HardSigmoid" => [-2.5, 2.5]
  | "HardShrink" | "SoftShrink" => [-0.5, 0.5]
  | "HardSwish" => [-3, 3]
  | "LeakyTwiceRelu6" | "Relu6" => [0, 6]
  | "SmoothSigmoid" => [-4, 0, 4]
  | "SmoothSoftPlus" => [0, 0.5]
  | "SmoothTanh" | "SQNL" => [-2, 0, 2]
  | "SQ-RBF" => [-2, -1, 1, 2]
  | "ThresholdedRelu" => [1]
  | _ => []

/-- Activations whose `derivation` is not the derivative (four of them), or only up to the precision of the
float constants (`GELU`, `SoftSteps`). -/
def wrongDerivations : List String := ["SineReLU", "Logit", "TanhExp", "SQ-RBF"]
def inexactDerivations : List String := ["GELU", "SoftSteps"]

end BeeDNN
