import Verif.Spec.PyLib

/-! # Specification: the activations of both libraries -/

namespace BeeDNN

/-- The name in the C++ library of an activation of the Python library. -/
def cppName (s : String) : String :=
  match s with
  | "ArcSinh" => "Asinh"
  | "ArcTan" => "Atan"
  | "LeakyRELU" => "LeakyRelu"
  | "LeakyRELU256" => "LeakyRelu256"
  | "RELU" => "Relu"
  | "RELU6" => "Relu6"
  | s => s

/-- Where the two libraries disagree. -/
noncomputable def apart (s : String) : List ℝ :=
  match s with
  | "Bipolar" => [0]
  | "HardELU" => [-2]
  | "HardShrink" => [-0.5, 0.5]
  | _ => []

end BeeDNN
