import Verif.Model.Layer
import Verif.Spec.Softmax

/-! # Specification: one training pass through a layer object -/

namespace BeeDNN

/-- `forward` and then `backpropagation` of a layer object: the layer afterwards, the outputs and the gradients of the inputs.
`o` and `gi` are the matrices that are overwritten. -/
noncomputable def Layer.pass (e e' : Env) (l : Layer) (X G o gi : Mat ℝ) : Out (Layer × Mat ℝ × Mat ℝ) := do
  let (l, Y) ← l.forward e X o
  let (l, D) ← l.backprop e' X G gi
  return (l, Y, D)

end BeeDNN
