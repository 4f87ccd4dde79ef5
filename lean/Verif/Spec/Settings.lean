import Verif.Spec.Optimizer
import Mathlib.Data.Real.Basic

/-!
# Settings of optimizers

What a user of the trainer expects an optimizer of a name to work with: the value given, or the default of that name if the
value is −1.  The defaults are those of the comments and constants in Optimizer.cpp (there is no other documentation).
-/

namespace BeeDNN

/-- Default learning rate of the optimizer of a name; `None` and the RPROP optimizers have none. -/
noncomputable def bookRate (s : String) : Option ℝ :=
  if s ∈ ["Adagrad", "Adam", "AdamW", "Adamax"] then some (1 / 1000)
  else if s = "Nadam" then some (2 / 1000)
  else if s ∈ ["SGD", "Momentum", "Nesterov", "RMSProp", "Amsgrad"] then some (1 / 100)
  else if s ∈ ["Step", "MomentumNg"] then some (1 / 10)
  else none

/-- Default momentum. -/
noncomputable def bookMomentum (s : String) : Option ℝ :=
  if s ∈ ["Momentum", "MomentumNg", "Nesterov"] then some (9 / 10) else none

/-- Default decay of the mean square. -/
noncomputable def bookDecay (s : String) : Option ℝ :=
  if s = "RMSProp" then some (99 / 100) else none

/-- The value given, or the default for −1; without a default −1 stays. -/
noncomputable def givenOr (x : ℝ) (d : Option ℝ) : ℝ := if x = -1 then d.getD (-1) else x

/-- All settings of the optimizer of a name. -/
noncomputable def bookSettings (s : String) (lr mom decay : ℝ) : Hyper ℝ where
  lr := givenOr lr (bookRate s)
  mom := givenOr mom (bookMomentum s)
  decay := givenOr decay (bookDecay s)
  b1 := 9 / 10
  b2 := 999 / 1000
  lam := 1 / 1000000

/-- Default parameter of the regularizer of a name. -/
noncomputable def bookParameter (s : String) : Option ℝ :=
  if s ∈ ["L1", "L2", "L1L2", "GradientNormClip"] then some (1 / 100)
  else if s ∈ ["GradientClip", "GradientClipTanh"] then some (1 / 1000)
  else none

end BeeDNN
