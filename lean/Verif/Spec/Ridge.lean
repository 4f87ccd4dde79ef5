import Verif.Spec.Convex
import Verif.Spec.RegTrain

/-! # Specification: linear models with a squared penalty -/

namespace BeeDNN

/-- The error of the network plus half of `lam` times the sum of the squares of all weights and biases. -/
noncomputable def Mlp.ridge (lam : ℝ) (loss : String) (N : Nat) (x y : Nat → Row) (m : Mlp) : ℝ := m.error loss N x y + m.parSum fun w => lam / 2 * w ^ 2

/-- No network of this form has less error with penalty. -/
def Mlp.RidgeBest (lam : ℝ) (loss : String) (N : Nat) (x y : Nat → Row) (o : Mlp) : Prop :=
  ∀ o' : Mlp, Mlp.Like o o' → o.ridge lam loss N x y ≤ o'.ridge lam loss N x y

end BeeDNN
