import Mathlib.Analysis.Calculus.Deriv.Basic
import Mathlib.Data.Real.Basic
import Mathlib.Algebra.BigOperators.Group.Finset.Basic

/-! # Specification vocabulary for gradients -/

namespace BeeDNN
open Finset

/-- Scalar product of two `R × C` matrices. -/
def dotM (R C : Nat) (a b : Nat → Nat → ℝ) : ℝ := ∑ i ∈ range R, ∑ j ∈ range C, a i j * b i j

/-- `G` is the gradient of `L` at `x` with respect to the `R × C` entries: in every direction `V` the
derivative of `L` is the scalar product of `G` and `V`. -/
def IsGrad (R C : Nat) (L : (Nat → Nat → ℝ) → ℝ) (x G : Nat → Nat → ℝ) : Prop :=
  ∀ V : Nat → Nat → ℝ, HasDerivAt (fun t : ℝ => L (fun i j => x i j + t * V i j)) (dotM R C G V) 0

end BeeDNN
