import Mathlib.Analysis.SpecialFunctions.Exp
import Mathlib.Algebra.BigOperators.Group.Finset.Basic

/-! # Specification of softmax -/

namespace BeeDNN
open Finset

/-- `exp x_j / Σ_k exp x_k` over `n` entries. -/
noncomputable def softmaxAt (n : Nat) (x : Nat → ℝ) (j : Nat) : ℝ :=
  Real.exp (x j) / ∑ k ∈ range n, Real.exp (x k)

end BeeDNN
