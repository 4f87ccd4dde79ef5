import Mathlib.Algebra.Order.Floor.Semiring
import Mathlib.Data.Real.Archimedean
import Mathlib.Order.Interval.Finset.Nat

/-! # Specification: confusion matrices -/

namespace BeeDNN
open Finset

/-- The class that a prediction stands for: the nearest of `0..K-1` (halves go up). -/
noncomputable def predClass (K : Nat) (x : ℝ) : Nat := min ⌊x + 1 / 2⌋₊ (K - 1)

/-- The class that a reference label stands for. -/
noncomputable def refClass (y : ℝ) : Nat := ⌊y⌋₊

/-- Samples of class `a`. -/
noncomputable def nbClass (N : Nat) (y : Nat → ℝ) (a : Nat) : Nat := ((range N).filter (fun i => refClass (y i) = a)).card

/-- Samples of class `a` taken for class `b`. -/
noncomputable def nbTaken (N K : Nat) (y p : Nat → ℝ) (a b : Nat) : Nat := ((range N).filter (fun i => refClass (y i) = a ∧ predClass K (p i) = b)).card

/-- Samples that get their class. -/
noncomputable def nbHits (N K : Nat) (y p : Nat → ℝ) : Nat := ((range N).filter (fun i => predClass K (p i) = refClass (y i))).card

/-- `K` is the number of classes: the given one, or one more than the largest label when none is given. -/
def NbClasses (N : Nat) (y : Nat → ℝ) (nb : Int) (K : Nat) : Prop :=
  0 < K ∧ (nb = K ∨ nb = 0 ∧ ∃ i, i < N ∧ refClass (y i) + 1 = K ∧ ∀ j, j < N → y j ≤ y i)

/-- A label that stands for one of the classes `0..K-1`. -/
def LabelOk (K : Nat) (y : ℝ) : Prop := -1 < y ∧ y ≤ 9 * 10 ^ 18 ∧ refClass y < K

end BeeDNN
