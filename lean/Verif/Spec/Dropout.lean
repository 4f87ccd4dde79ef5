import Mathlib.Data.Real.Basic
import Mathlib.Algebra.BigOperators.Fin
import Mathlib.Data.Fintype.BigOperators
import Mathlib.Data.Real.Archimedean

/-!
# Averages over all draws of the generator

`setQuickBernoulli` (Matrix.cpp:484-491) looks at the low 16 bits of each generator output only.  For `n` outputs
there are `65536 ^ n` possibilities; an average over all of them is the expected value if each is equally likely.
-/

namespace BeeDNN
open Finset

/-- The low 16 bits of the first `n` generator outputs. -/
abbrev Draws (n : Nat) := Fin n → Fin 65536

/-- A stream of generator outputs with given low bits `u` and arbitrary high bits `hi`. -/
def Draws.stream {n : Nat} (hi : Nat → Nat) (u : Draws n) (k : Nat) : Nat :=
  hi k * 65536 + if h : k < n then (u ⟨k, h⟩ : Nat) else 0

/-- The average over all draws. -/
noncomputable def drawMean {n : Nat} (F : Draws n → ℝ) : ℝ := (∑ u, F u) / 65536 ^ n

/-- `uiLimit` of Matrix.cpp:488, over the reals. -/
noncomputable def realLim (p : ℝ) : Nat := ⌊p * 65536⌋₊

end BeeDNN
