import Mathlib.Analysis.SpecialFunctions.Exp
import Mathlib.Algebra.BigOperators.Group.Finset.Basic

/-! # Specification vocabulary for dropout, flip, rectifier and time-distributed layers -/

namespace BeeDNN
open Finset

variable {α : Type}

/-- A row of `W` pixels whose left half is replaced by the mirror image of its right half. -/
def halfMirror (W : Nat) (v : Nat → α) (c : Nat) : α := if c < W / 2 then v (W - 1 - c) else v c

/-- Rectifier with slope `w` on the negative side. -/
noncomputable def preluFn (w x : ℝ) : ℝ := if x < 0 then x * w else x

/-- PELU (arXiv 1605.09332): `x a/b` for positive `x`, `a (exp(x/b) - 1)` otherwise. -/
noncomputable def peluFn (a b x : ℝ) : ℝ := if 0 < x then x * (a / b) else a * (Real.exp (x / b) - 1)

/-- TERELU: `α (exp x - 1)` up to 0, then `x` up to `μ`, then `β (μ - (exp(μ-x) - 1))`. -/
noncomputable def tereluFn (alpha mu b x : ℝ) : ℝ :=
  if x ≤ 0 then alpha * (Real.exp x - 1) else if mu ≤ x then b * (mu - (Real.exp (mu - x) - 1)) else x

/-- Dense map `F → O` applied to each frame of each sample; column `t*O+o` is component `o` of frame `t`. -/
def tdOut (F O : Nat) (x W b : Nat → Nat → ℝ) (s j : Nat) : ℝ :=
  (∑ k ∈ range F, x s (j / O * F + k) * W k (j % O)) + b 0 (j % O)

end BeeDNN
