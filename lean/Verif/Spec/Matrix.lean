import Verif.Model.Matrix

/-! # Specification vocabulary for matrices -/

namespace BeeDNN
namespace Mat

variable {α : Type}

/-- The `r × c` matrix with entry `f i j` in row `i`, column `j`, stored row by row.  Every well-formed
matrix is of this form (`Mat.exists_ofFn`), so a statement for all `f` is one for all matrices. -/
def ofFn (r c : Nat) (f : Nat → Nat → α) : Mat α := flat r c (fun i => f (i / c) (i % c))

end Mat
end BeeDNN

namespace BeeDNN

/-- `k` is the first position of the maximum of `x 0, …, x (n-1)`. -/
def IsFirstMax {α : Type} [LE α] [LT α] (n : Nat) (x : Nat → α) (k : Nat) : Prop :=
  k < n ∧ (∀ j, j < n → x j ≤ x k) ∧ (∀ j, j < k → x j < x k)

/-- The rows of a matrix, as lists. -/
def Mat.rowList {α : Type} (m : Mat α) : List (List α) :=
  (List.range m.rows).map (fun i => (m.data.drop (i * m.cols)).take m.cols)

end BeeDNN
