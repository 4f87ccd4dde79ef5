import Verif.Spec.TrainAny

/-! # Specification: class numbers and one-hot rows -/

namespace BeeDNN

/-- The truths of a classification as one-hot rows: a one at the place of the class. -/
noncomputable def hotRows (c : Nat → Nat) : Nat → Row := fun i j => if j = c i then 1 else 0

/-- The same truths as class numbers. -/
noncomputable def classRows (c : Nat → Nat) : Nat → Row := fun i _ => c i

/-- A trainer with the loss for class numbers and other data, and the same settings and results. -/
def Trainer.coded (train valid : Option (Mat ℝ × Mat ℝ)) (t : Trainer) : Trainer :=
  { t with loss := "SparseCategoricalCrossEntropy", train := train, valid := valid }

/-- The data `a` and `b` have the same `N` samples of `C` numbers, and truths of the same classes, below `K`: in `a` as one-hot rows, in `b` as class numbers. -/
def SameClasses (C K : Nat) (a b : Mat ℝ × Mat ℝ) : Prop :=
  ∃ (N : Nat) (x : Nat → Row) (c : Nat → Nat), (∀ i, i < N → c i < K) ∧ a = (Mat.ofFn N C x, Mat.ofFn N K (hotRows c)) ∧ b = (Mat.ofFn N C x, Mat.ofFn N 1 (classRows c))

/-- Validation data are given in both ways or not at all. -/
def SameValid (C K : Nat) (u v : Option (Mat ℝ × Mat ℝ)) : Prop := u = none ∧ v = none ∨ ∃ a b, u = some a ∧ v = some b ∧ SameClasses C K a b

end BeeDNN
