import Verif.Spec.Linear

/-! # Specification: a dense layer trained with a smooth convex loss -/

namespace BeeDNN
open Finset

/-- The losses that are smooth convex functions of the difference of prediction and truth. -/
def smoothLosses : List String := ["MeanSquaredError", "L2", "LogCosh", "Huber", "PseudoHuber"]

/-- The cross entropies for classes. -/
def classLosses : List String := ["CategoricalCrossEntropy", "SparseCategoricalCrossEntropy"]

/-- Linear regression, softmax regression and logistic regression: a dense layer with one of the losses above, a dense layer followed by softmax with a categorical cross
entropy, or a dense layer followed by a sigmoid with the binary cross entropy. -/
def Mlp.Regression (loss : String) (m : Mlp) : Prop :=
  m.Single ∧ loss ∈ smoothLosses ∨
  m.depth = 2 ∧ (m.ply 0).kind = .dense ∧ ((m.ply 1).kind = .softmax ∧ loss ∈ classLosses ∨ (m.ply 1).kind = .act Act.sigmoid ∧ loss = "BinaryCrossEntropy")

/-- A bound for the curvature of the error of a sample, as a function of the `K` outputs of the dense layer. -/
noncomputable def lossCurvature (loss : String) (K : Nat) : ℝ :=
  if loss = "MeanSquaredError" then 1 / K else if loss ∈ classLosses then 1 / 2 else if loss = "BinaryCrossEntropy" then 1 / 4 else 1

/-- A bound for the curvature of the error as a function of weights and biases: the mean over the samples of the squared length of the sample, with the 1 for the bias, times
that of the loss. -/
noncomputable def errorCurvature (loss : String) (N C K : Nat) (x : Nat → Row) : ℝ :=
  lossCurvature loss K * ((∑ s ∈ range N, (∑ k ∈ range C, x s k ^ 2 + 1)) / N)

end BeeDNN
