import Verif.Spec.Mlp

/-! # Specification: a dense layer trained as a linear model -/

namespace BeeDNN
open Finset

namespace Mlp

/-- A network of a single dense layer. -/
structure Single (m : Mlp) : Prop where
  depth : m.depth = 1
  dense : (m.ply 0).kind = .dense

/-- The squared distance between the weights and biases of two such networks. -/
noncomputable def distSq (m m' : Mlp) : ℝ :=
  (∑ k ∈ range (m.width 0), ∑ j ∈ range (m.width 1), ((m.ply 0).weight k j - (m'.ply 0).weight k j) ^ 2) +
    ∑ j ∈ range (m.width 1), ((m.ply 0).bias 0 j - (m'.ply 0).bias 0 j) ^ 2

/-- Such a network explains the data: it computes the truth of every sample. -/
def Explains (o : Mlp) (N : Nat) (x y : Nat → Row) : Prop := ∀ s, s < N → ∀ j, j < o.width 1 → o.out (x s) j = y s j

end Mlp

/-- The factor of a squared loss with `K` outputs. -/
noncomputable def lossScale (loss : String) (K : Nat) : ℝ := if loss = "MeanSquaredError" then 1 / K else 1

/-- A bound for the curvature of the error: the mean over the samples of the squared length of the sample, with the 1 for the bias. -/
noncomputable def curvature (loss : String) (N C K : Nat) (x : Nat → Row) : ℝ :=
  lossScale loss K * ((∑ s ∈ range N, (∑ k ∈ range C, x s k ^ 2 + 1)) / N)

end BeeDNN
