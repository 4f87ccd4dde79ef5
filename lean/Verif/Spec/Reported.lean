import Verif.Spec.MlpFit

/-! # Specification: the losses reported during training, and the best network -/

namespace BeeDNN
open Finset

namespace Mlp

/-- The loss of `m` on a batch of `N` samples: the mean of the losses of the samples, or their sum for L1, L2 and L3. -/
noncomputable def batchLoss (eps : ℝ) (s : String) (m : Mlp) (N : Nat) (x y : Nat → Row) : ℝ :=
  (∑ i ∈ range N, sampleLoss eps s (m.width m.depth) (m.out (x i)) (y i)) / (if s ∈ sumLosses then 1 else (N : ℝ))

/-- The mean over `N` samples of the loss of `m`. -/
noncomputable def meanLoss (eps : ℝ) (s : String) (m : Mlp) (N : Nat) (x y : Nat → Row) : ℝ :=
  (∑ i ∈ range N, sampleLoss eps s (m.width m.depth) (m.out (x i)) (y i)) / N

/-- Loss of an evaluation in batches of `V` samples: the sum of the losses of the batches. -/
noncomputable def evalLoss (eps : ℝ) (s : String) (m : Mlp) (V N : Nat) (x y : Nat → Row) : ℝ :=
  ∑ k ∈ range (nbBatches N V), m.batchLoss eps s (batchEnd N V k - batchStart V k) (fun i => x (batchStart V k + i)) (fun i => y (batchStart V k + i))

/-- Percentage of the `N` samples that are classified right; truths have `D` entries. -/
noncomputable def evalAcc (m : Mlp) (N D : Nat) (x y : Nat → Row) : ℝ := 100 * nbRight N (m.width m.depth) D (fun i => m.out (x i)) y / N

/-- Training in `E` epochs of batches of `B` samples: epoch `i` takes the samples in the order `σ i`, and `net i k` is the
network before batch `k` of this epoch. -/
structure Run (m : Mlp) (N B E : Nat) (σ : Nat → Nat → Nat) (net : Nat → Nat → Mlp) : Prop where
  start : net 0 0 = m
  next : ∀ i, i < E → net (i + 1) 0 = net i (nbBatches N B)
  order : ∀ i, i < E → ((List.range N).map (σ i)).Perm (List.range N)
  like : ∀ i k, i < E → k < nbBatches N B → Like m (net i k)

/-- The mean loss of the samples during an epoch, each by the network as it is when the sample is presented. -/
noncomputable def onlineMean (eps : ℝ) (s : String) (K B N : Nat) (x y : Nat → Row) (σ : Nat → Nat) (net : Nat → Mlp) : ℝ :=
  (∑ q ∈ range N, sampleLoss eps s K ((net (q / B)).out (x (σ q))) (y (σ q))) / N

end Mlp

end BeeDNN
