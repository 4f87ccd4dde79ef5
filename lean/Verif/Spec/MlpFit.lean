import Verif.Spec.Mlp
import Verif.Spec.Train

/-! # Specification: training of a perceptron by `fit` -/

namespace BeeDNN
open Finset

namespace Mlp

/-- One epoch leads from `m` to `m'`: the `N` samples are taken in some order `σ` and cut into batches of size `B` (the
last may be smaller); each batch in turn is one step from the network before it to the network after it.  In total `r`
samples are classified right (truths have `D` entries), each by the network before the step for the batch of the sample. -/
def Epoch (step : Nat → (Nat → Row) → (Nat → Row) → Mlp → Mlp → Prop) (N B D : Nat) (x y : Nat → Row) (m m' : Mlp) (r : Nat) : Prop :=
  ∃ (σ : Nat → Nat) (ms : Nat → Mlp), ((List.range N).map σ).Perm (List.range N) ∧ ms 0 = m ∧ ms (nbBatches N B) = m' ∧
    (∀ k, k < nbBatches N B → step (batchEnd N B k - batchStart B k) (fun i => x (σ (batchStart B k + i)))
      (fun i => y (σ (batchStart B k + i))) (ms k) (ms (k + 1))) ∧
    r = ∑ k ∈ range (nbBatches N B), nbRight (batchEnd N B k - batchStart B k) (m.width m.depth) D
      (fun i => (ms k).out (x (σ (batchStart B k + i)))) (fun i => y (σ (batchStart B k + i)))

end Mlp

end BeeDNN
