import Verif.Spec.MlpFit
import Verif.Spec.Settings
import Mathlib.Analysis.Real.Sqrt

/-! # Specification: training of a network with any optimizer -/

namespace BeeDNN

namespace Mlp

/-- The gradients for training: `d b l` belongs to the weights (`b = false`) or biases of layer `l` of `m`, and is the rate
of the layer times the gradient of the error on the samples, whenever `ok m` holds of all of them. -/
def IsDrive (ok : Mlp → Row → Row → Prop) (loss : String) (N : Nat) (x y : Nat → Row) (m : Mlp) (d : Bool → Nat → Nat → Nat → ℝ) : Prop :=
  (∀ i, i < N → ok m (x i) (y i)) → ∀ b l, l < m.depth → (m.ply l).has b = true → ∃ G : Nat → Nat → ℝ,
    IsGrad (m.shape b l).1 (m.shape b l).2 (fun P => (m.setPar b l P).error loss N x y) ((m.ply l).par b) G ∧
      ∀ p q, d b l p q = m.rate N b l * G p q

/-- A training of `m` for `E` epochs by the optimizer `kind` with settings `h`: `ms i j` is the network before batch `j` of epoch `i`, and
`ms E 0` that after the last epoch.  Epoch `i` takes the samples in the order `σ i`, in batches of size `B`.  Every parameter is, at any time, what the rule of
the optimizer for one number makes of its first value and the gradients of all batches so far. -/
structure Training (ok : Mlp → Row → Row → Prop) (loss : String) (kind : OptKind) (h : Hyper ℝ) (N B E : Nat) (x y : Nat → Row) (m : Mlp) (ms : Nat → Nat → Mlp) : Prop where
  first : ms 0 0 = m
  next : ∀ i, i < E → ms (i + 1) 0 = ms i (nbBatches N B)
  like : ∀ i j, i < E ∧ j ≤ nbBatches N B ∨ i = E ∧ j = 0 → Like m (ms i j)
  rule : ∃ (σ : Nat → Nat → Nat) (d : Nat → Bool → Nat → Nat → Nat → ℝ),
    (∀ i, i < E → ((List.range N).map (σ i)).Perm (List.range N)) ∧
    (∀ i j, i < E → j < nbBatches N B → IsDrive ok loss (batchEnd N B j - batchStart B j) (fun s => x (σ i (batchStart B j + s)))
      (fun s => y (σ i (batchStart B j + s))) (ms i j) (d (i * nbBatches N B + j))) ∧
    ∀ i j, i < E ∧ j ≤ nbBatches N B ∨ i = E ∧ j = 0 → ∀ b l, l < m.depth → (m.ply l).has b = true →
      ∀ p q, p < (m.shape b l).1 → q < (m.shape b l).2 → ((ms i j).ply l).par b p q =
        (Coord.run Real.sqrt (fun x => |x|) h kind ((m.ply l).par b p q) (fun t => d t b l p q) (i * nbBatches N B + j)).w

end Mlp

end BeeDNN
