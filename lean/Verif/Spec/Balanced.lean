import Verif.Spec.RegTrain
import Verif.Spec.ClassWeight

/-! # Specification: training with class weights -/

namespace BeeDNN
open Finset

namespace Mlp

/-- A training as in `Mlp.RegTraining`, where `drive` says what the gradients of a batch are. -/
structure TrainingBy (r : Option Reg) (drive : Nat → (Nat → Row) → (Nat → Row) → Mlp → (Bool → Nat → Nat → Nat → ℝ) → Prop) (kind : OptKind) (h : Hyper ℝ) (N B E : Nat)
    (x y : Nat → Row) (m : Mlp) (ms : Nat → Nat → Mlp) : Prop where
  first : ms 0 0 = m
  next : ∀ i, i < E → ms (i + 1) 0 = ms i (nbBatches N B)
  like : ∀ i j, i < E ∧ j ≤ nbBatches N B ∨ i = E ∧ j = 0 → Like m (ms i j)
  rule : ∃ (σ : Nat → Nat → Nat) (d d' : Nat → Bool → Nat → Nat → Nat → ℝ),
    (∀ i, i < E → ((List.range N).map (σ i)).Perm (List.range N)) ∧
    (∀ i j, i < E → j < nbBatches N B → drive (batchEnd N B j - batchStart B j) (fun s => x (σ i (batchStart B j + s)))
      (fun s => y (σ i (batchStart B j + s))) (ms i j) (d (i * nbBatches N B + j))) ∧
    (∀ i j, i < E → j < nbBatches N B → ∀ b l, d' (i * nbBatches N B + j) b l =
      regGrad r (m.shape b l).1 (m.shape b l).2 (((ms i j).ply l).par b) (d (i * nbBatches N B + j) b l)) ∧
    ∀ i j, i < E ∧ j ≤ nbBatches N B ∨ i = E ∧ j = 0 → ∀ b l, l < m.depth → (m.ply l).has b = true →
      ∀ p q, p < (m.shape b l).1 → q < (m.shape b l).2 → ((ms i j).ply l).par b p q =
        (Coord.run Real.sqrt (fun x => |x|) h kind ((m.ply l).par b p q) (fun t => d' t b l p q) (i * nbBatches N B + j)).w

/-- The mean error where every sample counts `κ` of its truth times. -/
noncomputable def weightedError (m : Mlp) (κ : Row → ℝ) (loss : String) (N : Nat) (x y : Nat → Row) : ℝ :=
  (1 / N) * ∑ s ∈ range N, κ (y s) * sampleError loss (m.width m.depth) (m.out (x s)) (y s)

/-- As `Mlp.IsDrive`, with the weighted error. -/
def IsWeightedDrive (κ : Row → ℝ) (ok : Mlp → Row → Row → Prop) (loss : String) (N : Nat) (x y : Nat → Row) (m : Mlp) (d : Bool → Nat → Nat → Nat → ℝ) : Prop :=
  (∀ i, i < N → ok m (x i) (y i)) → ∀ b l, l < m.depth → (m.ply l).has b = true → ∃ G : Nat → Nat → ℝ,
    IsGrad (m.shape b l).1 (m.shape b l).2 (fun P => (m.setPar b l P).weightedError κ loss N x y) ((m.ply l).par b) G ∧
      ∀ p q, d b l p q = m.rate N b l * G p q

/-- The mean, over the samples of class `k`, of the error. -/
noncomputable def classError (m : Mlp) (cls : Nat → Nat) (k : Nat) (loss : String) (N : Nat) (x y : Nat → Row) : ℝ :=
  (∑ s ∈ range N with cls s = k, sampleError loss (m.width m.depth) (m.out (x s)) (y s)) / classCount N cls k

end Mlp

end BeeDNN
