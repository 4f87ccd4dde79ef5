import Verif.Model.PyLog
import Verif.Spec.PyTrainBy
import Verif.Spec.Matrix

/-! # Specification: losses and accuracies of the Python library -/

namespace BeeDNN
open Finset

/-- The factor between the loss that the Python library reports for a sample with `K` outputs and its error: cross entropies are divided by the number of classes. -/
noncomputable def pyLossFactor (loss : String) (K : Nat) : ℝ := if loss = "CrossEntropy" ∨ loss = "SparseCategoricalCrossEntropy" then 1 / K else 1

/-- The prediction `p` is not cut off by the logarithms of the loss. -/
def PyUncut (loss : String) (K : Nat) (p : Row) : Prop :=
  (loss = "CrossEntropy" ∨ loss = "SparseCategoricalCrossEntropy" → ∀ j, j < K → 1e-8 ≤ p j) ∧ (loss = "BinaryCrossEntropy" → 1e-8 ≤ p 0 ∧ p 0 ≤ 1 - 1e-8)

/-- In percent, how many of the samples `x` with labels `c` the network puts into the right class: that of its first largest output. -/
def Mlp.Accuracy (m : Mlp) (N : Nat) (x : Nat → Row) (c : Nat → Nat) (a : ℝ) : Prop :=
  ∃ S : Finset Nat, (∀ s, s ∈ S ↔ s < N ∧ IsFirstMax (m.width m.depth) (m.out (x s)) (c s)) ∧ a = 100 * S.card / N

/-- The labels of `N` samples, the largest of which is the last of `K` classes. -/
structure PyLabels (K N : Nat) (t : NpArr) (c : Nat → Nat) : Prop where
  arr : t.Is N 1 (fun s _ => c s)
  lt : ∀ s, s < N → c s < K
  last : ∃ s, s < N ∧ c s + 1 = K

/-- What is collected during `epochs` epochs: one loss per epoch; one accuracy on the training data if `acc`, and one on the test data if there are any (`tested`).  The
best accuracy is the largest on the test data, and the best model that after the first epoch that reached it; they remain `best0` and `b0` if no epoch got above `best0`. -/
structure PyLog.Tells (log : PyLog) (acc tested : Bool) (epochs : Nat) (best0 : ℝ) (b0 : List PyLayer × NpStore) (Loss Train Valid : Nat → ℝ → Prop)
    (Best : Nat → List PyLayer × NpStore → Prop) : Prop where
  losses : log.losses.length = epochs ∧ ∀ ep a, log.losses[ep]? = some a → Loss ep a
  train : log.train.length = (if acc then epochs else 0) ∧ ∀ ep a, log.train[ep]? = some a → Train ep a
  valid : log.valid.length = (if acc && tested then epochs else 0) ∧ ∀ ep a, log.valid[ep]? = some a → Valid ep a
  most : ∀ a ∈ log.valid, a ≤ log.bestAcc
  best : log.bestAcc = best0 ∧ log.best = b0 ∨ best0 < log.bestAcc ∧ ∃ ep, log.valid[ep]? = some log.bestAcc ∧
    (∀ ep' a, ep' < ep → log.valid[ep']? = some a → a < log.bestAcc) ∧ Best ep log.best

end BeeDNN
