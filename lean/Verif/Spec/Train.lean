import Verif.Spec.Net
import Verif.Spec.Matrix
import Verif.Model.Train
import Mathlib.Algebra.BigOperators.Group.Finset.Basic
import Mathlib.Data.Finset.Card
import Mathlib.Analysis.SpecialFunctions.Trigonometric.Deriv
import Mathlib.Analysis.SpecialFunctions.Log.Basic

/-! # Specification: training -/

namespace BeeDNN

/-- Number of batches of `B` samples needed for `n` samples. -/
def nbBatches (n B : Nat) : Nat := (n + B - 1) / B

/-- First sample of batch `k`. -/
def batchStart (B k : Nat) : Nat := k * B
/-- One past the last sample of batch `k`. -/
def batchEnd (n B k : Nat) : Nat := min ((k + 1) * B) n

/-- Rows `a..b-1` of a matrix of `C` columns with elements `x`. -/
def rowsOf (C a b : Nat) (x : Nat → Nat → ℝ) : Mat ℝ := Mat.ofFn (b - a) C (fun i j => x (a + i) j)

end BeeDNN

namespace BeeDNN

/-- `q` is a copy of the network `p`: the same classes and trained values in the same order. -/
def SameLayers (p q : List (Option Layer)) : Prop :=
  List.Forall₂ (fun a b => ∃ l l' : Layer, a = some l ∧ b = some l' ∧ l.SameParams l') p q

/-- Place `k` holds the first of the smallest among the first `n` values. -/
def IsFirstMin (n : Nat) (x : Nat → ℝ) (k : Nat) : Prop :=
  k < n ∧ (∀ j, j < n → x k ≤ x j) ∧ (∀ j, j < k → x k < x j)

/-- The prediction `p` (`C` numbers) is right for the truth `t` (`D` numbers): the class of greatest probability is the
true one, given as a number or as the place of the greatest entry; a single output is rounded. -/
def IsRight (C D : Nat) (p t : Row) : Prop :=
  if C = 1 then World.roundf (p 0) = t 0
  else if D = 1 then ∃ c, IsFirstMax C p c ∧ (c : ℝ) = t 0
  else ∃ c, IsFirstMax C p c ∧ IsFirstMax D t c

open Classical in
/-- How many of the `N` predictions are right. -/
noncomputable def nbRight (N C D : Nat) (p t : Nat → Row) : Nat := ((Finset.range N).filter (fun s => IsRight C D (p s) (t s))).card

/-- The loss of one output that differs by `z` from the truth. -/
noncomputable def pointLoss (loss : String) (z : ℝ) : ℝ :=
  if loss = "MeanSquaredError" ∨ loss = "L2" then z ^ 2 else
  if loss = "MeanAbsoluteError" ∨ loss = "L1" then |z| else
  if loss = "MeanCubicError" ∨ loss = "L3" then |z| ^ 3 else
  if loss = "LogCosh" then Real.log (Real.cosh z) else
  if loss = "Huber" then (if |z| < 1 then z ^ 2 / 2 else |z| - 1 / 2) else
  Real.sqrt (z ^ 2 + 1) - 1

/-- The loss of one sample: prediction `p` (`K` numbers), truth `t`.  Logarithms are cut off at `eps`. -/
noncomputable def sampleLoss (eps : ℝ) (loss : String) (K : Nat) (p t : Row) : ℝ :=
  if loss = "CategoricalCrossEntropy" then ∑ j ∈ Finset.range K, -(t j * Real.log (max (p j) eps)) else
  if loss = "SparseCategoricalCrossEntropy" then -Real.log (max (p ⌊t 0⌋₊) eps) else
  if loss = "BinaryCrossEntropy" then -(t 0 * Real.log (max (p 0) eps) + (1 - t 0) * Real.log (max (1 - p 0) eps)) else
  (∑ j ∈ Finset.range K, pointLoss loss (p j - t j)) / K

/-- Losses that add up over the samples of a batch instead of taking the mean. -/
def sumLosses : List String := ["L1", "L2", "L3"]

/-- Truths `Y` of `N` samples with `D` numbers each fit the loss and `K` predicted numbers. -/
def TruthFits (loss : String) (K D N : Nat) (Y : Nat → Row) : Prop :=
  if loss = "SparseCategoricalCrossEntropy" then D = 1 ∧ K ≤ 2147483648 ∧ ∀ i, i < N → ∃ c : Nat, c < K ∧ Y i 0 = c
  else D = K ∧ (loss = "BinaryCrossEntropy" → K = 1)

namespace Trainer

/-- Accuracies that decide which network is best: those on the validation data, if there are any. -/
def accList (t : Trainer) : List ℝ := if t.valid.isSome then t.valAcc else t.trainAcc
/-- Losses that decide which network is best. -/
def lossList (t : Trainer) : List ℝ := if t.valid.isSome then t.valLoss else t.trainLoss

end Trainer

/-- What the regularizer makes of a parameter and its gradient. -/
def Trainer.Regularized (r : Option Reg) (g : Nat → ℝ) (p d p' d' : Mat ℝ) : Prop :=
  match r with
  | none => p' = p ∧ d' = d
  | some r => r.apply g p d = .ok (p', d')

/-- Epoch `k` improves the best score so far; `S 0` is the score before training, `S (k+1)` that of epoch `k`. -/
def Improves (S : Nat → ℝ) (k : Nat) : Prop := ∀ j, j ≤ k → S j < S (k + 1)

open Classical in
/-- The patience schedule: after `k` epochs, the number of epochs since the last improvement or halving, and the number of
halvings of the learning rate.  The rate is halved when more than `p` epochs have passed. -/
noncomputable def schedule (p : Nat) (S : Nat → ℝ) : Nat → Nat × Nat
  | 0 => (0, 0)
  | k + 1 =>
    if Improves S k then (0, (schedule p S k).2)
    else if p < (schedule p S k).1 + 1 then (0, (schedule p S k).2 + 1)
    else ((schedule p S k).1 + 1, (schedule p S k).2)

end BeeDNN
