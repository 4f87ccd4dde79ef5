import Verif.Spec.Train
import Verif.Model.KMeans

/-! # Specification: classification by the nearest reference -/

namespace BeeDNN
open Finset

/-- Among the references `q < n` with `ok q`, at distance `d q`, number `r` is the first of the nearest; it is nearer than the limit `1e38`. -/
def IsNearest (n : Nat) (ok : Nat → Prop) (d : Nat → ℝ) (r : Nat) : Prop :=
  r < n ∧ ok r ∧ d r < kmFar ∧ (∀ q, q < n → ok q → d r ≤ d q) ∧ ∀ q, q < r → ok q → d r < d q

open Classical in
/-- The samples of `S` that reference `r` wins: it is the nearest among the references of the sample's class. -/
noncomputable def wonBy (n : Nat) (D : Row → Row → ℝ) (cls : Nat → ℝ) (x : Nat → Row) (lab : Nat → ℝ) (V : Nat → Row) (S : Finset Nat) (r : Nat) : Finset Nat :=
  S.filter (fun i => IsNearest n (fun q => cls q = lab i) (fun q => D (x i) (V q)) r)

/-- `V'` comes from the references `V` by replacing each one that wins samples of `S` by their mean. -/
def MeansOf (n C : Nat) (D : Row → Row → ℝ) (cls : Nat → ℝ) (x : Nat → Row) (lab : Nat → ℝ) (S : Finset Nat) (V V' : Nat → Row) : Prop :=
  ∀ r, r < n → ∀ j, j < C →
    (wonBy n D cls x lab V S r = ∅ → V' r j = V r j) ∧
    ((wonBy n D cls x lab V S r).Nonempty → V' r j = (∑ i ∈ wonBy n D cls x lab V S r, x i j) / (wonBy n D cls x lab V S r).card)

/-- The batch in which place `s` of an epoch falls, for the adjusted batch size `b`: the batches are `0..b`, `b+1..2b`, `2b+1..3b`, …;
with a negative size every sample is a batch. -/
def kmBatchOf (b : Int) (s : Nat) : Nat := if b < 0 then s else (s - 1) / b.toNat

/-- The places of batch `k` in an epoch of `N` samples. -/
def kmBatch (N : Nat) (b : Int) (k : Nat) : Finset Nat := (range N).filter (fun s => kmBatchOf b s = k)

/-- Number of batches in an epoch of `N` samples. -/
def kmBatches (N : Nat) (b : Int) : Nat := kmBatchOf b (N - 1) + 1

/-- The batch size that is used: all samples when it is 0 or larger than their number. -/
def kmAdjusted (b : Int) (N : Nat) : Int := if b = 0 ∨ (N : Int) < b then N else b

/-- One epoch: the samples in the order `σ`, cut in batches, each batch moves the references to the means. -/
def KmEpoch (n C : Nat) (D : Row → Row → ℝ) (cls : Nat → ℝ) (N : Nat) (b : Int) (x : Nat → Row) (lab : Nat → ℝ) (V V' : Nat → Row) : Prop :=
  ∃ (σ : Nat → Nat) (W : Nat → Nat → Row), ((List.range N).map σ).Perm (List.range N) ∧ W 0 = V ∧ W (kmBatches N b) = V' ∧
    ∀ k, k < kmBatches N b → MeansOf n C D cls (fun s => x (σ s)) (fun s => lab (σ s)) (kmBatch N b k) (W k) (W (k + 1))

open Classical in
/-- How many of the `N` samples have the class of their nearest reference. -/
noncomputable def kmRight (n : Nat) (D : Row → Row → ℝ) (cls : Nat → ℝ) (V : Nat → Row) (N : Nat) (x : Nat → Row) (lab : Nat → ℝ) : Nat :=
  ((range N).filter (fun i => ∃ r, IsNearest n (fun _ => True) (fun q => D (x i) (V q)) r ∧ cls r = lab i)).card

/-- Every sample has a reference nearer than the limit. -/
def KmNear (n : Nat) (D : Row → Row → ℝ) (V : Nat → Row) (N : Nat) (x : Nat → Row) : Prop :=
  ∀ i, i < N → ∃ q, q < n ∧ D (x i) (V q) < kmFar

/-- A model with references `V` of classes `cls`. -/
structure HasRefs (k : KMeans) (n C : Nat) (V : Nat → Row) (cls : Nat → ℝ) (loss : String) : Prop where
  refs : k.refs = Mat.ofFn n C V
  cls : k.cls = Mat.ofFn n 1 (fun r _ => cls r)
  loss : k.loss = loss

/-- A loss that measures the distance to every reference. -/
structure DistLoss (loss : String) (C : Nat) : Prop where
  mem : loss ∈ listLoss
  sparse : loss ≠ "SparseCategoricalCrossEntropy"
  binary : loss = "BinaryCrossEntropy" → C = 1

/-- The data that decide which references are best: `M` samples `xv` of classes `yv`, the training data when there are no validation data. -/
def KmEval (t : KMeansTrain) (C N : Nat) (x : Nat → Row) (y : Nat → ℝ) (M : Nat) (xv : Nat → Row) (yv : Nat → ℝ) : Prop :=
  (t.valid = none ∧ M = N ∧ xv = x ∧ yv = y) ∨ t.valid = some (Mat.ofFn M C xv, Mat.ofFn M 1 (fun i _ => yv i))

/-- Data within the box of half width `1e18`. -/
def InBox (C : Nat) (a : Row) : Prop := ∀ j, j < C → |a j| ≤ 10 ^ 18

open Classical in
/-- `c` is the sum, over the samples whose class has a reference, of the mean squared difference to the nearest reference of that class. -/
def IsKmCost (n C : Nat) (cls : Nat → ℝ) (N : Nat) (x : Nat → Row) (lab : Nat → ℝ) (V : Nat → Row) (c : ℝ) : Prop :=
  ∃ ρ : Nat → Nat, (∀ i, i < N → ∀ q, q < n → cls q = lab i →
      IsNearest n (fun q => cls q = lab i) (fun q => (∑ j ∈ range C, (x i j - V q j) ^ 2) / C) (ρ i)) ∧
    c = ∑ i ∈ (range N).filter (fun i => ∃ q, q < n ∧ cls q = lab i), (∑ j ∈ range C, (x i j - V (ρ i) j) ^ 2) / C

/-- The same `n` references of `C` columns. -/
def SameRefs (n C : Nat) (V V' : Nat → Row) : Prop := ∀ r, r < n → ∀ j, j < C → V r j = V' r j

end BeeDNN
