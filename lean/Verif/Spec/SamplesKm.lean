import Verif.Model.SamplesKm
import Verif.Spec.Samples
import Verif.Spec.KMeans
import Verif.Spec.Metrics

/-! # Specification: what the KMeans sample is expected to do -/

namespace BeeDNN.Samples
open Finset

/-- Sum of the cubes of the differences between two images. -/
noncomputable def cubeDist (a b : Row) : ℝ := ∑ j ∈ range 784, |a j - b j| ^ 3

/-- Reference `r` is the first of those that are nearest to the image `a`. -/
def FirstNearest (V : Nat → Row) (a : Row) (r : Nat) : Prop :=
  r < 100 ∧ (∀ q, q < 100 → cubeDist a (V r) ≤ cubeDist a (V q)) ∧ ∀ q, q < r → cubeDist a (V r) < cubeDist a (V q)

/-- Metrics for `N` images `x` with labels `lab` and references `V` of classes `cls`: an image gets the class of the nearest reference, as the nearest whole number between 0
and the largest label that occurs; the accuracy is the percentage of the images that get their label. -/
def KmJudged (V : Nat → Row) (cls : Nat → ℝ) (N : Nat) (x : Nat → Row) (lab : Nat → Nat) (m : Metrics) : Prop :=
  ∃ (ρ : Nat → Nat) (top : Nat), (∀ i, i < N → FirstNearest V (x i) (ρ i)) ∧ (∀ i, i < N → lab i ≤ top) ∧ (∃ i, i < N ∧ lab i = top) ∧
    m.accuracy = 100 * ((range N).filter fun i => min ⌊cls (ρ i) + 1 / 2⌋₊ top = lab i).card / N

/-- The program runs to the end, and the metrics are those of the references that it ends with. -/
def KmWorks (prog : Out (Option KmResult)) (N M : Nat) (x x' : Nat → Row) (lab lab' : Nat → Nat) : Prop :=
  ∃ res V cls, prog = .ok (some res) ∧ HasRefs res.km 100 784 V cls "L3" ∧ KmJudged V cls N x lab res.train ∧ KmJudged V cls M x' lab' res.val

end BeeDNN.Samples
