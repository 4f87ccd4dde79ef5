import Verif.Spec.Mlp

/-! # Specification: how much a network can enlarge a change of its inputs -/

namespace BeeDNN
open Finset

/-- A layer with `C` inputs and `C'` outputs enlarges changes at most `c` times: sums of absolute weights are at most `c`, activations have
slopes up to `c`. -/
def Ply.Gain (C C' : Nat) (p : Ply) (c : ℝ) : Prop :=
  0 ≤ c ∧
  match p.kind with
  | .dense | .dot => ∀ j, j < C' → ∑ k ∈ range C, |p.weight k j| ≤ c
  | .conv _ _ K kR kC O _ _ => ∀ o, o < O → ∑ ch ∈ range K, ∑ kr ∈ range kR, ∑ kc ∈ range kC, |p.weight o (ch * (kR * kC) + (kr * kC + kc))| ≤ c
  | .tdDot _ F O | .tdDense _ F O => ∀ j, j < O → ∑ k ∈ range F, |p.weight k j| ≤ c
  | .act a => ∀ s t, |a.apply s - a.apply t| ≤ c * |s - t|
  | .gated a₁ a₂ => ∃ L₁ L₂ M₁ M₂ : ℝ, 0 ≤ L₁ ∧ 0 ≤ L₂ ∧ (∀ s t, |a₁.apply s - a₁.apply t| ≤ L₁ * |s - t|) ∧ (∀ s t, |a₂.apply s - a₂.apply t| ≤ L₂ * |s - t|) ∧
      (∀ s, |a₁.apply s| ≤ M₁) ∧ (∀ s, |a₂.apply s| ≤ M₂) ∧ L₁ * M₂ + M₁ * L₂ ≤ c
  | .softmax => 1 / 2 ≤ c
  | _ => 1 ≤ c

end BeeDNN
