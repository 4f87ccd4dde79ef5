import Verif.Spec.Image
import Verif.Model.Conv

/-! # Specification vocabulary for convolutions -/

namespace BeeDNN
open Finset

/-- Valid cross-correlation: pixel `(r,c)` of output channel `o` of sample `s` for the kernels `w`
(`w o (ch*(kR*kC) + (kr*kC + kc))` is the weight of input channel `ch` at kernel position `(kr,kc)`). -/
def crossCorr {α : Type} [AddCommMonoid α] [Mul α] (K kR kC rs cs : Nat) (w : Nat → Nat → α)
    (x : Nat → Nat → Nat → Nat → α) (s o r c : Nat) : α :=
  ∑ ch ∈ range K, ∑ kr ∈ range kR, ∑ kc ∈ range kC,
    w o (ch * (kR * kC) + (kr * kC + kc)) * x s ch (r * rs + kr) (c * cs + kc)

/-- `G` is the gradient of `L` at the batch of images `x`: in every direction `V` the derivative of `L` is
the scalar product of `G` and `V`. -/
def IsGradI (N K R C : Nat) (L : (Nat → Nat → Nat → Nat → ℝ) → ℝ) (x G : Nat → Nat → Nat → Nat → ℝ) : Prop :=
  ∀ V : Nat → Nat → Nat → Nat → ℝ,
    HasDerivAt (fun t : ℝ => L (fun s k r c => x s k r c + t * V s k r c)) (dotI N K R C G V) 0

end BeeDNN
