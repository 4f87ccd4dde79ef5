import Verif.Spec.MlpRule
import Verif.Spec.RegGrad

/-! # Specification: training of a network with any optimizer and any regularizer -/

namespace BeeDNN
open Finset

namespace Mlp

/-- A training as in `Mlp.Training`, with a regularizer: the rule of the optimizer gets, in place of the gradient `d`
of the batch, the gradient `d'` that the regularizer makes of it and of the parameter as it is then. -/
structure RegTraining (r : Option Reg) (ok : Mlp → Row → Row → Prop) (loss : String) (kind : OptKind) (h : Hyper ℝ) (N B E : Nat) (x y : Nat → Row) (m : Mlp)
    (ms : Nat → Nat → Mlp) : Prop where
  first : ms 0 0 = m
  next : ∀ i, i < E → ms (i + 1) 0 = ms i (nbBatches N B)
  like : ∀ i j, i < E ∧ j ≤ nbBatches N B ∨ i = E ∧ j = 0 → Like m (ms i j)
  rule : ∃ (σ : Nat → Nat → Nat) (d d' : Nat → Bool → Nat → Nat → Nat → ℝ),
    (∀ i, i < E → ((List.range N).map (σ i)).Perm (List.range N)) ∧
    (∀ i j, i < E → j < nbBatches N B → IsDrive ok loss (batchEnd N B j - batchStart B j) (fun s => x (σ i (batchStart B j + s)))
      (fun s => y (σ i (batchStart B j + s))) (ms i j) (d (i * nbBatches N B + j))) ∧
    (∀ i j, i < E → j < nbBatches N B → ∀ b l, d' (i * nbBatches N B + j) b l =
      regGrad r (m.shape b l).1 (m.shape b l).2 (((ms i j).ply l).par b) (d (i * nbBatches N B + j) b l)) ∧
    ∀ i j, i < E ∧ j ≤ nbBatches N B ∨ i = E ∧ j = 0 → ∀ b l, l < m.depth → (m.ply l).has b = true →
      ∀ p q, p < (m.shape b l).1 → q < (m.shape b l).2 → ((ms i j).ply l).par b p q =
        (Coord.run Real.sqrt (fun x => |x|) h kind ((m.ply l).par b p q) (fun t => d' t b l p q) (i * nbBatches N B + j)).w

/-- The sum of `f w` over all weights and biases `w`. -/
noncomputable def parSum (m : Mlp) (f : ℝ → ℝ) : ℝ :=
  ∑ l ∈ range m.depth, ∑ b : Bool, if (m.ply l).has b then
    ∑ p ∈ range (m.shape b l).1, ∑ q ∈ range (m.shape b l).2, f ((m.ply l).par b p q) else 0

/-- `m'` is `m` after one step of gradient descent for the function `F` of the network. -/
structure DescendsOn (F : Mlp → ℝ) (lr : ℝ) (m m' : Mlp) : Prop where
  like : Like m m'
  step : ∀ b l, l < m.depth → (m.ply l).has b = true → ∃ G : Nat → Nat → ℝ,
    IsGrad (m.shape b l).1 (m.shape b l).2 (fun P => F (m.setPar b l P)) ((m.ply l).par b) G ∧
      ∀ p q, p < (m.shape b l).1 → q < (m.shape b l).2 → (m'.ply l).par b p q = (m.ply l).par b p q - lr * G p q

end Mlp

/-- The penalty for one parameter. -/
noncomputable def Reg.penalty (r : Reg) (w : ℝ) : ℝ :=
  match r.kind with
  | .l1 => r.param * |w|
  | .l2 => r.param / 2 * w ^ 2
  | .l1l2 => r.param * |w| + r.param / 2 * w ^ 2
  | _ => 0

end BeeDNN
