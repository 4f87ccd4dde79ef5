import Mathlib.Algebra.Field.Basic
import Mathlib.Algebra.Order.Ring.Defs
import Mathlib.Order.Defs.LinearOrder
import Mathlib.Algebra.Field.Rat
import Verif.Model.Optimizer
import Mathlib.Algebra.BigOperators.Group.Finset.Basic

/-!
# What the optimizers are meant to compute, for one scalar parameter

The published update rules, one parameter `w` with gradients `d 0, d 1, …`.  `sq` is the square root, `ab` the
absolute value.
-/

namespace BeeDNN

section
variable {α : Type} [Zero α] [One α] [Add α] [Sub α] [Mul α] [Div α] [Neg α] [NatCast α] [OfScientific α] [LT α]
  [DecidableRel (α := α) (· < ·)] [DecidableEq α]

/-- `n` calls of `optimize` on the weights `w` with gradient matrices `D 0, …, D (n-1)`. -/
def Opt.run (g : Nat → α) (sq ab : α → α) (o : Opt α) (w : Mat α) (D : Nat → Mat α) (n : Nat) :
    Out (Opt α × Mat α) :=
  forN n (fun t (s : Opt α × Mat α) => s.1.optimize g sq ab s.2 (D t)) (o, w)

/-- The weights after `n` calls of `optimize`. -/
def Opt.weights (g : Nat → α) (sq ab : α → α) (o : Opt α) (w : Mat α) (D : Nat → Mat α) (n : Nat) : Out (Mat α) :=
  (o.run g sq ab w D n).map Prod.snd

end

variable {α : Type} [Field α] [LinearOrder α]

/-- The settings of an optimizer. -/
structure Hyper (α : Type) where
  lr : α
  mom : α
  decay : α
  b1 : α
  b2 : α
  lam : α

/-- The parameter and the memory kept about it: `v` (velocity, second moment, infinity norm, step size), `m` (first
moment, previous gradient), `vh` (largest second moment). -/
structure Coord (α : Type) where
  w : α
  v : α
  m : α
  vh : α

/-- Memory before the first step; `d` is the first gradient. -/
def Coord.fresh (k : OptKind) (w d : α) : Coord α :=
  match k with
  | .momentumNg => ⟨w, d, 0, 0⟩
  | .rpropm | .irpropm => ⟨w, 0.0125, d, 0⟩
  | _ => ⟨w, 0, 0, 0⟩

/-- The step size rule of RPROP: halve on a sign change, grow by 1.2 on the same sign, stay in `[1e-6, 50]`. -/
def rpropSize (mu d old : α) : α :=
  if d * old < 0 then max (mu * 0.5) 1e-6 else if 0 < d * old then min (mu * 1.2) 50 else mu

/-- Move by `mu` against the sign of `d`. -/
def againstSign (w mu d : α) : α := if 0 < d then w - mu else if d < 0 then w + mu else w

/-- One update, number `t` (from 0), with gradient `d`. -/
def Coord.step (sq ab : α → α) (h : Hyper α) (k : OptKind) (t : Nat) (s : Coord α) (d : α) : Coord α :=
  match k with
  | .none => s
  | .step => { s with w := s.w - h.lr * (if d < 0 then -1 else 1) }
  | .sgd => { s with w := s.w - h.lr * d }
  | .momentum =>
    let v := h.mom * s.v + h.lr * d
    { s with w := s.w - v, v := v }
  | .momentumNg =>
    let v := h.mom * s.v + (1 - h.mom) * d
    { s with w := s.w - h.lr * v, v := v }
  | .nesterov =>
    let v := h.mom * s.v - h.lr * d
    { s with w := s.w + (v + h.mom * (v - s.v)), v := v }
  | .adagrad =>
    let v := s.v + d ^ 2
    { s with w := s.w - h.lr * d / max (sq v) 1e-8, v := v }
  | .rmsprop =>
    let v := h.decay * s.v + (1 - h.decay) * d ^ 2
    { s with w := s.w - h.lr * d / max (sq v) 1e-8, v := v }
  | .adam =>
    let m := h.b1 * s.m + (1 - h.b1) * d
    let v := h.b2 * s.v + (1 - h.b2) * d ^ 2
    let mHat := m / (1 - h.b1 ^ (t + 1))
    let vHat := v / (1 - h.b2 ^ (t + 1))
    { s with w := s.w - h.lr * mHat / max (sq vHat) 1e-8, v := v, m := m }
  | .adamW =>
    let m := h.b1 * s.m + (1 - h.b1) * d
    let v := h.b2 * s.v + (1 - h.b2) * d ^ 2
    let mHat := m / (1 - h.b1 ^ (t + 1))
    let vHat := v / (1 - h.b2 ^ (t + 1))
    { s with w := s.w - h.lr * mHat / max (sq vHat) 1e-8 - h.lam * s.w, v := v, m := m }
  | .amsgrad =>
    let m := h.b1 * s.m + (1 - h.b1) * d
    let v := h.b2 * s.v + (1 - h.b2) * d ^ 2
    let vh := max v s.vh
    { s with w := s.w - h.lr * m / max (sq vh) 1e-8, v := v, m := m, vh := vh }
  | .nadam =>
    let m := h.b1 * s.m + (1 - h.b1) * d
    let v := h.b2 * s.v + (1 - h.b2) * d ^ 2
    { s with
      w := s.w - h.lr * (h.b1 * m + (1 - h.b1) * d / (1 - h.b1 ^ (t + 1))) / max (sq v) 1e-8, v := v, m := m }
  | .adamax =>
    let m := h.b1 * s.m + (1 - h.b1) * d
    let u := max (h.b2 * s.v) (ab d)
    { s with w := s.w - h.lr / (1 - h.b1 ^ (t + 1)) * m / max u 1e-8, v := u, m := m }
  | .rpropm =>
    let mu := rpropSize s.v d s.m
    { s with w := againstSign s.w mu d, v := mu, m := d }
  | .irpropm =>
    let mu := rpropSize s.v d s.m
    let d' := if d * s.m < 0 then 0 else d
    { s with w := againstSign s.w mu d', v := mu, m := d' }

/-- The parameter and its memory after `n` updates with gradients `d 0, …, d (n-1)`, from `w`. -/
def Coord.run (sq ab : α → α) (h : Hyper α) (k : OptKind) (w : α) (d : Nat → α) : Nat → Coord α
  | 0 => Coord.fresh k w (d 0)
  | n + 1 => Coord.step sq ab h k n (Coord.run sq ab h k w d n) (d n)

/-- The settings in an optimizer object. -/
def Opt.hyper (o : Opt α) : Hyper α := ⟨o.lr, o.mom, o.decay, o.beta1, o.beta2, o.lambda⟩

/-- `mom^(n-1) d 0 + mom^(n-2) d 1 + … + d (n-1)`: the gradients, older ones decayed. -/
def decayed (mom : α) (d : Nat → α) (n : Nat) : α := ∑ s ∈ Finset.range n, mom ^ (n - 1 - s) * d s

end BeeDNN
