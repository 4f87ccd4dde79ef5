import Verif.Spec.Mlp
import Mathlib.Logic.Equiv.Defs
import Mathlib.Algebra.Group.End

/-! # Specification: networks that differ by the numbering of their hidden units -/

namespace BeeDNN

/-- The inputs of a layer of this kind may be renumbered by `ρ` when its outputs are renumbered by `τ`: dense layers go along with anything, layers that
treat all numbers alike keep the numbering, and all others are left alone. -/
def PlyKind.Follows (ρ τ : Equiv.Perm Nat) : PlyKind → Prop
  | dense | dot => True
  | bias | act _ | softmax => τ = ρ
  | _ => ρ = 1 ∧ τ = 1

/-- `m'` is `m` with other numbers for the hidden units: unit `j` among the inputs of layer `l` of `m'` is unit `ρ l j` of `m`.  Inputs and outputs of the whole network keep their places. -/
structure Mlp.Renumbered (ρ : Nat → Equiv.Perm Nat) (m m' : Mlp) : Prop where
  like : Mlp.Like m m'
  units : ∀ l, l ≤ m.depth → ∀ j, m.width l ≤ j → ρ l j = j
  input : ρ 0 = 1
  output : ρ m.depth = 1
  follows : ∀ l, l < m.depth → (m.ply l).kind.Follows (ρ l) (ρ (l + 1))
  par : ∀ l, l < m.depth → ∀ b, (m.ply l).has b = true → ∀ p q, p < (m.shape b l).1 → q < (m.shape b l).2 →
    (m'.ply l).par b p q = (m.ply l).par b (if b then p else ρ l p) (ρ (l + 1) q)

/-- Units `a` and `b` between the dense layer `l`, an activation, and the dense layer `l + 2` get the same weights and biases, and the next layer treats them alike. -/
structure Mlp.Twins (m : Mlp) (l a b : Nat) : Prop where
  depth : l + 2 < m.depth
  inside : a < m.width (l + 1) ∧ b < m.width (l + 1)
  same : m.width (l + 2) = m.width (l + 1)
  before : (m.ply l).kind = .dense
  between : ∃ f, (m.ply (l + 1)).kind = .act f
  after : (m.ply (l + 2)).kind = .dense
  weight : ∀ p, p < m.width l → (m.ply l).weight p a = (m.ply l).weight p b
  bias : (m.ply l).bias 0 a = (m.ply l).bias 0 b
  out : ∀ q, q < m.width (l + 3) → (m.ply (l + 2)).weight a q = (m.ply (l + 2)).weight b q

end BeeDNN
