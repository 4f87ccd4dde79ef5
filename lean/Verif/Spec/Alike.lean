import Verif.Spec.Mlp
import Mathlib.Order.Monotone.Defs

/-! # Specification: different networks that do the same -/

namespace BeeDNN

/-- `m'` is `m` with one more layer at the end. -/
structure Mlp.Topped (m m' : Mlp) : Prop where
  depth : m'.depth = m.depth + 1
  width : ∀ i, i ≤ m.depth → m'.width i = m.width i
  ply : ∀ i, i < m.depth → m'.ply i = m.ply i

/-- The layer keeps the order of its inputs: softmax, or a strictly increasing activation. -/
def PlyKind.KeepsOrder : PlyKind → Prop
  | .softmax => True
  | .act a => StrictMono a.apply
  | _ => False

/-- Inputs that are `c > 0` times as large give outputs that are. -/
def Activation.Homogeneous (a : Activation) : Prop := ∀ c x, 0 < c → a.apply (c * x) = c * a.apply x

/-- `m'` is `m`, but for the units of the dense layer `l`, which is followed by an activation and another dense layer: what unit `j` computes is multiplied by `c j`, and the
next dense layer divides by it. -/
structure Mlp.Rescaled (c : Nat → ℝ) (l : Nat) (m m' : Mlp) : Prop where
  like : Mlp.Like m m'
  depth : l + 2 < m.depth
  before : (m.ply l).kind = .dense
  between : ∃ a, (m.ply (l + 1)).kind = .act a ∧ a.Homogeneous
  after : (m.ply (l + 2)).kind = .dense
  other : ∀ i, i ≠ l → i ≠ l + 2 → m'.ply i = m.ply i
  weight : ∀ k j, k < m.width l → j < m.width (l + 1) → (m'.ply l).weight k j = (m.ply l).weight k j * c j
  bias : ∀ j, j < m.width (l + 1) → (m'.ply l).bias 0 j = (m.ply l).bias 0 j * c j
  next : ∀ j q, j < m.width (l + 1) → (m'.ply (l + 2)).weight j q = (m.ply (l + 2)).weight j q / c j
  nextBias : ∀ q, (m'.ply (l + 2)).bias 0 q = (m.ply (l + 2)).bias 0 q

/-- All layers are dense layers or layers that multiply by weights or add biases only: no activations. -/
def Mlp.Plain (m : Mlp) : Prop := ∀ i, i < m.depth → (m.ply i).kind = .dense ∨ (m.ply i).kind = .dot ∨ (m.ply i).kind = .bias

/-- A single dense layer with these weights and biases. -/
def Mlp.ofDense (C C' : Nat) (W : Nat → Nat → ℝ) (b : Nat → ℝ) : Mlp :=
  { depth := 1, width := fun i => if i = 0 then C else C', ply := fun _ => { kind := .dense, weight := W, bias := fun _ => b } }

/-- The names of strictly increasing activations. -/
def risingActivations : List String := ["Asinh", "Atan", "DivideBy256", "Exponential", "Identity", "LeakyRelu", "LeakyRelu256", "LogSigmoid", "Sigmoid", "SoftPlus", "Tanh"]

/-- The names of homogeneous activations. -/
def homogeneousActivations : List String := ["Absolute", "DivideBy256", "Identity", "LeakyRelu", "LeakyRelu256", "Relu"]

end BeeDNN
