import Verif.Model.PyLib
import Verif.Spec.Mlp

/-! # Specification: models of the Python library -/

namespace BeeDNN

/-- The array has this shape and these numbers. -/
def NpArr.Is (a : NpArr) (N C : Nat) (f : Nat → Nat → ℝ) : Prop := a.rows = N ∧ a.cols = C ∧ ∀ i j, i < N → j < C → a.val i j = f i j

/-- The variable `r` refers to an array with this shape and these numbers. -/
def NpStore.Has (h : NpStore) (r N C : Nat) (f : Nat → Nat → ℝ) : Prop := ∃ a, h[r]? = some a ∧ a.Is N C f

namespace PyLayer

/-- The arrays with the weights and biases of the layer. -/
def params (l : PyLayer) : List Nat :=
  match l.kind with
  | .globalBias | .bias | .tdBias _ => [l.bias]
  | .globalGain | .dot | .tdDot .. => [l.weight]
  | .dense | .tdDense .. => [l.weight, l.bias]
  | _ => []

/-- At inference the layer returns the very array it was given. -/
def keeps (l : PyLayer) : Bool :=
  match l.kind with
  | .act a => a.inPlace
  | .identity | .noise | .dropout _ => true
  | _ => false

/-- The layer, with its arrays in `h`, is the layer `p` with `C` inputs and `C'` outputs. -/
def Shows (h : NpStore) (l : PyLayer) (p : Ply) (C C' : Nat) : Prop :=
  match l.kind, p.kind with
  | .act a, .act A => C' = C ∧ ∀ v, A.apply v = a.f v
  | .exponential, .act A => C' = C ∧ ∀ v, A.apply v = Real.exp v
  | .identity, .act A | .noise, .act A | .dropout _, .act A => C' = C ∧ ∀ v, A.apply v = v
  | .globalBias, .act A => C' = C ∧ ∃ b, h.Has l.bias 1 1 (fun _ _ => b) ∧ ∀ v, A.apply v = v + b
  | .globalGain, .act A => C' = C ∧ ∃ w, h.Has l.weight 1 1 (fun _ _ => w) ∧ ∀ v, A.apply v = v * w
  | .bias, .bias => C' = C ∧ h.Has l.bias 1 C p.bias
  | .dot, .dot => h.Has l.weight C C' p.weight
  | .dense, .dense => h.Has l.weight C C' p.weight ∧ h.Has l.bias 1 C' p.bias
  | .softmax, .softmax => C' = C
  | .tdDot i o, .tdDot T F O => (i = F ∧ o = O) ∧ C = T * F ∧ C' = T * O ∧ h.Has l.weight F O p.weight
  | .tdBias s, .tdBias T F => s = F ∧ C = T * F ∧ C' = C ∧ h.Has l.bias 1 F p.bias
  | .tdDense i o, .tdDense T F O => (i = F ∧ o = O) ∧ C = T * F ∧ C' = T * O ∧ h.Has l.weight F O p.weight ∧ h.Has l.bias 1 O p.bias
  | _, _ => False

end PyLayer

/-- The layers, with their arrays in `h`, are the network `m`. -/
structure PyRep (h : NpStore) (ls : List PyLayer) (m : Mlp) : Prop where
  count : ls.length = m.depth
  pos : ∀ i, i ≤ m.depth → 0 < m.width i
  layer : ∀ i l, ls[i]? = some l → PyLayer.Shows h l (m.ply i) (m.width i) (m.width (i + 1))

end BeeDNN
