import Verif.Model.PyFit
import Verif.Spec.PyTrain
import Verif.Spec.MlpFit

/-! # Specification: `fit` of the Python library -/

namespace BeeDNN

/-- The layer, constructed for `C` inputs and `C'` outputs, is of this kind. -/
def PyLayer.Made (l : PyLayer) (K : PlyKind) (C C' : Nat) : Prop :=
  match l.kind, K with
  | .act a, .act A => C' = C ∧ ∀ v, A.apply v = a.f v
  | .exponential, .act A => C' = C ∧ ∀ v, A.apply v = Real.exp v
  | .identity, .act A => C' = C ∧ ∀ v, A.apply v = v
  | .bias, .bias | .softmax, .softmax => C' = C
  | .dot, .dot | .dense, .dense => True
  | .tdDot i o, .tdDot T F O | .tdDense i o, .tdDense T F O => (i = F ∧ o = O) ∧ C = T * F ∧ C' = T * O
  | .tdBias s, .tdBias T F => s = F ∧ C = T * F ∧ C' = C
  | _, _ => False

/-- The network with weights drawn uniformly from an interval around 0 and all biases 0 (`u` has numbers in [0,1)). -/
noncomputable def Mlp.xavier (u : Nat → Nat → Nat → ℝ) (m : Mlp) : Mlp :=
  { m with ply := fun i =>
    { kind := (m.ply i).kind
      weight := fun k j => Real.sqrt (6 / ((m.shape false i).1 + (m.shape false i).2 : Nat)) * (u i k j * 2 - 1)
      bias := fun _ _ => 0 } }

/-- A model of the Python library that can be trained: its layers are those of `m`, of the kinds that learn, and no layer behind Exponential keeps the array it is given. -/
structure PyModel (ls : List PyLayer) (m : Mlp) : Prop where
  ok : m.Ok
  count : ls.length = m.depth
  made : ∀ (i : Nat) (l : PyLayer), ls[i]? = some l → l.Made (m.ply i).kind (m.width i) (m.width (i + 1))
  learns : ∀ l ∈ ls, l.Learns
  exp : ∀ (i : Nat) (l l' : PyLayer), ls[i]? = some l → l.kind = .exponential → ls[i + 1]? = some l' → l'.keeps = false

/-- One batch of the Python library: gradient descent, at rates `pyRate`, unless a sample is at a kink. -/
def Mlp.PyBatch (loss : String) (lr : ℝ) (N : Nat) (x y : Nat → Row) (m m' : Mlp) : Prop :=
  (∀ s, s < N → m.Regular 1e-8 loss (x s) (y s)) → Mlp.Steps (fun b i => (m.ply i).kind.pyRate b N) loss lr N x y m m'

end BeeDNN
