import Verif.Spec.Layer
import Verif.Spec.Net
import Verif.Model.Train

/-! # Specification: networks that can be trained, with the sizes of everything -/

namespace BeeDNN

/-- A matrix with a buffer of its size, `r` rows and `c` columns. -/
def Mat.Shape (M : Mat ℝ) (r c : Nat) : Prop := M.WF ∧ M.rows = r ∧ M.cols = c

/-- All entries are above the start value of the maximum search in pooling layers. -/
def Mat.Above (M : Mat ℝ) : Prop := ∀ i j x, M.get i j = .ok x → Layer.low < x

/-- What goes from one layer to the next: rows of `width` numbers, with `floor` all of them above −10³⁸. -/
structure Form where
  width : Nat
  floor : Bool := false

/-- A batch of `N` rows of this form. -/
structure Form.Holds (s : Form) (N : Nat) (M : Mat ℝ) : Prop where
  shape : M.Shape N s.width
  floor : s.floor = true → M.Above

/-- `float` is exact on the indices that pooling layers keep (C28 shows what happens if it is not). -/
def Env.Exact (e : Env) : Prop := ∀ i : Int, 0 ≤ i → i ≤ 2 ^ 24 → e.fl i = i

namespace LayerKind

/-- What a layer of this class needs to be trained on rows of the form `s`, and the form `s'` of what it makes of them.
`first` says whether it is the first layer.  The backward pass of pooling layers needs inputs above −10³⁸, that of a
random flip layer works in the first layer only.  Gaussian dropout and recurrent layers are left out. -/
def Takes (first : Bool) (s s' : Form) : LayerKind → Prop
  | dense .. | dot .. => s'.floor = false
  | bias | gain | affine | globalBias | globalGain | globalAffine | dropout _ | gaussianNoise _ | uniformNoise _ | prelu | pelu
  | terelu => s'.width = s.width ∧ s'.floor = false
  | activation a => s'.width = s.width ∧ (s'.floor = true → ∀ x, Layer.low < a.apply x)
  | softmax | softmin => s'.width = s.width
  | crelu => s'.width = s.width * 2
  | gated .. => s.width = 2 * s'.width ∧ s'.floor = false
  | rrelu a₁ a₂ => s'.width = s.width ∧ s'.floor = false ∧ 1 / a₁ ≤ 1 / a₂
  | channelBias r c ch => s.width = r * c * ch ∧ s'.width = s.width ∧ s'.floor = false
  | maxPool p => s.width = p.inRows * p.inCols * p.channels ∧ s'.width = p.outRows * p.outCols * p.channels ∧
      (s'.floor = true → s.floor = true) ∧ (first = false → s.floor = true ∧ p.inRows * p.inCols ≤ 2 ^ 24)
  | globalMaxPool r c ch => s.width = r * c * ch ∧ s'.width = ch ∧ (s'.floor = true → s.floor = true) ∧
      (first = false → s.floor = true ∧ r * c * ch ≤ 2 ^ 24)
  | avgPool p => s.width = p.inRows * p.inCols * p.channels ∧ s'.width = p.outRows * p.outCols * p.channels ∧ s'.floor = false
  | globalAvgPool r c ch => s.width = r * c * ch ∧ s'.width = ch ∧ s'.floor = false
  | zeroPad r c ch b => s.width = r * c * ch ∧ s'.width = (r + 2 * b) * (c + 2 * b) * ch ∧ (s'.floor = true → s.floor = true)
  | conv p => s.width = p.inRows * p.inCols * p.inCh ∧ s'.width = p.outRows * p.outCols * p.outCh ∧ 0 < p.kRows ∧ 0 < p.kCols ∧
      s'.floor = false
  | randomFlip r c ch => s.width = r * c * ch ∧ s'.width = s.width ∧ s'.floor = false ∧ first = true
  | tdBias f => (∃ n, s.width = n * f) ∧ s'.width = s.width ∧ s'.floor = false
  | tdDot f o | tdDense f o => (∃ n, s.width = n * f ∧ s'.width = n * o) ∧ s'.floor = false
  | gaussianDropout _ | simpleRNN .. | simplestRNN _ => False

/-- Rows and columns of the biases (`b = true`) or weights of a layer with `C` inputs and `C'` outputs. -/
def parShape (b : Bool) (C C' : Nat) : LayerKind → Option (Nat × Nat)
  | dense .. => some (if b then 1 else C, C')
  | dot .. => if b then none else some (C, C')
  | bias => if b then some (1, C) else none
  | gain | prelu | terelu => if b then none else some (1, C)
  | pelu => if b then none else some (2, C)
  | affine => some (1, C)
  | globalBias => if b then some (1, 1) else none
  | globalGain => if b then none else some (1, 1)
  | globalAffine => some (1, 1)
  | channelBias _ _ ch => if b then some (1, ch) else none
  | conv p => if b then none else some (p.outCh, p.kRows * p.kCols * p.inCh)
  | tdBias f => if b then some (1, f) else none
  | tdDot f o => if b then none else some (f, o)
  | tdDense f o => some (if b then 1 else f, o)
  | _ => none

/-- Classes whose parameters are made by the first forward pass. -/
def isLazy : LayerKind → Bool
  | bias | gain | affine | prelu | pelu | terelu => true
  | _ => false

/-- Classes that keep a gradient matrix of the right size. -/
def keepsGrad : LayerKind → Bool
  | prelu | pelu | terelu | globalBias | globalGain | globalAffine => true
  | _ => false

end LayerKind

/-- The names of the initializers. -/
def initNames : List String :=
  ["GlorotUniform", "GlorotNormal", "HeUniform", "HeNormal", "LecunUniform", "LecunNormal", "Uniform", "Normal", "Zeros", "Ones"]

/-- All parameters have their sizes. -/
def Layer.Full (s s' : Form) (l : Layer) : Prop :=
  ∀ b rc, l.kind.parShape b s.width s'.width = some rc → (l.par b).Shape rc.1 rc.2

/-- A layer object that can be trained as a layer between these forms. -/
structure Layer.Fits (first : Bool) (s s' : Form) (l : Layer) : Prop where
  valid : l.Valid
  pos : 0 < s.width ∧ 0 < s'.width
  takes : l.kind.Takes first s s'
  notFirst : first = false → l.first = false
  params : l.Full s s' ∨ l.kind.isLazy = true ∧ ∀ b, (l.par b).size = 0
  grads : l.kind.keepsGrad = true → l.Full s s' → ∀ b rc, l.kind.parShape b s.width s'.width = some rc → (l.grad b).Shape rc.1 rc.2
  inits : l.kind = .bias → l.bias.size = 0 → l.bInit ∈ initNames

/-- Network `n` has `depth` layers, layer `i` between `form i` and `form (i+1)`. -/
structure Trainable (w : World) (n depth : Nat) (form : Nat → Form) : Prop where
  nonempty : 0 < depth
  nodup : (w.nets n).layers.Nodup
  count : (w.nets n).layers.length = depth
  layer : ∀ i a, (w.nets n).layers[i]? = some a → ∃ l : Layer, w.heap[a]? = some (some l) ∧
    l.Fits (decide (i = 0)) (form i) (form (i + 1))

end BeeDNN
