import Verif.Spec.Net
import Verif.Spec.Gradient

/-! # Specification: feed-forward networks and the error that training descends -/

namespace BeeDNN
open Finset

/-- The kinds of layers, with the sizes that do not follow from the numbers of inputs and outputs.  Images are made of `channels` planes of
`rows × cols`; time distributed layers work on `T` pieces of `F` features. -/
inductive PlyKind where
  | dense
  | dot
  | bias
  | act (a : Activation)
  | channelBias (rows cols channels : Nat)
  | conv (rows cols channels kRows kCols outChannels rowStride colStride : Nat)
  | avgPool (rows cols channels rowFactor colFactor : Nat)
  | globalAvgPool (rows cols channels : Nat)
  | zeroPad (rows cols channels border : Nat)
  | crelu
  | gated (a₁ a₂ : Activation)
  | tdBias (T F : Nat)
  | tdDot (T F O : Nat)
  | tdDense (T F O : Nat)
  | softmax

namespace PlyKind

/-- Does such a layer have biases (`b = true`) or weights? -/
def has (b : Bool) : PlyKind → Bool
  | dense | tdDense .. => true
  | dot | conv .. | tdDot .. => !b
  | bias | channelBias .. | tdBias .. => b
  | _ => false

/-- Rows and columns of the biases (`b = true`) or weights of a layer with `C` inputs and `C'` outputs. -/
def shape (b : Bool) (C C' : Nat) : PlyKind → Nat × Nat
  | channelBias _ _ K => (1, K)
  | conv _ _ K kR kC O _ _ => (O, kR * kC * K)
  | tdBias _ F => (1, F)
  | tdDot _ F O | tdDense _ F O => (if b then 1 else F, O)
  | _ => (if b then 1 else C, C')

/-- The numbers of inputs and outputs are right, and activations are known by name. -/
def Fits (C C' : Nat) : PlyKind → Prop
  | dense | dot => True
  | bias | softmax => C' = C
  | act a => C' = C ∧ ∃ s, getActivation s = some a
  | channelBias R S K => C = R * S * K ∧ C' = C
  | conv R S K kR kC O rs cs => C = R * S * K ∧ C' = convOutSize R kR rs * convOutSize S kC cs * O ∧
      2 * (kR / 2) ≤ R ∧ 2 * (kC / 2) ≤ S ∧ 0 < kR ∧ 0 < kC
  | avgPool R S K rf cf => C = R * S * K ∧ C' = (R / rf) * (S / cf) * K ∧ 0 < rf ∧ 0 < cf
  | globalAvgPool R S K => C = R * S * K ∧ C' = K
  | zeroPad R S K b => C = R * S * K ∧ C' = (R + 2 * b) * (S + 2 * b) * K
  | crelu => C' = C * 2
  | gated a₁ a₂ => C = 2 * C' ∧ (∃ s, getActivation s = some a₁) ∧ ∃ s, getActivation s = some a₂
  | tdBias T F => C = T * F ∧ C' = C
  | tdDot T F O | tdDense T F O => C = T * F ∧ C' = T * O

/-- The class and the constructor arguments of such a layer. -/
def Of (k : PlyKind) (l : LayerKind) : Prop :=
  match k with
  | dense => ∃ i o, l = .dense i o
  | dot => ∃ i o, l = .dot i o
  | bias => l = .bias
  | act a => l = .activation a
  | channelBias R S K => l = .channelBias R S K
  | conv R S K kR kC O rs cs => ∃ p, Conv.create R S K kR kC O rs cs = .ok p ∧ l = .conv p
  | avgPool R S K rf cf => ∃ p, Pool.create R S K rf cf = .ok p ∧ l = .avgPool p
  | globalAvgPool R S K => l = .globalAvgPool R S K
  | zeroPad R S K b => l = .zeroPad R S K b
  | crelu => l = .crelu
  | gated a₁ a₂ => l = .gated (some a₁) (some a₂)
  | tdBias _ F => l = .tdBias F
  | tdDot _ F O => l = .tdDot F O
  | tdDense _ F O => l = .tdDense F O
  | softmax => l = .softmax

/-- The derivative functions that the layer uses are right for the input `v`.  The backward pass of a softmax layer is
not the derivative of its forward pass (C27). -/
def SmoothAt (C : Nat) (v : Row) : PlyKind → Prop
  | act a => ∀ j, j < C → HasDerivAt a.apply (a.derivation (v j)) (v j)
  | gated a₁ a₂ => (∀ j, j < C / 2 → HasDerivAt a₁.apply (a₁.derivation (v j)) (v j)) ∧
      ∀ j, j < C / 2 → HasDerivAt a₂.apply (a₂.derivation (v (j + C / 2))) (v (j + C / 2))
  | crelu => ∀ j, j < C → v j ≠ 0
  | softmax => False
  | _ => True

/-- The factor between the gradient that the layer hands to the layer before and the true one. -/
noncomputable def inRate : PlyKind → ℝ
  | conv _ _ _ kR kC O _ _ => 1 / ((kR * kC * O : Nat) : ℝ)
  | _ => 1

/-- The factor between the gradient of biases (`b = true`) or weights for a batch of `N` samples and the true one. -/
noncomputable def parRate (b : Bool) (N : Nat) : PlyKind → ℝ
  | channelBias R S _ => ((R * S : Nat) : ℝ)
  | conv .. => (N : ℝ)
  | tdBias T _ => 1 / (T : ℝ)
  | tdDense T _ _ => if b then 1 / (T : ℝ) else 1
  | _ => 1

/-- Layers whose gradients are the true ones. -/
def Exact : PlyKind → Prop
  | conv .. | channelBias .. | tdBias .. | tdDense .. => False
  | _ => True

end PlyKind

/-- A layer with its weights and biases (which do not matter if it has none). -/
structure Ply where
  kind : PlyKind
  weight : Nat → Nat → ℝ := fun _ _ => 0
  bias : Nat → Nat → ℝ := fun _ _ => 0

namespace Ply

/-- What a layer with `C` inputs makes of one sample. -/
noncomputable def apply (C : Nat) (p : Ply) (v : Row) : Row :=
  match p.kind with
  | .dense => fun j => ∑ k ∈ range C, v k * p.weight k j + p.bias 0 j
  | .dot => fun j => ∑ k ∈ range C, v k * p.weight k j
  | .bias => fun j => v j + p.bias 0 j
  | .act a => fun j => a.apply (v j)
  | .channelBias R S _ => fun j => v j + p.bias 0 (j / (R * S))
  | .conv R S K kR kC _ rs cs => planes (convOutSize R kR rs) (convOutSize S kC cs) (fun o r c =>
      ∑ ch ∈ range K, ∑ kr ∈ range kR, ∑ kc ∈ range kC,
        p.weight o (ch * (kR * kC) + (kr * kC + kc)) * px R S v ch (r * rs + kr) (c * cs + kc))
  | .avgPool R S _ rf cf => planes (R / rf) (S / cf) (fun k r c =>
      (∑ i ∈ range rf, ∑ j ∈ range cf, px R S v k (r * rf + i) (c * cf + j)) * (1 / ((rf * cf : Nat) : ℝ)))
  | .globalAvgPool R S _ => fun k => (∑ r ∈ range R, ∑ c ∈ range S, px R S v k r c) * (1 / ((R * S : Nat) : ℝ))
  | .zeroPad R S _ b => planes (R + 2 * b) (S + 2 * b) (fun k r c =>
      if (b ≤ r ∧ r < R + b) ∧ b ≤ c ∧ c < S + b then px R S v k (r - b) (c - b) else 0)
  | .crelu => fun j => if j < C then max (v j) 0 else max (-v (j - C)) 0
  | .gated a₁ a₂ => fun j => a₁.apply (v j) * a₂.apply (v (j + C / 2))
  | .tdBias _ F => fun j => v j + p.bias 0 (j % F)
  | .tdDot _ F O => fun j => ∑ k ∈ range F, v (j / O * F + k) * p.weight k (j % O)
  | .tdDense _ F O => fun j => ∑ k ∈ range F, v (j / O * F + k) * p.weight k (j % O) + p.bias 0 (j % O)
  | .softmax => softmaxAt C v

/-- The biases (`b = true`) or the weights of a layer. -/
def par (b : Bool) (p : Ply) : Nat → Nat → ℝ := if b then p.bias else p.weight

/-- The layer with other biases or weights. -/
def setPar (b : Bool) (V : Nat → Nat → ℝ) (p : Ply) : Ply := if b then { p with bias := V } else { p with weight := V }

/-- Does the layer have biases (`b = true`) or weights? -/
def has (b : Bool) (p : Ply) : Bool := p.kind.has b

end Ply

/-- `depth` layers; layer `i` has `width i` inputs and `width (i+1)` outputs. -/
structure Mlp where
  depth : Nat
  width : Nat → Nat
  ply : Nat → Ply

namespace Mlp

/-- What layer `i` gets as input when the network gets `v`. -/
noncomputable def hidden (m : Mlp) (v : Row) : Nat → Row
  | 0 => v
  | i + 1 => (m.ply i).apply (m.width i) (m.hidden v i)

/-- What the network makes of one sample. -/
noncomputable def out (m : Mlp) (v : Row) : Row := m.hidden v m.depth

/-- The perceptron with other biases (`b = true`) or weights in layer `i`. -/
def setPar (m : Mlp) (b : Bool) (i : Nat) (V : Nat → Nat → ℝ) : Mlp :=
  { m with ply := fun k => if k = i then (m.ply i).setPar b V else m.ply k }

/-- The widths are positive and fit the layers. -/
structure Ok (m : Mlp) : Prop where
  depth : 0 < m.depth
  pos : ∀ i, i ≤ m.depth → 0 < m.width i
  fits : ∀ i, i < m.depth → (m.ply i).kind.Fits (m.width i) (m.width (i + 1))

/-- Rows and columns of the biases or weights of layer `i`. -/
def shape (m : Mlp) (b : Bool) (i : Nat) : Nat × Nat := (m.ply i).kind.shape b (m.width i) (m.width (i + 1))

/-- The derivative functions of the first `d` layers are right for the values they get with the input `v`. -/
def SmoothTo (m : Mlp) (d : Nat) (v : Row) : Prop := ∀ i, i < d → (m.ply i).kind.SmoothAt (m.width i) (m.hidden v i)

/-- The derivative functions of all layers are right for the values they get with the input `v`. -/
def SmoothAt (m : Mlp) (v : Row) : Prop := m.SmoothTo m.depth v

/-- The factor between the gradient that is computed for the biases or weights of layer `i` and the true one. -/
noncomputable def rate (m : Mlp) (N : Nat) (b : Bool) (i : Nat) : ℝ :=
  (m.ply i).kind.parRate b N * ∏ k ∈ range (m.depth - 1 - i), (m.ply (m.depth - 1 - k)).kind.inRate

/-- All layers of the network are such that gradients are the true ones. -/
def Exact (m : Mlp) : Prop := ∀ i, i < m.depth → (m.ply i).kind.Exact

/-- `m'` is `m` with other parameters. -/
structure Like (m m' : Mlp) : Prop where
  depth : m'.depth = m.depth
  width : m'.width = m.width
  kind : ∀ i, (m'.ply i).kind = (m.ply i).kind

end Mlp

/-- The error of one of `K` outputs that differs by `z` from the truth: what the loss of this name descends. -/
noncomputable def pointError (loss : String) (K : Nat) (z : ℝ) : ℝ :=
  if loss = "MeanSquaredError" then z ^ 2 / (2 * K) else
  if loss = "L2" then z ^ 2 / 2 else
  if loss = "MeanAbsoluteError" then |z| else
  if loss = "L1" then |z| / K else
  if loss = "MeanCubicError" ∨ loss = "L3" then |z| ^ 3 else
  if loss = "LogCosh" then Real.log (Real.cosh z) else
  if loss = "Huber" then (if |z| < 1 then z ^ 2 / 2 else |z| - 1 / 2) else
  Real.sqrt (z ^ 2 + 1) - 1

/-- The error of a sample that is predicted as `p` (`K` numbers) and has the truth `y`. -/
noncomputable def sampleError (loss : String) (K : Nat) (p y : Row) : ℝ :=
  if loss = "CategoricalCrossEntropy" then ∑ j ∈ range K, -(y j * Real.log (p j)) else
  if loss = "SparseCategoricalCrossEntropy" then -Real.log (p ⌊y 0⌋₊) else
  if loss = "BinaryCrossEntropy" then -(y 0 * Real.log (p 0) + (1 - y 0) * Real.log (1 - p 0)) else
  ∑ j ∈ range K, pointError loss K (p j - y j)

namespace Mlp

/-- The mean over the samples of the error of the network. -/
noncomputable def error (m : Mlp) (loss : String) (N : Nat) (x y : Nat → Row) : ℝ :=
  (1 / N) * ∑ s ∈ range N, sampleError loss (m.width m.depth) (m.out (x s)) (y s)

/-- All derivatives that training uses are right for the sample `v` with truth `y`.  The categorical cross entropies are
meant for networks that end with softmax (C27) and truths that are probabilities; the logarithms are cut off at `eps`. -/
def Regular (eps : ℝ) (loss : String) (m : Mlp) (v y : Row) : Prop :=
  if loss = "CategoricalCrossEntropy" ∨ loss = "SparseCategoricalCrossEntropy" then
    (m.ply (m.depth - 1)).kind = .softmax ∧ m.SmoothTo (m.depth - 1) v ∧
      (∀ j, j < m.width m.depth → eps < m.out v j ∧ m.out v j < 1 - eps) ∧
      (loss = "CategoricalCrossEntropy" → ∑ j ∈ range (m.width m.depth), y j = 1)
  else m.SmoothAt v ∧ (loss = "MeanAbsoluteError" ∨ loss = "L1" → ∀ j, j < m.width m.depth → m.out v j ≠ y j) ∧
    (loss = "BinaryCrossEntropy" → eps < m.out v 0 ∧ m.out v 0 < 1 - eps)

/-- `m'` is `m` after one step on the samples `x` with truths `y`: from every parameter matrix, `lr` times its rate times
the gradient of the error with respect to this matrix is subtracted. -/
structure Steps (rate : Bool → Nat → ℝ) (loss : String) (lr : ℝ) (N : Nat) (x y : Nat → Row) (m m' : Mlp) : Prop where
  like : Like m m'
  step : ∀ b i, i < m.depth → (m.ply i).has b = true → ∃ G : Nat → Nat → ℝ,
    IsGrad (m.shape b i).1 (m.shape b i).2 (fun P => (m.setPar b i P).error loss N x y) ((m.ply i).par b) G ∧
      ∀ k j, (m'.ply i).par b k j = (m.ply i).par b k j - lr * (rate b i * G k j)

/-- `m'` is `m` after one step of gradient descent on the samples `x` with truths `y`: from every parameter matrix,
`lr` times the gradient of the error with respect to this matrix is subtracted. -/
structure Descends (loss : String) (lr : ℝ) (N : Nat) (x y : Nat → Row) (m m' : Mlp) : Prop where
  like : Like m m'
  step : ∀ b i, i < m.depth → (m.ply i).has b = true → ∃ G : Nat → Nat → ℝ,
    IsGrad (m.shape b i).1 (m.shape b i).2 (fun P => (m.setPar b i P).error loss N x y) ((m.ply i).par b) G ∧
      ∀ k j, (m'.ply i).par b k j = (m.ply i).par b k j - lr * G k j

end Mlp

/-- The layer object `l` with `C` inputs and `C'` outputs is this layer: it is of this class and has these weights and biases. -/
structure Ply.Is (C C' : Nat) (p : Ply) (l : Layer) : Prop where
  kind : p.kind.Of l.kind
  weight : p.has false = true → l.weight = Mat.ofFn (p.kind.shape false C C').1 (p.kind.shape false C C').2 p.weight
  bias : p.has true = true → l.bias = Mat.ofFn (p.kind.shape true C C').1 (p.kind.shape true C C').2 p.bias

/-- Network `n` is this perceptron: its layers are, and only the first may be marked as first layer. -/
structure Represents (w : World) (n : Nat) (m : Mlp) : Prop where
  ok : m.Ok
  nodup : (w.nets n).layers.Nodup
  count : (w.nets n).layers.length = m.depth
  layer : ∀ i a, (w.nets n).layers[i]? = some a → ∃ l : Layer, w.heap[a]? = some (some l) ∧ l.Valid ∧
    (m.ply i).Is (m.width i) (m.width (i + 1)) l ∧ (0 < i → l.first = false)

end BeeDNN
