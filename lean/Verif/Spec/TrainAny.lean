import Verif.Spec.Trainable
import Verif.Spec.MlpFit

/-! # Specification: new layers, and what the caller of `fit` has to provide -/

namespace BeeDNN
open Trainer

/-- The object that the constructor of a class makes from the sizes in `k` and the names of the initializers. -/
noncomputable def LayerKind.make (e : Env) (wInit bInit : String) : LayerKind → Out Layer
  | dense i o => Layer.newDense e i o wInit bInit
  | dot i o => Layer.newDot e i o wInit
  | bias => Layer.newBias e bInit
  | gain => Layer.newGain e
  | affine => Layer.newAffine e
  | globalBias => Layer.newGlobalBias e
  | globalGain => Layer.newGlobalGain e
  | globalAffine => Layer.newGlobalAffine e
  | channelBias r c ch => Layer.newChannelBias e r c ch bInit
  | activation a => Layer.newActivation a.name
  | softmax => Layer.newSoftmax
  | softmin => Layer.newSoftmin
  | maxPool p => Layer.newMaxPool p.inRows p.inCols p.channels p.rowFactor p.colFactor
  | globalMaxPool r c ch => Layer.newGlobalMaxPool r c ch
  | avgPool p => Layer.newAvgPool p.inRows p.inCols p.channels p.rowFactor p.colFactor
  | globalAvgPool r c ch => Layer.newGlobalAvgPool r c ch
  | zeroPad r c ch b => Layer.newZeroPad r c ch b
  | conv p => Layer.newConv e p.inRows p.inCols p.inCh p.kRows p.kCols p.outCh p.rowStride p.colStride
  | dropout r => Layer.newDropout r
  | gaussianDropout r => Layer.newGaussianDropout r
  | gaussianNoise r => Layer.newGaussianNoise r
  | uniformNoise r => Layer.newUniformNoise r
  | randomFlip r c ch => Layer.newRandomFlip r c ch
  | crelu => Layer.newCRelu e
  | gated a b => do
    let s ← Layer.actName a
    let s' ← Layer.actName b
    Layer.newGated s s'
  | prelu => Layer.newPRelu e
  | pelu => Layer.newPELU e
  | terelu => Layer.newTERELU e
  | rrelu a b => Layer.newRRelu a b
  | tdBias f => Layer.newTDBias e f bInit
  | tdDot f o => Layer.newTDDot e f o wInit
  | tdDense f o => Layer.newTDDense e f o wInit bInit
  | simpleRNN f u => Layer.newSimpleRNN e f u
  | simplestRNN f => Layer.newSimplestRNN e f

/-- Dense and dot layers are made for these sizes. -/
def LayerKind.Sized (s s' : Form) : LayerKind → Prop
  | dense i o | dot i o => s.width = i ∧ s'.width = o
  | _ => True

/-- Making new layers and adding them to network `n`, one after the other. -/
noncomputable def World.build (e : Nat → Env) (wInit bInit : String) (n : Nat) : Nat → List LayerKind → World → Out World
  | _, [], w => .ok w
  | i, k :: ks, w => do
    let l ← k.make (e i) wInit bInit
    World.build e wInit bInit n (i + 1) ks ((w.alloc l).add n w.heap.length)

/-- The classes of the layers of a network. -/
def World.kinds (w : World) (n : Nat) : List (Option LayerKind) :=
  (w.nets n).layers.map fun a => (w.heap[a]?.join).map Layer.kind

/-- What the caller of `fit` has to provide: network `n` fits together, `b` is the new network `bestNet`, the trainer has
`N` samples `x` that fit the first layer with truths `y` of `D` entries that fit the loss, validation data do so too, and
the settings are in range. -/
structure TrainSetup (w : World) (t : Trainer) (n b depth : Nat) (form : Nat → Form) (N D : Nat) (x y : Nat → Row) : Prop where
  net : Trainable w n depth form
  owned : Owned w
  slot : b ≠ n
  fresh : (w.nets b).layers = []
  inOut : ∀ a ∈ t.inOut, a.WF
  gradient : ∀ a ∈ t.gradient, a.WF
  samples : 0 < N
  train : t.train = some (Mat.ofFn N (form 0).width x, Mat.ofFn N D y)
  floor : (form 0).floor = true → ∀ i j, i < N → j < (form 0).width → Layer.low < x i j
  truth : TruthFits t.loss (form depth).width D N y
  valid : ∀ d, t.valid = some d → ∃ (M E : Nat) (u v : Nat → Row), TruthFits t.loss (form depth).width E M v ∧
    d = (Mat.ofFn M (form 0).width u, Mat.ofFn M E v)
  valBatch : 0 < t.valBatch
  batchSize : 0 ≤ t.batchSize
  loss : t.loss ∈ listLoss
  balancing : t.balancing = false
  patience : t.patience = -1 ∨ t.epochs ≤ t.patience

/-- The layers see exact indices (C28) in all passes of this run. -/
structure Trainer.FitEnv.Exact (e : FitEnv) : Prop where
  batch : ∀ i j k l, (e.batch i j k l).Exact
  eval : ∀ i j k, (e.eval i j k).Exact

end BeeDNN
