import Verif.Model.Layer
import Verif.Model.Train
import Verif.Spec.Json

/-! # Specification: what a saved network tells -/

namespace BeeDNN

/-- Two numbers that agree up to the error of six significant digits. -/
def Near (x y : ℝ) : Prop := |x - y| ≤ 5 / 10 ^ 6 * (|x| + |y|)

/-- Layers of the same class with the same constructor arguments, for the classes whose arguments are saved; real arguments up to six digits. -/
def ArgsSame : LayerKind → LayerKind → Prop
  | .dense i o, k => k = .dense i o
  | .channelBias r c ch, k => k = .channelBias r c ch
  | .activation a, k => k = .activation a
  | .maxPool p, k => ∃ q, k = .maxPool q ∧ p.inRows = q.inRows ∧ p.inCols = q.inCols ∧ p.channels = q.channels ∧ p.rowFactor = q.rowFactor ∧ p.colFactor = q.colFactor
  | .globalMaxPool r c ch, k => k = .globalMaxPool r c ch
  | .conv p, k => ∃ q, k = .conv q ∧ p.inRows = q.inRows ∧ p.inCols = q.inCols ∧ p.inCh = q.inCh ∧ p.kRows = q.kRows ∧ p.kCols = q.kCols ∧
      p.rowStride = q.rowStride ∧ p.colStride = q.colStride ∧ p.outCh = q.outCh
  | .dropout x, k => ∃ y, k = .dropout y ∧ Near x y
  | .gaussianNoise x, k => ∃ y, k = .gaussianNoise y ∧ Near x y
  | .uniformNoise x, k => ∃ y, k = .uniformNoise y ∧ Near x y
  | .rrelu a b, k => ∃ c d, k = .rrelu c d ∧ Near a c ∧ Near b d
  | .tdBias f, k => k = .tdBias f
  | .tdDot f o, k => k = .tdDot f o
  | .tdDense f o, k => k = .tdDense f o
  | _, _ => True

/-- Layers of the same type, with the same saved arguments and with weights and biases that agree up to six digits.
(The shape of the weights is not saved, only their number.) -/
structure SavedSame (l l' : Layer) : Prop where
  type : l.type = l'.type
  args : ArgsSame l.kind l'.kind
  weights : List.Forall₂ Near l.weight.data l'.weight.data
  biases : List.Forall₂ Near l.bias.data l'.bias.data

/-- The same training parameters; real numbers up to six digits. -/
structure TrainSame (t t' : Trainer) : Prop where
  optName : t.optName = t'.optName
  loss : t.loss = t'.loss
  epochs : t.epochs = t'.epochs
  patience : t.patience = t'.patience
  batchSize : t.batchSize = t'.batchSize
  keepBest : t.keepBest = t'.keepBest
  reboostEvery : t.reboostEvery = t'.reboostEvery
  balancing : t.balancing = t'.balancing
  lr : Near t.lr t'.lr
  decay : Near t.decay t'.decay
  mom : Near t.mom t'.mom
  reg : Option.Rel (fun r r' => r.kind = r'.kind ∧ Near r.param r'.param) t.reg t'.reg

/-- Kinds of layers whose constructor arguments are not saved. -/
def Unsaved : LayerKind → Prop
  | .avgPool _ | .globalAvgPool .. | .zeroPad .. | .gaussianDropout _ | .randomFlip .. | .gated .. | .simpleRNN .. | .simplestRNN _ => True
  | _ => False

/-- A layer that can be saved: not of class `LayerDot`, with consistent matrices, clean initializer names, and an activation of the library. -/
structure Savable (l : Layer) : Prop where
  notDot : ∀ i o, l.kind ≠ .dot i o
  weight : l.weight.WF
  bias : l.bias.WF
  wInit : J.Clean l.wInit.toList
  bInit : J.Clean l.bInit.toList
  act : ∀ a, l.kind = .activation a → getActivation a.name = some a

end BeeDNN
