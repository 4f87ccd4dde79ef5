import Verif.Model.Train
import Verif.Model.Metrics
import Verif.Model.Readers

/-!
# Model of the programs in `samples/`

The programs print their results; here they return them.  The epoch callbacks print the time and the accuracy of the
epoch and are left out (that of `sample_classification_CIFAR10.cpp` also saves the network, which is modelled in `Model/NetSave.lean`).
The last comparison of the accuracy with a fixed number decides the exit code only and is left out.
-/

namespace BeeDNN.Samples
open Data

/-- What a run of a program does not determine by itself: the content of the files, draws, and uninitialised memory. -/
structure RunEnv where
  files : String → Option (List Byte)
  /-- memory that the readers take from -/
  u : Nat → Nat → Nat → Byte
  /-- constructors of the layers -/
  build : Nat → Env
  /-- training -/
  fit : Trainer.FitEnv
  /-- predictions: number, layer -/
  predict : Nat → Nat → Env
  /-- fresh memory -/
  g : Nat → ℝ
  /-- a number for infinities and NaN -/
  div0 : ℝ

/-- `model.add(new …)` -/
def addNew (n : Nat) (l : Out Layer) (w : World) : Out World := do
  let l ← l
  return (w.alloc l).add n w.heap.length

/-- `LayerDense(i,o)`: LayerDense.h:17 has the defaults for the initializers. -/
noncomputable def dense (e : Env) (i o : Nat) : Out Layer := Layer.newDense e i o "GlorotUniform" "Zeros"
/-- `LayerTimeDistributedDense(i,o)`: LayerTimeDistributedDense.h:17. -/
noncomputable def tdDense (e : Env) (i o : Nat) : Out Layer := Layer.newTDDense e i o "GlorotUniform" "Zeros"
/-- `LayerChannelBias(r,c,ch)`: LayerChannelBias.h:17. -/
noncomputable def channelBias (e : Env) (r c ch : Nat) : Out Layer := Layer.newChannelBias e r c ch "Zeros"
/-- `LayerConvolution2D(r,c,ch,kr,kc,och)`: LayerConvolution2D.h:20 has strides of one. -/
noncomputable def conv (e : Env) (r c ch kr kc och : Nat) : Out Layer := Layer.newConv e r c ch kr kc och 1 1

/-- sample_classification_MNIST.cpp:59-63. -/
noncomputable def mnistNet (e : Nat → Env) (w : World) : Out World := do
  let w ← addNew 0 (dense (e 0) 784 128) w
  let w ← addNew 0 (Layer.newActivation "Relu") w
  let w ← addNew 0 (Layer.newDropout (1 / 5)) w
  let w ← addNew 0 (dense (e 3) 128 10) w
  addNew 0 Layer.newSoftmax w

/-- sample_classification_MNIST_poolmax2D.cpp:60-64. -/
noncomputable def poolNet (e : Nat → Env) (w : World) : Out World := do
  let w ← addNew 0 (Layer.newMaxPool 28 28 1 2 2) w
  let w ← addNew 0 (dense (e 1) (784 / 4) 128) w
  let w ← addNew 0 (Layer.newActivation "Relu") w
  let w ← addNew 0 (dense (e 3) 128 10) w
  addNew 0 Layer.newSoftmax w

/-- sample_classification_MNIST_TimeSeries.cpp:60-66. -/
noncomputable def timeNet (e : Nat → Env) (w : World) : Out World := do
  let w ← addNew 0 (tdDense (e 0) 28 8) w
  let w ← addNew 0 (dense (e 1) (28 * 8) 32) w
  let w ← addNew 0 (Layer.newActivation "Relu") w
  let w ← addNew 0 (Layer.newDropout (1 / 5)) w
  let w ← addNew 0 (dense (e 4) 32 10) w
  addNew 0 Layer.newSoftmax w

/-- sample_classification_MNIST_allconvolutional.cpp:62-80. -/
noncomputable def convNet (e : Nat → Env) (w : World) : Out World := do
  let w ← addNew 0 (conv (e 0) 28 28 1 3 3 8) w
  let w ← addNew 0 (channelBias (e 1) 26 26 8) w
  let w ← addNew 0 (Layer.newActivation "Relu") w
  let w ← addNew 0 (Layer.newConv (e 3) 26 26 8 3 3 8 2 2) w
  let w ← addNew 0 (channelBias (e 4) 12 12 8) w
  let w ← addNew 0 (Layer.newActivation "Relu") w
  let w ← addNew 0 (Layer.newDropout (3 / 10)) w
  let w ← addNew 0 (conv (e 7) 12 12 8 3 3 16) w
  let w ← addNew 0 (channelBias (e 8) 10 10 16) w
  let w ← addNew 0 (Layer.newActivation "Relu") w
  let w ← addNew 0 (Layer.newDropout (3 / 10)) w
  let w ← addNew 0 (dense (e 11) (10 * 10 * 16) 256) w
  let w ← addNew 0 (Layer.newActivation "Relu") w
  let w ← addNew 0 (dense (e 13) 256 10) w
  addNew 0 Layer.newSoftmax w

/-- sample_classification_CIFAR10.cpp:75-85. -/
noncomputable def cifarNet (e : Nat → Env) (w : World) : Out World := do
  let w ← addNew 0 (conv (e 0) 32 32 3 3 3 8) w
  let w ← addNew 0 (channelBias (e 1) 30 30 8) w
  let w ← addNew 0 (Layer.newActivation "Relu") w
  let w ← addNew 0 (Layer.newMaxPool 30 30 8 2 2) w
  let w ← addNew 0 (conv (e 4) 15 15 8 3 3 16) w
  let w ← addNew 0 (channelBias (e 5) 13 13 16) w
  let w ← addNew 0 (Layer.newActivation "Relu") w
  let w ← addNew 0 (dense (e 7) (13 * 13 * 16) 256) w
  let w ← addNew 0 (Layer.newActivation "Relu") w
  let w ← addNew 0 (dense (e 9) 256 10) w
  addNew 0 Layer.newSoftmax w

/-- The start of a program: no layers, new networks (0 is `model`, 1 the `bestNet` of `fit`). -/
def start : World := ⟨[], fun _ => {}⟩

/-- What a classification program leaves behind. -/
structure Result where
  world : World
  /-- `metricsTrain` -/
  train : Metrics
  /-- `metricsVal` -/
  val : Metrics

/-- `predict_classes` and `Metrics::compute` with the default number of classes 0 (Metrics.h:18):
sample_classification_MNIST.cpp:79-82 and 85-88. -/
noncomputable def measure (r : RunEnv) (k : Nat) (w : World) (mData mTruth : Mat ℝ) : Out (World × Metrics) := do
  let (w, c) ← w.predictClasses (r.predict k) r.g 0 mData ⟨0, 0, []⟩
  let m ← Metrics.compute r.g r.div0 {} mTruth c 0
  return (w, m)

/-- The settings: sample_classification_MNIST.cpp:66-71 with NetTrain.cpp:245-248, 270-275, 282-285, 383-393. -/
noncomputable def settings (r : RunEnv) (ab : ℝ → ℝ) (eps : ℝ) (d : DataSource) (epochs batch : Int) : Out Trainer := do
  let t : Trainer := {}
  let t := { t with epochs := epochs, batchSize := batch }
  let t ← t.setLoss r.g ab eps "SparseCategoricalCrossEntropy"
  return { t with train := some (d.trainData, d.trainTruth), valid := some (d.valData, d.valTruth) }

/-- The common `main` of sample_classification_MNIST.cpp:42-101, sample_classification_MNIST_poolmax2D.cpp:42-102,
sample_classification_MNIST_TimeSeries.cpp:43-104, sample_classification_MNIST_allconvolutional.cpp:43-118 and
sample_classification_CIFAR10.cpp:57-116: load, build, set, fit, measure twice.  `none`: no data, exit code -1. -/
noncomputable def classify (r : RunEnv) (ab : ℝ → ℝ) (eps : ℝ) (load : Out (Bool × DataSource)) (net : (Nat → Env) → World → Out World)
    (epochs batch : Int) : Out (Option Result) := do
  let (ok, d) ← load
  if ok = false then return none
  let w ← net r.build start
  let t ← settings r ab eps d epochs batch
  let (w, _, _) ← Trainer.fit ab eps r.fit w t 0 1
  let (w, m) ← measure r 0 w d.trainData d.trainTruth
  let (w, m') ← measure r 1 w d.valData d.valTruth
  return some ⟨w, m, m'⟩

/-- `main` of sample_classification_MNIST.cpp. -/
noncomputable def mnist (r : RunEnv) (ab : ℝ → ℝ) (eps : ℝ) : Out (Option Result) :=
  classify r ab eps (mnistLoad r.u r.g r.files "." .new) mnistNet 15 64

/-- `main` of sample_classification_MNIST_poolmax2D.cpp. -/
noncomputable def mnistPool (r : RunEnv) (ab : ℝ → ℝ) (eps : ℝ) : Out (Option Result) :=
  classify r ab eps (mnistLoad r.u r.g r.files "." .new) poolNet 20 64

/-- `main` of sample_classification_MNIST_TimeSeries.cpp. -/
noncomputable def mnistTime (r : RunEnv) (ab : ℝ → ℝ) (eps : ℝ) : Out (Option Result) :=
  classify r ab eps (mnistLoad r.u r.g r.files "." .new) timeNet 30 128

/-- `main` of sample_classification_MNIST_allconvolutional.cpp. -/
noncomputable def mnistConv (r : RunEnv) (ab : ℝ → ℝ) (eps : ℝ) : Out (Option Result) :=
  classify r ab eps (mnistLoad r.u r.g r.files "." .new) convNet 20 32

/-- `main` of sample_classification_CIFAR10.cpp. -/
noncomputable def cifar (r : RunEnv) (ab : ℝ → ℝ) (eps : ℝ) : Out (Option Result) :=
  classify r ab eps (cifarLoad r.u r.g r.files "." .new) cifarNet 15 256

/-! ## Small programs without files -/

/-- sample_classification_xor.cpp:35-38. -/
noncomputable def xorNet (e : Nat → Env) (w : World) : Out World := do
  let w ← addNew 0 (dense (e 0) 2 10) w
  let w ← addNew 0 (Layer.newActivation "Relu") w
  addNew 0 (dense (e 2) 10 1) w

/-- `main` of sample_classification_xor.cpp:30-65 up to the printing of `mOut(0)` … `mOut(3)`. -/
noncomputable def xor (r : RunEnv) (ab : ℝ → ℝ) (eps : ℝ) : Out (World × List ℝ) := do
  let w ← xorNet r.build start
  let t : Trainer := { epochs := 500, train := some (⟨4, 2, [0, 0, 0, 1, 1, 0, 1, 1]⟩, ⟨4, 1, [0, 1, 1, 0]⟩) }
  let (w, _, _) ← Trainer.fit ab eps r.fit w t 0 1
  let (w, c) ← w.predictClasses (r.predict 0) r.g 0 ⟨4, 2, [0, 0, 0, 1, 1, 0, 1, 1]⟩ ⟨0, 0, []⟩
  let y0 ← c.getI 0
  let y1 ← c.getI 1
  let y2 ← c.getI 2
  let y3 ← c.getI 3
  return (w, [y0, y1, y2, y3])

/-- sample_regression_sin.cpp:38-43. -/
noncomputable def sinNet (e : Nat → Env) (w : World) : Out World := do
  let w ← addNew 0 (dense (e 0) 1 10) w
  let w ← addNew 0 (Layer.newActivation "Tanh") w
  let w ← addNew 0 (dense (e 2) 10 1) w
  return w.setNet 0 { w.nets 0 with classif := false }

/-- sample_regression_sin.cpp:46-53; returns `mSamples` and `mTruth`. -/
noncomputable def sinData (g : Nat → ℝ) : Out (Mat ℝ × Mat ℝ) :=
  forN 128 (fun i (s : Mat ℝ × Mat ℝ) => do
    let x : ℝ := i / 100
    let mTruth ← s.2.set i 0 (Real.sin x)
    let mSamples ← s.1.set i 0 x
    return (mSamples, mTruth)) (Mat.alloc g 128 1, Mat.alloc g 128 1)

/-- What sample_regression_sin.cpp prints: the predictions of every eighth sample, the loss and the largest error. -/
structure SinResult where
  world : World
  shown : List ℝ
  loss : ℝ
  maxError : ℝ

/-- `main` of sample_regression_sin.cpp:32-81.  The tests (68, 73, 77) stop the program when the training was not good enough; here they are left out. -/
noncomputable def sin (r : RunEnv) (ab : ℝ → ℝ) (eps : ℝ) : Out SinResult := do
  let w ← sinNet r.build start
  let (mSamples, mTruth) ← sinData r.g
  let t : Trainer := { epochs := 2000, train := some (mSamples, mTruth) }
  let (w, t, _) ← Trainer.fit ab eps r.fit w t 0 1
  let (w, mPredict) ← w.predict (r.predict 0) 0 mSamples ⟨0, 0, []⟩
  let shown ← forN 16 (fun k l => do
    let _ ← mSamples.get (8 * k) 0
    let _ ← mTruth.get (8 * k) 0
    let y ← mPredict.get (8 * k) 0
    return l ++ [y]) []
  let (w, loss, _) ← t.computeLossAccuracy ab eps (fun k i => r.predict (k + 1) i) w mSamples mTruth false
  let m ← mPredict.sub mTruth
  let m ← m.cwise ab
  let x ← m.maxCoeff
  return ⟨w, shown, loss, x⟩

end BeeDNN.Samples
