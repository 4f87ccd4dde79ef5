import Verif.Model.KMeans
import Verif.Model.Samples

/-!
# Model of `samples/sample_KMeans_MNIST.cpp`

As in Model/Samples the program returns what it prints, and the epoch callback, which only prints, is left out.
-/

namespace BeeDNN.Samples
open Data

/-- What the program leaves behind: the global `km`, `metricsTrain` and `metricsVal`. -/
structure KmResult where
  km : KMeans
  train : Metrics
  val : Metrics

/-- sample_KMeans_MNIST.cpp:67-70 and 73-76: `predict_classes` and `Metrics::compute` with the default number of classes 0. -/
noncomputable def kmMeasure (r : RunEnv) (e : KmEnv) (km : KMeans) (mData mTruth : Mat ℝ) : Out Metrics := do
  let c ← km.predictClasses e.g e.ab e.eps mData ⟨0, 0, []⟩
  Metrics.compute r.g r.div0 {} mTruth c 0

/-- sample_KMeans_MNIST.cpp:57-61. -/
def kmSettings (d : DataSource) : KMeansTrain :=
  { epochs := 10, batchSize := 10000, train := some (d.trainData, d.trainTruth), valid := some (d.valData, d.valTruth) }

/-- `main`, sample_KMeans_MNIST.cpp:37-81; `r.files`, `r.u` and `r.g` are the files, the memory of the reader and that of `set_sizes`; `e` is what the training
does not determine.  `none`: no data, exit code -1. -/
noncomputable def kmeansMnist (r : RunEnv) (e : KmEnv) : Out (Option KmResult) := do
  let (ok, d) ← mnistLoad r.u r.g r.files "." .new
  if ok = false then return none
  let km : KMeans := KMeans.setSizes r.g {} 784 (10 * 10)
  let km ← km.setLoss r.g e.ab e.eps "L3"
  let (_, km) ← (kmSettings d).fit e (some km)
  match km with
  | none => .error .nullDeref
  | some km => do
    let m ← kmMeasure r e km d.trainData d.trainTruth
    let m' ← kmMeasure r e km d.valData d.valTruth
    return some ⟨km, m, m'⟩

end BeeDNN.Samples
