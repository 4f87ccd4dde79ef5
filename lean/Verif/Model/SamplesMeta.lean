import Verif.Model.Meta
import Verif.Model.Samples

/-!
# Model of `samples/sample_MetaOptimizer_MNIST.cpp`

The function for better models prints the accuracy and saves the network (Model/NetSave); here what it gets is kept in the rounds.
The threads run one after the other, one of the interleavings of the program.
-/

namespace BeeDNN.Samples
open Data Meta

/-- sample_MetaOptimizer_MNIST.cpp:58-62. -/
noncomputable def metaNet (e : Nat → Env) (w : World) : Out World := do
  let w ← addNew 0 (dense (e 0) 784 64) w
  let w ← addNew 0 (Layer.newActivation "Relu") w
  let w ← addNew 0 (Layer.newDropout (1 / 5)) w
  let w ← addNew 0 (dense (e 3) 64 10) w
  addNew 0 Layer.newSoftmax w

/-- sample_MetaOptimizer_MNIST.cpp:65-69. -/
noncomputable def metaSettings (r : RunEnv) (ab : ℝ → ℝ) (eps : ℝ) (d : DataSource) : Out Trainer := do
  let t : Trainer := {}
  let t := { t with epochs := 20 }
  let t ← t.setLoss r.g ab eps "SparseCategoricalCrossEntropy"
  return { t with train := some (d.trainData, d.trainTruth), valid := some (d.valData, d.valTruth) }

/-- sample_MetaOptimizer_MNIST.cpp:74-77; the arguments have the default 0 (MetaOptimizer.h:54). -/
noncomputable def metaLayers : List LayerVariation := [{ iLayer := 1, sType := "Relu" }, { iLayer := 1, sType := "RRelu" }, { iLayer := 1, sType := "PRelu" }, { iLayer := 1, sType := "LeakyRelu" }]

/-- sample_MetaOptimizer_MNIST.cpp:80-81. -/
noncomputable def metaOptimizers : List OptVariation := [⟨"Adam", 0.01⟩, ⟨"Nadam", 0.01⟩]

/-- `main`, sample_MetaOptimizer_MNIST.cpp:39-93; `k` is the number of processors and `e` what the threads of each round do not determine.
Network 0 is `model`, 1 the network of a thread and 2 that of its training.  `none`: no data, exit code -1. -/
noncomputable def metaMnist (r : RunEnv) (ab : ℝ → ℝ) (eps : ℝ) (k : Nat) (e : Nat → Nat → Meta.RunEnv) : Out (Option (World × Trainer × List Round)) := do
  let (ok, d) ← mnistLoad r.u r.g r.files "." .new
  if ok = false then return none
  let w ← metaNet r.build start
  let t ← metaSettings r ab eps d
  let k ← nbThreads 0 k
  let s ← fitAlone ab eps metaLayers metaOptimizers 0 1 2 5 k e w t
  return some s

end BeeDNN.Samples
