import Verif.Model.Samples
import Verif.Spec.Readers
import Verif.Spec.Matrix
import Verif.Spec.TrainAny

/-! # Specification: what the sample programs are expected to do -/

namespace BeeDNN.Samples
open Data

/-- The four files of MNIST in the folder of the program: `N` images of 28 by 28 pixels with `N` labels below ten for training, and
`M` of them for validation. -/
structure MnistFiles (fs : String → Option (List Byte)) (N M : Nat) (px lab px' lab' : List Byte) : Prop where
  some : 0 < N ∧ 0 < M
  few : N < 2 ^ 32 ∧ M < 2 ^ 32
  images : fs "./train-images.idx3-ubyte" = idxImages N 28 28 px ∧ N * 784 ≤ px.length
  labels : fs "./train-labels.idx1-ubyte" = idxLabels N lab ∧ N ≤ lab.length
  images' : fs "./t10k-images.idx3-ubyte" = idxImages M 28 28 px' ∧ M * 784 ≤ px'.length
  labels' : fs "./t10k-labels.idx1-ubyte" = idxLabels M lab' ∧ M ≤ lab'.length
  digits : (∀ i, i < N → (lab.getD i 0).val < 10) ∧ ∀ i, i < M → (lab'.getD i 0).val < 10

/-- The six files of CIFAR-10 in the folder of the program, complete and with labels below ten. -/
structure CifarFiles (fs : String → Option (List Byte)) (b : Nat → List Byte) (b' : List Byte) : Prop where
  train : fs "./data_batch_1.bin" = b 0 ∧ fs "./data_batch_2.bin" = b 1 ∧ fs "./data_batch_3.bin" = b 2 ∧
    fs "./data_batch_4.bin" = b 3 ∧ fs "./data_batch_5.bin" = b 4
  val : fs "./test_batch.bin" = b'
  complete : (∀ k, k < 5 → 10000 * 3073 ≤ (b k).length) ∧ 10000 * 3073 ≤ b'.length
  classes : (∀ k i, k < 5 → i < 10000 → ((b k).getD (i * 3073) 0).val < 10) ∧ ∀ i, i < 10000 → (b'.getD (i * 3073) 0).val < 10

/-- `w` is the state after training: the network was built, the trainer set, and `fit` called once. -/
def Trained (r : RunEnv) (ab : ℝ → ℝ) (eps : ℝ) (net : (Nat → Env) → World → Out World) (d : DataSource) (epochs batch : Nat) (w : World) : Prop :=
  ∃ w₀ t t' seen, net r.build start = .ok w₀ ∧ settings r ab eps d epochs batch = .ok t ∧
    Trainer.fit ab eps r.fit w₀ t 0 1 = .ok (w, t', seen) ∧ seen.length = epochs

/-- Metrics for `N` samples with the outputs `out` (ten numbers each) and the labels `lab`: the class of a sample is the place of its first
largest output, or the largest label that occurs if that is smaller; the accuracy is the percentage of the samples that get their label. -/
def Judged (N : Nat) (out : Nat → Row) (lab : Nat → Nat) (m : Metrics) : Prop :=
  ∃ (c : Nat → Nat) (top : Nat), (∀ i, i < N → IsFirstMax 10 (out i) (c i)) ∧ (∀ i, i < N → lab i ≤ top) ∧ (∃ i, i < N ∧ lab i = top) ∧
    m.accuracy = 100 * ((Finset.range N).filter fun i => min (c i) top = lab i).card / N

/-- The layers of a network, seen through the computation: the program runs to the end, the network that it trained gives the outputs
`out` and `out'` for the training and the validation data, and the metrics are those of these outputs. -/
def Works (r : RunEnv) (ab : ℝ → ℝ) (eps : ℝ) (prog : Out (Option Result)) (net : (Nat → Env) → World → Out World) (epochs batch : Nat) (d : DataSource)
    (N M : Nat) (lab lab' : Nat → Nat) : Prop :=
  ∃ w w' w'' out out' res, prog = .ok (some res) ∧ Trained r ab eps net d epochs batch w ∧
    w.predict (r.predict 0) 0 d.trainData ⟨0, 0, []⟩ = .ok (w', Mat.ofFn N 10 out) ∧
    w'.predict (r.predict 1) 0 d.valData ⟨0, 0, []⟩ = .ok (w'', Mat.ofFn M 10 out') ∧
    res.world = w'' ∧ Judged N out lab res.train ∧ Judged M out' lab' res.val

/-- The training data in MNIST files. -/
noncomputable def mnistData (N M : Nat) (px lab px' lab' : List Byte) : DataSource where
  trainData := Mat.ofFn N 784 fun i j => byteAt px (i * 784 + j) / 256
  trainTruth := Mat.ofFn N 1 fun i _ => byteAt lab i
  valData := Mat.ofFn M 784 fun i j => byteAt px' (i * 784 + j) / 256
  valTruth := Mat.ofFn M 1 fun i _ => byteAt lab' i
  hasTrain := true
  hasVal := true

/-- The training data in CIFAR-10 files. -/
noncomputable def cifarData (b : Nat → List Byte) (b' : List Byte) : DataSource where
  trainData := Mat.ofFn 50000 3072 fun i j => byteAt (b (i / 10000)) (i % 10000 * 3073 + 1 + j) / 255
  trainTruth := Mat.ofFn 50000 1 fun i _ => byteAt (b (i / 10000)) (i % 10000 * 3073)
  valData := Mat.ofFn 10000 3072 fun i j => byteAt b' (i * 3073 + 1 + j) / 255
  valTruth := Mat.ofFn 10000 1 fun i _ => byteAt b' (i * 3073)
  hasTrain := false
  hasVal := false

/-- The number nearest to `x`; halves are rounded away from zero. -/
def Nearest (x : ℝ) (k : ℤ) : Prop := |x - k| ≤ 1 / 2 ∧ (|x - k| = 1 / 2 → |x| < |(k : ℝ)|)

/-- `float` is exact on the indices that pooling layers keep, in all phases of this run (C28). -/
structure RunEnv.Exact (r : RunEnv) : Prop where
  fit : r.fit.Exact
  predict : ∀ k i, (r.predict k i).Exact

end BeeDNN.Samples
