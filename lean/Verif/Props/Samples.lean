import Verif.Lemmas.Samples

/-! # The sample programs: C104 -/

namespace BeeDNN.Samples
open Data Trainer

/-! ## The networks -/

noncomputable def mnistKinds : List LayerKind := [.dense 784 128, .activation Act.relu, .dropout (1 / 5), .dense 128 10, .softmax]

def mnistForm : Nat → Form
  | 0 => ⟨784, false⟩
  | 1 | 2 | 3 => ⟨128, false⟩
  | _ => ⟨10, false⟩

theorem mnistNet_eq (e : Nat → Env) (w : World) : mnistNet e w = w.build e "GlorotUniform" "Zeros" 0 0 mnistKinds := by
  unfold mnistNet mnistKinds
  rw [build_cons (make_dense ..)]
  refine bind_fun _ fun w => ?_
  rw [build_cons (make_relu ..)]
  refine bind_fun _ fun w => ?_
  rw [build_cons (make_dropout ..)]
  refine bind_fun _ fun w => ?_
  rw [build_cons (make_dense ..)]
  refine bind_fun _ fun w => ?_
  rw [build_last (make_softmax ..)]

theorem relu_made : LayerKind.Made (.activation Act.relu) := ⟨"Relu", rfl⟩

theorem relu_takes (first : Bool) (k : Nat) (b c : Bool) : LayerKind.Takes first ⟨k, b⟩ ⟨k, c⟩ (.activation Act.relu) := by
  refine ⟨rfl, fun _ x => ?_⟩
  have : Layer.low < 0 := by norm_num [Layer.low]
  simp only [Act.relu]
  split <;> linarith

theorem mnist_takes (i : Nat) (k : LayerKind) (h : mnistKinds[i]? = some k) :
    k.Made ∧ k.Takes (decide (i = 0)) (mnistForm i) (mnistForm (i + 1)) ∧ k.Sized (mnistForm i) (mnistForm (i + 1)) := by
  have hi : i < 5 := (List.getElem?_eq_some_iff.1 h).1
  interval_cases i <;> cases h
  · exact ⟨trivial, rfl, rfl, rfl⟩
  · exact ⟨relu_made, relu_takes _ _ _ _, trivial⟩
  · exact ⟨trivial, ⟨rfl, rfl⟩, trivial⟩
  · exact ⟨trivial, rfl, rfl, rfl⟩
  · exact ⟨trivial, rfl, trivial⟩

/-- The network of a program is built and can be trained. -/
theorem net_ok {net : (Nat → Env) → World → Out World} {ks : List LayerKind} {form : Nat → Form} (e : Nat → Env)
    (hnet : net e start = start.build e "GlorotUniform" "Zeros" 0 0 ks) (hne : ks ≠ []) (hp : ∀ i, i ≤ ks.length → 0 < (form i).width)
    (hk : ∀ i k, ks[i]? = some k → LayerKind.Made k ∧ LayerKind.Takes (decide (i = 0)) (form i) (form (i + 1)) k ∧ LayerKind.Sized (form i) (form (i + 1)) k) :
    ∃ w₀, net e start = .ok w₀ ∧ Trainable w₀ 0 ks.length form ∧ Owned w₀ ∧ ∀ m, m ≠ 0 → w₀.nets m = start.nets m := by
  obtain ⟨w, h1, h2, h3, -, h5⟩ := C98_build e (wInit := "GlorotUniform") (bInit := "Zeros") (by decide) (by decide) start_owned (n := 0) rfl hne hp hk
  exact ⟨w, hnet.trans h1, h2, h3, h5⟩

/-- What the reader makes of MNIST files. -/
theorem mnist_load {r : RunEnv} {N M : Nat} {px lab px' lab' : List Byte} (h : MnistFiles r.files N M px lab px' lab') :
    mnistLoad r.u r.g r.files "." .new = .ok (true, mnistData N M px lab px' lab') :=
  C80_decode_partial (r := 28) (c := 28) (r' := 28) (c' := 28) r.u r.g r.files "." (d := .new) ⟨rfl, rfl, rfl, rfl⟩ h.few.1 (by norm_num) (by norm_num) (by norm_num)
    h.few.1 h.few.2 (by norm_num) (by norm_num) (by norm_num) h.few.2 h.images.1 h.images.2 h.labels.1 h.labels.2 h.images'.1 h.images'.2 h.labels'.1 h.labels'.2

/-- C104 for a network on MNIST files. -/
theorem mnist_works {r : RunEnv} (hr : r.Exact) (eps : ℝ) {N M : Nat} {px lab px' lab' : List Byte} (h : MnistFiles r.files N M px lab px' lab')
    {net : (Nat → Env) → World → Out World} {epochs batch depth : Nat} {form : Nat → Form} (hnet : ∃ w₀, net r.build start = .ok w₀ ∧ Trainable w₀ 0 depth form ∧
      Owned w₀ ∧ ∀ m, m ≠ 0 → w₀.nets m = start.nets m) (h0 : form 0 = ⟨784, false⟩) (h10 : (form depth).width = 10) :
    Works r (fun x => |x|) eps (classify r (fun x => |x|) eps (mnistLoad r.u r.g r.files "." .new) net epochs batch) net epochs batch (mnistData N M px lab px' lab') N M
      (fun i => (lab.getD i 0).val) (fun i => (lab'.getD i 0).val) := by
  obtain ⟨w₀, n1, n2, n3, n4⟩ := hnet
  have h784 : (form 0).width = 784 := by rw [h0]
  exact classify_ok hr eps (mnist_load h) n1 n2 n3 n4 h10 (by rw [h0]) h.some.1 h.some.2 h.digits.1 h.digits.2 (x := fun i j => byteAt px (i * 784 + j) / 256)
    (x' := fun i j => byteAt px' (i * 784 + j) / 256) (by rw [h784, mnistData]) rfl (by rw [h784, mnistData]) rfl

/-- C104: on MNIST files the program `sample_classification_MNIST` runs to the end: no assertion fails and no memory access is wrong in the reader, the
layers, the trainer, the predictions and the metrics.  The accuracies that it prints are those of the network that it trained. -/
theorem C104_mnist {r : RunEnv} (hr : r.Exact) (eps : ℝ) {N M : Nat} {px lab px' lab' : List Byte} (h : MnistFiles r.files N M px lab px' lab') :
    Works r (fun x => |x|) eps (mnist r (fun x => |x|) eps) mnistNet 15 64 (mnistData N M px lab px' lab') N M (fun i => (lab.getD i 0).val) (fun i => (lab'.getD i 0).val) :=
  mnist_works hr eps h (form := mnistForm) (net_ok r.build (mnistNet_eq _ _) (by simp [mnistKinds])
    (fun i hi => by have hi : i ≤ 5 := hi; interval_cases i <;> decide) mnist_takes) rfl rfl

/-! ## With a pooling layer -/

def pool28 : Pool := { inRows := 28, inCols := 28, channels := 1, rowFactor := 2, colFactor := 2, outRows := 14, outCols := 14, inPlane := 784, outPlane := 196 }

noncomputable def poolKinds : List LayerKind := [.maxPool pool28, .dense (784 / 4) 128, .activation Act.relu, .dense 128 10, .softmax]

def poolForm : Nat → Form
  | 0 => ⟨784, false⟩
  | 1 => ⟨196, false⟩
  | 2 | 3 => ⟨128, false⟩
  | _ => ⟨10, false⟩

theorem poolNet_eq (e : Nat → Env) (w : World) : poolNet e w = w.build e "GlorotUniform" "Zeros" 0 0 poolKinds := by
  unfold poolNet poolKinds
  rw [build_cons (make_maxPool ..)]
  refine bind_fun _ fun w => ?_
  rw [build_cons (make_dense ..)]
  refine bind_fun _ fun w => ?_
  rw [build_cons (make_relu ..)]
  refine bind_fun _ fun w => ?_
  rw [build_cons (make_dense ..)]
  refine bind_fun _ fun w => ?_
  rw [build_last (make_softmax ..)]

theorem pool_takes (i : Nat) (k : LayerKind) (h : poolKinds[i]? = some k) :
    k.Made ∧ k.Takes (decide (i = 0)) (poolForm i) (poolForm (i + 1)) ∧ k.Sized (poolForm i) (poolForm (i + 1)) := by
  have hi : i < 5 := (List.getElem?_eq_some_iff.1 h).1
  interval_cases i <;> cases h
  · exact ⟨⟨28, 28, 1, 2, 2, rfl⟩, ⟨rfl, rfl, fun h => (by cases h), fun h => (by cases h)⟩, trivial⟩
  · exact ⟨trivial, rfl, rfl, rfl⟩
  · exact ⟨relu_made, relu_takes _ _ _ _, trivial⟩
  · exact ⟨trivial, rfl, rfl, rfl⟩
  · exact ⟨trivial, rfl, trivial⟩

/-- C104: the same for `sample_classification_MNIST_poolmax2D`. -/
theorem C104_mnist_pool {r : RunEnv} (hr : r.Exact) (eps : ℝ) {N M : Nat} {px lab px' lab' : List Byte} (h : MnistFiles r.files N M px lab px' lab') :
    Works r (fun x => |x|) eps (mnistPool r (fun x => |x|) eps) poolNet 20 64 (mnistData N M px lab px' lab') N M (fun i => (lab.getD i 0).val) (fun i => (lab'.getD i 0).val) :=
  mnist_works hr eps h (form := poolForm) (net_ok r.build (poolNet_eq _ _) (by simp [poolKinds])
    (fun i hi => by have hi : i ≤ 5 := hi; interval_cases i <;> decide) pool_takes) rfl rfl

/-! ## As a time series -/

noncomputable def timeKinds : List LayerKind := [.tdDense 28 8, .dense (28 * 8) 32, .activation Act.relu, .dropout (1 / 5), .dense 32 10, .softmax]

def timeForm : Nat → Form
  | 0 => ⟨784, false⟩
  | 1 => ⟨224, false⟩
  | 2 | 3 | 4 => ⟨32, false⟩
  | _ => ⟨10, false⟩

theorem timeNet_eq (e : Nat → Env) (w : World) : timeNet e w = w.build e "GlorotUniform" "Zeros" 0 0 timeKinds := by
  unfold timeNet timeKinds
  rw [build_cons (make_tdDense ..)]
  refine bind_fun _ fun w => ?_
  rw [build_cons (make_dense ..)]
  refine bind_fun _ fun w => ?_
  rw [build_cons (make_relu ..)]
  refine bind_fun _ fun w => ?_
  rw [build_cons (make_dropout ..)]
  refine bind_fun _ fun w => ?_
  rw [build_cons (make_dense ..)]
  refine bind_fun _ fun w => ?_
  rw [build_last (make_softmax ..)]

theorem time_takes (i : Nat) (k : LayerKind) (h : timeKinds[i]? = some k) :
    k.Made ∧ k.Takes (decide (i = 0)) (timeForm i) (timeForm (i + 1)) ∧ k.Sized (timeForm i) (timeForm (i + 1)) := by
  have hi : i < 6 := (List.getElem?_eq_some_iff.1 h).1
  interval_cases i <;> cases h
  · exact ⟨trivial, ⟨⟨28, rfl, rfl⟩, rfl⟩, trivial⟩
  · exact ⟨trivial, rfl, rfl, rfl⟩
  · exact ⟨relu_made, relu_takes _ _ _ _, trivial⟩
  · exact ⟨trivial, ⟨rfl, rfl⟩, trivial⟩
  · exact ⟨trivial, rfl, rfl, rfl⟩
  · exact ⟨trivial, rfl, trivial⟩

/-- C104: the same for `sample_classification_MNIST_TimeSeries`. -/
theorem C104_mnist_time {r : RunEnv} (hr : r.Exact) (eps : ℝ) {N M : Nat} {px lab px' lab' : List Byte} (h : MnistFiles r.files N M px lab px' lab') :
    Works r (fun x => |x|) eps (mnistTime r (fun x => |x|) eps) timeNet 30 128 (mnistData N M px lab px' lab') N M (fun i => (lab.getD i 0).val) (fun i => (lab'.getD i 0).val) :=
  mnist_works hr eps h (form := timeForm) (net_ok r.build (timeNet_eq _ _) (by simp [timeKinds])
    (fun i hi => by have hi : i ≤ 6 := hi; interval_cases i <;> decide) time_takes) rfl rfl

/-! ## With convolutions -/

noncomputable def convKinds : List LayerKind :=
  [.conv (Conv.std 28 28 1 3 3 8 1 1), .channelBias 26 26 8, .activation Act.relu,
   .conv (Conv.std 26 26 8 3 3 8 2 2), .channelBias 12 12 8, .activation Act.relu, .dropout (3 / 10),
   .conv (Conv.std 12 12 8 3 3 16 1 1), .channelBias 10 10 16, .activation Act.relu, .dropout (3 / 10),
   .dense (10 * 10 * 16) 256, .activation Act.relu, .dense 256 10, .softmax]

def convForm : Nat → Form
  | 0 => ⟨784, false⟩
  | 1 | 2 | 3 => ⟨5408, false⟩
  | 4 | 5 | 6 | 7 => ⟨1152, false⟩
  | 8 | 9 | 10 | 11 => ⟨1600, false⟩
  | 12 | 13 => ⟨256, false⟩
  | _ => ⟨10, false⟩

theorem convNet_eq (e : Nat → Env) (w : World) : convNet e w = w.build e "GlorotUniform" "Zeros" 0 0 convKinds := by
  unfold convNet convKinds
  rw [build_cons (make_conv ..)]
  refine bind_fun _ fun w => ?_
  rw [build_cons (make_channelBias ..)]
  refine bind_fun _ fun w => ?_
  rw [build_cons (make_relu ..)]
  refine bind_fun _ fun w => ?_
  rw [build_cons (make_conv' ..)]
  refine bind_fun _ fun w => ?_
  rw [build_cons (make_channelBias ..)]
  refine bind_fun _ fun w => ?_
  rw [build_cons (make_relu ..)]
  refine bind_fun _ fun w => ?_
  rw [build_cons (make_dropout ..)]
  refine bind_fun _ fun w => ?_
  rw [build_cons (make_conv ..)]
  refine bind_fun _ fun w => ?_
  rw [build_cons (make_channelBias ..)]
  refine bind_fun _ fun w => ?_
  rw [build_cons (make_relu ..)]
  refine bind_fun _ fun w => ?_
  rw [build_cons (make_dropout ..)]
  refine bind_fun _ fun w => ?_
  rw [build_cons (make_dense ..)]
  refine bind_fun _ fun w => ?_
  rw [build_cons (make_relu ..)]
  refine bind_fun _ fun w => ?_
  rw [build_cons (make_dense ..)]
  refine bind_fun _ fun w => ?_
  rw [build_last (make_softmax ..)]

theorem conv_made (R C K kR kC O rs cs : Nat) (h1 : 2 * (kR / 2) ≤ R) (h2 : 2 * (kC / 2) ≤ C) : LayerKind.Made (.conv (Conv.std R C K kR kC O rs cs)) :=
  ⟨R, C, K, kR, kC, O, rs, cs, Conv.create_eq h1 h2⟩

theorem conv_takes (i : Nat) (k : LayerKind) (h : convKinds[i]? = some k) :
    k.Made ∧ k.Takes (decide (i = 0)) (convForm i) (convForm (i + 1)) ∧ k.Sized (convForm i) (convForm (i + 1)) := by
  have hi : i < 15 := (List.getElem?_eq_some_iff.1 h).1
  interval_cases i <;> cases h
  · exact ⟨conv_made _ _ _ _ _ _ _ _ (by decide) (by decide), ⟨rfl, rfl, Nat.succ_pos 2, Nat.succ_pos 2, rfl⟩, trivial⟩
  · exact ⟨trivial, ⟨rfl, rfl, rfl⟩, trivial⟩
  · exact ⟨relu_made, relu_takes _ _ _ _, trivial⟩
  · exact ⟨conv_made _ _ _ _ _ _ _ _ (by decide) (by decide), ⟨rfl, rfl, Nat.succ_pos 2, Nat.succ_pos 2, rfl⟩, trivial⟩
  · exact ⟨trivial, ⟨rfl, rfl, rfl⟩, trivial⟩
  · exact ⟨relu_made, relu_takes _ _ _ _, trivial⟩
  · exact ⟨trivial, ⟨rfl, rfl⟩, trivial⟩
  · exact ⟨conv_made _ _ _ _ _ _ _ _ (by decide) (by decide), ⟨rfl, rfl, Nat.succ_pos 2, Nat.succ_pos 2, rfl⟩, trivial⟩
  · exact ⟨trivial, ⟨rfl, rfl, rfl⟩, trivial⟩
  · exact ⟨relu_made, relu_takes _ _ _ _, trivial⟩
  · exact ⟨trivial, ⟨rfl, rfl⟩, trivial⟩
  · exact ⟨trivial, rfl, rfl, rfl⟩
  · exact ⟨relu_made, relu_takes _ _ _ _, trivial⟩
  · exact ⟨trivial, rfl, rfl, rfl⟩
  · exact ⟨trivial, rfl, trivial⟩

/-- C104: the same for `sample_classification_MNIST_allconvolutional`. -/
theorem C104_mnist_conv {r : RunEnv} (hr : r.Exact) (eps : ℝ) {N M : Nat} {px lab px' lab' : List Byte} (h : MnistFiles r.files N M px lab px' lab') :
    Works r (fun x => |x|) eps (mnistConv r (fun x => |x|) eps) convNet 20 32 (mnistData N M px lab px' lab') N M (fun i => (lab.getD i 0).val) (fun i => (lab'.getD i 0).val) :=
  mnist_works hr eps h (form := convForm) (net_ok r.build (convNet_eq _ _) (by simp [convKinds])
    (fun i hi => by have hi : i ≤ 15 := hi; interval_cases i <;> decide) conv_takes) rfl rfl

/-! ## CIFAR-10 -/

def pool30 : Pool := { inRows := 30, inCols := 30, channels := 8, rowFactor := 2, colFactor := 2, outRows := 15, outCols := 15, inPlane := 900, outPlane := 225 }

noncomputable def cifarKinds : List LayerKind :=
  [.conv (Conv.std 32 32 3 3 3 8 1 1), .channelBias 30 30 8, .activation Act.relu, .maxPool pool30,
   .conv (Conv.std 15 15 8 3 3 16 1 1), .channelBias 13 13 16, .activation Act.relu,
   .dense (13 * 13 * 16) 256, .activation Act.relu, .dense 256 10, .softmax]

def cifarForm : Nat → Form
  | 0 => ⟨3072, false⟩
  | 1 | 2 => ⟨7200, false⟩
  | 3 => ⟨7200, true⟩
  | 4 => ⟨1800, false⟩
  | 5 | 6 | 7 => ⟨2704, false⟩
  | 8 | 9 => ⟨256, false⟩
  | _ => ⟨10, false⟩

theorem cifarNet_eq (e : Nat → Env) (w : World) : cifarNet e w = w.build e "GlorotUniform" "Zeros" 0 0 cifarKinds := by
  unfold cifarNet cifarKinds
  rw [build_cons (make_conv ..)]
  refine bind_fun _ fun w => ?_
  rw [build_cons (make_channelBias ..)]
  refine bind_fun _ fun w => ?_
  rw [build_cons (make_relu ..)]
  refine bind_fun _ fun w => ?_
  rw [build_cons (make_maxPool ..)]
  refine bind_fun _ fun w => ?_
  rw [build_cons (make_conv ..)]
  refine bind_fun _ fun w => ?_
  rw [build_cons (make_channelBias ..)]
  refine bind_fun _ fun w => ?_
  rw [build_cons (make_relu ..)]
  refine bind_fun _ fun w => ?_
  rw [build_cons (make_dense ..)]
  refine bind_fun _ fun w => ?_
  rw [build_cons (make_relu ..)]
  refine bind_fun _ fun w => ?_
  rw [build_cons (make_dense ..)]
  refine bind_fun _ fun w => ?_
  rw [build_last (make_softmax ..)]

theorem cifar_takes (i : Nat) (k : LayerKind) (h : cifarKinds[i]? = some k) :
    k.Made ∧ k.Takes (decide (i = 0)) (cifarForm i) (cifarForm (i + 1)) ∧ k.Sized (cifarForm i) (cifarForm (i + 1)) := by
  have hi : i < 11 := (List.getElem?_eq_some_iff.1 h).1
  interval_cases i <;> cases h
  · exact ⟨conv_made _ _ _ _ _ _ _ _ (by decide) (by decide), ⟨rfl, rfl, Nat.succ_pos 2, Nat.succ_pos 2, rfl⟩, trivial⟩
  · exact ⟨trivial, ⟨rfl, rfl, rfl⟩, trivial⟩
  · exact ⟨relu_made, relu_takes _ _ _ _, trivial⟩
  · exact ⟨⟨30, 30, 8, 2, 2, rfl⟩, ⟨rfl, rfl, fun h => (by cases h), fun _ => ⟨rfl, by decide⟩⟩, trivial⟩
  · exact ⟨conv_made _ _ _ _ _ _ _ _ (by decide) (by decide), ⟨rfl, rfl, Nat.succ_pos 2, Nat.succ_pos 2, rfl⟩, trivial⟩
  · exact ⟨trivial, ⟨rfl, rfl, rfl⟩, trivial⟩
  · exact ⟨relu_made, relu_takes _ _ _ _, trivial⟩
  · exact ⟨trivial, rfl, rfl, rfl⟩
  · exact ⟨relu_made, relu_takes _ _ _ _, trivial⟩
  · exact ⟨trivial, rfl, rfl, rfl⟩
  · exact ⟨trivial, rfl, trivial⟩

/-- C104: the same for `sample_classification_CIFAR10` on CIFAR-10 files. -/
theorem C104_cifar {r : RunEnv} (hr : r.Exact) (eps : ℝ) {b : Nat → List Byte} {b' : List Byte} (h : CifarFiles r.files b b') :
    Works r (fun x => |x|) eps (cifar r (fun x => |x|) eps) cifarNet 15 256 (cifarData b b') 50000 10000
      (fun i => ((b (i / 10000)).getD (i % 10000 * 3073) 0).val) (fun i => (b'.getD (i * 3073) 0).val) := by
  have hl : cifarLoad r.u r.g r.files "." .new = .ok (true, cifarData b b') := by
    have hg : ∀ i, i < 50000 → [b 0, b 1, b 2, b 3, b 4].getD (i / 10000) [] = b (i / 10000) := fun i hi => by
      have : i / 10000 < 5 := by omega
      interval_cases i / 10000 <;> rfl
    rw [C81_decode_partial r.u r.g r.files "." (d := .new) ⟨rfl, rfl, rfl, rfl⟩ h.train.1 h.train.2.1 h.train.2.2.1 h.train.2.2.2.1 h.train.2.2.2.2 h.val (by
      intro l hl
      simp only [List.mem_cons, List.not_mem_nil, or_false] at hl
      rcases hl with rfl | rfl | rfl | rfl | rfl | rfl
      · exact h.complete.1 0 (by decide)
      · exact h.complete.1 1 (by decide)
      · exact h.complete.1 2 (by decide)
      · exact h.complete.1 3 (by decide)
      · exact h.complete.1 4 (by decide)
      · exact h.complete.2)]
    unfold cifarData DataSource.new
    have e1 : Mat.ofFn 50000 3072 (fun i j => byteAt ([b 0, b 1, b 2, b 3, b 4].getD (i / 10000) []) (i % 10000 * 3073 + 1 + j) / 255) =
        Mat.ofFn 50000 3072 fun i j => byteAt (b (i / 10000)) (i % 10000 * 3073 + 1 + j) / 255 :=
      Mat.ofFn_congr fun i j hi _ => by rw [hg i hi]
    have e2 : Mat.ofFn 50000 1 (fun i (_ : Nat) => byteAt ([b 0, b 1, b 2, b 3, b 4].getD (i / 10000) []) (i % 10000 * 3073)) =
        Mat.ofFn 50000 1 fun i _ => byteAt (b (i / 10000)) (i % 10000 * 3073) :=
      Mat.ofFn_congr fun i j hi _ => by rw [hg i hi]
    rw [e1, e2]
  obtain ⟨w₀, n1, n2, n3, n4⟩ := net_ok (form := cifarForm) r.build (cifarNet_eq _ _) (by simp [cifarKinds])
    (fun i hi => by have hi : i ≤ 11 := hi; interval_cases i <;> decide) cifar_takes
  have hw : (cifarForm 0).width = 3072 := rfl
  exact classify_ok hr eps hl n1 n2 n3 n4 rfl rfl (by norm_num) (by norm_num) (fun i hi => h.classes.1 _ _ (by omega) (by omega)) h.classes.2
    (x := fun i j => byteAt (b (i / 10000)) (i % 10000 * 3073 + 1 + j) / 255) (x' := fun i j => byteAt b' (i * 3073 + 1 + j) / 255) (by rw [cifarData, hw]) (by rw [cifarData]; rfl)
    (by rw [cifarData, hw]) (by rw [cifarData]; rfl)

/-! ## Programs without files -/

theorem xorNet_eq (e : Nat → Env) (w : World) : xorNet e w = w.build e "GlorotUniform" "Zeros" 0 0 [.dense 2 10, .activation Act.relu, .dense 10 1] := by
  unfold xorNet
  rw [build_cons (make_dense ..)]
  refine bind_fun _ fun w => ?_
  rw [build_cons (make_relu ..)]
  refine bind_fun _ fun w => ?_
  rw [build_last (make_dense ..)]

def xorForm : Nat → Form
  | 0 => ⟨2, false⟩
  | 1 | 2 => ⟨10, false⟩
  | _ => ⟨1, false⟩

theorem xor_takes (i : Nat) (k : LayerKind) (h : [LayerKind.dense 2 10, .activation Act.relu, .dense 10 1][i]? = some k) :
    k.Made ∧ k.Takes (decide (i = 0)) (xorForm i) (xorForm (i + 1)) ∧ k.Sized (xorForm i) (xorForm (i + 1)) := by
  have hi : i < 3 := (List.getElem?_eq_some_iff.1 h).1
  interval_cases i <;> cases h
  · exact ⟨trivial, rfl, rfl, rfl⟩
  · exact ⟨relu_made, relu_takes _ _ _ _, trivial⟩
  · exact ⟨trivial, rfl, rfl, rfl⟩

/-- The four inputs of the gate. -/
def xorIn (i j : Nat) : ℝ := if j = 0 then (if i < 2 then 0 else 1) else (if i % 2 = 0 then 0 else 1)

/-- Training with the default settings on `N` rows of numbers with one target each. -/
theorem plain_setup {w : World} {depth : Nat} {form : Nat → Form} (hT : Trainable w 0 depth form) (ho : Owned w) (hn : (w.nets 1).layers = []) (h1 : (form depth).width = 1)
    (hf : (form 0).floor = false) {N : Nat} (hN : 0 < N) (x y : Nat → Row) (epochs : Int) :
    TrainSetup w { epochs := epochs, train := some (Mat.ofFn N (form 0).width x, Mat.ofFn N 1 y) } 0 1 depth form N 1 x y where
  net := hT
  owned := ho
  slot := by decide
  fresh := hn
  inOut := fun _ h => absurd h List.not_mem_nil
  gradient := fun _ h => absurd h List.not_mem_nil
  samples := hN
  train := rfl
  floor := fun h => by rw [hf] at h; cases h
  truth := by
    rw [TruthFits, if_neg (show ¬"MeanSquaredError" = "SparseCategoricalCrossEntropy" by decide), h1]
    exact ⟨rfl, fun _ => rfl⟩
  valid := fun d h => by cases h
  valBatch := (by norm_num : (0 : Int) < 128)
  batchSize := (by norm_num : (0 : Int) ≤ 32)
  loss := (by decide : "MeanSquaredError" ∈ listLoss)
  balancing := rfl
  patience := .inl rfl

/-- C104: `sample_classification_xor` runs to the end and prints, for each of the four inputs, the integer nearest to the output of the network that it trained. -/
theorem C104_xor {r : RunEnv} (hr : r.Exact) (eps : ℝ) :
    ∃ (w₀ w : World) (t : Trainer) (seen : List (List (Option Layer))) (w' : World) (out : Nat → Row) (k : Nat → ℤ), xorNet r.build start = .ok w₀ ∧
      fit (fun x => |x|) eps r.fit w₀ { epochs := 500, train := some (⟨4, 2, [0, 0, 0, 1, 1, 0, 1, 1]⟩, ⟨4, 1, [0, 1, 1, 0]⟩) } 0 1 = .ok (w, t, seen) ∧ seen.length = 500 ∧
      w.predict (r.predict 0) 0 (Mat.ofFn 4 2 xorIn) ⟨0, 0, []⟩ = .ok (w', Mat.ofFn 4 1 out) ∧
      xor r (fun x => |x|) eps = .ok (w', [(k 0 : ℝ), (k 1 : ℝ), (k 2 : ℝ), (k 3 : ℝ)]) ∧ ∀ i, i < 4 → Nearest (out i 0) (k i) := by
  obtain ⟨w₀, n1, n2, n3, n4⟩ := net_ok (form := xorForm) r.build (xorNet_eq _ _) (by simp)
    (fun i hi => by have hi : i ≤ 3 := hi; interval_cases i <;> decide) xor_takes
  have hx : (⟨4, 2, [0, 0, 0, 1, 1, 0, 1, 1]⟩ : Mat ℝ) = Mat.ofFn 4 2 xorIn := by
    simp [Mat.ofFn_eq_flat, Mat.flat, tab, xorIn, List.range_succ]
  have hy : (⟨4, 1, [0, 1, 1, 0]⟩ : Mat ℝ) = Mat.ofFn 4 1 fun i _ => if i = 1 ∨ i = 2 then 1 else 0 := by
    simp [Mat.ofFn_eq_flat, Mat.flat, tab, List.range_succ]
  obtain ⟨w, t, seen, f1, f2, -, -, f5⟩ := C98_fit_runs (plain_setup n2 n3 (by rw [n4 1 (by decide)]; rfl) rfl rfl (N := 4) (by decide) xorIn (fun i _ => if i = 1 ∨ i = 2 then 1 else 0) 500)
    (k := .adam) rfl eps hr.fit
  obtain ⟨w', Y, p1, p2, -⟩ := C98_predict_runs f2 (e := r.predict 0) (hr.predict 0) (N := 4) (by decide) (Mat.shape_ofFn 4 _ xorIn) (out := ⟨0, 0, []⟩) rfl
  obtain ⟨out, rfl⟩ := p2.exists_ofFn
  obtain ⟨k, k1, k2⟩ := C49_round r.g 4 out ⟨0, 0, []⟩ rfl
  refine ⟨w₀, w, t, seen, w', out, k, n1, by rw [hx, hy]; exact f1, f5, p1, ?_, k2⟩
  unfold xor
  rw [n1, bind_ok']
  dsimp only
  rw [hx, hy]
  erw [f1]
  rw [bind_ok']
  dsimp only
  unfold World.predictClasses
  erw [p1]
  rw [bind_ok']
  dsimp only
  erw [k1]
  rfl

theorem tanh_takes (first : Bool) (k : Nat) (b : Bool) : LayerKind.Takes first ⟨k, b⟩ ⟨k, false⟩ (.activation Act.tanh) := ⟨rfl, fun h => by cases h⟩

def sinForm : Nat → Form
  | 1 | 2 => ⟨10, false⟩
  | _ => ⟨1, false⟩

theorem sin_takes (i : Nat) (k : LayerKind) (h : [LayerKind.dense 1 10, .activation Act.tanh, .dense 10 1][i]? = some k) :
    k.Made ∧ k.Takes (decide (i = 0)) (sinForm i) (sinForm (i + 1)) ∧ k.Sized (sinForm i) (sinForm (i + 1)) := by
  have hi : i < 3 := (List.getElem?_eq_some_iff.1 h).1
  interval_cases i <;> cases h
  · exact ⟨trivial, rfl, rfl, rfl⟩
  · exact ⟨⟨"Tanh", rfl⟩, tanh_takes _ _ _, trivial⟩
  · exact ⟨trivial, rfl, rfl, rfl⟩

theorem sinData_eq (g : Nat → ℝ) : sinData g = .ok (Mat.ofFn 128 1 fun i _ => (i : ℝ) / 100, Mat.ofFn 128 1 fun i _ => Real.sin (i / 100)) := by
  unfold sinData
  obtain ⟨d, hd⟩ : ∃ d, Mat.alloc g 128 1 = Mat.ofFn 128 1 d := ⟨_, Mat.flat_eq_ofFn 128 1 g⟩
  rw [hd]
  refine forN_closed' (fun k => (Mat.ofFn 128 1 (fun i j => if i < k then (i : ℝ) / 100 else d i j),
    Mat.ofFn 128 1 fun i j => if i < k then Real.sin (i / 100) else d i j)) ?_ ?_ ?_
  · simp
  · refine Prod.ext ?_ ?_ <;>
    · dsimp only
      refine Mat.ofFn_congr fun a b ha hb => ?_
      rw [if_pos ha]
  · intro i hi
    dsimp only
    rw [Mat.set_ofFn hi Nat.zero_lt_one, bind_ok', Mat.set_ofFn hi Nat.zero_lt_one, bind_ok']
    refine congrArg Except.ok (Prod.ext ?_ ?_) <;>
    · dsimp only
      refine Mat.ofFn_congr fun a b ha hb => ?_
      have : b = 0 := by omega
      subst this
      by_cases h : a = i
      · simp [h]
      · have : a < i + 1 ↔ a < i := by omega
        simp [h, this]

/-- C104: `sample_regression_sin` runs to the end: it shows the outputs of the network that it trained for every eighth sample, and the largest difference from the sine. -/
theorem C104_sin {r : RunEnv} (hr : r.Exact) (eps : ℝ) :
    ∃ w₀ w t seen w' out res, sinNet r.build start = .ok w₀ ∧
      fit (fun x => |x|) eps r.fit w₀ { epochs := 2000, train := some (Mat.ofFn 128 1 fun i _ => (i : ℝ) / 100, Mat.ofFn 128 1 fun i _ => Real.sin (i / 100)) } 0 1 = .ok (w, t, seen) ∧
      seen.length = 2000 ∧ w.predict (r.predict 0) 0 (Mat.ofFn 128 1 fun i _ => (i : ℝ) / 100) ⟨0, 0, []⟩ = .ok (w', Mat.ofFn 128 1 out) ∧
      sin r (fun x => |x|) eps = .ok res ∧ res.shown = (List.range 16).map (fun k => out (8 * k) 0) ∧
      (∀ i, i < 128 → |out i 0 - Real.sin (i / 100)| ≤ res.maxError) ∧ ∃ i, i < 128 ∧ |out i 0 - Real.sin (i / 100)| = res.maxError := by
  obtain ⟨w₁, h1, h2, h3, -, h5⟩ := C98_build r.build (wInit := "GlorotUniform") (bInit := "Zeros") (by decide) (by decide) start_owned (n := 0) rfl
    (ks := [LayerKind.dense 1 10, .activation Act.tanh, .dense 10 1]) (by simp) (form := sinForm)
    (fun i hi => by have hi : i ≤ 3 := hi; interval_cases i <;> decide) sin_takes
  obtain ⟨w₀, hw₀⟩ : ∃ w₀, w₀ = w₁.setNet 0 { w₁.nets 0 with classif := false } := ⟨_, rfl⟩
  have n1 : sinNet r.build start = .ok w₀ := by
    have hb : start.build r.build "GlorotUniform" "Zeros" 0 0 [.dense 1 10, .activation Act.tanh, .dense 10 1] = (do
        let w ← addNew 0 (dense (r.build 0) 1 10) start
        let w ← addNew 0 (Layer.newActivation "Tanh") w
        addNew 0 (dense (r.build 2) 10 1) w) := by
      rw [build_cons (make_dense ..)]
      refine bind_fun _ fun w => ?_
      rw [build_cons (make_tanh ..)]
      refine bind_fun _ fun w => ?_
      rw [build_last (make_dense ..)]
    rw [h1] at hb
    unfold sinNet
    rw [hw₀]
    revert hb
    cases addNew 0 (dense (r.build 0) 1 10) start with
    | error _ => intro h; cases h
    | ok a =>
      rw [bind_ok', bind_ok']
      cases addNew 0 (Layer.newActivation "Tanh") a with
      | error _ => intro h; cases h
      | ok b =>
        rw [bind_ok', bind_ok']
        intro h
        rw [← h]
        rfl
  have hl : ∀ m, (w₀.nets m).layers = (w₁.nets m).layers := fun m => by
    rw [hw₀]
    unfold World.setNet
    by_cases hm : m = 0
    · simp [hm]
    · simp [hm]
  have hh : w₀.heap = w₁.heap := by rw [hw₀]; rfl
  have n2 : Trainable w₀ 0 3 sinForm := ⟨h2.nonempty, by rw [hl]; exact h2.nodup, by rw [hl]; exact h2.count, by rw [hl, hh]; exact h2.layer⟩
  have n3 : Owned w₀ := ⟨fun n a ha => by rw [hl] at ha; rw [hh]; exact h3.live n a ha, fun n => by rw [hl]; exact h3.nodup n,
    fun n m a ha hb => by rw [hl] at ha hb; exact h3.disjoint n m a ha hb⟩
  obtain ⟨w, t, seen, f1, f2, -, -, f5, f6, f7, f8, f9, -⟩ := fit_runs' (plain_setup n2 n3 (by rw [hl, h5 1 (by decide)]; rfl) rfl rfl (N := 128) (by decide) (fun i _ => (i : ℝ) / 100)
    (fun i _ => Real.sin (i / 100)) 2000) (k := .adam) rfl eps hr.fit
  obtain ⟨w', Y, p1, p2, p3⟩ := C98_predict_runs f2 (e := r.predict 0) (hr.predict 0) (N := 128) (by decide) (Mat.shape_ofFn 128 _ fun i _ => (i : ℝ) / 100) (out := ⟨0, 0, []⟩) rfl
  obtain ⟨out, rfl⟩ := p2.exists_ofFn
  obtain ⟨w'', l, a, e1, -⟩ := computeLossAccuracy_fits (eps := eps) (e := fun k i => r.predict (k + 1) i) (fun k i => hr.predict (k + 1) i) f6 (lasting_fits sinForm) p3.nodup p3.count p3.nonempty
    p3.onNet (by rw [f7]; exact (by decide : "MeanSquaredError" ∈ listLoss)) f8 (by rw [f9]; exact (by norm_num : (0 : Int) < 128)) (N := 128) (D := 1) (fun i _ => (i : ℝ) / 100)
    (fun i _ => Real.sin (i / 100)) (by
      rw [f7, TruthFits, if_neg (show ¬"MeanSquaredError" = "SparseCategoricalCrossEntropy" by decide)]
      exact ⟨rfl, fun _ => rfl⟩) (acc := false)
  obtain ⟨x, x1, x2, i, j, x3, x4, x5⟩ := C04_maxCoeff 128 1 (by decide) fun i j => |out i j - Real.sin (i / 100)|
  have hj : j = 0 := by omega
  subst hj
  have hs : forN 16 (fun k (l : List ℝ) => do
      let _ ← (Mat.ofFn 128 1 fun i _ => (i : ℝ) / 100).get (8 * k) 0
      let _ ← (Mat.ofFn 128 1 fun i _ => Real.sin (i / 100)).get (8 * k) 0
      let y ← (Mat.ofFn 128 1 out).get (8 * k) 0
      return l ++ [y]) [] = .ok ((List.range 16).map fun k => out (8 * k) 0) := by
    refine forN_closed' (fun k => (List.range k).map fun k => out (8 * k) 0) rfl rfl fun k hk => ?_
    rw [Mat.get_ofFn (by omega) (by decide), bind_ok', Mat.get_ofFn (by omega) (by decide), bind_ok', Mat.get_ofFn (by omega) (by decide), bind_ok', List.range_succ, List.map_append]
    rfl
  refine ⟨w₀, w, t, seen, w', out, ⟨w'', _, l, x⟩, n1, f1, f5, p1, ?_, rfl, fun i hi => x2 i 0 hi (by decide), i, x3, x5.symm⟩
  unfold sin
  rw [n1, bind_ok', sinData_eq, bind_ok']
  dsimp only
  erw [f1]
  rw [bind_ok']
  dsimp only
  erw [p1]
  rw [bind_ok']
  dsimp only
  erw [hs]
  rw [bind_ok']
  erw [e1]
  rw [bind_ok']
  dsimp only
  have hs' : (Mat.ofFn 128 1 out).sub (Mat.ofFn 128 1 fun i _ => Real.sin (i / 100)) = .ok (Mat.ofFn 128 1 fun i j => out i j - Real.sin (i / 100)) := Mat.cwise2_ofFn _ _ _ _ _
  erw [hs']
  rw [bind_ok', Mat.cwise_ofFn, bind_ok', x1, bind_ok']
  rfl

/-! ## Without data -/

/-- C104: without one of the MNIST files, or with a file that has a wrong start, the programs stop with the exit code -1 and do nothing else. -/
theorem C104_no_data (r : RunEnv) (ab : ℝ → ℝ) (eps : ℝ)
    (h : BadFile (r.files "./train-images.idx3-ubyte") ∨ BadFile (r.files "./train-labels.idx1-ubyte") ∨
      BadFile (r.files "./t10k-images.idx3-ubyte") ∨ BadFile (r.files "./t10k-labels.idx1-ubyte")) :
    mnist r ab eps = .ok none ∧ mnistPool r ab eps = .ok none ∧ mnistTime r ab eps = .ok none ∧ mnistConv r ab eps = .ok none := by
  obtain ⟨d, hd, -⟩ := C80_refused r.u r.g r.files "." (d := .new) ⟨rfl, rfl, rfl, rfl⟩ h
  exact ⟨classify_none hd, classify_none hd, classify_none hd, classify_none hd⟩

/-- C104: without one of the CIFAR-10 files `sample_classification_CIFAR10` stops with the exit code -1 and does nothing else. -/
theorem C104_cifar_no_data (r : RunEnv) (ab : ℝ → ℝ) (eps : ℝ)
    (h : none ∈ [r.files "./data_batch_1.bin", r.files "./data_batch_2.bin", r.files "./data_batch_3.bin", r.files "./data_batch_4.bin",
      r.files "./data_batch_5.bin", r.files "./test_batch.bin"]) : cifar r ab eps = .ok none := by
  obtain ⟨d, hd⟩ := C81_refused r.u r.g r.files "." (d := .new) ⟨rfl, rfl, rfl, rfl⟩ h
  exact classify_none hd

/-! ## Examples -/

/-- One black image of a three for training, one of a seven for validation. -/
def twoImages (s : String) : Option (List Byte) :=
  if s = "./train-images.idx3-ubyte" then some (idxImages 1 28 28 (List.replicate 784 0)) else if s = "./train-labels.idx1-ubyte" then some (idxLabels 1 [3])
  else if s = "./t10k-images.idx3-ubyte" then some (idxImages 1 28 28 (List.replicate 784 0)) else if s = "./t10k-labels.idx1-ubyte" then some (idxLabels 1 [7]) else none

theorem twoImages_files : MnistFiles twoImages 1 1 (List.replicate 784 0) [3] (List.replicate 784 0) [7] where
  some := by decide
  few := by decide
  images := ⟨by rw [twoImages, if_pos rfl], by rw [List.length_replicate]⟩
  labels := ⟨by rw [twoImages, if_neg (by decide), if_pos rfl], by simp⟩
  images' := ⟨by rw [twoImages, if_neg (by decide), if_neg (by decide), if_pos rfl], by rw [List.length_replicate]⟩
  labels' := ⟨by rw [twoImages, if_neg (by decide), if_neg (by decide), if_neg (by decide), if_pos rfl], by simp⟩
  digits := ⟨fun i hi => by have : i = 0 := by omega
                            subst this; decide, fun i hi => by have : i = 0 := by omega
                                                               subst this; decide⟩

private theorem getD_black (n i : Nat) : (List.replicate n (0 : Byte)).getD i 0 = 0 := by
  rw [List.getD_eq_getElem?_getD, List.getElem?_replicate]
  split <;> rfl

/-- 60000 black images of an aeroplane. -/
example : CifarFiles (fun _ => some (List.replicate 30730000 0)) (fun _ => List.replicate 30730000 0) (List.replicate 30730000 0) where
  train := ⟨rfl, rfl, rfl, rfl, rfl⟩
  val := rfl
  complete := ⟨fun _ _ => by rw [List.length_replicate], by rw [List.length_replicate]⟩
  classes := ⟨fun k i _ hi => by rw [getD_black]; decide, fun i hi => by rw [getD_black]; decide⟩

/-- Exact runs exist. -/
example : ∃ r : RunEnv, r.Exact :=
  ⟨⟨fun _ => none, fun _ _ _ => 0, fun _ => ⟨fun _ => 0, fun _ => 0, id, fun _ => 0, fun _ => 0, fun _ => 0, fun _ => 0⟩,
    ⟨fun _ _ => 0, fun _ _ _ _ => ⟨fun _ => 0, fun _ => 0, id, fun _ => 0, fun _ => 0, fun _ => 0, fun _ => 0⟩,
      fun _ _ _ => ⟨fun _ => 0, fun _ => 0, id, fun _ => 0, fun _ => 0, fun _ => 0, fun _ => 0⟩,
      fun _ _ => ⟨fun _ => 0, fun _ => 0, id, fun _ => 0, fun _ => 0, fun _ => 0, fun _ => 0⟩, fun _ => 0, 0⟩,
    fun _ _ => ⟨fun _ => 0, fun _ => 0, id, fun _ => 0, fun _ => 0, fun _ => 0, fun _ => 0⟩, fun _ => 0, 0⟩,
    ⟨fun _ _ _ _ _ _ _ => rfl, fun _ _ _ _ _ _ => rfl⟩, fun _ _ _ _ _ => rfl⟩

/-- No files at all. -/
example : BadFile (none : Option (List Byte)) := trivial

end BeeDNN.Samples
