import Verif.Model.SamplesMeta
import Verif.Props.MetaRun
import Verif.Props.Samples

/-! # The sample program of the meta-optimizer: C115 -/

namespace BeeDNN.Samples
open Data Trainer Meta

/-- The network of the program with the activation layer `k`. -/
noncomputable def metaKinds (k : LayerKind) : List LayerKind := [.dense 784 64, k, .dropout (1 / 5), .dense 64 10, .softmax]

def metaForm : Nat → Form
  | 0 => ⟨784, false⟩
  | 1 | 2 | 3 => ⟨64, false⟩
  | _ => ⟨10, false⟩

theorem metaNet_eq (e : Nat → Env) (w : World) : metaNet e w = w.build e "GlorotUniform" "Zeros" 0 0 (metaKinds (.activation Act.relu)) := by
  unfold metaNet metaKinds
  rw [build_cons (make_dense ..)]
  refine bind_fun _ fun w => ?_
  rw [build_cons (make_relu ..)]
  refine bind_fun _ fun w => ?_
  rw [build_cons (make_dropout ..)]
  refine bind_fun _ fun w => ?_
  rw [build_cons (make_dense ..)]
  refine bind_fun _ fun w => ?_
  rw [build_last (make_softmax ..)]

theorem meta_takes (i : Nat) (k : LayerKind) (h : (metaKinds (.activation Act.relu))[i]? = some k) :
    k.Made ∧ k.Takes (decide (i = 0)) (metaForm i) (metaForm (i + 1)) ∧ k.Sized (metaForm i) (metaForm (i + 1)) := by
  have hi : i < 5 := (List.getElem?_eq_some_iff.1 h).1
  interval_cases i <;> cases h
  · exact ⟨trivial, rfl, rfl, rfl⟩
  · exact ⟨relu_made, relu_takes _ _ _ _, trivial⟩
  · exact ⟨trivial, ⟨rfl, rfl⟩, trivial⟩
  · exact ⟨trivial, rfl, rfl, rfl⟩
  · exact ⟨trivial, rfl, trivial⟩

/-- The kinds that the factory makes of the variations of the program. -/
noncomputable def metaActs : List LayerKind := [.activation Act.relu, .rrelu 8 3, .prelu, .activation Act.leakyRelu]

theorem metaLayers_make {v : LayerVariation} (hv : v ∈ metaLayers) : v.iLayer = 1 ∧ ∃ k ∈ metaActs, k.Made ∧ LayerKind.Takes false ⟨64, false⟩ ⟨64, false⟩ k ∧
    LayerKind.Sized ⟨64, false⟩ ⟨64, false⟩ k ∧ ∀ e, Factory.create e v.sType v.a1 v.a2 v.a3 v.a4 v.a5 = k.make e "Zeros" "Zeros" := by
  unfold metaLayers at hv
  simp only [List.mem_cons, List.not_mem_nil, or_false] at hv
  rcases hv with rfl | rfl | rfl | rfl
  · exact ⟨rfl, .activation Act.relu, by simp [metaActs], relu_made, relu_takes _ _ _ _, trivial, fun e => by simp [Factory.create, make_relu]⟩
  · exact ⟨rfl, .rrelu 8 3, by simp [metaActs], trivial, ⟨rfl, rfl, by norm_num⟩, trivial, fun e => by simp [Factory.create, LayerKind.make]⟩
  · exact ⟨rfl, .prelu, by simp [metaActs], trivial, ⟨rfl, rfl⟩, trivial, fun e => by simp [Factory.create, LayerKind.make]⟩
  · exact ⟨rfl, .activation Act.leakyRelu, by simp [metaActs], ⟨"LeakyRelu", rfl⟩, ⟨rfl, fun h => by cases h⟩, trivial, fun e => by
      simp only [Factory.create]
      rfl⟩

theorem metaLayers_fit : VariationsFit metaLayers 5 metaForm := fun v hv => by
  obtain ⟨h1, k, -, h2, h3, h4, h5⟩ := metaLayers_make hv
  refine ⟨1, by decide, h1, fun e => ?_⟩
  obtain ⟨l, k1, -, k2⟩ := Layer.make_fits e (wi := "Zeros") (bi := "Zeros") (by decide) (by decide) h2 (by decide) h3 h4
  exact ⟨l, by rw [h5, k1], k2⟩

theorem made_meta {i : Nat} {l : Layer} (h : Made metaLayers i l) : i = 1 ∧ l.kind ∈ metaActs := by
  obtain ⟨v, hv, h1, e, h2⟩ := h
  obtain ⟨k1, k, k2, k3, k4, k5, k6⟩ := metaLayers_make hv
  refine ⟨by rw [k1] at h1; omega, ?_⟩
  obtain ⟨l', k7, k8, -⟩ := Layer.make_fits e (wi := "Zeros") (bi := "Zeros") (by decide) (by decide) k3 (first := false) (s := ⟨64, false⟩) (s' := ⟨64, false⟩) (by decide) k4 k5
  rw [k6, k7] at h2
  injection h2 with h2
  rw [← h2, k8]
  exact k2

/-- A network of a run of the program. -/
theorem oneOf_meta {ls : List (Option Layer)} (h : OneOf ((metaKinds (.activation Act.relu)).map some) metaLayers ls) :
    ∃ k ∈ metaActs, ls.map (Option.map Layer.kind) = (metaKinds k).map some := by
  obtain ⟨h1, h2⟩ := h
  have key : ∀ i k, i ≠ 1 → (metaKinds (.activation Act.relu))[i]? = some k → ∃ l, ls[i]? = some (some l) ∧ l.kind = k := fun i k hi hk => by
    obtain ⟨l, e1, e2⟩ := h2 i k (by rw [List.getElem?_map, hk]; rfl)
    rcases e2 with e2 | ⟨l', e2, -⟩
    · exact ⟨l, e1, e2⟩
    · exact absurd (made_meta e2).1 hi
  obtain ⟨l, e1, e2⟩ := h2 1 (.activation Act.relu) rfl
  have hl : l.kind ∈ metaActs := by
    rcases e2 with e2 | ⟨l', e2, e3⟩
    · rw [e2]; exact List.mem_cons_self
    · rw [e3]; exact (made_meta e2).2
  refine ⟨l.kind, hl, ?_⟩
  obtain ⟨l0, a1, a2⟩ := key 0 _ (by decide) rfl
  obtain ⟨l2, b1, b2⟩ := key 2 _ (by decide) rfl
  obtain ⟨l3, c1, c2⟩ := key 3 _ (by decide) rfl
  obtain ⟨l4, d1, d2⟩ := key 4 _ (by decide) rfl
  have hlen : ls.length = 5 := h1
  refine List.ext_getElem? fun i => ?_
  rw [List.getElem?_map, List.getElem?_map]
  rcases Nat.lt_or_ge i 5 with hi | hi
  · interval_cases i
    · exact (by rw [a1, Option.map_some, Option.map_some, a2]; rfl)
    · rw [e1]; rfl
    · exact (by rw [b1, Option.map_some, Option.map_some, b2]; rfl)
    · exact (by rw [c1, Option.map_some, Option.map_some, c2]; rfl)
    · exact (by rw [d1, Option.map_some, Option.map_some, d2]; rfl)
  · rw [List.getElem?_eq_none (by omega), List.getElem?_eq_none (by exact hi)]
    rfl

/-- The program up to the meta-optimizer. -/
theorem meta_setup {r : RunEnv} (eps : ℝ) {N M : Nat} {px lab px' lab' : List Byte} (h : MnistFiles r.files N M px lab px' lab') :
    ∃ w₀ p, metaNet r.build start = .ok w₀ ∧ metaSettings r (fun x => |x|) eps (mnistData N M px lab px' lab') = .ok p ∧
      p.epochs = 20 ∧ p.loss = "SparseCategoricalCrossEntropy" ∧ p.optName = "Adam" ∧ p.lr = -1 ∧
      p.train = some (Mat.ofFn N 784 fun i j => byteAt px (i * 784 + j) / 256, Mat.ofFn N 1 fun i _ => ((lab.getD i 0).val : ℝ)) ∧
      p.valid = some (Mat.ofFn M 784 fun i j => byteAt px' (i * 784 + j) / 256, Mat.ofFn M 1 fun i _ => ((lab'.getD i 0).val : ℝ)) ∧
      w₀.kinds 0 = (metaKinds (.activation Act.relu)).map some ∧
      MetaSetup w₀ p metaLayers metaOptimizers 0 1 2 5 metaForm N 1 (fun i j => byteAt px (i * 784 + j) / 256) (fun i _ => ((lab.getD i 0).val : ℝ)) := by
  obtain ⟨w₀, n1, n2, n3, n5, n4⟩ := C98_build r.build (wInit := "GlorotUniform") (bInit := "Zeros") (by decide) (by decide) start_owned (n := 0) rfl
    (ks := metaKinds (.activation Act.relu)) (by simp [metaKinds]) (form := metaForm)
    (fun i hi => by have hi : i ≤ 5 := hi; interval_cases i <;> decide) meta_takes
  obtain ⟨d, hd⟩ : ∃ d, d = mnistData N M px lab px' lab' := ⟨_, rfl⟩
  have d1 : d.trainData = Mat.ofFn N 784 fun i j => byteAt px (i * 784 + j) / 256 := by rw [hd]; rfl
  have d2 : d.trainTruth = Mat.ofFn N 1 fun i _ => ((lab.getD i 0).val : ℝ) := by rw [hd]; rfl
  have d3 : d.valData = Mat.ofFn M 784 fun i j => byteAt px' (i * 784 + j) / 256 := by rw [hd]; rfl
  have d4 : d.valTruth = Mat.ofFn M 1 fun i _ => ((lab'.getD i 0).val : ℝ) := by rw [hd]; rfl
  have hs : metaSettings r (fun x => |x|) eps d = .ok { epochs := 20, loss := "SparseCategoricalCrossEntropy", train := some (d.trainData, d.trainTruth), valid := some (d.valData, d.valTruth) } := rfl
  have tf : ∀ {n : Nat} {l : Nat → Nat}, (∀ i, i < n → l i < 10) → TruthFits "SparseCategoricalCrossEntropy" (metaForm 5).width 1 n (fun i _ => (l i : ℝ)) := fun {n l} h => by
    rw [TruthFits, if_pos rfl]
    exact ⟨rfl, by decide, fun i hi => ⟨l i, h i hi, rfl⟩⟩
  have hset : ∃ t, setLoss r.g (fun x => |x|) eps { epochs := 20 } "SparseCategoricalCrossEntropy" = .ok t ∧ t.loss = "SparseCategoricalCrossEntropy" ∧ t.reg = none := ⟨_, rfl, rfl, rfl⟩
  obtain ⟨t, ht, ht1, ht2⟩ := hset
  rw [← hd]
  refine ⟨w₀, _, (metaNet_eq _ _).trans n1, hs, rfl, rfl, rfl, rfl, by rw [← d1, ← d2], by rw [← d3, ← d4], n5,
  { train :=
    { net := n2
      owned := n3
      slot := by decide
      fresh := by rw [n4 2 (by decide)]; rfl
      inOut := fun _ h => absurd h List.not_mem_nil
      gradient := fun _ h => absurd h List.not_mem_nil
      samples := h.some.1
      train := by rw [d1, d2]; rfl
      floor := fun h => by cases h
      truth := tf h.digits.1
      valid := fun p hp => by
        cases hp
        exact ⟨M, 1, _, fun i _ => ((lab'.getD i 0).val : ℝ), tf h.digits.2, by rw [d3, d4]; rfl⟩
      valBatch := (by norm_num : (0 : Int) < 128)
      batchSize := (by norm_num : (0 : Int) ≤ 32)
      loss := (by decide : "SparseCategoricalCrossEntropy" ∈ listLoss)
      balancing := rfl
      patience := .inl rfl }
    built := .other (.loss (.other (t' := { epochs := 20 }) .new rfl rfl) ht) ht1.symm ht2.symm
    slot := by decide
    fresh := by rw [n4 1 (by decide)]; rfl
    layers := metaLayers_fit
    optimizer := ⟨.adam, rfl⟩
    optimizers := fun o ho => by
      unfold metaOptimizers at ho
      simp only [List.mem_cons, List.not_mem_nil, or_false] at ho
      rcases ho with rfl | rfl
      · exact ⟨.adam, rfl⟩
      · exact ⟨.nadam, rfl⟩ }⟩

theorem metaMnist_eq {r : RunEnv} (eps : ℝ) {N M : Nat} {px lab px' lab' : List Byte} (h : MnistFiles r.files N M px lab px' lab') (k : Nat) (e : Nat → Nat → Meta.RunEnv)
    {w₀ : World} {p : Trainer} (h1 : metaNet r.build start = .ok w₀) (h2 : metaSettings r (fun x => |x|) eps (mnistData N M px lab px' lab') = .ok p)
    {s : World × Trainer × List Round} (hs : fitAlone (fun x => |x|) eps metaLayers metaOptimizers 0 1 2 5 k e w₀ p = .ok s) :
    metaMnist r (fun x => |x|) eps k e = .ok (some s) := by
  unfold metaMnist
  rw [mnist_load h, bind_ok']
  dsimp only
  rw [if_neg (by decide), h1, bind_ok', h2, bind_ok', show nbThreads 0 k = .ok k from rfl, bind_ok', hs]
  rfl

/-- C115: on MNIST files, with any number of processors and for all draws, `sample_MetaOptimizer_MNIST` runs to the end when the threads run one after the other.
It makes five rounds, with a run per processor and twenty reports per run.  A better model is reported with its accuracy on the validation data; it is the network
of the program with one of the four activation layers.  Missing: the threads run at the same time without locks (`C115_race_wrong`). -/
theorem C115_mnist_partial {r : RunEnv} (eps : ℝ) {N M : Nat} {px lab px' lab' : List Byte} (h : MnistFiles r.files N M px lab px' lab')
    (k : Nat) {e : Nat → Nat → Meta.RunEnv} (he : ∀ i j, (e i j).fit.Exact) :
    ∃ w t rounds p, metaMnist r (fun x => |x|) eps k e = .ok (some (w, t, rounds)) ∧ rounds.length = 5 ∧
      p.valid = some (Mat.ofFn M 784 fun i j => byteAt px' (i * 784 + j) / 256, Mat.ofFn M 1 fun i _ => ((lab'.getD i 0).val : ℝ)) ∧
      p.loss = "SparseCategoricalCrossEntropy" ∧
      ∀ q ∈ rounds, q.runs.length = k ∧ (∀ s ∈ q.runs, s.reports.length = 20) ∧ q.found.Sublist q.told ∧
        q.found.map Prod.fst = recordsFrom (-1) (q.told.map Prod.fst) ∧ q.best = maxOf (q.told.map Prod.fst) ∧
        ∀ a ∈ q.told, Measured (fun x => |x|) eps p 1 a ∧
          ∃ act ∈ metaActs, a.2.map (Option.map Layer.kind) = [.dense 784 64, act, .dropout (1 / 5), .dense 64 10, .softmax].map some := by
  obtain ⟨w₀, p, h1, h2, h3, h4, -, -, -, h8, h9, hm⟩ := meta_setup eps h
  obtain ⟨w, t, rounds, k1, -, -, -, -, -, -, k2, k3⟩ := C115_alone_partial hm eps he 5 k
  refine ⟨w, t, rounds, p, metaMnist_eq eps h k e h1 h2 k1, k2, h8, h4, fun q hq => ?_⟩
  have g := k3 q hq
  refine ⟨g.count, fun s hs => by rw [(g.runs s hs).epochs, h3]; rfl, g.found.1, g.found.2, g.best, fun a ha => ?_⟩
  obtain ⟨l, hl, ha⟩ := List.mem_flatten.1 ha
  obtain ⟨s, hs, rfl⟩ := List.mem_map.1 hl
  obtain ⟨b1, b2⟩ := (g.runs s hs).networks a ha
  rw [h9] at b1
  exact ⟨b2, oneOf_meta b1⟩

/-- C115, the code disagrees: the first run of the program trains with none of the two optimizers that it registers, which have the learning rate 0.01, but with the defaults
of the trainer. -/
theorem C115_mnist_first_run_wrong {r : RunEnv} (eps : ℝ) {N M : Nat} {px lab px' lab' : List Byte} (h : MnistFiles r.files N M px lab px' lab')
    (k : Nat) {e : Nat → Nat → Meta.RunEnv} (he : ∀ i j, (e i j).fit.Exact) :
    ∃ w t q qs s ss, metaMnist r (fun x => |x|) eps (k + 1) e = .ok (some (w, t, q :: qs)) ∧ q.runs = s :: ss ∧ s.before.optName = "Adam" ∧ s.before.lr = -1 ∧
      ∀ o ∈ metaOptimizers, o.lr ≠ s.before.lr := by
  obtain ⟨w₀, p, h1, h2, -, -, h5, h6, -, -, -, hm⟩ := meta_setup eps h
  obtain ⟨w, t, q, qs, s, ss, k1, k2, k3, k4⟩ := C115_first_run_wrong hm eps he 4 k
  refine ⟨w, t, q, qs, s, ss, metaMnist_eq eps h _ e h1 h2 k1, k2, k3.trans h5, k4.trans h6, fun o ho => ?_⟩
  rw [k4, h6]
  unfold metaOptimizers at ho
  simp only [List.mem_cons, List.not_mem_nil, or_false] at ho
  rcases ho with rfl | rfl <;> norm_num

/-- C115: without one of the MNIST files, or with a file that has a wrong start, the program stops with the exit code -1 and does nothing else. -/
theorem C115_no_data (r : RunEnv) (ab : ℝ → ℝ) (eps : ℝ) (k : Nat) (e : Nat → Nat → Meta.RunEnv)
    (h : BadFile (r.files "./train-images.idx3-ubyte") ∨ BadFile (r.files "./train-labels.idx1-ubyte") ∨
      BadFile (r.files "./t10k-images.idx3-ubyte") ∨ BadFile (r.files "./t10k-labels.idx1-ubyte")) : metaMnist r ab eps k e = .ok none := by
  obtain ⟨d, hd, -⟩ := C80_refused r.u r.g r.files "." (d := .new) ⟨rfl, rfl, rfl, rfl⟩ h
  unfold metaMnist
  rw [hd, bind_ok']
  rfl

/-- The hypotheses are met by the two images of Props/Samples and eight processors; the general theorems apply to the network of the program. -/
example (r : RunEnv) (hr : r.files = twoImages) (e : Nat → Nat → Meta.RunEnv) (he : ∀ i j, (e i j).fit.Exact) :
    ∃ w t rounds w₀ p, metaMnist r (fun x => |x|) 0 8 e = .ok (some (w, t, rounds)) ∧ rounds.length = 5 ∧
      MetaSetup w₀ p metaLayers metaOptimizers 0 1 2 5 metaForm 1 1 (fun i j => byteAt (List.replicate 784 0) (i * 784 + j) / 256)
        (fun i _ => ((([3] : List Byte).getD i 0).val : ℝ)) := by
  have hf : MnistFiles r.files 1 1 (List.replicate 784 0) [3] (List.replicate 784 0) [7] := by rw [hr]; exact twoImages_files
  obtain ⟨w, t, rounds, -, h1, h2, -⟩ := C115_mnist_partial (r := r) 0 hf 8 he
  obtain ⟨w₀, p, -, -, -, -, -, -, -, -, -, hm⟩ := meta_setup (r := r) 0 hf
  exact ⟨w, t, rounds, w₀, p, h1, h2, hm⟩

end BeeDNN.Samples
