import Verif.Lemmas.FitsNew
import Verif.Lemmas.MlpRun
import Verif.Props.MlpFit

/-! # Networks of nearly all kinds of layers can be trained: C98 -/

namespace BeeDNN
open Trainer

theorem Trainable.onNet {w : World} {n d : Nat} {form : Nat → Form} (h : Trainable w n d form) :
    OnNet w n (fun i l => l.Fits (decide (i = 0)) (form i) (form (i + 1))) := h.layer

theorem OnNet.kinds {w : World} {n : Nat} {P : Nat → Layer → Prop} {kinds : Nat → LayerKind} (h : OnNet w n P) (hP : ∀ i l, P i l → l.kind = kinds i) :
    w.kinds n = (List.range (w.nets n).layers.length).map fun i => some (kinds i) := by
  refine List.ext_getElem? fun i => ?_
  unfold World.kinds
  rw [List.getElem?_map, List.getElem?_map]
  by_cases hi : i < (w.nets n).layers.length
  · obtain ⟨l, h1, h2⟩ := h i _ (List.getElem?_eq_getElem hi)
    rw [List.getElem?_eq_getElem hi, List.getElem?_range hi, Option.map_some, Option.map_some, h1, Option.join_some, Option.map_some, hP i l h2]
  · rw [List.getElem?_eq_none (by omega), List.getElem?_eq_none (by simp; omega)]
    rfl

theorem Trainable.ready {w : World} {n d : Nat} {form : Nat → Form} (h : Trainable w n d form) : ∃ kinds, Ready w n d form kinds := by
  refine ⟨fun i => (((w.nets n).layers[i]?.bind fun a => w.heap[a]?.join).map Layer.kind).getD .softmax, h.nodup, h.count, fun i a ha => ?_⟩
  obtain ⟨l, h1, h2⟩ := h.layer i a ha
  refine ⟨l, h1, h2, ?_⟩
  simp [ha, h1]

theorem Ready.trainable {w : World} {n d : Nat} {form : Nat → Form} {kinds : Nat → LayerKind} (h : Ready w n d form kinds) (hd : 0 < d) : Trainable w n d form :=
  ⟨hd, h.nodup, h.depth, h.layers.mono fun _ _ _ _ _ h => h.1⟩

theorem Ready.kinds_eq {w : World} {n d : Nat} {form : Nat → Form} {kinds : Nat → LayerKind} (h : Ready w n d form kinds) :
    w.kinds n = (List.range d).map fun i => some (kinds i) := by
  rw [← h.depth]
  exact h.layers.kinds fun _ _ h => h.2

/-- `C98_fit_runs` with what the trainer keeps. -/
theorem fit_runs' {w : World} {t : Trainer} {n b depth : Nat} {form : Nat → Form} {N D : Nat} {x y : Nat → Row} (h : TrainSetup w t n b depth form N D x y)
    {k : OptKind} (hk : createOptimizer t.optName = some k) (eps : ℝ) {e : FitEnv} (he : e.Exact) :
    ∃ (w' : World) (t' : Trainer) (seen : List (List (Option Layer))), fit (fun x => |x|) eps e w t n b = .ok (w', t', seen) ∧
      Trainable w' n depth form ∧ w'.kinds n = w.kinds n ∧ Owned w' ∧ seen.length = t.epochs.toNat ∧
      t'.net = some n ∧ t'.loss = t.loss ∧ t'.lossWeight.size = 0 ∧ t'.valBatch = t.valBatch ∧ ∀ ls ∈ seen, ls.map (Option.map Layer.kind) = w.kinds n := by
  obtain ⟨kinds, hr⟩ := h.net.ready
  have hpos : 0 < (form depth).width := by
    have hd := h.net.nonempty
    obtain ⟨l, -, h2⟩ := h.net.layer (depth - 1) _ (List.getElem?_eq_getElem (by rw [h.net.count]; omega))
    have := h2.pos.2
    rwa [Nat.sub_add_cancel hd] at this
  obtain ⟨ψ, l1, -⟩ := lossOk_of_mem eps h.loss hpos D
  obtain ⟨w', t', seen, h1, h2, h3, h4, h5, h6, h7, h8, h9⟩ := fit_fits' (e := e) ⟨he.batch, he.eval⟩ hr h.net.nonempty h.owned h.slot h.fresh h.inOut h.gradient hk h.samples x y h.train
    ⟨Mat.shape_ofFn _ _ _, fun hf => Mat.above_ofFn.2 (h.floor hf)⟩ h.truth h.valid h.valBatch h.batchSize h.balancing h.loss l1 h.patience
  exact ⟨w', t', seen, h1, h2.trainable h.net.nonempty, h2.kinds_eq.trans hr.kinds_eq.symm, h3, h4, h5, h6, h7, h8, fun ls hls => (h9 ls hls).trans hr.kinds_eq.symm⟩

/-- C98: with every optimizer, loss and regularizer of the library, `fit` trains every network whose layers fit together to
the end: no assertion fails, no memory access is out of bounds or to a deleted layer.  The network keeps its layers and still
fits together, and the callback was called once per epoch. -/
theorem C98_fit_runs {w : World} {t : Trainer} {n b depth : Nat} {form : Nat → Form} {N D : Nat} {x y : Nat → Row} (h : TrainSetup w t n b depth form N D x y)
    {k : OptKind} (hk : createOptimizer t.optName = some k) (eps : ℝ) {e : FitEnv} (he : e.Exact) :
    ∃ (w' : World) (t' : Trainer) (seen : List (List (Option Layer))), fit (fun x => |x|) eps e w t n b = .ok (w', t', seen) ∧
      Trainable w' n depth form ∧ w'.kinds n = w.kinds n ∧ Owned w' ∧ seen.length = t.epochs.toNat := by
  obtain ⟨w', t', seen, h1, h2, h3, h4, h5, -⟩ := fit_runs' h hk eps he
  exact ⟨w', t', seen, h1, h2, h3, h4, h5⟩

/-- C98: such a network predicts a row of the width of its last layer for every sample, and still fits together after that. -/
theorem C98_predict_runs {w : World} {n depth : Nat} {form : Nat → Form} (h : Trainable w n depth form) {e : Nat → Env} (he : ∀ i, (e i).Exact) {N : Nat} (hN : 0 < N)
    {X out : Mat ℝ} (hX : X.Shape N (form 0).width) (ho : out.WF) :
    ∃ w' Y, w.predict e n X out = .ok (w', Y) ∧ Y.Shape N (form depth).width ∧ Trainable w' n depth form := by
  obtain ⟨w', Y, h1, h2, h3, h4⟩ := predict_fits he (lasting_fits form) hN h.nodup h.count h.nonempty h.onNet hX ho
  exact ⟨w', Y, h1, h2, h.nonempty, by rw [h3]; exact h.nodup, by rw [h3]; exact h.count, h4⟩

theorem OnNet.add {w : World} {n : Nat} {P : Nat → Layer → Prop} (ho : Owned w) (h : OnNet w n P) {l : Layer} (hl : P (w.nets n).layers.length l) :
    OnNet ((w.alloc l).add n w.heap.length) n P ∧ ((w.alloc l).add n w.heap.length).kinds n = w.kinds n ++ [some l.kind] := by
  have hself : (((w.alloc l).add n w.heap.length).nets n).layers = (w.nets n).layers ++ [w.heap.length] := by simp [World.add]
  have hnew : ((w.alloc l).add n w.heap.length).heap[w.heap.length]? = some (some l) := by simp [World.alloc]
  have hold : ∀ a ∈ (w.nets n).layers, ((w.alloc l).add n w.heap.length).heap[a]? = w.heap[a]? := fun a ha => by
    obtain ⟨k, hk⟩ := ho.live n a ha
    simp [World.alloc, List.getElem?_append_left (World.lt_of_live hk)]
  refine ⟨fun i a ha => ?_, ?_⟩
  · rw [hself] at ha
    by_cases hi : i < (w.nets n).layers.length
    · rw [List.getElem?_append_left hi] at ha
      obtain ⟨k, h1, h2⟩ := h i a ha
      exact ⟨k, (hold a (List.mem_of_getElem? ha)).trans h1, h2⟩
    · rw [List.getElem?_append_right (by omega)] at ha
      obtain h0 : i - (w.nets n).layers.length = 0 := by
        have := (List.getElem?_eq_some_iff.1 ha).1
        simpa using this
      rw [h0] at ha
      cases ha
      exact ⟨l, hnew, by rwa [show i = (w.nets n).layers.length by omega]⟩
  · unfold World.kinds
    rw [hself, List.map_append, List.map_cons, List.map_nil, hnew]
    congr 1
    exact List.map_congr_left fun a ha => by rw [hold a ha]

theorem build_fits {e : Nat → Env} {wi bi : String} (hwi : wi ∈ initNames) (hbi : bi ∈ initNames) {n : Nat} {form : Nat → Form} :
    ∀ (ks : List LayerKind) (i : Nat) (w : World), Owned w → (w.nets n).layers.length = i → OnNet w n (fun i l => l.Fits (decide (i = 0)) (form i) (form (i + 1))) →
    (∀ j, j ≤ i + ks.length → 0 < (form j).width) → (∀ (j : Nat) (k : LayerKind), ks[j]? = some k →
      k.Made ∧ k.Takes (decide (i + j = 0)) (form (i + j)) (form (i + j + 1)) ∧ k.Sized (form (i + j)) (form (i + j + 1))) →
    ∃ w', w.build e wi bi n i ks = .ok w' ∧ Owned w' ∧ (w'.nets n).layers.length = i + ks.length ∧
      OnNet w' n (fun i l => l.Fits (decide (i = 0)) (form i) (form (i + 1))) ∧ w'.kinds n = w.kinds n ++ ks.map some ∧ ∀ m, m ≠ n → w'.nets m = w.nets m
  | [], i, w, ho, hl, h, _, _ => ⟨w, rfl, ho, hl, h, by simp, fun _ _ => rfl⟩
  | k :: ks, i, w, ho, hl, h, hp, hk => by
    obtain ⟨k1, k2, k3⟩ := hk 0 k rfl
    obtain ⟨l, m1, m2, m3⟩ := Layer.make_fits (e i) hwi hbi k1 ⟨hp i (by omega), hp (i + 1) (by simp)⟩ k2 k3
    obtain ⟨a1, a2⟩ := h.add ho (l := l) (by rw [hl]; exact m3)
    have fr := frame_add ho n l
    obtain ⟨w', b1, b2, b3, b4, b5, b6⟩ := build_fits hwi hbi ks (i + 1) ((w.alloc l).add n w.heap.length) fr.owned
      (by simp [World.add, hl]) a1 (fun j hj => hp j (by rw [List.length_cons]; omega)) (fun j k' hj => by
        have := hk (j + 1) k' hj
        rwa [show i + (j + 1) = i + 1 + j by omega] at this)
    refine ⟨w', ?_, b2, by rw [b3, List.length_cons]; omega, b4, ?_, fun m hm => (b6 m hm).trans (fr.nets m hm)⟩
    · rw [World.build, m1, bind_ok', b1]
    · rw [b5, a2, m2]
      simp

/-- C98: a network made of new layers, one added after the other, fits together if each class takes what the layer before makes. -/
theorem C98_build (e : Nat → Env) {wInit bInit : String} (hw : wInit ∈ initNames) (hb : bInit ∈ initNames) {w : World} (ho : Owned w) {n : Nat}
    (hn : (w.nets n).layers = []) {ks : List LayerKind} (hne : ks ≠ []) {form : Nat → Form} (hp : ∀ i, i ≤ ks.length → 0 < (form i).width)
    (hk : ∀ i k, ks[i]? = some k → LayerKind.Made k ∧ LayerKind.Takes (decide (i = 0)) (form i) (form (i + 1)) k ∧ LayerKind.Sized (form i) (form (i + 1)) k) :
    ∃ w', w.build e wInit bInit n 0 ks = .ok w' ∧ Trainable w' n ks.length form ∧ Owned w' ∧ w'.kinds n = ks.map some ∧ ∀ m, m ≠ n → w'.nets m = w.nets m := by
  obtain ⟨w', b1, b2, b3, b4, b5, b6⟩ := build_fits (e := e) hw hb (form := form) ks 0 w ho (by rw [hn]; rfl) (fun i a ha => by rw [hn] at ha; simp at ha)
    (fun j hj => hp j (by omega)) (fun j k h => by rw [Nat.zero_add]; exact hk j k h)
  refine ⟨w', b1, ⟨List.length_pos_iff.2 hne, b2.nodup n, by rw [b3, Nat.zero_add], b4⟩, b2, ?_, b6⟩
  rw [b5]
  simp [World.kinds, hn]

/-! ## An example -/

/-- Images of 4 by 4 pixels, kernels of 3 by 3, two channels. -/
def cnnGeometry : Conv where
  inRows := 4
  inCols := 4
  inCh := 1
  kRows := 3
  kCols := 3
  outCh := 2
  rowStride := 1
  colStride := 1
  outRows := 2
  outCols := 2
  lut := [0, 1, 2, 4, 5, 6, 8, 9, 10]

/-- A convolution, an activation, a pooling, a dropout and a dense layer. -/
noncomputable def cnnKinds : List LayerKind :=
  [.conv cnnGeometry, .activation Act.relu, .maxPool (Factory.pool2 2 2 2), .dropout (1 / 4), .dense 2 3]

/-- 16 pixels, twice 2 times 2 convolved pixels, two maxima, three outputs. -/
def cnnForm : Nat → Form
  | 0 => ⟨16, false⟩
  | 1 => ⟨8, false⟩
  | 2 => ⟨8, true⟩
  | 5 => ⟨3, false⟩
  | _ => ⟨2, false⟩

theorem cnn_takes (i : Nat) (k : LayerKind) (h : cnnKinds[i]? = some k) :
    k.Made ∧ k.Takes (decide (i = 0)) (cnnForm i) (cnnForm (i + 1)) ∧ k.Sized (cnnForm i) (cnnForm (i + 1)) := by
  have hi : i < 5 := (List.getElem?_eq_some_iff.1 h).1
  interval_cases i <;> cases h
  · exact ⟨⟨4, 4, 1, 3, 3, 2, 1, 1, by decide⟩, ⟨rfl, rfl, by decide, by decide, rfl⟩, trivial⟩
  · refine ⟨⟨"Relu", by rfl⟩, ⟨rfl, fun _ x => ?_⟩, trivial⟩
    have : Layer.low < 0 := by norm_num [Layer.low]
    simp only [Act.relu]
    split <;> linarith
  · exact ⟨⟨2, 2, 2, 2, 2, rfl⟩, ⟨rfl, rfl, fun h => (by cases h), fun _ => ⟨rfl, by decide⟩⟩, trivial⟩
  · exact ⟨trivial, ⟨rfl, rfl⟩, trivial⟩
  · exact ⟨trivial, rfl, ⟨rfl, rfl⟩⟩

/-- No objects yet. -/
def emptyWorld : World := ⟨[], fun _ => {}⟩

theorem emptyWorld_owned : Owned emptyWorld := ⟨fun n a ha => (by cases ha), fun n => List.nodup_nil, fun n m a ha => (by cases ha)⟩

/-- Six images of three classes, batches of four, Adam, penalties on the weights. -/
noncomputable def cnnTrainer : Trainer :=
  { optName := "Adam", loss := "SparseCategoricalCrossEntropy", epochs := 20, batchSize := 4, reg := some ⟨.l2, 1 / 100⟩
    train := some (Mat.ofFn 6 16 (fun i j => (i : ℝ) - j), Mat.ofFn 6 1 (fun i _ => ((i % 3 : Nat) : ℝ))) }

theorem cnn_setup {w : World} (h : Trainable w 0 5 cnnForm) (ho : Owned w) (hn : (w.nets 1).layers = []) :
    TrainSetup w cnnTrainer 0 1 5 cnnForm 6 1 (fun i j => (i : ℝ) - j) (fun i _ => ((i % 3 : Nat) : ℝ)) where
  net := h
  owned := ho
  slot := by decide
  fresh := hn
  inOut := fun _ h => absurd h List.not_mem_nil
  gradient := fun _ h => absurd h List.not_mem_nil
  samples := by decide
  train := rfl
  floor := fun h => by cases h
  truth := by
    rw [TruthFits, if_pos (show cnnTrainer.loss = "SparseCategoricalCrossEntropy" from rfl)]
    exact ⟨rfl, by decide, fun i _ => ⟨i % 3, Nat.mod_lt _ (by decide), rfl⟩⟩
  valid := fun d h => by cases h
  valBatch := by decide
  batchSize := by decide
  loss := by decide
  balancing := rfl
  patience := .inl rfl

/-- The network is built and trained. -/
example (e : Nat → Env) (eps : ℝ) {f : FitEnv} (hf : f.Exact) : ∃ w w' t' seen, emptyWorld.build e "GlorotUniform" "Zeros" 0 0 cnnKinds = .ok w ∧
    w.kinds 0 = cnnKinds.map some ∧ fit (fun x => |x|) eps f w cnnTrainer 0 1 = .ok (w', t', seen) ∧ w'.kinds 0 = cnnKinds.map some ∧ seen.length = 20 := by
  obtain ⟨w, h1, h2, h3, h4, h5⟩ := C98_build e (wInit := "GlorotUniform") (bInit := "Zeros") (by decide) (by decide) emptyWorld_owned (n := 0) rfl (ks := cnnKinds)
    (by simp [cnnKinds]) (form := cnnForm) (fun i hi => by
      have hi : i ≤ 5 := hi
      interval_cases i <;> decide) cnn_takes
  obtain ⟨w', t', seen, g1, g2, g3, g4, g5⟩ := C98_fit_runs (cnn_setup h2 h3 (by rw [h5 1 (by decide)]; rfl)) (k := .adam) rfl eps hf
  exact ⟨w, w', t', seen, h1, h4, g1, g3.trans h4, g5⟩

/-- Exact environments exist. -/
example : ∃ f : FitEnv, f.Exact :=
  ⟨⟨fun _ _ => 0, fun _ _ _ _ => ⟨fun _ => 0, fun _ => 0, id, fun _ => 0, fun _ => 0, fun _ => 0, fun _ => 0⟩,
    fun _ _ _ => ⟨fun _ => 0, fun _ => 0, id, fun _ => 0, fun _ => 0, fun _ => 0, fun _ => 0⟩,
    fun _ _ => ⟨fun _ => 0, fun _ => 0, id, fun _ => 0, fun _ => 0, fun _ => 0, fun _ => 0⟩, fun _ => 0, 0⟩, fun _ _ _ _ _ _ _ => rfl, fun _ _ _ _ _ _ => rfl⟩

/-- It predicts three numbers for each of two images. -/
example (e : Nat → Env) (he : ∀ i, (e i).Exact) {w : World} (h : Trainable w 0 5 cnnForm) :
    ∃ w' Y, w.predict e 0 (Mat.ofFn 2 16 fun _ _ => 1) ⟨0, 0, []⟩ = .ok (w', Y) ∧ Y.Shape 2 3 ∧ Trainable w' 0 5 cnnForm :=
  C98_predict_runs h he (by decide) (Mat.shape_ofFn _ _ _) rfl

end BeeDNN
