import Verif.Spec.Samples
import Verif.Props.TrainAny
import Verif.Props.Metrics
import Verif.Props.Readers
import Verif.Lemmas.Conv

/-! # Sample programs: lemmas -/

namespace BeeDNN.Samples
open Data Trainer

theorem build_cons {e : Nat → Env} {wi bi : String} {n i : Nat} {k : LayerKind} {ks : List LayerKind} {w : World} {L : Out Layer} (h : k.make (e i) wi bi = L) :
    World.build e wi bi n i (k :: ks) w = addNew n L w >>= fun w => World.build e wi bi n (i + 1) ks w := by
  subst h
  rw [World.build, addNew]
  cases k.make (e i) wi bi <;> rfl

theorem build_last {e : Nat → Env} {wi bi : String} {n i : Nat} {k : LayerKind} {w : World} {L : Out Layer} (h : k.make (e i) wi bi = L) :
    World.build e wi bi n i [k] w = addNew n L w := by
  rw [build_cons h]
  cases addNew n L w <;> rfl

theorem bind_fun {α β : Type} (x : Out α) {f f' : α → Out β} (h : ∀ a, f a = f' a) : (x >>= f) = x >>= f' := by
  rw [funext h]

theorem make_dense (e : Env) (i o : Nat) : LayerKind.make e "GlorotUniform" "Zeros" (.dense i o) = dense e i o := rfl
theorem make_tdDense (e : Env) (i o : Nat) : LayerKind.make e "GlorotUniform" "Zeros" (.tdDense i o) = tdDense e i o := rfl
theorem make_channelBias (e : Env) (r c ch : Nat) : LayerKind.make e "GlorotUniform" "Zeros" (.channelBias r c ch) = channelBias e r c ch := rfl
theorem make_relu (e : Env) (wi bi : String) : LayerKind.make e wi bi (.activation Act.relu) = Layer.newActivation "Relu" := rfl
theorem make_tanh (e : Env) (wi bi : String) : LayerKind.make e wi bi (.activation Act.tanh) = Layer.newActivation "Tanh" := rfl
theorem make_dropout (e : Env) (wi bi : String) (p : ℝ) : LayerKind.make e wi bi (.dropout p) = Layer.newDropout p := rfl
theorem make_softmax (e : Env) (wi bi : String) : LayerKind.make e wi bi .softmax = Layer.newSoftmax := rfl
theorem make_conv' (e : Env) (wi bi : String) (R C K kR kC O rs cs : Nat) :
    LayerKind.make e wi bi (.conv (Conv.std R C K kR kC O rs cs)) = Layer.newConv e R C K kR kC O rs cs := rfl
theorem make_conv (e : Env) (wi bi : String) (R C K kR kC O : Nat) : LayerKind.make e wi bi (.conv (Conv.std R C K kR kC O 1 1)) = conv e R C K kR kC O := rfl
theorem make_maxPool (e : Env) (wi bi : String) (p : Pool) : LayerKind.make e wi bi (.maxPool p) = Layer.newMaxPool p.inRows p.inCols p.channels p.rowFactor p.colFactor := rfl

theorem start_owned : Owned start := emptyWorld_owned

/-- Predicting and measuring. -/
theorem measure_ok {r : RunEnv} (hr : r.Exact) {k depth : Nat} {form : Nat → Form} {w : World} (h : Trainable w 0 depth form) (h10 : (form depth).width = 10)
    {N : Nat} (hN : 0 < N) (x : Nat → Row) (lab : Nat → Nat) (hl : ∀ i, i < N → lab i < 10) :
    ∃ w' out m, measure r k w (Mat.ofFn N (form 0).width x) (Mat.ofFn N 1 fun i _ => (lab i : ℝ)) = .ok (w', m) ∧
      w.predict (r.predict k) 0 (Mat.ofFn N (form 0).width x) ⟨0, 0, []⟩ = .ok (w', Mat.ofFn N 10 out) ∧ Trainable w' 0 depth form ∧ Judged N out lab m := by
  obtain ⟨w', Y, p1, p2, p3⟩ := C98_predict_runs h (e := r.predict k) (hr.predict k) hN (Mat.shape_ofFn N _ x) (out := ⟨0, 0, []⟩) rfl
  obtain ⟨out, rfl⟩ := p2.exists_ofFn
  rw [h10] at p1
  obtain ⟨c, c1, c2⟩ := C49_argmax r.g N 10 (by decide) out ⟨0, 0, []⟩ rfl
  obtain ⟨t, ht, htm⟩ := Finset.exists_max_image (Finset.range N) lab ⟨0, Finset.mem_range.2 hN⟩
  have ht := Finset.mem_range.1 ht
  have htm : ∀ i, i < N → lab i ≤ lab t := fun i hi => htm i (Finset.mem_range.2 hi)
  have hc : ∀ i, i < N → c i < 10 := fun i hi => (c2 i hi).1
  obtain ⟨m, C, m1, -, -, -, -, m2, m3, -⟩ := C75_confusion_partial r.g r.div0 (m := {}) (N := N) (K := lab t + 1) (y := fun i => (lab i : ℝ)) (p := fun i => (c i : ℝ)) (nb := 0)
    rfl rfl hN ⟨by omega, .inr ⟨rfl, t, ht, by simp [refClass], fun j hj => by
      show (lab j : ℝ) ≤ lab t
      exact_mod_cast htm j hj⟩⟩
    (fun i hi => ⟨by have : (0 : ℝ) ≤ lab i := by positivity
                     linarith, by have : (lab i : ℝ) < 10 := by exact_mod_cast hl i hi
                                  linarith, by simp only [refClass, Nat.floor_natCast]; have := htm i hi; omega⟩)
    (fun i hi => by
      rw [abs_of_nonneg (by positivity)]
      have : (c i : ℝ) < 10 := by exact_mod_cast hc i hi
      linarith)
  refine ⟨w', out, m, ?_, p1, p3, c, lab t, c2, htm, ⟨t, ht, rfl⟩, ?_⟩
  · unfold measure World.predictClasses
    rw [p1, bind_ok']
    dsimp only
    rw [c1, bind_ok']
    show (Metrics.compute r.g r.div0 {} _ _ 0 >>= _) = _
    rw [m1]
    rfl
  · rw [m3, m2]
    unfold nbHits
    congr 4
    refine Finset.filter_congr fun i _ => ?_
    have : ⌊(c i : ℝ) + 1 / 2⌋₊ = c i := by
      rw [Nat.floor_eq_iff (by positivity)]
      constructor <;> norm_num
    simp only [predClass, refClass, this, Nat.floor_natCast, Nat.add_sub_cancel]

/-- The common part of the classification programs. -/
theorem classify_ok {r : RunEnv} (hr : r.Exact) (eps : ℝ) {load : Out (Bool × DataSource)} {net : (Nat → Env) → World → Out World} {epochs batch : Nat}
    {d : DataSource} (hd : load = .ok (true, d)) {depth : Nat} {form : Nat → Form} {w₀ : World} (hb : net r.build start = .ok w₀)
    (hT : Trainable w₀ 0 depth form) (ho : Owned w₀) (hn : ∀ m, m ≠ 0 → w₀.nets m = start.nets m) (h10 : (form depth).width = 10) (hf : (form 0).floor = false)
    {N M : Nat} (hN : 0 < N) (hM : 0 < M) {x x' : Nat → Row} {lab lab' : Nat → Nat} (hl : ∀ i, i < N → lab i < 10) (hl' : ∀ i, i < M → lab' i < 10)
    (d1 : d.trainData = Mat.ofFn N (form 0).width x) (d2 : d.trainTruth = Mat.ofFn N 1 fun i _ => (lab i : ℝ))
    (d3 : d.valData = Mat.ofFn M (form 0).width x') (d4 : d.valTruth = Mat.ofFn M 1 fun i _ => (lab' i : ℝ)) :
    Works r (fun x => |x|) eps (classify r (fun x => |x|) eps load net epochs batch) net epochs batch d N M lab lab' := by
  obtain ⟨t, ht⟩ : ∃ t : Trainer, t = { epochs := epochs, batchSize := batch, loss := "SparseCategoricalCrossEntropy", train := some (d.trainData, d.trainTruth), valid := some (d.valData, d.valTruth) } :=
    ⟨_, rfl⟩
  have hs : settings r (fun x => |x|) eps d epochs batch = .ok t := by rw [ht]; rfl
  have tf : ∀ {n : Nat} {l : Nat → Nat}, (∀ i, i < n → l i < 10) → TruthFits "SparseCategoricalCrossEntropy" (form depth).width 1 n (fun i _ => (l i : ℝ)) := fun {n l} h => by
    rw [TruthFits, if_pos rfl, h10]
    exact ⟨rfl, by decide, fun i hi => ⟨l i, h i hi, rfl⟩⟩
  have su : TrainSetup w₀ t 0 1 depth form N 1 x (fun i _ => (lab i : ℝ)) := by
    subst ht
    exact
    { net := hT
      owned := ho
      slot := by decide
      fresh := by rw [hn 1 (by decide)]; rfl
      inOut := fun _ h => absurd h List.not_mem_nil
      gradient := fun _ h => absurd h List.not_mem_nil
      samples := hN
      train := by rw [d1, d2]
      floor := fun h => by rw [hf] at h; cases h
      truth := tf hl
      valid := fun p hp => by
        cases hp
        exact ⟨M, 1, x', fun i _ => (lab' i : ℝ), tf hl', by rw [d3, d4]⟩
      valBatch := by norm_num
      batchSize := Int.natCast_nonneg _
      loss := (by decide : "SparseCategoricalCrossEntropy" ∈ listLoss)
      balancing := rfl
      patience := .inl rfl }
  obtain ⟨w, t', seen, f1, f2, f3, f4, f5⟩ := C98_fit_runs su (k := .adam) (by rw [ht]; rfl) eps hr.fit
  obtain ⟨w', out, m, g1, g2, g3, g4⟩ := measure_ok hr (k := 0) f2 h10 hN x lab hl
  obtain ⟨w'', out', m', k1, k2, k3, k4⟩ := measure_ok hr (k := 1) g3 h10 hM x' lab' hl'
  rw [← d1] at g1 g2
  rw [← d2] at g1
  rw [← d3] at k1 k2
  rw [← d4] at k1
  refine ⟨w, w', w'', out, out', ⟨w'', m, m'⟩, ?_, ⟨w₀, t, t', seen, hb, hs, f1, by rw [f5, ht]; rfl⟩, g2, k2, rfl, g4, k4⟩
  unfold classify
  rw [hd, bind_ok']
  dsimp only
  rw [if_neg (by decide), hb, bind_ok', hs, bind_ok', f1, bind_ok']
  dsimp only
  rw [g1, bind_ok']
  dsimp only
  rw [k1, bind_ok']
  rfl

/-- A program without data stops. -/
theorem classify_none {r : RunEnv} {ab : ℝ → ℝ} {eps : ℝ} {load : Out (Bool × DataSource)} {net : (Nat → Env) → World → Out World} {epochs batch : Int}
    {d : DataSource} (hd : load = .ok (false, d)) : classify r ab eps load net epochs batch = .ok none := by
  unfold classify
  rw [hd, bind_ok']
  rfl

end BeeDNN.Samples
