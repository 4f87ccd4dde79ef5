import Verif.Lemmas.TwinNew

/-! # Results do not depend on uninitialised memory: C107 -/

namespace BeeDNN
open Trainer

/-- Two networks that agree have the same classes. -/
theorem Ready.twin {w v : World} (hcore : v.core = w.core) {n d : Nat} {form : Nat → Form} {kinds : Nat → LayerKind} (h : Ready w n d form kinds)
    (h' : Trainable v n d form) : Ready v n d form kinds := by
  refine ⟨h'.nodup, h'.count, fun i a ha => ?_⟩
  obtain ⟨m, h1, h2⟩ := h'.layer i a ha
  obtain ⟨l, h3, -, h4⟩ := h.layers i a (by rw [← World.core_nets hcore]; exact ha)
  obtain ⟨m', h5, h6⟩ := World.core_at hcore h3
  rw [h1] at h5
  cases h5
  exact ⟨m, h1, h2, (Layer.core_kind h6).trans h4⟩

/-- C107: two runs of `fit` with the same draws, on networks that differ at most in members that are written before they are
read, both come to their end.  The trainers they return are equal, the networks are equal but for such members, and so are the
networks that the callback saw after each epoch: nothing that was found in uninitialised memory has an influence. -/
theorem C107_fit {w v : World} (hcore : v.core = w.core) {t : Trainer} {n b depth : Nat} {form : Nat → Form} {N D : Nat} {x y : Nat → Row}
    (h : TrainSetup w t n b depth form N D x y) (h' : Trainable v n depth form)
    {k : OptKind} (hk : createOptimizer t.optName = some k) (eps : ℝ) {e f : FitEnv} (he : e.Exact) (hef : e.Twin f) :
    ∃ (w' v' : World) (t' : Trainer) (seen seen' : List (List (Option Layer))),
      fit (fun x => |x|) eps e w t n b = .ok (w', t', seen) ∧ fit (fun x => |x|) eps f v t n b = .ok (v', t', seen') ∧ v'.core = w'.core ∧
      seen'.map (List.map (Option.map Layer.core)) = seen.map (List.map (Option.map Layer.core)) := by
  obtain ⟨kinds, hr⟩ := h.net.ready
  have hpos : 0 < (form depth).width := by
    have hd := h.net.nonempty
    obtain ⟨l, -, h2⟩ := h.net.layer (depth - 1) _ (List.getElem?_eq_getElem (by rw [h.net.count]; omega))
    have := h2.pos.2
    rwa [Nat.sub_add_cancel hd] at this
  obtain ⟨ψ, l1, -⟩ := lossOk_of_mem eps h.loss hpos D
  exact fit_twin (e := e) ⟨he.batch, he.eval⟩ hef hcore hr (hr.twin hcore h') h.net.nonempty h.owned h.slot h.fresh h.inOut h.gradient hk h.samples x y h.train
    ⟨Mat.shape_ofFn _ _ _, fun hf => Mat.above_ofFn.2 (h.floor hf)⟩ h.truth h.valid h.valBatch h.batchSize h.balancing h.loss l1 h.patience

/-- C107: two such networks predict the same matrix. -/
theorem C107_predict {w v : World} (hcore : v.core = w.core) {n depth : Nat} {form : Nat → Form} (h : Trainable w n depth form) (h' : Trainable v n depth form)
    {e f : Nat → Env} (he : ∀ i, (e i).Exact) (hef : ∀ i, (e i).Twin (f i)) {N : Nat} (hN : 0 < N) {X out : Mat ℝ} (hX : X.Shape N (form 0).width) (ho : out.WF) :
    ∃ w' v' Y, w.predict e n X out = .ok (w', Y) ∧ v.predict f n X out = .ok (v', Y) ∧ v'.core = w'.core :=
  predict_twin he hef (lasting_fits form) hcore hN h.nodup h.count h.onNet h'.onNet hX ho

/-- C107: two runs that make the same network from new layers get equal layers. -/
theorem C107_build {e f : Nat → Env} (hef : ∀ i, (e i).Twin (f i)) {wInit bInit : String} (hw : wInit ∈ initNames) (hb : bInit ∈ initNames) {w v : World}
    (hcore : v.core = w.core) (ho : Owned w) {n : Nat} (hn : (w.nets n).layers = []) {ks : List LayerKind} (hne : ks ≠ []) {form : Nat → Form}
    (hp : ∀ i, i ≤ ks.length → 0 < (form i).width)
    (hk : ∀ i k, ks[i]? = some k → LayerKind.Made k ∧ LayerKind.Takes (decide (i = 0)) (form i) (form (i + 1)) k ∧ LayerKind.Sized (form i) (form (i + 1)) k) :
    ∃ w' v', w.build e wInit bInit n 0 ks = .ok w' ∧ v.build f wInit bInit n 0 ks = .ok v' ∧ v'.core = w'.core := by
  obtain ⟨w', h1, -⟩ := C98_build e hw hb ho hn hne hp hk
  obtain ⟨v', h2, -⟩ := C98_build f hw hb (World.core_owned hcore ho) (by rw [World.core_nets hcore]; exact hn) hne hp hk
  exact ⟨w', v', h1, h2, build_twin (form := form) hef hw hb ks 0 hcore (fun j k h => by rw [Nat.zero_add]; exact (hk j k h).2.1) h1 h2⟩

/-- C107: a program that makes a network, trains it and predicts has the same predictions in every run with the same draws. -/
theorem C107_program {e₀ f₀ : Nat → Env} (h₀ : ∀ i, (e₀ i).Twin (f₀ i)) {e f : FitEnv} (he : e.Exact) (hef : e.Twin f) {e₁ f₁ : Nat → Env} (he₁ : ∀ i, (e₁ i).Exact)
    (h₁ : ∀ i, (e₁ i).Twin (f₁ i)) {wInit bInit : String} (hw : wInit ∈ initNames) (hb : bInit ∈ initNames) {w : World} (ho : Owned w) {n b : Nat}
    (hn : (w.nets n).layers = []) {ks : List LayerKind} (hne : ks ≠ []) {form : Nat → Form} (hp : ∀ i, i ≤ ks.length → 0 < (form i).width)
    (hk : ∀ i k, ks[i]? = some k → LayerKind.Made k ∧ LayerKind.Takes (decide (i = 0)) (form i) (form (i + 1)) k ∧ LayerKind.Sized (form i) (form (i + 1)) k)
    {t : Trainer} {N D : Nat} {x y : Nat → Row}
    (ht : ∀ v : World, Trainable v n ks.length form → Owned v → (∀ m, m ≠ n → v.nets m = w.nets m) → TrainSetup v t n b ks.length form N D x y)
    {k : OptKind} (ho' : createOptimizer t.optName = some k) (eps : ℝ) {M : Nat} (hM : 0 < M) {X out : Mat ℝ} (hX : X.Shape M (form 0).width) (hout : out.WF) :
    ∃ Y, w.program e₀ e e₁ eps wInit bInit ks t n b X out = .ok Y ∧ w.program f₀ f f₁ eps wInit bInit ks t n b X out = .ok Y := by
  obtain ⟨w₁, a1, a2, a3, -, a4⟩ := C98_build e₀ hw hb ho hn hne hp hk
  obtain ⟨v₁, b1, b2, b3, -, b4⟩ := C98_build f₀ hw hb ho hn hne hp hk
  have hc := build_twin (form := form) h₀ hw hb ks 0 rfl (fun j k h => by rw [Nat.zero_add]; exact (hk j k h).2.1) a1 b1
  have s1 := ht w₁ a2 a3 a4
  have s2 := ht v₁ b2 b3 b4
  obtain ⟨w₂, v₂, t₂, seen, seen', c1, c2, c3, -⟩ := C107_fit hc s1 b2 ho' eps he hef
  obtain ⟨_, _, _, d1, d2, -⟩ := C98_fit_runs s1 ho' eps he
  obtain ⟨_, _, _, d1', d2', -⟩ := C98_fit_runs s2 ho' eps (e := f) ⟨fun i j k l => (hef.exact ⟨he.batch, he.eval⟩).batch i j k l, fun i j k => (hef.exact ⟨he.batch, he.eval⟩).eval i j k⟩
  rw [c1] at d1
  rw [c2] at d1'
  cases d1
  cases d1'
  obtain ⟨w₃, v₃, Y, g1, g2, -⟩ := C107_predict c3 d2 d2' he₁ h₁ hM hX hout
  refine ⟨Y, ?_, ?_⟩
  · simp only [World.program, a1, c1, g1, bind_ok', pure_ok]
  · simp only [World.program, b1, c2, g2, bind_ok', pure_ok]

/-! ## An example -/

/-- Fresh memory full of zeros. -/
noncomputable def quietEnv : Env := ⟨fun _ => 0, fun _ => 0, id, fun _ => 0, fun _ => 0, fun _ => 0, fun _ => 0⟩

/-- Fresh memory full of other values. -/
noncomputable def dirtyEnv : Env := { quietEnv with g := fun i => 7 - i, gi := fun i => -3 * i }

theorem quiet_twin : quietEnv.Twin dirtyEnv := ⟨_, _, rfl⟩

theorem quiet_exact : quietEnv.Exact := fun _ _ _ => rfl

/-- The convolutional network, trained for 20 epochs, predicts the same numbers whatever is in fresh memory. -/
example (eps : ℝ) : ∃ Y,
    emptyWorld.program (fun _ => quietEnv) ⟨fun _ _ => 0, fun _ _ _ _ => quietEnv, fun _ _ _ => quietEnv, fun _ _ => quietEnv, fun _ => 0, 0⟩ (fun _ => quietEnv)
      eps "GlorotUniform" "Zeros" cnnKinds cnnTrainer 0 1 (Mat.ofFn 2 16 fun i j => (i : ℝ) + j) ⟨0, 0, []⟩ = .ok Y ∧
    emptyWorld.program (fun _ => dirtyEnv) ⟨fun _ _ => 0, fun _ _ _ _ => dirtyEnv, fun _ _ _ => dirtyEnv, fun _ _ => dirtyEnv, fun _ => 5, 0⟩ (fun _ => dirtyEnv)
      eps "GlorotUniform" "Zeros" cnnKinds cnnTrainer 0 1 (Mat.ofFn 2 16 fun i j => (i : ℝ) + j) ⟨0, 0, []⟩ = .ok Y :=
  C107_program (n := 0) (b := 1) (t := cnnTrainer) (e := ⟨fun _ _ => 0, fun _ _ _ _ => quietEnv, fun _ _ _ => quietEnv, fun _ _ => quietEnv, fun _ => 0, 0⟩)
    (f := ⟨fun _ _ => 0, fun _ _ _ _ => dirtyEnv, fun _ _ _ => dirtyEnv, fun _ _ => dirtyEnv, fun _ => 5, 0⟩)
    (X := Mat.ofFn 2 16 fun i j => (i : ℝ) + j) (fun _ => quiet_twin) ⟨fun _ _ _ _ => quiet_exact, fun _ _ _ => quiet_exact⟩
    ⟨rfl, fun _ _ _ _ => quiet_twin, fun _ _ _ => quiet_twin, fun _ _ => quiet_twin, rfl⟩ (fun _ => quiet_exact) (fun _ => quiet_twin)
    (wInit := "GlorotUniform") (bInit := "Zeros") (by decide) (by decide) emptyWorld_owned rfl (ks := cnnKinds) (by simp [cnnKinds]) (form := cnnForm) (fun i hi => by
      have hi : i ≤ 5 := hi
      interval_cases i <;> decide) cnn_takes
    (fun v h1 h2 h3 => cnn_setup h1 h2 (by rw [h3 1 (by decide)]; rfl)) (k := .adam) rfl eps (M := 2) (by decide) (Mat.shape_ofFn _ _ _) Mat.WF_empty

/-- Two worlds that differ in a gradient agree. -/
example (l : Layer) : (⟨[some { l with gradWeight := ⟨1, 1, [4]⟩ }], fun _ => {}⟩ : World).core = (⟨[some l], fun _ => {}⟩ : World).core := rfl

/-- Two worlds that differ in a weight do not. -/
example : (⟨[some { kind := .softmax, weight := ⟨1, 1, [4]⟩ }], fun _ => {}⟩ : World).core ≠ (⟨[some { kind := .softmax }], fun _ => {}⟩ : World).core := by
  intro h
  have := congrArg (fun w : World => w.heap.map (Option.map fun l => l.weight.rows)) h
  simp [World.core, Layer.core] at this

end BeeDNN
