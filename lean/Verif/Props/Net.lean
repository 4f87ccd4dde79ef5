import Verif.Lemmas.NetFrame
import Verif.Props.Matrix
import Verif.Props.Layer

/-! # Properties of networks: C21, C47, C48, C49 -/

namespace BeeDNN
open World

/-! ## Witnesses -/

/-- Network 0: a dense layer (2 inputs, 1 output) followed by softmax; network 1 is empty. -/
noncomputable def netWitness : World :=
  { heap := [some denseWitness, some { kind := .softmax }], nets := fun n => if n = 0 then { layers := [0, 1] } else {} }

theorem netWitness_fn : ∃ φ, NetFn netWitness (netWitness.nets 0).layers 2 1 φ :=
  ⟨_, .cons 0 [1] denseWitness 2 1 1 _ _ rfl
    (.dense 2 1 2 1 (fun i _ => (i : ℝ) + 1) (fun _ _ => 3) rfl rfl rfl)
    (.cons 1 [] { kind := .softmax } 1 1 1 _ _ rfl (.softmax 1 rfl) (.nil 1))⟩

theorem netWitness_test : TestMode netWitness (netWitness.nets 0).layers := by
  intro a ha l hl
  have h01 : a = 0 ∨ a = 1 := by simpa [netWitness] using ha
  rcases h01 with rfl | rfl <;> simp [netWitness] at hl <;> subst hl <;> rfl

theorem netWitness_owned : Owned netWitness where
  live := by
    intro n a ha
    by_cases hn : n = 0
    · have h01 : a = 0 ∨ a = 1 := by simpa [netWitness, hn] using ha
      rcases h01 with rfl | rfl
      · exact ⟨_, rfl⟩
      · exact ⟨_, rfl⟩
    · simp [netWitness, hn] at ha
  nodup := by
    intro n
    by_cases hn : n = 0 <;> simp [netWitness, hn]
  disjoint := by
    intro n m a h1 h2
    by_cases hn : n = 0 <;> by_cases hm : m = 0 <;> simp [netWitness, hn, hm] at h1 h2 ⊢

theorem netWitness_valid : AllValid netWitness (netWitness.nets 0).layers := by
  intro a ha l hl
  have h01 : a = 0 ∨ a = 1 := by simpa [netWitness] using ha
  rcases h01 with rfl | rfl <;> simp [netWitness] at hl <;> subst hl
  · exact denseWitness_valid
  · exact Layer.valid_new .softmax "" "" trivial

/-! ## C47 -/

/-- C47: predicting with a non-empty network in test mode gives, for every batch, the composition of the functions
of its layers in insertion order, applied to each sample.  The result does not depend on the earlier content of the
output matrix, on fresh memory or on the random engine.  Predicting again gives the same function, other networks
are untouched. -/
theorem C47_compose (e : Nat → Env) (w : World) (ho : Owned w) (n : Nat) (hne : (w.nets n).layers ≠ []) (C C' : Nat)
    (φ : Row → Row) (hf : NetFn w (w.nets n).layers C C' φ) (ht : TestMode w (w.nets n).layers) (N : Nat) (x : Nat → Row)
    (mOut : Mat ℝ) (hm : mOut.WF) :
    ∃ w', w.predict e n (Mat.ofFn N C x) mOut = .ok (w', Mat.ofFn N C' (fun s => φ (x s))) ∧
      NetFn w' (w'.nets n).layers C C' φ ∧ TestMode w' (w'.nets n).layers ∧ Owned w' ∧ w'.nets = w.nets ∧
      ∀ m, m ≠ n → ∀ a ∈ (w.nets m).layers, w'.heap[a]? = w.heap[a]? := by
  obtain ⟨w', t, h1, h2, h3, h4, h5, h6⟩ := predictLoop_ok e _ w hf (ho.nodup n) ht 0 N x hm
  obtain ⟨t1, t2⟩ := predictLoop_touch e _ _ _ _ _ h1
  refine ⟨w', ?_, ?_, ?_, ?_, h4, ?_⟩
  · rw [predict, h1, bind_ok', if_neg hne]; rfl
  · rw [h4]; exact h2
  · rw [h4]; exact h3
  · exact ho.touch t1 (fun m => by rw [t2])
  · intro m hmn a ha
    exact h6 a fun h => hmn (ho.disjoint m n a ha h)

example : (netWitness.nets 0).layers ≠ [] ∧ Owned netWitness ∧ TestMode netWitness (netWitness.nets 0).layers ∧
    ∃ φ, NetFn netWitness (netWitness.nets 0).layers 2 1 φ :=
  ⟨by simp [netWitness], netWitness_owned, netWitness_test, netWitness_fn⟩

/-- C47: a network with one layer predicts what the layer computes, for every kind of layer and in any mode, faults
included. -/
theorem C47_one (e : Nat → Env) (w : World) (n a : Nat) (l : Layer) (hn : (w.nets n).layers = [a])
    (hl : w.heap[a]? = some (some l)) (mIn mOut : Mat ℝ) (hi : mIn.WF) :
    (∀ f, l.forward (e 0) mIn mOut = .error f → w.predict e n mIn mOut = .error f) ∧
    ∀ l' o, o.WF → l.forward (e 0) mIn mOut = .ok (l', o) → w.predict e n mIn mOut = .ok (w.store a l', o) := by
  constructor
  · intro f h
    rw [predict, hn, predictLoop, deref_eq hl, bind_ok', h]
    rfl
  · intro l' o hw h
    rw [predict, hn, predictLoop, deref_eq hl, bind_ok', h, bind_ok']
    simp only [Mat.assign_eq (e 0).g hi hw, bind_ok', predictLoop, pure_ok]

example : netWitness.heap[0]? = some (some denseWitness) := rfl

/-- C47: the layer added last is applied last, to the output of the network before. -/
theorem C47_add (w : World) (n : Nat) (l : Layer) (C C₁ C₂ : Nat) (φ ψ : Row → Row) (ho : Owned w)
    (hf : NetFn w (w.nets n).layers C C₁ φ) (hl : LayerRow l C₁ C₂ ψ) :
    let w' := (w.alloc l).add n w.heap.length
    NetFn w' (w'.nets n).layers C C₂ (fun v => ψ (φ v)) ∧ Owned w' := by
  have hself : (((w.alloc l).add n w.heap.length).nets n).layers = (w.nets n).layers ++ [w.heap.length] := by simp [World.add]
  have hnew : ((w.alloc l).add n w.heap.length).heap[w.heap.length]? = some (some l) := by simp [World.alloc]
  have hf' : NetFn ((w.alloc l).add n w.heap.length) (w.nets n).layers C C₁ φ := hf.congr fun a ha => by
    obtain ⟨k, hk⟩ := hf.live a ha
    simp [World.alloc, List.getElem?_append_left (lt_of_live hk)]
  refine ⟨?_, (frame_add ho n l).owned⟩
  rw [hself]
  clear hself hf
  revert hf'
  generalize (w.nets n).layers = as
  generalize (w.alloc l).add n w.heap.length = w' at hnew
  intro hf'
  induction hf' with
  | nil C => exact .cons _ [] l _ _ _ ψ (fun v => v) hnew hl (.nil _)
  | cons a as k C C₁ _ φ χ hk hφ hχ ih => exact .cons a _ k C C₁ C₂ φ _ hk hφ (ih hl)

example : LayerRow ({ kind := .softmax } : Layer) 1 1 (fun v => softmaxAt 1 v) := .softmax 1 rfl

/-- C47, a boundary: a network without layers leaves the output matrix as it was, so there the result is the earlier
content. -/
theorem C47_empty (e : Nat → Env) (w : World) (n : Nat) (hn : (w.nets n).layers = []) (mIn mOut : Mat ℝ) :
    w.predict e n mIn mOut = .ok (w, mOut) := by
  rw [predict, hn]; rfl

example : (netWitness.nets 1).layers = [] := rfl

/-- C47, where the claim fails: a recurrent layer that gets a single frame of a single sample writes nothing, so the
prediction is whatever the output matrix contained. -/
theorem C47_stale_output (e : Nat → Env) (w : World) (n a : Nat) (f : Nat) (hf : 0 < f) (l : Layer) (hk : l.kind = .simplestRNN f)
    (ht : l.train = false) (hn : (w.nets n).layers = [a]) (hl : w.heap[a]? = some (some l)) (x : Nat → Row)
    (mOut : Mat ℝ) (ho : mOut.WF) :
    ∃ w', w.predict e n (Mat.ofFn 1 f x) mOut = .ok (w', mOut) := by
  have : l.forward (e 0) (Mat.ofFn 1 f x) mOut = .ok (l, mOut) := by
    simp only [Layer.forward, hk, ht]
    have h1 : rnnForward (e 0).g f false (simplestInit (e 0).g f (e 0).draw) (simplestFrame (e 0).g f)
        ⟨l.weight, l.h, l.saved⟩ (Mat.ofFn 1 f x) mOut = .ok (⟨l.weight, l.h, l.saved⟩, mOut) := by
      have h := rnn_loop (e 0).g f 0 hf 1 false (simplestInit (e 0).g f (e 0).draw) (simplestFrame (e 0).g f)
        ⟨l.weight, l.h, l.saved⟩ ⟨l.weight, l.h, l.saved⟩ mOut x (by unfold rnnStart; rw [if_neg (by simp)])
      rw [Nat.zero_add, Nat.one_mul] at h
      exact h
    rw [h1, bind_ok', pure_ok, ← ht, ← hk]
  exact ⟨_, (C47_one e w n a l hn hl _ mOut (Mat.ofFn_WF ..)).2 l mOut ho this⟩

example : ∃ w : World, ∃ l : Layer, l.kind = .simplestRNN 1 ∧ (w.nets 0).layers = [0] ∧ w.heap[0]? = some (some l) :=
  ⟨⟨[some { kind := .simplestRNN 1 }], fun _ => { layers := [0] }⟩, { kind := .simplestRNN 1 }, rfl, rfl, rfl⟩

/-! ## C21 -/

/-- C21: predicting a batch gives the rows that predicting any piece of it gives: cut the samples `a … a+k-1` out of
the batch, predict them alone, and the same rows come out.  `k = 1` is a single sample. -/
theorem C21_batch (e₁ e₂ : Nat → Env) (w : World) (ho : Owned w) (n : Nat) (hne : (w.nets n).layers ≠ []) (C C' : Nat)
    (φ : Row → Row) (hf : NetFn w (w.nets n).layers C C' φ) (ht : TestMode w (w.nets n).layers) (N : Nat) (x : Nat → Row)
    (a k : Nat) (m₁ m₂ : Mat ℝ) (h1 : m₁.WF) (h2 : m₂.WF) :
    ∃ w₁ w₂ y, w.predict e₁ n (Mat.ofFn N C x) m₁ = .ok (w₁, Mat.ofFn N C' y) ∧
      w.predict e₂ n (Mat.ofFn k C (fun s => x (a + s))) m₂ = .ok (w₂, Mat.ofFn k C' (fun s => y (a + s))) := by
  obtain ⟨w₁, hw₁, -⟩ := C47_compose e₁ w ho n hne C C' φ hf ht N x m₁ h1
  obtain ⟨w₂, hw₂, -⟩ := C47_compose e₂ w ho n hne C C' φ hf ht k (fun s => x (a + s)) m₂ h2
  exact ⟨w₁, w₂, fun s => φ (x s), hw₁, hw₂⟩

/-- C21, cutting a batch in a row of predictions: the pieces can be predicted one after the other with the same
network (the layers may store buffers in between). -/
theorem C21_cut (e₁ e₂ : Nat → Env) (w : World) (ho : Owned w) (n : Nat) (hne : (w.nets n).layers ≠ []) (C C' : Nat)
    (φ : Row → Row) (hf : NetFn w (w.nets n).layers C C' φ) (ht : TestMode w (w.nets n).layers) (N M : Nat) (x : Nat → Row)
    (m₁ m₂ m : Mat ℝ) (h1 : m₁.WF) (h2 : m₂.WF) (hm : m.WF) :
    ∃ w₀ w₁ w₂ y, w.predict e₁ n (Mat.ofFn (N + M) C x) m = .ok (w₀, Mat.ofFn (N + M) C' y) ∧
      w.predict e₁ n (Mat.ofFn N C x) m₁ = .ok (w₁, Mat.ofFn N C' y) ∧
      w₁.predict e₂ n (Mat.ofFn M C (fun s => x (N + s))) m₂ = .ok (w₂, Mat.ofFn M C' (fun s => y (N + s))) := by
  obtain ⟨w₀, hw₀, -⟩ := C47_compose e₁ w ho n hne C C' φ hf ht (N + M) x m hm
  obtain ⟨w₁, hw₁, hf₁, ht₁, ho₁, hn₁, -⟩ := C47_compose e₁ w ho n hne C C' φ hf ht N x m₁ h1
  obtain ⟨w₂, hw₂, -⟩ := C47_compose e₂ w₁ ho₁ n (by rw [hn₁]; exact hne) C C' φ hf₁ ht₁ M (fun s => x (N + s)) m₂ h2
  exact ⟨w₀, w₁, w₂, fun s => φ (x s), hw₀, hw₁, hw₂⟩

example : Owned netWitness ∧ TestMode netWitness (netWitness.nets 0).layers := ⟨netWitness_owned, netWitness_test⟩

/-! ## C48 -/

/-- C48: assigning network `m` to another network `n`.  The copy computes the same function of a sample, is in test
mode, and has the same classification mode.  It shares no layer with any network; the source and all other networks
and their layers are unchanged.  The layers the target had before are freed. -/
theorem C48_assign (e : Nat → Env) (w : World) (ho : Owned w) (n m : Nat) (hnm : n ≠ m) (hv : AllValid w (w.nets m).layers)
    (C C' : Nat) (φ : Row → Row) (hf : NetFn w (w.nets m).layers C C' φ) :
    ∃ w', w.assign e n m = .ok w' ∧ NetFn w' (w'.nets n).layers C C' φ ∧ TestMode w' (w'.nets n).layers ∧
      AllValid w' (w'.nets n).layers ∧
      (w'.nets n).layers.length = (w.nets m).layers.length ∧ (w'.nets n).classif = (w.nets m).classif ∧
      (∀ k, ∀ a ∈ (w'.nets n).layers, a ∉ (w.nets k).layers) ∧
      (∀ k, k ≠ n → w'.nets k = w.nets k ∧ ∀ a ∈ (w.nets k).layers, w'.heap[a]? = w.heap[a]?) ∧
      (∀ a ∈ (w.nets n).layers, w'.heap[a]? = some none) ∧ Owned w' := by
  obtain ⟨w₁, h1, h2, h3, h4, h5, h6⟩ := clear_ok ho n
  have hm1 : (w₁.nets m).layers = (w.nets m).layers := by rw [h3 m hnm.symm]
  have hsame : ∀ k, k ≠ n → ∀ a ∈ (w.nets k).layers, w₁.heap[a]? = w.heap[a]? := fun k hk a ha =>
    h5 a fun h => hk (ho.disjoint k n a ha h)
  obtain ⟨w₂, d0, d1, d2, d3, d4, d5⟩ := cloneAll_ok e n (w₁.nets m).layers 0 w₁ (fun a ha => by
    rw [hm1] at ha
    obtain ⟨l, hl⟩ := ho.live m a ha
    exact ⟨l, (hsame m hnm.symm a ha).trans hl, hv a ha l hl⟩)
  have hres : w.assign e n m = .ok (w₂.setNet n { w₂.nets n with classif := (w₂.nets m).classif }) := by
    rw [assign, h1, bind_ok', d0, bind_ok', pure_ok]
  have hfr := frame_assign e ho hres
  have hlay : ((w₂.setNet n { w₂.nets n with classif := (w₂.nets m).classif }).nets n).layers =
      List.range' w₁.heap.length (w₁.nets m).layers.length := by
    rw [setNet_same, d1, h2]; simp
  have hclone : List.Forall₂ (fun a b => ∃ l p, w.heap[a]? = some (some l) ∧ w₂.heap[b]? = some (some p) ∧ l.CloneOk p)
      (w.nets m).layers (List.range' w₁.heap.length (w₁.nets m).layers.length) := by
    rw [hm1] at d5 ⊢
    refine List.Forall₂.imp (fun a b => ?_) ((List.forall₂_and_left _ _).2 ⟨fun a ha => ha, d5⟩)
    rintro ⟨ha, l, p, hl, hp, hc⟩
    exact ⟨l, p, by rw [← hsame m hnm.symm a ha]; exact hl, hp, hc⟩
  have hcl : ∀ b ∈ List.range' w₁.heap.length (w₁.nets m).layers.length, ∃ p, w₂.heap[b]? = some (some p) ∧ p.train = false ∧
      p.Valid := by
    intro b hb
    revert hclone
    generalize (w.nets m).layers = as
    generalize List.range' w₁.heap.length (w₁.nets m).layers.length = bs at hb
    intro hclone
    induction hclone with
    | nil => cases hb
    | cons h1 h2 ih =>
      rcases List.mem_cons.1 hb with rfl | hb
      · obtain ⟨l, p, -, hp, hc⟩ := h1
        exact ⟨p, hp, hc.train, hc.valid⟩
      · exact ih hb
  refine ⟨_, hres, ?_, ?_, ?_, ?_, ?_, ?_, ?_, ?_, hfr.owned⟩
  · rw [hlay]
    exact hf.of_clones hclone
  · intro b hb l hl
    rw [hlay] at hb
    obtain ⟨p, hp, ht, -⟩ := hcl b hb
    rw [setNet_heap, hp] at hl
    injection hl with hl
    injection hl with hl
    rw [← hl, ht]
  · intro b hb l hl
    rw [hlay] at hb
    obtain ⟨p, hp, -, hv⟩ := hcl b hb
    rw [setNet_heap, hp] at hl
    injection hl with hl
    injection hl with hl
    rw [← hl]; exact hv
  · rw [hlay, List.length_range', hm1]
  · rw [setNet_same, d2 m hnm.symm, h3 m hnm.symm]
  · intro k a ha hk
    rw [hlay, List.mem_range'_1] at ha
    obtain ⟨l, hl⟩ := ho.live k a hk
    have := lt_of_live hl
    omega
  · exact fun k hk => ⟨hfr.nets k hk, hfr.layers k hk⟩
  · intro a ha
    rw [setNet_heap]
    obtain ⟨l, hl⟩ := ho.live n a ha
    rw [d4 a (by have := lt_of_live hl; omega)]
    exact h6 a ha

example : Owned netWitness ∧ (1 : Nat) ≠ 0 ∧ AllValid netWitness (netWitness.nets 0).layers ∧
    ∃ φ, NetFn netWitness (netWitness.nets 0).layers 2 1 φ :=
  ⟨netWitness_owned, by decide, netWitness_valid, netWitness_fn⟩

/-- C48: after the assignment both networks predict, for every batch, the output the source predicted before. -/
theorem C48_predict (e : Nat → Env) (w : World) (ho : Owned w) (n m : Nat) (hnm : n ≠ m) (hv : AllValid w (w.nets m).layers)
    (ht : TestMode w (w.nets m).layers) (hne : (w.nets m).layers ≠ [])
    (C C' : Nat) (φ : Row → Row) (hf : NetFn w (w.nets m).layers C C' φ) :
    ∃ w', w.assign e n m = .ok w' ∧ ∀ (e₁ e₂ : Nat → Env) (N : Nat) (x : Nat → Row) (m₁ m₂ : Mat ℝ), m₁.WF → m₂.WF →
      ∃ w₁ w₂ w₃ y, w'.predict e₁ n (Mat.ofFn N C x) m₁ = .ok (w₁, y) ∧ w'.predict e₂ m (Mat.ofFn N C x) m₂ = .ok (w₂, y) ∧
        w.predict e₂ m (Mat.ofFn N C x) m₂ = .ok (w₃, y) := by
  obtain ⟨w', h1, h2, h3, -, h4, -, -, h5, -, h6⟩ := C48_assign e w ho n m hnm hv C C' φ hf
  refine ⟨w', h1, fun e₁ e₂ N x m₁ m₂ g1 g2 => ?_⟩
  obtain ⟨hn, hl⟩ := h5 m hnm.symm
  have hne' : (w'.nets n).layers ≠ [] := by
    intro h; rw [h] at h4; exact hne (List.length_eq_zero_iff.1 h4.symm)
  have hf' : NetFn w' (w'.nets m).layers C C' φ := by rw [hn]; exact hf.congr hl
  have ht' : TestMode w' (w'.nets m).layers := by
    rw [hn]; intro a ha l h; rw [hl a ha] at h; exact ht a ha l h
  obtain ⟨w₁, p1, -⟩ := C47_compose e₁ w' h6 n hne' C C' φ h2 h3 N x m₁ g1
  obtain ⟨w₂, p2, -⟩ := C47_compose e₂ w' h6 m (by rw [hn]; exact hne) C C' φ hf' ht' N x m₂ g2
  obtain ⟨w₃, p3, -⟩ := C47_compose e₂ w ho m hne C C' φ hf ht N x m₂ g2
  exact ⟨w₁, w₂, w₃, _, p1, p2, p3⟩

/-- C48, where the claim fails: assigning a network to itself deletes all its layers. -/
theorem C48_self_assignment_empties (e : Nat → Env) (w : World) (ho : Owned w) (n : Nat) :
    ∃ w', w.assign e n n = .ok w' ∧ (w'.nets n).layers = [] ∧ ∀ a ∈ (w.nets n).layers, w'.heap[a]? = some none := by
  obtain ⟨w₁, h1, h2, h3, h4, h5, h6⟩ := clear_ok ho n
  have hl : (w₁.nets n).layers = [] := by rw [h2]
  refine ⟨w₁.setNet n { w₁.nets n with classif := (w₁.nets n).classif }, ?_, ?_, h6⟩
  · rw [assign, h1, bind_ok', hl, cloneAll, bind_ok', pure_ok]
  · rw [setNet_same, h2]

example : Owned netWitness ∧ (netWitness.nets 0).layers ≠ [] := ⟨netWitness_owned, by simp [netWitness]⟩

/-- C48 and C44, independence: run any program over the interface (adding, replacing, assigning, clearing, predicting,
switching the mode, initialising, changing a layer in place) that works on networks other than `m`.  Network `m`
keeps its layers, every one of them unchanged, so it keeps predicting the same; and every network still owns its
layers. -/
theorem C48_independent (e : Nat → Nat → Env) (m : Nat) : ∀ (ops : List NetOp) (k : Nat) (w w' : World), Owned w →
    (∀ op ∈ ops, op.target ≠ m) → NetOp.run e k ops w = .ok w' →
    Owned w' ∧ w'.nets m = w.nets m ∧ ∀ a ∈ (w.nets m).layers, w'.heap[a]? = w.heap[a]?
  | [], k, w, w', ho, _, h => by
    injection h with h; subst h; exact ⟨ho, rfl, fun _ _ => rfl⟩
  | op :: ops, k, w, w', ho, hops, h => by
    rw [NetOp.run] at h
    obtain ⟨w₁, h1, h⟩ := ok_bind h
    have f := frame_step (e k) ho h1
    have hm : m ≠ op.target := (hops op List.mem_cons_self).symm
    obtain ⟨r1, r2, r3⟩ := C48_independent e m ops (k + 1) w₁ w' f.owned (fun o ho => hops o (List.mem_cons_of_mem _ ho)) h
    refine ⟨r1, r2.trans (f.nets m hm), fun a ha => ?_⟩
    rw [r3 a (by rw [f.nets m hm]; exact ha), f.layers m hm a ha]

example : ∀ op ∈ [NetOp.clear 1, NetOp.assign 1 0, NetOp.setTrain 1 true], op.target ≠ 0 := by decide

/-- C48, memory: with exclusive ownership, clearing, adding, replacing an existing layer, switching the mode and
assigning a network of well-formed layers never fault (no layer is freed twice or used after being freed). -/
theorem C48_no_fault (e : Nat → Env) (w : World) (ho : Owned w) (n m i : Nat) (l : Layer) (b : Bool)
    (hi : i < (w.nets n).layers.length) (hv : AllValid w (w.nets m).layers) :
    (∃ w', (NetOp.clear n).step e w = .ok w') ∧ (∃ w', (NetOp.add n l).step e w = .ok w') ∧
    (∃ w', (NetOp.replace n i l).step e w = .ok w') ∧ (∃ w', (NetOp.setTrain n b).step e w = .ok w') ∧
    ∃ w', (NetOp.assign n m).step e w = .ok w' := by
  refine ⟨?_, ⟨_, rfl⟩, ?_, ?_, ?_⟩
  · obtain ⟨w', h, -⟩ := clear_ok ho n
    exact ⟨w', h⟩
  · have hb : (w.nets n).layers[i]? = some (w.nets n).layers[i] := List.getElem?_eq_getElem hi
    obtain ⟨k, hk⟩ := ho.live n _ (List.mem_of_getElem? hb)
    have hk' : (w.alloc l).heap[(w.nets n).layers[i]]? = some (some k) := by
      simp only [World.alloc]
      rw [List.getElem?_append_left (lt_of_live hk), hk]
    exact ⟨_, by simp only [NetOp.step, World.replace, alloc_nets, hb, free_eq hk', bind_ok', pure_ok]; rfl⟩
  · have key : ∀ (as : List Nat) (w : World), (∀ a ∈ as, ∃ l, w.heap[a]? = some (some l)) →
        ∃ w', setTrainAll b as w = .ok w' := by
      intro as
      induction as with
      | nil => exact fun w _ => ⟨w, rfl⟩
      | cons a as ih =>
        intro w h
        obtain ⟨l, hl⟩ := h a List.mem_cons_self
        obtain ⟨w', h'⟩ := ih (w.store a (l.setTrain b)) (fun c hc => by
          obtain ⟨k, hk⟩ := h c (List.mem_cons_of_mem _ hc)
          exact (touch_store (l.setTrain b) hl).live c k hk)
        exact ⟨w', by rw [setTrainAll, deref_eq hl, bind_ok', h']⟩
    exact key _ _ (ho.live n)
  · by_cases hnm : n = m
    · subst hnm
      obtain ⟨w', h, -⟩ := C48_self_assignment_empties e w ho n
      exact ⟨w', h⟩
    · obtain ⟨w₁, h1, h2, h3, h4, h5, h6⟩ := clear_ok ho n
      obtain ⟨w₂, d0, -⟩ := cloneAll_ok e n (w₁.nets m).layers 0 w₁ (fun a ha => by
        rw [h3 m (Ne.symm hnm)] at ha
        obtain ⟨l, hl⟩ := ho.live m a ha
        exact ⟨l, (h5 a fun h => hnm (ho.disjoint n m a h ha)).trans hl, hv a ha l hl⟩)
      exact ⟨_, by rw [NetOp.step, assign, h1, bind_ok', d0, bind_ok', pure_ok]⟩

example : (0 : Nat) < (netWitness.nets 0).layers.length := by simp [netWitness]

/-- C48, a hazard next to the claim: `Net` has no copy constructor of its own, the implicit one copies the pointers.
After copy construction, destroying both networks frees every layer twice. -/
theorem C48_copy_constructor_double_free (w : World) (ho : Owned w) (n m : Nat) (hnm : n ≠ m) (hne : (w.nets m).layers ≠ []) :
    ∃ w₁, (w.copyConstruct n m).clear n = .ok w₁ ∧ w₁.clear m = .error .doubleFree := by
  have hl : ((w.copyConstruct n m).nets n).layers = (w.nets m).layers := by simp [copyConstruct]
  obtain ⟨w', h1, h2, h3, h4, h5⟩ := freeAll_ok (w.nets m).layers (w.copyConstruct n m) (ho.live m) (ho.nodup m)
  refine ⟨w'.setNet n { w'.nets n with layers := [], train := false }, ?_, ?_⟩
  · rw [clear, hl, h1, bind_ok', pure_ok]
  · have : ((w'.setNet n { w'.nets n with layers := [], train := false }).nets m).layers = (w.nets m).layers := by
      rw [setNet_other _ _ hnm.symm, h2, copyConstruct, setNet_other _ _ hnm.symm]
    rw [clear, this]
    revert h5 hne
    generalize (w.nets m).layers = as
    cases as with
    | nil => exact fun h => absurd rfl h
    | cons a as =>
      intro _ h5
      rw [freeAll, free, setNet_heap, h5 a List.mem_cons_self]
      rfl

/-! ## C49 -/

/-- C49, several outputs: one label per sample, the first argmax of its output row, whatever the label matrix
contained. -/
theorem C49_argmax (g : Nat → ℝ) (N C : Nat) (hC : 1 < C) (y : Nat → Row) (mClass : Mat ℝ) (hm : mClass.WF) :
    ∃ k : Nat → Nat, toClasses g (Mat.ofFn N C y) mClass = .ok (Mat.ofFn N 1 (fun s _ => (k s : ℝ))) ∧
      ∀ s < N, IsFirstMax C (y s) (k s) := by
  obtain ⟨a, ha, h⟩ := C11_rowsArgmax g N C (by omega) y mClass hm
  refine ⟨a, ?_, ?_⟩
  · rw [World.toClasses, Mat.ofFn_cols, if_pos (by omega), h]
  · intro s hs
    exact ha s hs

example : IsFirstMax 3 (fun j => if j = 0 then 1 else 2) 1 := by
  refine ⟨by decide, ?_, ?_⟩
  · intro j hj; by_cases h : j = 0 <;> norm_num [h]
  · intro j hj
    have : j = 0 := by omega
    subst this; norm_num

/-- C49, one output: the label is the output rounded to an integer, no other integer is nearer, and a tie goes away
from zero. -/
theorem C49_round (g : Nat → ℝ) (N : Nat) (y : Nat → Row) (mClass : Mat ℝ) (hm : mClass.WF) :
    ∃ r : Nat → ℤ, toClasses g (Mat.ofFn N 1 y) mClass = .ok (Mat.ofFn N 1 (fun s _ => (r s : ℝ))) ∧
      ∀ s < N, |y s 0 - r s| ≤ 1 / 2 ∧ (|y s 0 - r s| = 1 / 2 → |y s 0| < |(r s : ℝ)|) := by
  refine ⟨fun s => if 0 ≤ y s 0 then ⌊y s 0 + 1 / 2⌋ else -⌊-y s 0 + 1 / 2⌋, ?_, ?_⟩
  · obtain ⟨d, hd⟩ := Mat.resize_ofFn g hm N 1
    rw [World.toClasses, Mat.ofFn_cols, if_neg (by omega), Mat.ofFn_rows, hd]
    refine Mat.forN_eachRow fun s hs f' _ => ?_
    rw [Mat.get_ofFn hs Nat.zero_lt_one, bind_ok', Mat.set_ofFn hs Nat.zero_lt_one]
    congr 1
    refine Mat.ofFn_congr fun i j hi hj => ?_
    have : j = 0 := by omega
    subst this
    by_cases h : i = s
    · subst h
      simp only [and_self, if_true, roundf]
      split <;> simp
    · simp [h]
  · intro s hs
    dsimp only
    split
    · rename_i h0
      have h1 := Int.floor_le (y s 0 + 1 / 2)
      have h2 := Int.lt_floor_add_one (y s 0 + 1 / 2)
      refine ⟨abs_le.2 ⟨by linarith, by linarith⟩, fun h => ?_⟩
      rcases abs_eq (by norm_num : (0 : ℝ) ≤ 1 / 2) |>.1 h with h | h
      · linarith
      · rw [abs_of_nonneg h0, abs_of_nonneg (by linarith)]
        linarith
    · rename_i h0
      push_neg at h0
      have h1 := Int.floor_le (-y s 0 + 1 / 2)
      have h2 := Int.lt_floor_add_one (-y s 0 + 1 / 2)
      push_cast
      refine ⟨abs_le.2 ⟨by linarith, by linarith⟩, fun h => ?_⟩
      rcases abs_eq (by norm_num : (0 : ℝ) ≤ 1 / 2) |>.1 h with h | h
      · rw [abs_of_neg h0, abs_neg, abs_of_nonneg (by linarith)]
        linarith
      · linarith

/-- C49: `predict_classes` labels the prediction of the network. -/
theorem C49_classes (e : Nat → Env) (g : Nat → ℝ) (w : World) (ho : Owned w) (n : Nat) (hne : (w.nets n).layers ≠ [])
    (C C' : Nat) (φ : Row → Row) (hf : NetFn w (w.nets n).layers C C' φ) (ht : TestMode w (w.nets n).layers) (N : Nat)
    (x : Nat → Row) (mClass : Mat ℝ) :
    ∃ w', w.predictClasses e g n (Mat.ofFn N C x) mClass =
      (toClasses g (Mat.ofFn N C' (fun s => φ (x s))) mClass).map (fun c => (w', c)) := by
  obtain ⟨w', h, -⟩ := C47_compose e w ho n hne C C' φ hf ht N x ⟨0, 0, []⟩ Mat.WF_empty
  refine ⟨w', ?_⟩
  rw [predictClasses, h, bind_ok']
  dsimp only
  cases toClasses g (Mat.ofFn N C' (fun s => φ (x s))) mClass <;> rfl

end BeeDNN
