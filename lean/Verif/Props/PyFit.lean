import Verif.Lemmas.PyFit
import Verif.Props.PyTrain

/-! # Properties of `fit` of the Python library -/

namespace BeeDNN
open Finset

/-- C136: `fit` of the Python library runs without exception.  It starts from weights drawn anew and biases 0; in each epoch every sample is in exactly one batch, and each
batch is a step of gradient descent unless one of its samples is at a kink.  At the end the model is in test mode, holds the last network, and the training data
are as before.
Missing for the full claim: see `C135_step_partial`; and with the metrics "accuracy" the first layer must not work in place (`C136_data_overwritten`). -/
theorem C136_fit_partial {loss : String} (hl : loss ∈ pyLosses) (lr : ℝ) (epochs batchSize : Nat) (acc : Bool) (r : PyFitRnd) {ls : List PyLayer} {m : Mlp} (hm : PyModel ls m)
    (hacc : acc = true → ∀ l, ls[0]? = some l → l.keeps = false) {h : NpStore} {x N D : Nat} (hN : 0 < N) {v y : Nat → Row} (hX : h.Has x N (m.width 0) v) {t : NpArr} (ht : t.Is N D y)
    (hT : TruthFits (pyLossName loss) (m.width m.depth) D N y) (hσ : ∀ ep, ep < epochs → ((List.range N).map (r.perm ep)).Perm (List.range N)) :
    ∃ (ls' : List PyLayer) (h' : NpStore) (ms : Nat → Mlp), pyFit loss lr epochs batchSize acc r m.width ls x t h = .ok (ls', h') ∧
      ms 0 = m.xavier r.init ∧ PyRep h' ls' (ms epochs) ∧
      (∀ ep, ep < epochs → ∃ a, Mlp.Epoch (Mlp.PyBatch (pyLossName loss) lr) N (if batchSize = 0 then N else batchSize) D v y (ms ep) (ms (ep + 1)) a) ∧
      (∀ l ∈ ls', l.training = false) ∧ h'[x]? = h[x]? := by
  obtain ⟨ls', h', ms, h1, h2, h3, h4, h5, -, h6⟩ := pyFit_ok hl lr epochs batchSize acc r hm hacc hN hX ht hT hσ
  exact ⟨ls', h', ms, h1, h2, h3, h4, fun l hl => (h6 l hl).1, h5⟩

/-- An epoch of batches that all start from smooth networks. -/
theorem Mlp.Epoch.descends {loss : String} {lr : ℝ} {N B D : Nat} {x y : Nat → Row} {m m' : Mlp} {a : Nat} (h : Mlp.Epoch (Mlp.PyBatch loss lr) N B D x y m m' a)
    (hs : m.Smooth) (htd : ∀ i T F O, (m.ply i).kind ≠ .tdDot T F O ∧ (m.ply i).kind ≠ .tdBias T F ∧ (m.ply i).kind ≠ .tdDense T F O)
    (hl : loss ∈ ["L2", "LogCosh"]) : Mlp.Epoch (Mlp.Descends loss lr) N B D x y m m' a ∧ Mlp.Like m m' := by
  obtain ⟨σ, ms, h1, h2, h3, h4, h5⟩ := h
  have reg : ∀ (m : Mlp), m.Smooth → ∀ v y, m.Regular 1e-8 loss v y := fun m hm v y => by
    have hl' : loss = "L2" ∨ loss = "LogCosh" := by simpa using hl
    rw [Mlp.Regular, if_neg (by rcases hl' with rfl | rfl <;> decide)]
    exact ⟨hm.at v, fun h => absurd h (by rcases hl' with rfl | rfl <;> decide), fun h => absurd h (by rcases hl' with rfl | rfl <;> decide)⟩
  have lk : ∀ k, k ≤ nbBatches N B → Mlp.Like m (ms k) := by
    intro k
    induction k with
    | zero => exact fun _ => h2 ▸ Mlp.Like.refl m
    | succ k ih =>
      intro hk
      exact (ih (by omega)).trans (h4 k (by omega) fun s _ => reg _ (hs.like (ih (by omega))) _ _).like
  refine ⟨⟨σ, ms, h1, h2, h3, fun k hk => ?_, h5⟩, h3 ▸ lk _ le_rfl⟩
  have st := h4 k hk fun s _ => reg _ (hs.like (lk k (by omega))) _ _
  refine ⟨st.like, fun b i hi hb => ?_⟩
  obtain ⟨G, g1, g2⟩ := st.step b i hi hb
  refine ⟨G, g1, fun k' j => ?_⟩
  have hone : ((ms k).ply i).kind.pyRate b (batchEnd N B k - batchStart B k) = 1 := by
    rw [(lk k (by omega)).kind i]
    have := htd i
    revert this
    cases (m.ply i).kind <;> intro hk
    case tdDot => exact absurd rfl (hk _ _ _).1
    case tdBias => exact absurd rfl (hk _ _ 0).2.1
    case tdDense => exact absurd rfl (hk _ _ _).2.2
    all_goals rfl
  rw [g2, hone, one_mul]

/-- C136: for networks of smooth layers, with mean squared error or LogCosh, `fit` is stochastic gradient descent. -/
theorem C136_descends_partial {loss : String} (hl : loss ∈ ["MSE", "LogCosh"]) (lr : ℝ) (epochs batchSize : Nat) (acc : Bool) (r : PyFitRnd) {ls : List PyLayer} {m : Mlp}
    (hm : PyModel ls m) (hs : m.Smooth) (htd : ∀ i T F O, (m.ply i).kind ≠ .tdDot T F O ∧ (m.ply i).kind ≠ .tdBias T F ∧ (m.ply i).kind ≠ .tdDense T F O)
    (hacc : acc = true → ∀ l, ls[0]? = some l → l.keeps = false) {h : NpStore} {x N : Nat} (hN : 0 < N) {v y : Nat → Row} (hX : h.Has x N (m.width 0) v) {t : NpArr}
    (ht : t.Is N (m.width m.depth) y) (hσ : ∀ ep, ep < epochs → ((List.range N).map (r.perm ep)).Perm (List.range N)) :
    ∃ (ls' : List PyLayer) (h' : NpStore) (ms : Nat → Mlp), pyFit loss lr epochs batchSize acc r m.width ls x t h = .ok (ls', h') ∧
      ms 0 = m.xavier r.init ∧ PyRep h' ls' (ms epochs) ∧
      ∀ ep, ep < epochs → ∃ a, Mlp.Epoch (Mlp.Descends (pyLossName loss) lr) N (if batchSize = 0 then N else batchSize) (m.width m.depth) v y (ms ep) (ms (ep + 1)) a := by
  have hl' : loss = "MSE" ∨ loss = "LogCosh" := by simpa using hl
  obtain ⟨ls', h', ms, h1, h2, h3, h4, -⟩ := C136_fit_partial (loss := loss) (by rcases hl' with rfl | rfl <;> simp [pyLosses]) lr epochs batchSize acc r hm hacc hN hX ht
    (by rcases hl' with rfl | rfl <;> exact ⟨rfl, fun h => absurd h (by decide)⟩) hσ
  have hn : pyLossName loss ∈ ["L2", "LogCosh"] := by rcases hl' with rfl | rfl <;> decide
  have like : Mlp.Like m (ms 0) := h2 ▸ ⟨rfl, rfl, fun _ => rfl⟩
  have lk : ∀ k, k ≤ epochs → Mlp.Like m (ms k) := by
    intro k
    induction k with
    | zero => exact fun _ => like
    | succ k ih =>
      intro hk
      have lk := ih (by omega)
      obtain ⟨a, ha⟩ := h4 k (by omega)
      exact lk.trans (ha.descends (hs.like lk) (fun i => by rw [lk.kind i]; exact htd i) hn).2
  refine ⟨ls', h', ms, h1, h2, h3, fun ep hep => ?_⟩
  obtain ⟨a, ha⟩ := h4 ep hep
  have lk := lk ep (by omega)
  exact ⟨a, (ha.descends (hs.like lk) (fun i => by rw [lk.kind i]; exact htd i) hn).1⟩

/-- C136: after `fit`, `predict` on the training data gives what the last network makes of them. -/
theorem C136_fit_predict_partial {loss : String} (hl : loss ∈ pyLosses) (lr : ℝ) (epochs batchSize : Nat) (acc : Bool) (r : PyFitRnd) {ls : List PyLayer} {m : Mlp} (hm : PyModel ls m)
    (hacc : acc = true → ∀ l, ls[0]? = some l → l.keeps = false) {h : NpStore} {x N D : Nat} (hN : 0 < N) {v y : Nat → Row} (hX : h.Has x N (m.width 0) v) {t : NpArr} (ht : t.Is N D y)
    (hT : TruthFits (pyLossName loss) (m.width m.depth) D N y) (hσ : ∀ ep, ep < epochs → ((List.range N).map (r.perm ep)).Perm (List.range N)) (e : Nat → PyRnd) :
    ∃ (ls' : List PyLayer) (h' : NpStore) (m' : Mlp) (q : Nat) (h'' : NpStore), pyFit loss lr epochs batchSize acc r m.width ls x t h = .ok (ls', h') ∧
      PyRep h' ls' m' ∧ Mlp.Like m m' ∧ pyPredict e ls' x h' = .ok (q, ls', h'') ∧ h''.Has q N (m.width m.depth) fun s => m'.out (v s) := by
  obtain ⟨ls', h', ms, h1, -, h3, -, h5, h6, h7⟩ := pyFit_ok hl lr epochs batchSize acc r hm hacc hN hX ht hT hσ
  obtain ⟨q, h'', p1, p2, -⟩ := C133_exact h3 (fun l hl => (h7 l hl).1) (fun l hl => (h7 l hl).2) hN (by rw [h6.width]; exact hX.congr h5) e
  exact ⟨ls', h', _, q, h'', h1, h3, h6, p1, by rw [h6.width, h6.depth] at p2; exact p2⟩

/-- C136: weights are drawn from the interval around 0 of half width `sqrt(6 / (rows + columns))`. -/
theorem C136_xavier (u : Nat → Nat → Nat → ℝ) (hu : ∀ i k j, 0 ≤ u i k j ∧ u i k j < 1) (m : Mlp) (i k j : Nat) :
    |((m.xavier u).ply i).weight k j| ≤ Real.sqrt (6 / ((m.shape false i).1 + (m.shape false i).2 : Nat)) ∧ ((m.xavier u).ply i).bias k j = 0 := by
  refine ⟨?_, rfl⟩
  obtain ⟨h0, h1⟩ := hu i k j
  change |Real.sqrt _ * (u i k j * 2 - 1)| ≤ _
  rw [abs_mul, abs_of_nonneg (Real.sqrt_nonneg _)]
  refine mul_le_of_le_one_right (Real.sqrt_nonneg _) ?_
  rw [abs_le]
  constructor <;> linarith

/-- The layer with its parameters in other arrays. -/
def PyLayer.withArrays (w b : Nat) (l : PyLayer) : PyLayer :=
  match l.kind with
  | .globalBias | .bias | .tdBias _ => { l with bias := b }
  | .globalGain | .dot | .tdDot .. => { l with weight := w }
  | .dense | .tdDense .. => { l with weight := w, bias := b }
  | _ => l

/-- C136: `fit` forgets what was learnt before: whatever weights and biases the layers had, it does the same.  Training cannot be continued by another call. -/
theorem C136_forgets (loss : String) (lr : ℝ) (epochs batchSize : Nat) (acc : Bool) (r : PyFitRnd) (w : Nat → Nat) (ls : List PyLayer) (x : Nat) (t : NpArr) (h : NpStore)
    (a b : PyLayer → Nat) :
    pyFit loss lr epochs batchSize acc r w (ls.map fun l => l.withArrays (a l) (b l)) x t h = pyFit loss lr epochs batchSize acc r w ls x t h := by
  have key : ∀ (ls : List PyLayer) (i : Nat) (h : NpStore), pyInit r.init w ((ls.map fun l => l.withArrays (a l) (b l)).map fun l => { l with training := true }) i h =
      pyInit r.init w (ls.map fun l => { l with training := true }) i h := by
    intro ls
    induction ls with
    | nil => exact fun _ _ => rfl
    | cons l ls ih =>
      intro i h
      have hl : ∀ u C C' h, PyLayer.init u C C' { l.withArrays (a l) (b l) with training := true } h = PyLayer.init u C C' { l with training := true } h := by
        intro u C C' h
        generalize a l = p
        generalize b l = q
        obtain ⟨k, _, _, _, _, _, _, _⟩ := l
        cases k <;> rfl
      simp only [List.map_cons, pyInit, hl, ih]
  unfold pyFit
  rw [key]

/-- C136, a disagreement: with the metrics "accuracy", `fit` predicts the training data after each epoch, and a first layer that works in place writes to them.
Here LeakyRELU turns the sample -1 into -0.01. -/
theorem C136_data_overwritten (lr : ℝ) (r : PyFitRnd) (hr : ∀ i, r.perm 0 i = i) (w : Nat → Nat) :
    ∃ ls' h', pyFit "MSE" lr 1 0 true r w [{ kind := .act .leakyRELU }] 0 ⟨1, 1, fun _ _ => 0⟩ [⟨1, 1, fun _ _ => -1⟩] = .ok (ls', h') ∧ h'.Has 0 1 1 fun _ _ => -0.01 := by
  refine ⟨[{ kind := .act .leakyRELU, dydx := some 3 }], [⟨1, 1, fun _ _ => -0.01⟩, ⟨1, 1, fun _ _ => -0.01⟩, ⟨1, 1, fun _ _ => 0.01⟩, ⟨1, 1, fun _ _ => 0.01⟩], ?_, _, rfl, rfl, rfl,
    fun _ _ _ _ => rfl⟩
  simp [pyFit, pyInit, PyLayer.init, NpStore.load, bind_ok', forN, pyEpoch, npCheck, npTake, hr, pyTrainBatch, pyPredict, PyLayer.forward, PyLayer.saveDydx, PyAct.leakyRELU, NpArr.map,
    pyLossGrad, pyBackprop, PyLayer.backward, npMul, pyOptimize, PyLayer.optimize]

/-! ## Examples -/

theorem pyLayers_model : PyModel pyLayers mlpWitness where
  ok := mlpWitness_ok
  count := rfl
  made := fun i l hl => by
    match i with
    | 0 =>
      obtain rfl : ({ kind := .dense, weight := 0, bias := 1 } : PyLayer) = l := by simpa [pyLayers] using hl
      trivial
    | 1 =>
      obtain rfl : ({ kind := .act .tanh } : PyLayer) = l := by simpa [pyLayers] using hl
      exact ⟨rfl, fun _ => rfl⟩
    | i + 2 => simp [pyLayers] at hl
  learns := by
    intro l hl
    simp only [pyLayers, List.mem_cons, List.not_mem_nil, or_false] at hl
    rcases hl with rfl | rfl
    · trivial
    · exact ⟨"Tanh", by simp [PyAct.table], by decide⟩
  exp := by
    intro i l l' h1 h2
    match i with
    | 0 => simp only [pyLayers, List.getElem?_cons_zero, Option.some.injEq] at h1; subst h1; cases h2
    | 1 => simp only [pyLayers, List.getElem?_cons_succ, List.getElem?_cons_zero, Option.some.injEq] at h1; subst h1; cases h2
    | i + 2 => simp [pyLayers] at h1

/-- Three samples of two numbers. -/
noncomputable def pyData (a : Nat → ℝ) : NpStore := [⟨3, 2, fun i _ => a i⟩]

theorem pyData_has (a : Nat → ℝ) : (pyData a).Has 0 3 (mlpWitness.width 0) (fun s _ => a s) := ⟨⟨3, 2, fun i _ => a i⟩, rfl, rfl, rfl, fun _ _ _ _ => rfl⟩

theorem mlpWitness_frames (i T F O : Nat) : (mlpWitness.ply i).kind ≠ .tdDot T F O ∧ (mlpWitness.ply i).kind ≠ .tdBias T F ∧ (mlpWitness.ply i).kind ≠ .tdDense T F O := by
  by_cases h0 : i = 0 <;> simp [mlpWitness, h0]

/-- Five epochs in batches of two samples, the samples in reverse order. -/
example (a c : Nat → ℝ) (lr : ℝ) (u : Nat → Nat → Nat → ℝ) (e : Nat → Nat → Nat → PyRnd) (e' : Nat → Nat → PyRnd) :
    ∃ (ls' : List PyLayer) (h' : NpStore) (ms : Nat → Mlp),
      pyFit "MSE" lr 5 2 true ⟨u, fun _ i => 2 - i, e, e'⟩ mlpWitness.width pyLayers 0 ⟨3, 1, fun i _ => c i⟩ (pyData a) = .ok (ls', h') ∧
      ms 0 = mlpWitness.xavier u ∧ PyRep h' ls' (ms 5) ∧
      ∀ ep, ep < 5 → ∃ r, Mlp.Epoch (Mlp.Descends "L2" lr) 3 2 1 (fun s _ => a s) (fun s _ => c s) (ms ep) (ms (ep + 1)) r :=
  C136_descends_partial (loss := "MSE") (by simp) lr 5 2 true ⟨u, fun _ i => 2 - i, e, e'⟩ pyLayers_model mlpWitness_smooth mlpWitness_frames
    (by simp [pyLayers, PyLayer.keeps]) (by decide) (pyData_has a) (y := fun s _ => c s) (t := ⟨3, 1, fun i _ => c i⟩) ⟨rfl, rfl, fun _ _ _ _ => rfl⟩ (fun _ _ => show ((List.range 3).map fun i => 2 - i).Perm (List.range 3) by decide)

end BeeDNN
