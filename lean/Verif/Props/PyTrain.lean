import Verif.Lemmas.PyTrain
import Verif.Props.PyLib
import Verif.Props.Mlp

/-! # Properties of training with the Python library -/

namespace BeeDNN
open Finset

/-- C135: one batch of training with the Python library runs without exception and, if no sample is at a kink, is a step of gradient descent for the mean error of
the batch, at the learning rate given, times `pyRate` for time distributed layers.  Parameters are moved to new arrays; no other array but that of the batch changes.
Missing for the full claim: models with dropout, noise, a single gain or bias, Logit, or Exponential before a layer that works in place (see `C135_dropout_wrong`,
`C135_noise_wrong`), samples at a kink of an activation or of the loss, and for time distributed layers the gradient is not the true one. -/
theorem C135_step_partial {loss : String} (hl : loss ∈ pyLosses) (lr : ℝ) (e : Nat → PyRnd) {h : NpStore} {ls : List PyLayer} {m : Mlp} (hr : PyRep h ls m)
    (hok : m.Ok) {x : Nat} (hrd : PyReady ls x) {N D : Nat} (hN : 0 < N) {v y : Nat → Row} (hX : h.Has x N (m.width 0) v) {t : NpArr} (ht : t.Is N D y)
    (hT : TruthFits (pyLossName loss) (m.width m.depth) D N y) :
    ∃ ls' h' m', pyTrainBatch loss lr e ls x t h = .ok (ls', h') ∧ PyRep h' ls' m' ∧ Mlp.Like m m' ∧
      ((∀ s, s < N → m.Regular 1e-8 (pyLossName loss) (v s) (y s)) → Mlp.Steps (fun b i => (m.ply i).kind.pyRate b N) (pyLossName loss) lr N v y m m') ∧
      ∀ q, q < h.length → q ≠ x → h'[q]? = h[q]? := by
  obtain ⟨ls', h', m', h1, h2, h3, h4, -, h5, -⟩ := pyTrainBatch_any hl lr e hr hok hrd hN hX ht hT
  exact ⟨ls', h', m', h1, h2, h3, h4, h5⟩

/-- C135: without time distributed layers it is a step of gradient descent. -/
theorem C135_descends_partial {loss : String} (hl : loss ∈ pyLosses) (lr : ℝ) (e : Nat → PyRnd) {h : NpStore} {ls : List PyLayer} {m : Mlp} (hr : PyRep h ls m)
    (hok : m.Ok) {x : Nat} (hrd : PyReady ls x) (htd : ∀ i o, ∀ l ∈ ls, l.kind ≠ .tdDot i o ∧ l.kind ≠ .tdBias i ∧ l.kind ≠ .tdDense i o)
    {N D : Nat} (hN : 0 < N) {v y : Nat → Row} (hX : h.Has x N (m.width 0) v) {t : NpArr} (ht : t.Is N D y)
    (hT : TruthFits (pyLossName loss) (m.width m.depth) D N y) (hreg : ∀ s, s < N → m.Regular 1e-8 (pyLossName loss) (v s) (y s)) :
    ∃ ls' h' m', pyTrainBatch loss lr e ls x t h = .ok (ls', h') ∧ PyRep h' ls' m' ∧ Mlp.Descends (pyLossName loss) lr N v y m m' := by
  obtain ⟨ls', h', m', h1, h2, -, h3, -⟩ := C135_step_partial hl lr e hr hok hrd hN hX ht hT
  have h3 := h3 hreg
  refine ⟨ls', h', m', h1, h2, h3.like, fun b i hi hb => ?_⟩
  obtain ⟨G, g1, g2⟩ := h3.step b i hi hb
  refine ⟨G, g1, fun k j => ?_⟩
  have hone : (m.ply i).kind.pyRate b N = 1 := by
    obtain ⟨l, hil⟩ : ∃ l, ls[i]? = some l := ⟨_, List.getElem?_eq_getElem (by rw [hr.count]; exact hi)⟩
    have hs := hr.layer i l hil
    have hk := fun a o => htd a o l (List.mem_of_getElem? hil)
    unfold PyLayer.Shows at hs
    generalize hlk : l.kind = lk at hs hk
    generalize (m.ply i).kind = K at hs
    cases K <;> cases lk <;> first | exact hs.elim | rfl | exact absurd rfl (hk _ _).1 | exact absurd rfl (hk _ 0).2.1 | exact absurd rfl (hk _ _).2.2
  rw [g2, hone, one_mul]

/-- The factor between what a step of the Python library changes and what a step of the C++ library changes. -/
def PlyKind.pyMore (b : Bool) (N : Nat) : PlyKind → ℝ
  | .tdDot .. => N
  | .tdDense .. => if b then 1 else N
  | _ => 1

/-- C135: both libraries, with the same network, batch, loss and learning rate, move the biases and weights alike, except that the Python library moves the
weights of time distributed layers further, by the factor of the batch size. -/
theorem C135_same_as_cpp_partial {loss : String} (hl : loss ∈ pyLosses) (lr : ℝ) (e : Nat → PyRnd) {h : NpStore} {ls : List PyLayer} {m : Mlp}
    (hr : PyRep h ls m) {x : Nat} (hrd : PyReady ls x) {N D : Nat} (hN : 0 < N) {v y : Nat → Row} (hX : h.Has x N (m.width 0) v) {t : NpArr} (ht : t.Is N D y)
    (hT : TruthFits (pyLossName loss) (m.width m.depth) D N y) (hreg : ∀ s, s < N → m.Regular 1e-8 (pyLossName loss) (v s) (y s))
    (w : World) (n : Nat) (hw : Represents w n m) (T : Trainer) (hTl : T.loss = pyLossName loss) (hlr : lr = if T.lr = -1 then 0.01 else T.lr)
    (ho : T.optName = "SGD") (hreg' : T.reg = none) (hlw : T.lossWeight.size = 0) (hi : ∀ a ∈ T.inOut, a.WF) (hg : ∀ a ∈ T.gradient, a.WF)
    (g : Nat → ℝ) (e' : Nat → Nat → Env) :
    ∃ ls' h' m₁ w₁ t₁ w₂ t₂ m₂,
      (pyTrainBatch loss lr e ls x t h = .ok (ls', h') ∧ PyRep h' ls' m₁) ∧
      (Trainer.setNet g w T n = .ok (w₁, t₁) ∧
        Trainer.trainBatch (fun x => |x|) 1e-8 e' w₁ t₁ (Mat.ofFn N (m.width 0) v) (Mat.ofFn N D y) = .ok (w₂, t₂) ∧ Represents w₂ n m₂) ∧
      ∀ b i, i < m.depth → (m.ply i).has b = true → ∀ k j, k < (m.shape b i).1 → j < (m.shape b i).2 →
        (m₁.ply i).par b k j - (m.ply i).par b k j = (m.ply i).kind.pyMore b N * ((m₂.ply i).par b k j - (m.ply i).par b k j) := by
  obtain ⟨ls', h', m₁, h1, h2, -, h3, -⟩ := C135_step_partial hl lr e hr hw.ok hrd hN hX ht hT
  have h3 := h3 hreg
  have hmem : T.loss ∈ listLoss := by
    rw [hTl]
    simp only [pyLosses, List.mem_cons, List.not_mem_nil, or_false] at hl
    rcases hl with rfl | rfl | rfl | rfl | rfl | rfl <;> decide
  obtain ⟨w₁, t₁, s1, w₂, t₂, ms, s2, s3, s4, s5⟩ := C95_training (eps := 1e-8) (by norm_num) w T n m hw hmem ho hreg' hlw hi hg g 1 D (fun _ => e') (fun _ => N)
    (fun _ _ => hN) (fun _ => v) (fun _ => y) (fun _ _ => by rw [hTl]; exact hT)
  obtain ⟨-, s6⟩ := s5 0 one_pos
  have s6 := s6 (fun s hs => by rw [s3, hTl]; exact hreg s hs)
  refine ⟨ls', h', m₁, w₁, t₁, w₂, t₂, ms 1, ⟨h1, h2⟩, ⟨s1, ?_, s4⟩, fun b i hi' hb k j hk hj => ?_⟩
  · obtain ⟨z, z1, z2⟩ : ∃ z, forN 0 (fun k (s : World × Trainer) => Trainer.trainBatch (fun x => |x|) 1e-8 e' s.1 s.2
        (Mat.ofFn N (m.width 0) v) (Mat.ofFn N D y)) (w₁, t₁) = .ok z ∧ Trainer.trainBatch (fun x => |x|) 1e-8 e' z.1 z.2
        (Mat.ofFn N (m.width 0) v) (Mat.ofFn N D y) = .ok (w₂, t₂) := ⟨_, rfl, s2⟩
    cases z1
    exact z2
  obtain ⟨G, g1, g2⟩ := h3.step b i hi' hb
  obtain ⟨G', g1', g2'⟩ := s6.step b i (by rw [s3]; exact hi') (by rw [s3]; exact hb)
  rw [s3] at g1' g2'
  rw [hTl] at g1'
  rw [g2, g2', ← g1.unique g1' hk hj, ← hlr]
  have kinds : ∀ i, i < m.depth → (m.ply i).kind.inRate = 1 ∧ (m.ply i).kind.pyRate b N = (m.ply i).kind.pyMore b N * (m.ply i).kind.parRate b N := by
    intro i hi
    obtain ⟨l, hil⟩ : ∃ l, ls[i]? = some l := ⟨_, List.getElem?_eq_getElem (by rw [hr.count]; exact hi)⟩
    have hs := hr.layer i l hil
    unfold PyLayer.Shows at hs
    generalize l.kind = lk at hs
    generalize (m.ply i).kind = K at hs
    cases K <;> cases lk <;> first
      | exact hs.elim
      | (cases b <;> simp [PlyKind.inRate, PlyKind.pyRate, PlyKind.pyMore, PlyKind.parRate])
  have hrate : m.rate N b i = (m.ply i).kind.parRate b N := by
    rw [Mlp.rate, prod_eq_one fun k hk => (kinds _ (by rw [mem_range] at hk; omega)).1, mul_one]
  rw [hrate, (kinds i hi').2]
  ring

/-! ## Layers that are not trained as they should be -/

/-- The array of bias, and the batch. -/
noncomputable def pyTiny (b x : ℝ) : NpStore := [⟨1, 1, fun _ _ => b⟩, ⟨1, 1, fun _ _ => x⟩]

/-- C135, a disagreement: `LayerDropout` multiplies by the mask on the way forward, but `backpropagation` does not.  With a mask that drops the column, the
prediction is 0 whatever the bias before dropout; yet the bias moves, away from 0 and further with each batch. -/
theorem C135_dropout_wrong (lr b x y : ℝ) (e : Nat → PyRnd) (he : ∀ i j, (e i).keep j = false) :
    let ls : List PyLayer := [{ kind := .bias, training := true, bias := 0 }, { kind := .dropout (1 / 2), training := true }]
    (∃ r ls₁ h₁, pyPredict e ls 1 (pyTiny b x) = .ok (r, ls₁, h₁) ∧ h₁.Has r 1 1 fun _ _ => 0) ∧
      ∃ ls' h' l', pyTrainBatch "MSE" lr e ls 1 ⟨1, 1, fun _ _ => y⟩ (pyTiny b x) = .ok (ls', h') ∧ ls'[0]? = some l' ∧
        h'.Has l'.bias 1 1 fun _ _ => b + lr * y := by
  intro ls
  have hp : pyPredict e ls 1 (pyTiny b x) = .ok (3, ls, pyTiny b x ++ [⟨1, 1, fun _ _ => x + b⟩] ++ [⟨1, 1, fun _ _ => 0⟩]) := by
    simp [ls, pyPredict, PyLayer.forward, NpStore.load, pyTiny, npAddRow, npCheck, he, bind_ok']
  refine ⟨⟨_, _, _, hp, _, rfl, rfl, rfl, fun _ _ _ _ => rfl⟩, ?_⟩
  have ht : pyTrainBatch "MSE" lr e ls 1 ⟨1, 1, fun _ _ => y⟩ (pyTiny b x) =
      .ok ([{ kind := .bias, training := true, bias := 4, dldb := ⟨1, 1, fun _ _ => -y⟩ }, { kind := .dropout (1 / 2), training := true }],
        pyTiny b x ++ [⟨1, 1, fun _ _ => x + b⟩] ++ [⟨1, 1, fun _ _ => 0⟩] ++ [⟨1, 1, fun _ _ => b + y * lr⟩]) := by
    rw [pyTrainBatch, hp]
    simp [bind_ok', ls, pyTiny, NpStore.load, pyLossGrad, npCheck, pyBackprop, PyLayer.backward, pyOptimize, PyLayer.optimize, PyLayer.stepBias, npSgd, npMean]
  exact ⟨_, _, _, ht, rfl, _, rfl, rfl, rfl, fun _ _ _ _ => by change b + y * lr = _; ring⟩

/-- C135, a disagreement: `LayerExponential` keeps its result as derivative, and a noise layer behind it changes this array in place.  Of the output
`exp(0 + b) + 1` at `b = 0`, with truth 0, the error `(exp b + 1)² / 2` has derivative 2; the step is made with 4. -/
theorem C135_noise_wrong (lr : ℝ) (e : Nat → PyRnd) (he : ∀ i k j, (e i).noise k j = 1) :
    let ls : List PyLayer := [{ kind := .bias, training := true, bias := 0 }, { kind := .exponential, training := true }, { kind := .noise, training := true }]
    HasDerivAt (fun b => (Real.exp (0 + b) + 1 - 0) ^ 2 / 2) 2 0 ∧
      ∃ ls' h' l', pyTrainBatch "MSE" lr e ls 1 ⟨1, 1, fun _ _ => 0⟩ (pyTiny 0 0) = .ok (ls', h') ∧ ls'[0]? = some l' ∧
        h'.Has l'.bias 1 1 fun _ _ => 0 - lr * 4 := by
  intro ls
  refine ⟨?_, ?_⟩
  · have h := ((((hasDerivAt_id (0 : ℝ)).const_add 0).exp.add_const 1).sub_const 0).pow 2
    have h := h.div_const 2
    refine HasDerivAt.congr_deriv h ?_
    simp
    norm_num
  have hp : pyPredict e ls 1 (pyTiny 0 0) = .ok (3, [{ kind := .bias, training := true, bias := 0 },
      { kind := .exponential, training := true, dydx := some 3 }, { kind := .noise, training := true }],
      pyTiny 0 0 ++ [⟨1, 1, fun _ _ => 0⟩] ++ [⟨1, 1, fun _ _ => 2⟩]) := by
    simp [ls, pyPredict, PyLayer.forward, NpStore.load, pyTiny, npAddRow, npCheck, he, bind_ok', NpArr.map]
    norm_num
  have ht : pyTrainBatch "MSE" lr e ls 1 ⟨1, 1, fun _ _ => 0⟩ (pyTiny 0 0) =
      .ok ([{ kind := .bias, training := true, bias := 4, dldb := ⟨1, 1, fun _ _ => 4⟩ },
      { kind := .exponential, training := true, dydx := some 3 }, { kind := .noise, training := true }],
        pyTiny 0 0 ++ [⟨1, 1, fun _ _ => 0⟩] ++ [⟨1, 1, fun _ _ => 2⟩] ++ [⟨1, 1, fun _ _ => -(4 * lr)⟩]) := by
    rw [pyTrainBatch, hp]
    simp [bind_ok', pyTiny, NpStore.load, pyLossGrad, npCheck, pyBackprop, PyLayer.backward, pyOptimize, PyLayer.optimize, PyLayer.stepBias, npSgd, npMean, npMul]
    norm_num
  exact ⟨_, _, _, ht, rfl, _, rfl, rfl, rfl, fun _ _ _ _ => by change -(4 * lr) = _; ring⟩

/-! ## Examples -/

/-- `pyLayers` in training mode. -/
noncomputable def pyLayersTrain : List PyLayer := [{ kind := .dense, training := true, weight := 0, bias := 1 }, { kind := .act .tanh, training := true }]

theorem pyLayersTrain_rep (a b : ℝ) : PyRep (pyStore a b) pyLayersTrain mlpWitness where
  count := rfl
  pos := mlpWitness_ok.pos
  layer := fun i l hl => by
    match i with
    | 0 =>
      obtain rfl : ({ kind := .dense, training := true, weight := 0, bias := 1 } : PyLayer) = l := by simpa [pyLayersTrain] using hl
      exact ⟨⟨_, rfl, rfl, rfl, fun _ _ _ _ => rfl⟩, ⟨_, rfl, rfl, rfl, fun _ _ _ _ => rfl⟩⟩
    | 1 =>
      obtain rfl : ({ kind := .act .tanh, training := true } : PyLayer) = l := by simpa [pyLayersTrain] using hl
      exact ⟨rfl, fun _ => rfl⟩
    | i + 2 => simp [pyLayersTrain] at hl

theorem pyLayersTrain_ready : PyReady pyLayersTrain 2 where
  training := by simp [pyLayersTrain]
  learns := by
    intro l hl
    simp only [pyLayersTrain, List.mem_cons, List.not_mem_nil, or_false] at hl
    rcases hl with rfl | rfl
    · trivial
    · exact ⟨"Tanh", by simp [PyAct.table], by decide⟩
  apart := by simp [pyLayersTrain, PyLayer.params]
  exp := by
    intro i l l' h1 h2
    match i with
    | 0 => simp only [pyLayersTrain, List.getElem?_cons_zero, Option.some.injEq] at h1; subst h1; cases h2
    | 1 => simp only [pyLayersTrain, List.getElem?_cons_succ, List.getElem?_cons_zero, Option.some.injEq] at h1; subst h1; cases h2
    | i + 2 => simp [pyLayersTrain] at h1

theorem mlpWitness_regular (v y : Row) : mlpWitness.Regular 1e-8 "L2" v y := by
  rw [Mlp.Regular, if_neg (by decide)]
  exact ⟨mlpWitness_smooth.at v, fun h => absurd h (by decide), fun h => absurd h (by decide)⟩

/-- The dense layer with Tanh descends. -/
example (a b c lr : ℝ) (e : Nat → PyRnd) :
    ∃ ls' h' m', pyTrainBatch "MSE" lr e pyLayersTrain 2 ⟨1, 1, fun _ _ => c⟩ (pyStore a b) = .ok (ls', h') ∧ PyRep h' ls' m' ∧
      Mlp.Descends "L2" lr 1 (fun _ j => if j = 0 then a else b) (fun _ _ => c) mlpWitness m' :=
  C135_descends_partial (loss := "MSE") (D := 1) (by simp [pyLosses]) lr e (pyLayersTrain_rep a b) mlpWitness_ok pyLayersTrain_ready (by simp [pyLayersTrain]) one_pos
    (pyStore_input a b) ⟨rfl, rfl, fun _ _ _ _ => rfl⟩ ((distanceLosses_fits (by decide)).2 1 1 _) fun _ _ => mlpWitness_regular _ _

/-- And does so as in the C++ library. -/
example (a b c : ℝ) (e : Nat → PyRnd) (g : Nat → ℝ) (e' : Nat → Nat → Env) :=
  C135_same_as_cpp_partial (loss := "MSE") (D := 1) (by simp [pyLosses]) 0.01 e (pyLayersTrain_rep a b) pyLayersTrain_ready one_pos
    (pyStore_input a b) (y := fun _ _ => c) (t := ⟨1, 1, fun _ _ => c⟩) ⟨rfl, rfl, fun _ _ _ _ => rfl⟩ ((distanceLosses_fits (by decide)).2 1 1 _) (fun _ _ => mlpWitness_regular _ _)
    mlpWorld 0 mlpWorld_represents { optName := "SGD", loss := "L2", lr := -1 } rfl (by simp) rfl rfl rfl (by simp) (by simp) g e'

end BeeDNN
