import Verif.Lemmas.PyTrainBy
import Verif.Props.PyTrain
import Verif.Props.PyFit
import Verif.Props.PyOptimizer

/-! # Properties of training with the Python library and any optimizer -/

namespace BeeDNN
open Finset

/-- C138: training with a sequence of batches runs without exception with any optimizer, though most of them change the arrays of weights in place.  Each weight
and bias follows the rule of its optimizer on the gradients of the mean errors of the batches; arrays other than those of the parameters stay as they are.  A batch with
a sample at a kink also takes part, with some gradient.
Missing for the full claim: models with dropout, noise, a single gain or bias, Logit, or Exponential before a layer that works in place, as in `C135_step_partial`. -/
theorem C138_batches_partial {loss : String} (hl : loss ∈ pyLosses) {m : Mlp} (hok : m.Ok) {s : PyTrainState} (hs : s.Ready m)
    (ho : ∀ b i, i < m.depth → (m.ply i).has b = true → (s.o i b).init = false) (e : Nat → Nat → PyRnd) {N D : Nat → Nat} (hN : ∀ t, 0 < N t) {x y : Nat → Nat → Row} {X T : Nat → NpArr}
    (hX : ∀ t, (X t).Is (N t) (m.width 0) (x t)) (hT : ∀ t, (T t).Is (N t) (D t) (y t)) (hF : ∀ t, TruthFits (pyLossName loss) (m.width m.depth) (D t) (N t) (y t)) :
    ∃ ms, ms 0 = m ∧ Mlp.TrainedBy s.o (pyLossName loss) N x y ms ∧ ∀ n, ∃ s', pyTrainBatches loss e X T n s = .ok s' ∧ s'.Ready (ms n) ∧
      ∀ q, q < s.h.length → q ∉ s.ls.flatMap PyLayer.params → s'.h[q]? = s.h[q]? :=
  pyTrainBatches_ok hl hok hs ho e hN hX hT hF

/-- C138: `fit` with any optimizer, from Xavier weights: after `epochs` epochs each parameter is what the rule of the optimizer makes of the gradients of all batches so far;
batch `u` is batch `u % nb` of epoch `u / nb`, its samples taken in the order drawn for this epoch.  The optimizers keep their memory from epoch to epoch.  No array that was there
before changes.
Missing for the full claim: as in `C138_batches_partial`; with accuracies, the first layer must not work in place (`C136_data_overwritten`). -/
theorem C138_fit_partial {loss : String} (hl : loss ∈ pyLosses) (k : PyOptKind) (epochs batchSize : Nat) (acc : Bool) (r : PyFitRnd) {ls : List PyLayer} {m : Mlp} (hm : PyModel ls m)
    (hacc : acc = true → ∀ l, ls[0]? = some l → l.keeps = false) {h : NpStore} {x N D : Nat} (hN : 0 < N) {v y : Nat → Row} (hX : h.Has x N (m.width 0) v) {t : NpArr} (ht : t.Is N D y)
    (hT : TruthFits (pyLossName loss) (m.width m.depth) D N y) (hσ : ∀ ep, ((List.range N).map (r.perm ep)).Perm (List.range N)) :
    let B := if batchSize = 0 then N else batchSize
    let nb := nbBatches N B
    ∃ (s' : PyTrainState) (ms : Nat → Mlp), pyFitBy loss k epochs batchSize acc r m.width ls x t h = .ok s' ∧ ms 0 = m.xavier r.init ∧ PyRep s'.h s'.ls (ms (epochs * nb)) ∧
      Mlp.TrainedBy (fun _ _ => PyOpt.new k) (pyLossName loss) (fun u => batchEnd N B (u % nb) - batchStart B (u % nb))
        (fun u i => v (r.perm (u / nb) (batchStart B (u % nb) + i))) (fun u i => y (r.perm (u / nb) (batchStart B (u % nb) + i))) ms ∧
      (∀ l ∈ s'.ls, l.training = false) ∧ ∀ q, q < h.length → s'.h[q]? = h[q]? :=
  pyFitBy_ok hl k epochs batchSize acc r hm hacc hN hX ht hT hσ rfl rfl

/-- C138: what `TrainedBy` says for SGD: the sum of all gradients, times the learning rate, has been subtracted. -/
theorem C138_sgd {o : Nat → Bool → PyOpt} (ho : ∀ i b, (o i b).init = false ∧ (o i b).kind = .sgd) {loss : String} {N : Nat → Nat} {x y : Nat → Nat → Row} {ms : Nat → Mlp}
    (h : Mlp.TrainedBy o loss N x y ms) (b : Bool) (i : Nat) (hi : i < (ms 0).depth) (hb : ((ms 0).ply i).has b = true) (t : Nat)
    (hreg : ∀ u, u < t → ∀ s, s < N u → (ms u).Regular 1e-8 loss (x u s) (y u s)) :
    ∃ G : Nat → Nat → Nat → ℝ, (∀ u, u < t → IsGrad ((ms 0).shape b i).1 ((ms 0).shape b i).2 (fun P => ((ms u).setPar b i P).error loss (N u) (x u) (y u)) (((ms u).ply i).par b) (G u)) ∧
      ∀ k j, k < ((ms 0).shape b i).1 → j < ((ms 0).shape b i).2 →
        ((ms t).ply i).par b k j = ((ms 0).ply i).par b k j - (o i b).lr * ∑ u ∈ range t, ((ms 0).ply i).kind.pyRate b (N u) * G u k j := by
  obtain ⟨G, g1, g2⟩ := h.rule b i hi hb
  have hex : ∀ u, ∃ G', u < t → IsGrad ((ms 0).shape b i).1 ((ms 0).shape b i).2 (fun P => ((ms u).setPar b i P).error loss (N u) (x u) (y u)) (((ms u).ply i).par b) G' ∧
      ∀ k j, k < ((ms 0).shape b i).1 → j < ((ms 0).shape b i).2 → G u k j = ((ms 0).ply i).kind.pyRate b (N u) * G' k j := fun u => by
    by_cases hu : u < t
    · obtain ⟨G', g⟩ := g1 u (hreg u hu)
      exact ⟨G', fun _ => g⟩
    · exact ⟨0, fun h => absurd h hu⟩
  choose G' hG' using hex
  refine ⟨G', fun u hu => (hG' u hu).1, fun k j hk hj => ?_⟩
  rw [g2 _ (C137_same (ho i b).1 (by rw [(ho i b).2]; simp)) t k j hk hj]
  have hsum : ∀ n w d, (o i b).cppWeight w d n = w - (o i b).lr * ∑ u ∈ range n, d u := fun n w d => by
    unfold PyOpt.cppWeight
    rw [(ho i b).2]
    induction n with
    | zero => simp [Coord.run, Coord.fresh, PyOptKind.cpp]
    | succ n ih =>
      rw [sum_range_succ, mul_add, ← sub_sub, ← ih]
      simp [Coord.run, Coord.step, PyOptKind.cpp, PyOpt.hyper, mul_comm]
  rw [hsum, sum_congr rfl fun u hu => (hG' u (mem_range.1 hu)).2 k j hk hj]

/-! ## Examples -/

/-- The dense layer with Tanh, each parameter with an optimizer of its own. -/
noncomputable def pyTrainWitness (k : PyOptKind) (a b : ℝ) : PyTrainState := ⟨pyLayersTrain, fun _ _ => PyOpt.new k, pyStore a b⟩

theorem pyTrainWitness_ready (k : PyOptKind) (a b : ℝ) : (pyTrainWitness k a b).Ready mlpWitness where
  rep := pyLayersTrain_rep a b
  training := pyLayersTrain_ready.training
  learns := pyLayersTrain_ready.learns
  exp := pyLayersTrain_ready.exp
  apart := by simp [PyApart, pyTrainWitness, pyLayersTrain, PyLayer.params]

/-- It can be trained with each optimizer. -/
example (k : PyOptKind) (a b : ℝ) (e : Nat → Nat → PyRnd) (c : Nat → ℝ) :=
  C138_batches_partial (loss := "MSE") (by simp [pyLosses]) mlpWitness_ok (pyTrainWitness_ready k a b) (fun _ _ _ _ => by cases k <;> rfl) e (N := fun _ => 1) (D := fun _ => 1)
    (fun _ => one_pos) (x := fun t _ _ => c t) (y := fun t _ _ => c (t + 1)) (X := fun t => ⟨1, 2, fun _ _ => c t⟩) (T := fun t => ⟨1, 1, fun _ _ => c (t + 1)⟩)
    (fun t => ⟨rfl, rfl, fun _ _ _ _ => rfl⟩) (fun t => ⟨rfl, rfl, fun _ _ _ _ => rfl⟩) (fun t => (distanceLosses_fits (by decide)).2 1 1 _)

/-- And fitted with Adam, the optimizer that `Train` uses by default: 5 epochs with three samples, in batches of two. -/
example (a c : Nat → ℝ) (u : Nat → Nat → Nat → ℝ) (e : Nat → Nat → Nat → PyRnd) (e' : Nat → Nat → PyRnd) :=
  C138_fit_partial (loss := "MSE") (by simp [pyLosses]) .adam 5 2 true ⟨u, fun _ i => 2 - i, e, e'⟩ pyLayers_model
    (by simp [pyLayers, PyLayer.keeps]) (by decide) (pyData_has a) (y := fun s _ => c s) (t := ⟨3, 1, fun i _ => c i⟩) (D := 1) ⟨rfl, rfl, fun _ _ _ _ => rfl⟩
    ((distanceLosses_fits (by decide)).2 1 3 _) (fun _ => show ((List.range 3).map fun i => 2 - i).Perm (List.range 3) by decide)

/-- After five batches with SGD. -/
example (a b : ℝ) (c : Nat → ℝ) :
    ∃ (ms : Nat → Mlp) (G : Nat → Nat → Nat → ℝ), ms 0 = mlpWitness ∧
      (∀ u, u < 5 → IsGrad 2 1 (fun P => ((ms u).setPar false 0 P).error "L2" 1 (fun _ _ => c u) (fun _ _ => c (u + 1))) ((ms u).ply 0).weight (G u)) ∧
      ∀ k j, k < 2 → j < 1 → ((ms 5).ply 0).weight k j = (mlpWitness.ply 0).weight k j - 0.01 * ∑ u ∈ range 5, 1 * G u k j := by
  obtain ⟨ms, h1, h2, -⟩ := C138_batches_partial (loss := "MSE") (by simp [pyLosses]) mlpWitness_ok (pyTrainWitness_ready .sgd a b) (fun _ _ _ _ => rfl)
    (fun _ _ => ⟨fun _ _ => 0, fun _ => true⟩) (N := fun _ => 1) (D := fun _ => 1)
    (fun _ => one_pos) (x := fun t _ _ => c t) (y := fun t _ _ => c (t + 1)) (X := fun t => ⟨1, 2, fun _ _ => c t⟩) (T := fun t => ⟨1, 1, fun _ _ => c (t + 1)⟩)
    (fun t => ⟨rfl, rfl, fun _ _ _ _ => rfl⟩) (fun t => ⟨rfl, rfl, fun _ _ _ _ => rfl⟩) (fun t => (distanceLosses_fits (by decide)).2 1 1 _)
  obtain ⟨G, g1, g2⟩ := C138_sgd (fun _ _ => ⟨rfl, rfl⟩) h2 false 0 (by rw [h1]; decide) (by rw [h1]; rfl) 5 fun u _ s _ => by
    rw [Mlp.Regular, if_neg (by decide)]
    exact ⟨(mlpWitness_smooth.like (h1 ▸ h2.like u)).at _, fun h => absurd h (by decide), fun h => absurd h (by decide)⟩
  rw [h1] at g1 g2
  exact ⟨ms, G, h1, g1, g2⟩

end BeeDNN
