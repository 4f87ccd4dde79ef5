import Verif.Lemmas.PyLog
import Verif.Props.PyFit

/-! # Properties of losses and accuracies of the Python library -/

namespace BeeDNN
open Finset

/-- C139: the confusion matrix counts, for each pair of classes, the samples of the one that are predicted as the other, and the accuracy is the percentage of samples
predicted right, if no class is predicted beyond the largest label. -/
theorem C139_confusion_partial {N C : Nat} (hN : 0 < N) (hC : 1 < C) {t p : NpArr} {c : Nat → Nat} {q : Nat → Row} (ht : t.Is N 1 (fun s _ => c s)) (hp : p.Is N C q)
    (hc : ∀ s k, s < N → IsFirstMax C (q s) k → ∃ s', s' < N ∧ k ≤ c s') :
    ∃ M a, pyConfusion t p = .ok (M, a) ∧ (∀ i j, ∃ S : Finset Nat, (∀ s, s ∈ S ↔ s < N ∧ c s = i ∧ IsFirstMax C (q s) j) ∧ M i j = S.card) ∧
      ∃ S : Finset Nat, (∀ s, s ∈ S ↔ s < N ∧ IsFirstMax C (q s) (c s)) ∧ a = 100 * S.card / N :=
  pyConfusion_ok hN hC ht hp hc

/-- C139: what is missing in `C139_confusion_partial`: a sample predicted as a class beyond the largest label ends in an exception.  So `fit` with the metrics "accuracy" fails if
the last class has no sample in the data, as soon as it is predicted. -/
theorem C139_raises {N C : Nat} (hN : 0 < N) {t p : NpArr} {c : Nat → Nat} {q : Nat → Row} (ht : t.Is N 1 (fun s _ => c s)) (hp : p.Is N C q)
    {s k : Nat} (hs : s < N) (hk : IsFirstMax C (q s) k) (hc : ∀ s', s' < N → c s' < k) : pyConfusion t p = .error .exception :=
  pyConfusion_raises hN ht hp hs hk hc

/-- C139: so do predictions with one column, which are not rounded to classes, … -/
theorem C139_single {t p : NpArr} (hp : p.cols = 1) : pyConfusion t p = .error .exception := by
  unfold pyConfusion
  by_cases h : 0 < t.rows * t.cols
  · rw [npCheck_ok h, bind_ok', npCheck, if_neg (by omega)]
    rfl
  · rw [npCheck, if_neg h]
    rfl

/-- C139: … and truths with one column for each class (for the loss CrossEntropy). -/
theorem C139_onehot {t p : NpArr} (hC : 1 < t.cols) (hr : t.rows = p.rows) (hN : 0 < p.rows) : pyConfusion t p = .error .exception := by
  unfold pyConfusion
  rw [npCheck_ok (Nat.mul_pos (by omega) (by omega)), bind_ok']
  dsimp only
  by_cases h : 1 < p.cols
  · rw [npCheck_ok h, bind_ok', npCheck, if_neg fun h => ?_]
    · rfl
    · have := h.1
      rw [hr] at this
      have : p.rows * 1 = p.rows * t.cols := by omega
      have := Nat.eq_of_mul_eq_mul_left hN this
      omega
  · rw [npCheck, if_neg h]
    rfl

/-- C139: what `fit` collects.  Parameters are trained as in C138.  The loss of an epoch is the sum of the errors of all samples, each for the network it was trained
with, divided by the number of samples times the number of inputs of the network (and, for cross entropies, of outputs).  The accuracies of an epoch are those of the network after
it.  The best model is the network after the first epoch with the largest accuracy on the test data, if this is larger than `best_accuracy` was; otherwise it is the model before `fit`.
Missing for the full claim: models as in `C138_fit_partial`; with accuracies, data that have samples of the last class (`C139_raises`). -/
theorem C139_fit_partial {loss : String} (hl : loss ∈ pyLosses) (k : PyOptKind) (epochs batchSize : Nat) (acc : Bool) (test : Option (Nat × NpArr)) (best0 : ℝ) (r : PyFitRnd)
    (rv : Nat → Nat → PyRnd) {ls : List PyLayer} {m : Mlp} (hm : PyModel ls m)
    (hacc : acc = true → ∀ l, ls[0]? = some l → l.keeps = false) {h : NpStore} {x N D : Nat} (hN : 0 < N) {v y : Nat → Row} (hX : h.Has x N (m.width 0) v) {t : NpArr} (ht : t.Is N D y)
    (hT : TruthFits (pyLossName loss) (m.width m.depth) D N y) (hσ : ∀ ep, ((List.range N).map (r.perm ep)).Perm (List.range N))
    (hK : acc = true → 1 < m.width m.depth) {c : Nat → Nat} (hc : acc = true → PyLabels (m.width m.depth) N t c)
    {Nt : Nat} {vt : Nat → Row} {ct : Nat → Nat} (htest : acc = true → ∀ xt tt, test = some (xt, tt) → h.Has xt Nt (m.width 0) vt ∧ PyLabels (m.width m.depth) Nt tt ct) :
    let B := if batchSize = 0 then N else batchSize
    let nb := nbBatches N B
    ∃ (s' : PyTrainState) (log : PyLog) (ms : Nat → Mlp), pyFitLog loss k epochs batchSize acc test best0 r rv m.width ls x t h = .ok (s', log) ∧ ms 0 = m.xavier r.init ∧
      PyRep s'.h s'.ls (ms (epochs * nb)) ∧
      Mlp.TrainedBy (fun _ _ => PyOpt.new k) (pyLossName loss) (fun u => batchEnd N B (u % nb) - batchStart B (u % nb))
        (fun u i => v (r.perm (u / nb) (batchStart B (u % nb) + i))) (fun u i => y (r.perm (u / nb) (batchStart B (u % nb) + i))) ms ∧
      (∀ l ∈ s'.ls, l.training = false) ∧ (∀ q, q < h.length → s'.h[q]? = h[q]?) ∧
      log.Tells acc test.isSome epochs best0 (ls, h)
        (fun ep a => (∀ j i, j < nb → i < batchEnd N B j - batchStart B j → PyUncut loss (m.width m.depth) ((ms (ep * nb + j)).out (v (r.perm ep (batchStart B j + i))))) →
          a = pyLossFactor loss (m.width m.depth) * (∑ j ∈ range nb, ∑ i ∈ range (batchEnd N B j - batchStart B j),
            sampleError (pyLossName loss) (m.width m.depth) ((ms (ep * nb + j)).out (v (r.perm ep (batchStart B j + i)))) (y (r.perm ep (batchStart B j + i)))) / (N * m.width 0 : Nat))
        (fun ep a => (ms ((ep + 1) * nb)).Accuracy N v c a) (fun ep a => (ms ((ep + 1) * nb)).Accuracy Nt vt ct a) (fun ep b => PyRep b.2 b.1 (ms ((ep + 1) * nb))) :=
  pyFitLog_ok hl k epochs batchSize acc test best0 r rv hm hacc hN hX ht hT hσ hK hc htest rfl rfl

/-- C139: the loss of a first epoch with a single batch is the mean error of the initial network divided by the number of inputs of the network, by which it should not be. -/
theorem C139_loss_divided {loss : String} (hl : loss ∈ pyLosses) (k : PyOptKind) (best0 : ℝ) (r : PyFitRnd)
    (rv : Nat → Nat → PyRnd) {ls : List PyLayer} {m : Mlp} (hm : PyModel ls m) {h : NpStore} {x N D : Nat} (hN : 0 < N) {v y : Nat → Row} (hX : h.Has x N (m.width 0) v) {t : NpArr} (ht : t.Is N D y)
    (hT : TruthFits (pyLossName loss) (m.width m.depth) D N y) (hσ : ∀ ep, ((List.range N).map (r.perm ep)).Perm (List.range N))
    (hu : ∀ s, s < N → PyUncut loss (m.width m.depth) ((m.xavier r.init).out (v s))) :
    ∃ s' log, pyFitLog loss k 1 0 false none best0 r rv m.width ls x t h = .ok (s', log) ∧
      log.losses = [pyLossFactor loss (m.width m.depth) * (m.xavier r.init).error (pyLossName loss) N v y / m.width 0] := by
  have hnb : 1 = nbBatches N N := by
    unfold nbBatches
    exact (Nat.div_eq_of_lt_le (by omega) (by omega)).symm
  obtain ⟨s', log, ms, h1, h2, -, -, -, -, h3⟩ := pyFitLog_ok (Nt := 0) (vt := fun _ _ => 0) (ct := fun _ => 0) (c := fun _ => 0) hl k 1 0 false none best0 r rv hm (fun h => by cases h) hN hX ht hT hσ
    (fun h => by cases h) (fun h => by cases h) (fun h => by cases h) (B := N) rfl hnb
  refine ⟨s', log, h1, ?_⟩
  obtain ⟨a, ha⟩ : ∃ a, log.losses = [a] := List.length_eq_one_iff.1 h3.losses.1
  have h0 : batchStart N 0 = 0 ∧ batchEnd N N 0 = N := by simp [batchStart, batchEnd]
  have hperm : ∀ f : Nat → ℝ, ∑ i ∈ range N, f (r.perm 0 i) = ∑ i ∈ range N, f i := fun f => by
    have := ((hσ 0).map f).sum_eq
    rw [List.map_map] at this
    exact this
  have := h3.losses.2 0 a (by rw [ha]; rfl) fun j i hj hi => by
    obtain rfl : j = 0 := by omega
    rw [Nat.zero_mul, Nat.add_zero, h2]
    exact hu _ (List.mem_range.1 ((hσ 0).mem_iff.1 (List.mem_map.2 ⟨_, List.mem_range.2 (by rw [h0.1, h0.2] at hi; rw [h0.1]; omega), rfl⟩)))
  rw [sum_range_one, h0.1, h0.2, Nat.sub_zero] at this
  simp only [Nat.zero_mul, Nat.add_zero, Nat.zero_add, h2] at this
  rw [hperm fun i => sampleError (pyLossName loss) (m.width m.depth) ((m.xavier r.init).out (v i)) (y i)] at this
  rw [ha, this, Mlp.error]
  congr 1
  rw [show (m.xavier r.init).width = m.width from rfl, show (m.xavier r.init).depth = m.depth from rfl, Nat.cast_mul, mul_div_assoc, mul_div_assoc]
  congr 1
  rw [div_mul_eq_div_div, one_div, ← div_eq_inv_mul]

/-! ## Examples -/

/-- Two samples, labelled 0 and 1; the second is put into the first class. -/
example : ∃ M a, pyConfusion ⟨2, 1, fun i _ => i⟩ ⟨2, 2, fun _ j => 1 - j⟩ = .ok (M, a) ∧ (∀ i j, ∃ S : Finset Nat, (∀ s, s ∈ S ↔ s < 2 ∧ s = i ∧ IsFirstMax 2 (fun j => (1 : ℝ) - j) j) ∧ M i j = S.card) ∧
    ∃ S : Finset Nat, (∀ s, s ∈ S ↔ s < 2 ∧ IsFirstMax 2 (fun j => (1 : ℝ) - j) s) ∧ a = 100 * S.card / (2 : Nat) :=
  C139_confusion_partial (N := 2) (C := 2) (c := fun s => s) (q := fun _ j => 1 - j) (by decide) (by decide) ⟨rfl, rfl, fun _ _ _ _ => rfl⟩ ⟨rfl, rfl, fun _ _ _ _ => rfl⟩
    fun _ k _ hk => ⟨1, by decide, by have := hk.1; omega⟩

/-- One sample, labelled 0 and predicted as 1. -/
example : pyConfusion ⟨1, 1, fun _ _ => 0⟩ ⟨1, 2, fun _ j => j⟩ = .error .exception :=
  C139_raises (N := 1) (C := 2) (c := fun _ => 0) (q := fun _ j => j) one_pos ⟨rfl, rfl, fun _ _ _ _ => by simp⟩ ⟨rfl, rfl, fun _ _ _ _ => rfl⟩ one_pos (k := 1)
    ⟨by decide, fun j hj => Nat.cast_le.2 (Nat.le_of_lt_succ hj), fun j hj => Nat.cast_lt.2 hj⟩ fun _ _ => one_pos

example : pyConfusion ⟨2, 1, fun _ _ => 0⟩ ⟨2, 1, fun _ _ => 0⟩ = .error .exception := C139_single rfl
example : pyConfusion ⟨2, 2, fun i j => if i = j then 1 else 0⟩ ⟨2, 2, fun i j => if i = j then 1 else 0⟩ = .error .exception := C139_onehot (by decide) rfl (by decide)

/-- A dense layer of two inputs and two outputs, followed by softmax. -/
noncomputable def classWitness : Mlp :=
  { depth := 2, width := fun _ => 2
    ply := fun i => if i = 0 then { kind := .dense } else { kind := .softmax } }

theorem classWitness_model : PyModel [{ kind := .dense }, { kind := .softmax }] classWitness where
  ok := ⟨by decide, fun _ _ => two_pos, fun i hi => by
    match i with
    | 0 => simp [classWitness, PlyKind.Fits]
    | 1 => simp [classWitness, PlyKind.Fits]
    | i + 2 => simp [classWitness] at hi⟩
  count := rfl
  made := fun i l hl => by
    match i with
    | 0 =>
      obtain rfl : ({ kind := .dense } : PyLayer) = l := by simpa using hl
      trivial
    | 1 =>
      obtain rfl : ({ kind := .softmax } : PyLayer) = l := by simpa using hl
      rfl
    | i + 2 => simp at hl
  learns := by
    intro l hl
    simp only [List.mem_cons, List.not_mem_nil, or_false] at hl
    rcases hl with rfl | rfl <;> trivial
  exp := fun i l l' hl hk => by
    match i with
    | 0 => obtain rfl : ({ kind := .dense } : PyLayer) = l := by simpa using hl
           cases hk
    | 1 => obtain rfl : ({ kind := .softmax } : PyLayer) = l := by simpa using hl
           cases hk
    | i + 2 => simp at hl

/-- It is fitted with Adam to two samples of two classes, in batches of one, and tested with the samples themselves. -/
example (a : Nat → Nat → ℝ) (u : Nat → Nat → Nat → ℝ) (e : Nat → Nat → Nat → PyRnd) (e' e'' : Nat → Nat → PyRnd) :=
  C139_fit_partial (loss := "SparseCategoricalCrossEntropy") (by simp [pyLosses]) .adam 5 1 true (some (0, ⟨2, 1, fun i _ => i⟩)) 0 ⟨u, fun _ i => 1 - i, e, e'⟩ e'' classWitness_model
    (by simp [PyLayer.keeps]) (by decide) (h := [⟨2, 2, a⟩]) (x := 0) (N := 2) (v := a) ⟨⟨2, 2, a⟩, rfl, rfl, rfl, fun _ _ _ _ => rfl⟩ (y := fun s _ => s) (t := ⟨2, 1, fun i _ => i⟩) (D := 1)
    ⟨rfl, rfl, fun _ _ _ _ => rfl⟩ ⟨rfl, by decide, fun i hi => ⟨i, hi, rfl⟩⟩ (fun _ => show ((List.range 2).map fun i => 1 - i).Perm (List.range 2) by decide) (fun _ => by decide)
    (c := fun s => s) (fun _ => ⟨⟨rfl, rfl, fun _ _ _ _ => rfl⟩, fun s hs => hs, 1, by decide, rfl⟩) (Nt := 2) (vt := a) (ct := fun s => s)
    (fun _ xt tt ht => by
      obtain ⟨rfl, rfl⟩ : 0 = xt ∧ (⟨2, 1, fun i _ => i⟩ : NpArr) = tt := by simpa using ht
      exact ⟨⟨⟨2, 2, a⟩, rfl, rfl, rfl, fun _ _ _ _ => rfl⟩, ⟨rfl, rfl, fun _ _ _ _ => rfl⟩, fun s hs => hs, 1, by decide, rfl⟩)

/-- With two inputs the loss is half of the mean error. -/
example (a c : Nat → ℝ) (u : Nat → Nat → Nat → ℝ) (e : Nat → Nat → Nat → PyRnd) (e' e'' : Nat → Nat → PyRnd) :
    ∃ s' log, pyFitLog "MSE" .sgd 1 0 false none 0 ⟨u, fun _ i => 2 - i, e, e'⟩ e'' mlpWitness.width pyLayers 0 ⟨3, 1, fun i _ => c i⟩ (pyData a) = .ok (s', log) ∧
      log.losses = [1 * (mlpWitness.xavier u).error "L2" 3 (fun s _ => a s) (fun s _ => c s) / (2 : Nat)] := by
  have := C139_loss_divided (loss := "MSE") (by simp [pyLosses]) .sgd 0 ⟨u, fun _ i => 2 - i, e, e'⟩ e'' pyLayers_model (by decide) (pyData_has a) (y := fun s _ => c s)
    (t := ⟨3, 1, fun i _ => c i⟩) (D := 1) ⟨rfl, rfl, fun _ _ _ _ => rfl⟩ ((distanceLosses_fits (by decide)).2 1 3 _)
    (fun _ => show ((List.range 3).map fun i => 2 - i).Perm (List.range 3) by decide) (fun _ _ => ⟨fun h => absurd h (by decide), fun h => absurd h (by decide)⟩)
  rw [pyLossFactor, if_neg (by decide)] at this
  exact this

end BeeDNN
