import Verif.Model.PyTrainBy

/-!
# The Python library (python/beednn): what `Train.fit` collects

Losses and accuracies of the epochs, and the copy of the best model.  Numbers are real; NaN, which an empty confusion matrix would give, is an exception here.
-/

namespace BeeDNN
open Finset

/-- `a.sum()`. -/
noncomputable def npSum (a : NpArr) : ℝ := ∑ i ∈ range a.rows, ∑ j ∈ range a.cols, a.val i j

/-- `np.atleast_2d(np.mean(a,axis=1))`: the means of the rows, as one row. -/
noncomputable def npRowMeans (a : NpArr) : NpArr := { rows := 1, cols := a.rows, val := fun _ i => (∑ j ∈ range a.cols, a.val i j) / a.cols }

/-- The loss that the loss layer returns for the prediction `p` and the truth `t`.  Loss.py:23-31 (MSE), 33-41 (MAE), 43-51 (LogCosh), 54-63 (BinaryCrossEntropy),
66-76 (CrossEntropy), 78-94 (SparseCategoricalCrossEntropy), 97-116; simplified as in `pyLossGrad`. -/
noncomputable def pyLossValue (loss : String) (p t : NpArr) : Out NpArr :=
  if loss = "SparseCategoricalCrossEntropy" then do
    npCheck (t.rows = p.rows ∧ t.cols = 1 ∧ ∀ i, i < t.rows → ∃ c : Nat, c < p.cols ∧ t.val i 0 = c)
    .ok (npRowMeans { p with val := fun i j => -(if t.val i 0 = j then 1 else 0) * Real.log (max (p.val i j) 1e-8) })
  else do
    npCheck (t.rows = p.rows ∧ t.cols = p.cols)
    if loss = "MSE" then .ok { p with val := fun i j => (p.val i j - t.val i j) * (p.val i j - t.val i j) * 0.5 }
    else if loss = "MAE" then .ok { p with val := fun i j => |p.val i j - t.val i j| }
    else if loss = "LogCosh" then .ok { p with val := fun i j => Real.log (Real.cosh (p.val i j - t.val i j)) }
    else if loss = "BinaryCrossEntropy" then
      .ok { p with val := fun i j => -t.val i j * Real.log (max (p.val i j) 1e-8) - (1 - t.val i j) * Real.log (max 1e-8 (1 - p.val i j)) }
    else if loss = "CrossEntropy" then
      .ok (npRowMeans { p with val := fun i j => -t.val i j * Real.log (max (p.val i j) 1e-8) })
    else .error .exception

/-- Model.py:149-162: one batch of training as in `pyTrainBatchBy`, with the sum of its losses. -/
noncomputable def pyTrainBatchLog (loss : String) (e : Nat → PyRnd) (s : PyTrainState) (x : Nat) (t : NpArr) : Out (PyTrainState × ℝ) := do
  let (r, ls, h) ← pyPredict e s.ls x s.h
  let P ← h.load r
  let L ← pyLossValue loss P t
  let G ← pyLossGrad loss P t
  let (_, ls) ← pyBackprop ls G h
  let (ls, o, h) ← pyOptimizeBy ls 0 s.o h
  .ok (⟨ls, o, h⟩, npSum L)

/-- `np.argmax(p,axis=1)`, for row `s`: the first of the largest. -/
noncomputable def npArgmax (p : NpArr) (s : Nat) : Nat := (List.range (p.cols - 1)).foldl (fun b j => if p.val s b < p.val s (j + 1) then j + 1 else b) 0

/-- Entry `s` of `truth.ravel()`, as an integer. -/
noncomputable def npLabel (t : NpArr) (s : Nat) : ℤ := ⌊t.val (s / t.cols) (s % t.cols)⌋

/-- `np.max(truth)+1`. -/
noncomputable def npNbClass (t : NpArr) : ℤ := (List.range (t.rows * t.cols)).foldl (fun b s => max b (npLabel t s)) (npLabel t 0) + 1

/-- Model.py:13-24 `compute_confusion_matrix`, called with its default for the number of classes; the matrix has `npNbClass t` rows and columns.  `np.max` needs an
element (line 15); predictions in a single column are not rounded, and arrays of floats, as models return, are no indices (line 21); indices out of range raise an exception,
negative ones count from the end.  Simplified: the type of the numbers is not modelled, an array of integers is one with integer values; truths of another number than the predictions, which numpy repeats if there is
one only, are left out. -/
noncomputable def pyConfusion (t p : NpArr) : Out ((Nat → Nat → Nat) × ℝ) := do
  npCheck (0 < t.rows * t.cols)
  let nb := npNbClass t
  npCheck (1 < p.cols)
  npCheck (t.rows * t.cols = p.rows ∧ ∀ i, i < t.rows → ∀ j, j < t.cols → (⌊t.val i j⌋ : ℝ) = t.val i j)
  npCheck (∀ s, s < p.rows → -nb ≤ npLabel t s ∧ npLabel t s < nb ∧ (npArgmax p s : ℤ) < nb)
  let M := (List.range p.rows).foldl (fun (M : Nat → Nat → Nat) s => fun i j =>
    M i j + if (i : ℤ) = (if npLabel t s < 0 then npLabel t s + nb else npLabel t s) ∧ j = npArgmax p s then 1 else 0) fun _ _ => 0
  .ok (M, 100 * (∑ i ∈ range nb.toNat, M i i : Nat) / (∑ i ∈ range nb.toNat, ∑ j ∈ range nb.toNat, M i j : Nat))

/-- Model.py:168-169, 174-175: the accuracy on the data in the array `x` with truths `t`. -/
noncomputable def pyScore (e : Nat → PyRnd) (x : Nat) (t : NpArr) (s : PyTrainState) : Out (PyTrainState × ℝ) := do
  let (r, ls, h) ← pyPredict e s.ls x s.h
  let P ← h.load r
  let (_, a) ← pyConfusion t P
  .ok ({ s with ls := ls, h := h }, a)

/-- `epoch_loss`, `epoch_train_accuracy`, `epoch_valid_accuracy`, `best_accuracy` and `best_net`, a deep copy of the model: its layers, and its arrays. -/
structure PyLog where
  losses : List ℝ
  train : List ℝ
  valid : List ℝ
  bestAcc : ℝ
  best : List PyLayer × NpStore

/-- Model.py:131-190: one epoch, see `pyEpoch`; `test` has the test data and truths, if there are any, and `rv` is what layers draw when predicting them.  Callbacks and output are left out. -/
noncomputable def pyEpochLog (loss : String) (B : Nat) (acc : Bool) (test : Option (Nat × NpArr)) (r : PyFitRnd) (rv : Nat → Nat → PyRnd) (x : Nat) (t : NpArr) (ep : Nat)
    (s : PyTrainState × PyLog) : Out (PyTrainState × PyLog) := do
  let X ← s.1.h.load x
  npCheck (X.rows ≤ t.rows)
  let (q, sum) ← forN ((X.rows + B - 1) / B) (fun k (z : PyTrainState × ℝ) => do
    let start := k * B
    let stop := min (start + B) X.rows
    let (q, v) ← pyTrainBatchLog loss (r.batch ep k) { z.1 with h := z.1.h ++ [npTake X (r.perm ep) start stop] } z.1.h.length (npTake t (r.perm ep) start stop)
    .ok (q, z.2 + v)) (s.1, 0)
  let log := { s.2 with losses := s.2.losses ++ [sum / (X.rows * X.cols : Nat)] }
  if acc then do
    let (q, a) ← pyScore (r.test ep) x t q
    let log := { log with train := log.train ++ [a] }
    match test with
    | none => .ok (q, log)
    | some (xt, tt) => do
      let (q, a) ← pyScore (rv ep) xt tt q
      let log := { log with valid := log.valid ++ [a] }
      .ok (q, if log.bestAcc < a then { log with bestAcc := a, best := (q.ls, q.h) } else log)
  else .ok (q, log)

/-- Model.py:104-199 `Train.fit`, see `pyFitBy`, with what it collects.  `best0` is `best_accuracy` before the call: 0 in a new `Train` (line 73), and not reset by `fit`.
At first the best model is a copy of the model before `init` (line 111). -/
noncomputable def pyFitLog (loss : String) (k : PyOptKind) (epochs batchSize : Nat) (acc : Bool) (test : Option (Nat × NpArr)) (best0 : ℝ) (r : PyFitRnd) (rv : Nat → Nat → PyRnd) (w : Nat → Nat)
    (ls : List PyLayer) (x : Nat) (t : NpArr) (h : NpStore) : Out (PyTrainState × PyLog) := do
  let s := pyInit r.init w (ls.map fun l => { l with training := true }) 0 h
  let X ← s.2.load x
  let z ← forN epochs (pyEpochLog loss (if batchSize = 0 then X.rows else batchSize) acc test r rv x t) (⟨s.1, fun _ _ => PyOpt.new k, s.2⟩, ⟨[], [], [], best0, (ls, h)⟩)
  .ok ({ z.1 with ls := z.1.ls.map fun l => { l with training := false } }, z.2)

end BeeDNN
