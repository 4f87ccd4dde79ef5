import Verif.Model.PyFit
import Verif.Model.PyOptimizer
import Mathlib.Logic.Function.Basic

/-!
# The Python library (python/beednn): training with any optimizer

As in `Model/PyTrain`, with the optimizers of `Model/PyOptimizer`.  `o i false` is `optimizer_Weight` of layer `i` and `o i true` is `optimizer_Bias`; a
layer without weights or biases does not use them.
-/

namespace BeeDNN

namespace PyLayer

/-- `self.bias` (`b = true`) or `self.weight`. -/
def param (b : Bool) (l : PyLayer) : Nat := if b then l.bias else l.weight

/-- `self.dldb` (`b = true`) or `self.dldw`. -/
def grad (b : Bool) (l : PyLayer) : NpArr := if b then l.dldb else l.dldw

/-- `self.bias=self.optimizer_Bias.optimize(self.bias,self.dldb)` (`b = true`) or `self.weight=self.optimizer_Weight.optimize(self.weight,self.dldw)`. -/
noncomputable def stepBy (b : Bool) (l : PyLayer) (o : Bool → PyOpt) (h : NpStore) : Out (PyLayer × (Bool → PyOpt) × NpStore) := do
  let (q, r, h) ← (o b).optimize (l.param b) (l.grad b) h
  .ok (if b then { l with bias := r } else { l with weight := r }, Function.update o b q, h)

/-- `optimize(self)`.  Layer.py:30-31 (nothing, for layers without parameters), 294-295, 313-314, 334-335, 378-379, 405-407, 468-469, 495-496, 538-540. -/
noncomputable def optimizeBy (l : PyLayer) (o : Bool → PyOpt) (h : NpStore) : Out (PyLayer × (Bool → PyOpt) × NpStore) :=
  match l.kind with
  | .globalBias | .bias | .tdBias _ => l.stepBy true o h
  | .globalGain | .dot | .tdDot .. => l.stepBy false o h
  | .dense | .tdDense .. => do
    let (l, o, h) ← l.stepBy false o h
    l.stepBy true o h
  | _ => .ok (l, o, h)

end PyLayer

/-- Model.py:54-56 `optimize`, from layer `i` on. -/
noncomputable def pyOptimizeBy : List PyLayer → Nat → (Nat → Bool → PyOpt) → NpStore → Out (List PyLayer × (Nat → Bool → PyOpt) × NpStore)
  | [], _, o, h => .ok ([], o, h)
  | l :: ls, i, o, h => do
    let (l, q, h) ← l.optimizeBy (o i) h
    let (ls, o, h) ← pyOptimizeBy ls (i + 1) (Function.update o i q) h
    .ok (l :: ls, o, h)

/-- The model, its optimizers and the arrays. -/
structure PyTrainState where
  ls : List PyLayer
  o : Nat → Bool → PyOpt
  h : NpStore

/-- Model.py:149-159: one batch of training, with the batch in the array `x` and the truths `t`. -/
noncomputable def pyTrainBatchBy (loss : String) (e : Nat → PyRnd) (s : PyTrainState) (x : Nat) (t : NpArr) : Out PyTrainState := do
  let (r, ls, h) ← pyPredict e s.ls x s.h
  let P ← h.load r
  let G ← pyLossGrad loss P t
  let (_, ls) ← pyBackprop ls G h
  let (ls, o, h) ← pyOptimizeBy ls 0 s.o h
  .ok ⟨ls, o, h⟩

/-- Model.py:141-159: training with `n` batches; batch `k` has the samples `X k` and truths `T k`, and the samples are put in a new array (lines 145). -/
noncomputable def pyTrainBatches (loss : String) (e : Nat → Nat → PyRnd) (X T : Nat → NpArr) (n : Nat) (s : PyTrainState) : Out PyTrainState :=
  forN n (fun k s => pyTrainBatchBy loss (e k) { s with h := s.h ++ [X k] } s.h.length (T k)) s

/-- Model.py:131-159, 166-167: one epoch with batches of size `B`; see `pyEpoch`. -/
noncomputable def pyEpochBy (loss : String) (B : Nat) (acc : Bool) (r : PyFitRnd) (x : Nat) (t : NpArr) (ep : Nat) (s : PyTrainState) : Out PyTrainState := do
  let X ← s.h.load x
  npCheck (X.rows ≤ t.rows)
  let s ← forN ((X.rows + B - 1) / B) (fun k s => do
    let start := k * B
    let stop := min (start + B) X.rows
    pyTrainBatchBy loss (r.batch ep k) { s with h := s.h ++ [npTake X (r.perm ep) start stop] } s.h.length (npTake t (r.perm ep) start stop)) s
  if acc then do
    let (_, ls, h) ← pyPredict (r.test ep) s.ls x s.h
    .ok { s with ls := ls, h := h }
  else .ok s

/-- Model.py:104-199 `Train.fit` with an optimizer of class `k`, see `pyFit`.  `init` of a layer creates its optimizers by `opt.create`, with the settings of the
class (Layer.py:304, 366, 391-392, 443, 478, 508-509). -/
noncomputable def pyFitBy (loss : String) (k : PyOptKind) (epochs batchSize : Nat) (acc : Bool) (r : PyFitRnd) (w : Nat → Nat) (ls : List PyLayer) (x : Nat) (t : NpArr) (h : NpStore) :
    Out PyTrainState := do
  let s := pyInit r.init w (ls.map fun l => { l with training := true }) 0 h
  let X ← s.2.load x
  let s ← forN epochs (pyEpochBy loss (if batchSize = 0 then X.rows else batchSize) acc r x t) ⟨s.1, fun _ _ => PyOpt.new k, s.2⟩
  .ok { s with ls := s.ls.map fun l => { l with training := false } }

end BeeDNN
