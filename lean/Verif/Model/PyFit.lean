import Verif.Model.PyTrain

/-!
# The Python library (python/beednn): `Train.fit`

The layers of `Model/PyLib` do not hold the sizes given to their constructors (`inSize`, `outSize`); they are a parameter here.  The optimizer is SGD, which has no
state.  Losses and accuracies that are printed and collected, the copy of the best model (which is not used, Model.py:197-198), and callbacks are left out.
-/

namespace BeeDNN

/-- What `numpy.random` delivers during `fit`: numbers in [0,1) for the weights of each layer, an order of the samples for each epoch, and what layers draw in each
batch and in each prediction of the training data. -/
structure PyFitRnd where
  init : Nat → Nat → Nat → ℝ
  perm : Nat → Nat → Nat
  batch : Nat → Nat → Nat → PyRnd
  test : Nat → Nat → PyRnd

/-- Weights at random, Xavier uniform.  Layer.py:364-365, 388-389, 441-442, 505-506. -/
noncomputable def npXavier (u : Nat → Nat → ℝ) (R C : Nat) : NpArr :=
  { rows := R, cols := C, val := fun i j => Real.sqrt (6 / (R + C : Nat)) * (u i j * 2 - 1) }

/-- `np.zeros((1,C))`. -/
def npZeroRow (C : Nat) : NpArr := { rows := 1, cols := C, val := fun _ _ => 0 }

namespace PyLayer

/-- New weights in a new array. -/
def newWeight (W : NpArr) (l : PyLayer) (h : NpStore) : PyLayer × NpStore := ({ l with weight := h.length }, h ++ [W])

/-- New biases in a new array. -/
def newBias (B : NpArr) (l : PyLayer) (h : NpStore) : PyLayer × NpStore := ({ l with bias := h.length }, h ++ [B])

/-- `init(self)` of a layer constructed for `C` inputs and `C'` outputs.  Layer.py:22-23, 283-285, 302-304, 320-322, 363-366, 387-392, 440-443, 476-478, 504-509. -/
noncomputable def init (u : Nat → Nat → ℝ) (C C' : Nat) (l : PyLayer) (h : NpStore) : PyLayer × NpStore :=
  match l.kind with
  | .globalBias => l.newBias (npZeroRow 1) h
  | .bias => l.newBias (npZeroRow C') h
  | .globalGain => l.newWeight ⟨1, 1, fun _ _ => 1⟩ h
  | .dot => l.newWeight (npXavier u C C') h
  | .dense =>
    let (l, h) := l.newWeight (npXavier u C C') h
    l.newBias (npZeroRow C') h
  | .tdDot i o => l.newWeight (npXavier u i o) h
  | .tdBias s => l.newBias (npZeroRow s) h
  | .tdDense i o =>
    let (l, h) := l.newWeight (npXavier u i o) h
    l.newBias (npZeroRow o) h
  | _ => (l, h)

end PyLayer

/-- Model.py:39-41 `init`: the layers from number `i` on, with `w` the sizes between the layers. -/
noncomputable def pyInit (u : Nat → Nat → Nat → ℝ) (w : Nat → Nat) : List PyLayer → Nat → NpStore → List PyLayer × NpStore
  | [], _, h => ([], h)
  | l :: ls, i, h =>
    let (l, h) := l.init (u i) (w i) (w (i + 1)) h
    let (ls, h) := pyInit u w ls (i + 1) h
    (l :: ls, h)

/-- `a[perm,:][start:stop,:]`. -/
def npTake (a : NpArr) (perm : Nat → Nat) (start stop : Nat) : NpArr :=
  { rows := stop - start, cols := a.cols, val := fun i j => a.val (perm (start + i)) j }

/-- Model.py:131-159, 166-167: one epoch with batches of size `B`; `acc` tells if the metrics are "accuracy", for which the training data are predicted (in training
mode).  Simplified: the batches are slices of one permuted copy of the data, here each is an array of its own; this makes no difference, as slices do not overlap and the
copy is not used afterwards.  The loop runs while `batch_start < nbsamples`. -/
noncomputable def pyEpoch (loss : String) (lr : ℝ) (B : Nat) (acc : Bool) (r : PyFitRnd) (x : Nat) (t : NpArr) (ep : Nat) (s : List PyLayer × NpStore) : Out (List PyLayer × NpStore) := do
  let X ← s.2.load x
  npCheck (X.rows ≤ t.rows)
  let s ← forN ((X.rows + B - 1) / B) (fun k s => do
    let start := k * B
    let stop := min (start + B) X.rows
    pyTrainBatch loss lr (r.batch ep k) s.1 s.2.length (npTake t (r.perm ep) start stop) (s.2 ++ [npTake X (r.perm ep) start stop])) s
  if acc then do
    let (_, ls, h) ← pyPredict (r.test ep) s.1 x s.2
    .ok (ls, h)
  else .ok s

/-- Model.py:104-199 `Train.fit` on the training data in the array `x` with the truths `t`: layers are switched to training mode and initialised, trained, and switched
back. -/
noncomputable def pyFit (loss : String) (lr : ℝ) (epochs batchSize : Nat) (acc : Bool) (r : PyFitRnd) (w : Nat → Nat) (ls : List PyLayer) (x : Nat) (t : NpArr) (h : NpStore) :
    Out (List PyLayer × NpStore) := do
  let s := pyInit r.init w (ls.map fun l => { l with training := true }) 0 h
  let X ← s.2.load x
  let s ← forN epochs (pyEpoch loss lr (if batchSize = 0 then X.rows else batchSize) acc r x t) s
  .ok (s.1.map fun l => { l with training := false }, s.2)

end BeeDNN
