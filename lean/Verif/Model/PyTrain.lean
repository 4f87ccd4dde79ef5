import Verif.Model.PyLib

/-!
# The Python library (python/beednn): backpropagation, losses, gradient descent

Simplifications: see `Model/PyLib`.  The optimizer is SGD; printing, statistics and callbacks are left out.
-/

namespace BeeDNN
open Finset

/-- The array in a member that may not have been set (then Python raises an exception). -/
def NpStore.loadMember (h : NpStore) : Option Nat → Out NpArr
  | some r => h.load r
  | none => .error .exception

/-- `a.mean()` as an array of one number. -/
noncomputable def npMeanAll (a : NpArr) : NpArr :=
  { rows := 1, cols := 1, val := fun _ _ => (∑ i ∈ range a.rows, ∑ j ∈ range a.cols, a.val i j) / (a.rows * a.cols : Nat) }

namespace PyLayer

/-- `backpropagation(self,dldy)`: the gradient returned and the layer afterwards.  Layer.py:34-35 (`dldy * self.dydx`, for all classes without parameters),
290-292 (GlobalBias), 309-311 (Bias), 330-332 (GlobalGain), 373-376 (Dot), 399-403 (Dense), 453-466, 485-493, 520-536 (time distributed layers).
Simplified: lines 459 and 526 also keep the reshaped `dydw`; reshaping it once more would not change it. -/
noncomputable def backward (l : PyLayer) (G : NpArr) (h : NpStore) : Out (NpArr × PyLayer) :=
  match l.kind with
  | .globalBias => .ok (G, { l with dldb := npMeanAll G })
  | .bias => .ok (G, { l with dldb := npMean G })
  | .globalGain => do
    let X ← h.loadMember l.dydw
    let P ← npMul X G
    let W ← h.loadMember l.dydx
    .ok (G.map (· * W.val 0 0), { l with dldw := npMeanAll P })
  | .dot => do
    let X ← h.loadMember l.dydw
    let P ← npDot X.transpose G
    let W ← h.load l.weight
    let D ← npDot G W.transpose
    .ok (D, { l with dldw := P.map (· * (1 / X.rows)) })
  | .dense => do
    let X ← h.loadMember l.dydw
    let P ← npDot X.transpose G
    let W ← h.load l.weight
    let D ← npDot G W.transpose
    .ok (D, { l with dldw := P.map (· * (1 / X.rows)), dldb := npMean G })
  | .tdDot i o => do
    let F ← npFrames G o
    let X ← h.loadMember l.dydw
    let X ← npFrames X i
    let P ← npDot X.transpose F
    let W ← h.load l.weight
    let D ← npDot F W.transpose
    let D ← npSamples D G.rows
    .ok (D, { l with dldw := P })
  | .tdBias s => do
    let F ← npFrames G s
    .ok (G, { l with dldb := npMean F })
  | .tdDense i o => do
    let F ← npFrames G o
    let X ← h.loadMember l.dydw
    let X ← npFrames X i
    let P ← npDot X.transpose F
    let W ← h.load l.weight
    let D ← npDot F W.transpose
    let D ← npSamples D G.rows
    .ok (D, { l with dldw := P, dldb := npMean F })
  | _ =>
    match l.dydx with
    | none => .ok (G, l)
    | some r => do
      let D ← h.load r
      let D ← npMul G D
      .ok (D, l)

end PyLayer

/-- Model.py:49-52 `backpropagation`: the layers from the last to the first. -/
noncomputable def pyBackprop : List PyLayer → NpArr → NpStore → Out (NpArr × List PyLayer)
  | [], G, _ => .ok (G, [])
  | l :: ls, G, h => do
    let (G, ls) ← pyBackprop ls G h
    let (G, l) ← l.backward G h
    .ok (G, l :: ls)

/-- Optimizer.py:23-26 `OptimizerSGD.optimize`. -/
def npSgd (lr : ℝ) (w dw : NpArr) : Out NpArr := do
  npCheck (w.rows = dw.rows ∧ w.cols = dw.cols)
  .ok { w with val := fun i j => w.val i j - dw.val i j * lr }

namespace PyLayer

/-- The weights after a step, in a new array. -/
def stepWeight (lr : ℝ) (l : PyLayer) (h : NpStore) : Out (PyLayer × NpStore) := do
  let W ← h.load l.weight
  let W ← npSgd lr W l.dldw
  .ok ({ l with weight := h.length }, h ++ [W])

/-- The biases after a step, in a new array. -/
def stepBias (lr : ℝ) (l : PyLayer) (h : NpStore) : Out (PyLayer × NpStore) := do
  let B ← h.load l.bias
  let B ← npSgd lr B l.dldb
  .ok ({ l with bias := h.length }, h ++ [B])

/-- `optimize(self)`.  Layer.py:30-31 (nothing, for layers without parameters), 294-295, 313-314, 334-335, 378-379, 405-407, 468-469, 495-496, 538-540. -/
def optimize (lr : ℝ) (l : PyLayer) (h : NpStore) : Out (PyLayer × NpStore) :=
  match l.kind with
  | .globalBias | .bias | .tdBias _ => l.stepBias lr h
  | .globalGain | .dot | .tdDot .. => l.stepWeight lr h
  | .dense | .tdDense .. => do
    let (l, h) ← l.stepWeight lr h
    l.stepBias lr h
  | _ => .ok (l, h)

end PyLayer

/-- Model.py:54-56 `optimize`. -/
def pyOptimize (lr : ℝ) : List PyLayer → NpStore → Out (List PyLayer × NpStore)
  | [], h => .ok ([], h)
  | l :: ls, h => do
    let (l, h) ← l.optimize lr h
    let (ls, h) ← pyOptimize lr ls h
    .ok (l :: ls, h)

/-- The gradient of the cross entropies for a probability and a truth (Loss.py:75, 93). -/
noncomputable def npCross (p t : ℝ) : ℝ := -t / max p 1e-8 + (1 - t) / max (1 - p) 1e-8

open Classical in
/-- The gradient that the loss layer keeps for the prediction `p` and the truth `t`.  Loss.py:23-31 (MSE), 33-41 (MAE), 43-51 (LogCosh), 54-63 (BinaryCrossEntropy),
66-76 (CrossEntropy), 78-94 (SparseCategoricalCrossEntropy; negative labels, which count from the end, are left out), 97-116.  Truths of other
shapes, which numpy may repeat, are left out.  Without a known loss, `fit` fails at Model.py:128. -/
noncomputable def pyLossGrad (loss : String) (p t : NpArr) : Out NpArr :=
  if loss = "SparseCategoricalCrossEntropy" then do
    npCheck (t.rows = p.rows ∧ t.cols = 1 ∧ ∀ i, i < t.rows → ∃ c : Nat, c < p.cols ∧ t.val i 0 = c)
    .ok { p with val := fun i j => npCross (p.val i j) (if t.val i 0 = j then 1 else 0) }
  else do
    npCheck (t.rows = p.rows ∧ t.cols = p.cols)
    if loss = "MSE" then .ok { p with val := fun i j => p.val i j - t.val i j }
    else if loss = "MAE" then .ok { p with val := fun i j => npSign (p.val i j - t.val i j) }
    else if loss = "LogCosh" then .ok { p with val := fun i j => Real.tanh (p.val i j - t.val i j) }
    else if loss = "BinaryCrossEntropy" then
      .ok { p with val := fun i j => -t.val i j / max 1e-8 (p.val i j) + (1 - t.val i j) / max 1e-8 (1 - p.val i j) }
    else if loss = "CrossEntropy" then
      .ok { p with val := fun i j => npCross (p.val i j) (t.val i j) }
    else .error .exception

/-- Model.py:149-159: one batch of training, with the batch in the array `x` and the truths `t`. -/
noncomputable def pyTrainBatch (loss : String) (lr : ℝ) (e : Nat → PyRnd) (ls : List PyLayer) (x : Nat) (t : NpArr) (h : NpStore) : Out (List PyLayer × NpStore) := do
  let (r, ls, h) ← pyPredict e ls x h
  let P ← h.load r
  let G ← pyLossGrad loss P t
  let (_, ls) ← pyBackprop ls G h
  pyOptimize lr ls h

end BeeDNN
