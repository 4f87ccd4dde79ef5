import Verif.Model.Core
import Verif.Model.Activations
import Mathlib.Data.Real.Sign
import Mathlib.Algebra.BigOperators.Group.Finset.Basic

/-!
# The Python library (python/beednn): layers and models

Python variables hold references to numpy arrays, and several layers write to the array they are given.  Arrays are
therefore cells of a store and variables are positions in it; cells are never freed.

Simplifications: arrays have two dimensions (`LayerFlatten` is left out) and real numbers; a numpy operation on arrays of
shapes that do not fit raises an exception (`Fault.exception`); gradients are passed by value, since no layer writes to
the gradient it is given; each layer object is in one model only.
-/

namespace BeeDNN
open Finset

/-- A numpy array with two dimensions.  `val` matters for indices inside only. -/
structure NpArr where
  rows : Nat
  cols : Nat
  val : Nat → Nat → ℝ

/-- The numpy arrays that exist. -/
abbrev NpStore := List NpArr

/-- The array that a variable refers to. -/
def NpStore.load (h : NpStore) (r : Nat) : Out NpArr :=
  match h[r]? with
  | some a => .ok a
  | none => .error .nullDeref

/-- Condition that numpy checks, with an exception otherwise. -/
def npCheck (c : Prop) [Decidable c] : Out Unit := if c then .ok () else .error .exception

/-- An elementwise function of an array. -/
def NpArr.map (f : ℝ → ℝ) (a : NpArr) : NpArr := { a with val := fun i j => f (a.val i j) }

/-- `a @ b`. -/
def npDot (a b : NpArr) : Out NpArr := do
  npCheck (a.cols = b.rows)
  .ok { rows := a.rows, cols := b.cols, val := fun i j => ∑ k ∈ range a.cols, a.val i k * b.val k j }

/-- `a + b` with a `b` of one row, which is added to each row of `a`.  Simplified: numpy would also repeat an `a` or `b` with a
single column; with the shapes of the layers this happens for layers of one column only, where it is the same. -/
def npAddRow (a b : NpArr) : Out NpArr := do
  npCheck (b.rows = 1 ∧ a.cols = b.cols)
  .ok { a with val := fun i j => a.val i j + b.val 0 j }

/-- `a * b` for arrays of one shape. -/
def npMul (a b : NpArr) : Out NpArr := do
  npCheck (a.rows = b.rows ∧ a.cols = b.cols)
  .ok { a with val := fun i j => a.val i j * b.val i j }

/-- `a.T`. -/
def NpArr.transpose (a : NpArr) : NpArr := { rows := a.cols, cols := a.rows, val := fun i j => a.val j i }

/-- `a.reshape((-1,n))`: one frame by row. -/
def npFrames (a : NpArr) (n : Nat) : Out NpArr := do
  npCheck (0 < n ∧ a.rows * a.cols % n = 0)
  .ok { rows := a.rows * a.cols / n, cols := n, val := fun i j => a.val ((i * n + j) / a.cols) ((i * n + j) % a.cols) }

/-- `a.reshape((n,-1))`: back to `n` samples. -/
def npSamples (a : NpArr) (n : Nat) : Out NpArr := do
  npCheck (0 < n ∧ a.rows * a.cols % n = 0)
  let c := a.rows * a.cols / n
  .ok { rows := n, cols := c, val := fun i j => a.val ((i * c + j) / a.cols) ((i * c + j) % a.cols) }

/-- `np.mean(a,axis=0)` as an array of one row. -/
noncomputable def npMean (a : NpArr) : NpArr := { rows := 1, cols := a.cols, val := fun _ j => (∑ i ∈ range a.rows, a.val i j) / a.rows }

/-- An activation of the Python library: does it write the result to the array it is given, the function, and what is
stored in `dydx`. -/
structure PyAct where
  inPlace : Bool := false
  f : ℝ → ℝ
  d : ℝ → ℝ

/-- `np.sign`. -/
noncomputable def npSign (x : ℝ) : ℝ := if 0 < x then 1 else if x < 0 then -1 else 0

namespace PyAct
open Real

/-- Layer.py:48-52. -/
noncomputable def absolute : PyAct := { f := fun x => |x|, d := npSign }
/-- Layer.py:55-59. -/
noncomputable def arcSinh : PyAct := { f := arsinh, d := fun x => 1 / √(1 + x * x) }
/-- Layer.py:61-65. -/
noncomputable def arcTan : PyAct := { f := arctan, d := fun x => 1 / (1 + x * x) }
/-- Layer.py:67-71. -/
noncomputable def bent : PyAct := { f := fun x => (√(x * x + 1) - 1) * 0.5 + x, d := fun x => x / (2 * √(x * x + 1)) + 1 }
/-- Layer.py:74-78. -/
noncomputable def binaryStep : PyAct := { f := fun x => if x > 0 then 1 else 0, d := fun x => x * 0 }
/-- Layer.py:81-85. -/
noncomputable def bipolar : PyAct := { f := npSign, d := fun x => x * 0 }
/-- Layer.py:88-93. -/
noncomputable def bipolarSigmoid : PyAct :=
  { f := fun x => (exp x - 1) / (exp x + 1), d := fun x => 2 * exp x / ((exp x + 1) * (exp x + 1)) }
/-- Layer.py:96-100. -/
noncomputable def complementaryLogLog : PyAct := { f := fun x => 1 - exp (-exp x), d := fun x => exp (x - exp x) }
/-- Layer.py:102-106.  Here `dydx` is the scalar itself. -/
noncomputable def divideBy256 : PyAct := { f := fun x => x * 0.00390625, d := fun _ => 0.00390625 }
/-- Layer.py:109-115. -/
noncomputable def dSiLU : PyAct :=
  { f := fun x => let ex := exp (-x); let exinv := 1 / (1 + ex); exinv * (1 + x * ex * exinv)
    d := fun x => let ex := exp (-x); let exinv := 1 / (1 + ex); ex * exinv * exinv * (2 + x * (2 * ex * exinv - 1)) }
/-- Layer.py:124-129. -/
noncomputable def gauss : PyAct := { f := fun x => exp (-x * x), d := fun x => -2 * x * exp (-x * x) }
/-- Layer.py:132-141: `u=x` does not copy. -/
noncomputable def hardTanh : PyAct :=
  { inPlace := true, f := fun x => if x < -1 then -1 else if x > 1 then 1 else x, d := fun x => if x > 1 then 0 else if x < -1 then 0 else 1 }
/-- Layer.py:144-153; the second assignment looks at the values that the first has left. -/
noncomputable def hardELU : PyAct :=
  { inPlace := true
    f := fun x => let u := if x < 0 ∧ x > -2 then x * 0.5 else x; if u < -2 then -1 else u
    d := fun x => if x < -2 then 0 else if x < 0 ∧ x > -2 then 0.5 else 1 }
/-- Layer.py:157-164. -/
noncomputable def hardShrink : PyAct :=
  { inPlace := true, f := fun x => if x < 0.5 ∧ x > -0.5 then 0 else x, d := fun x => if x < 0.5 ∧ x > -0.5 then 0 else 1 }
/-- Layer.py:170-177. -/
noncomputable def leakyRELU : PyAct := { inPlace := true, f := fun x => if x < 0 then x * 0.01 else x, d := fun x => if x < 0 then 0.01 else 1 }
/-- Layer.py:180-187. -/
noncomputable def leakyRELU256 : PyAct :=
  { inPlace := true, f := fun x => if x < 0 then x * 0.00390625 else x, d := fun x => if x < 0 then 0.00390625 else 1 }
/-- Layer.py:190-194. -/
noncomputable def logSigmoid : PyAct := { f := fun x => log (1 / (1 + exp (-x))), d := fun x => 1 / (1 + exp x) }
/-- Layer.py:197-201.  For `0 < x < 1`; beyond, numpy gives `nan`. -/
noncomputable def logit : PyAct := { f := fun x => log (x / (1 - x)), d := fun x => -x / (x - 1) }
/-- Layer.py:203-207. -/
noncomputable def relu : PyAct := { f := fun x => (if x > 0 then 1 else 0) * x, d := fun x => if x > 0 then 1 else 0 }
/-- Layer.py:209-218. -/
noncomputable def relu6 : PyAct :=
  { inPlace := true, f := fun x => if x < 0 then 0 else if x > 6 then 6 else x, d := fun x => if x > 6 then 0 else if x < 0 then 0 else 1 }
/-- Layer.py:220-225. -/
noncomputable def sigmoid : PyAct :=
  { f := fun x => 1 / (1 + exp (-x)), d := fun x => let y := 1 / (1 + exp (-x)); y * (1 - y) }
/-- Layer.py:227-231. -/
noncomputable def softPlus : PyAct := { f := fun x => log (1 + exp x), d := fun x => 1 / (1 + exp (-x)) }
/-- Layer.py:233-238. -/
noncomputable def softSign : PyAct := { f := fun x => x / (1 + |x|), d := fun x => 1 / ((1 + |x|) * (1 + |x|)) }
/-- Layer.py:241-246. -/
noncomputable def swish : PyAct :=
  { f := fun x => x * (1 / (1 + exp (-x))), d := fun x => let y := 1 / (1 + exp (-x)); y * (x + 1 - x * y) }
/-- Layer.py:249-255. -/
noncomputable def siLU : PyAct :=
  { f := fun x => x * (1 / (1 + exp (-x))), d := fun x => let ex := exp (-x); let exinv := 1 / (1 + ex); exinv * (1 + x * ex * exinv) }
/-- Layer.py:258-262. -/
noncomputable def sin : PyAct := { f := Real.sin, d := cos }
/-- Layer.py:264-269. -/
noncomputable def tanh : PyAct := { f := Real.tanh, d := fun x => 1 - Real.tanh x * Real.tanh x }
/-- Layer.py:271-276. -/
noncomputable def tanhShrink : PyAct := { f := fun x => x - Real.tanh x, d := fun x => Real.tanh x * Real.tanh x }

/-- The activations of Layer.py by the names of their classes (without `Layer`). -/
noncomputable def table : List (String × PyAct) :=
  [("Absolute", absolute), ("ArcSinh", arcSinh), ("ArcTan", arcTan), ("Bent", bent), ("BinaryStep", binaryStep), ("Bipolar", bipolar),
    ("BipolarSigmoid", bipolarSigmoid), ("ComplementaryLogLog", complementaryLogLog), ("DivideBy256", divideBy256), ("dSiLU", dSiLU), ("Gauss", gauss),
    ("HardTanh", hardTanh), ("HardELU", hardELU), ("HardShrink", hardShrink), ("LeakyRELU", leakyRELU), ("LeakyRELU256", leakyRELU256),
    ("LogSigmoid", logSigmoid), ("Logit", logit), ("RELU", relu), ("RELU6", relu6), ("Sigmoid", sigmoid), ("SoftPlus", softPlus),
    ("SoftSign", softSign), ("Swish", swish), ("SiLU", siLU), ("Sin", sin), ("Tanh", tanh), ("TanhShrink", tanhShrink)]

end PyAct

/-- The classes of layers.  `exponential` (Layer.py:117-122) and `identity` (Layer.py:166-168) are not among the `act`: what they return is also
kept, or is the array they were given. -/
inductive PyKind where
  | act (a : PyAct)
  | exponential
  | identity
  | globalBias
  | bias
  | globalGain
  | noise
  | dot
  | dense
  | softmax
  | dropout (rate : ℝ)
  | tdDot (inSize outSize : Nat)
  | tdBias (size : Nat)
  | tdDense (inSize outSize : Nat)

/-- A layer object (Layer.py:15-22 and the members of the derived classes); `dydx = none` is the number `1.` of line 17. -/
structure PyLayer where
  kind : PyKind
  training : Bool := false
  dydx : Option Nat := none
  dydw : Option Nat := none
  weight : Nat := 0
  bias : Nat := 0
  dldw : NpArr := ⟨0, 0, fun _ _ => 0⟩
  dldb : NpArr := ⟨0, 0, fun _ _ => 0⟩

/-- What `numpy.random` delivers during one call: numbers to add, and which columns dropout keeps. -/
structure PyRnd where
  noise : Nat → Nat → ℝ
  keep : Nat → Bool

/-- The row of Softmax (Layer.py:414-417): the largest value is subtracted first. -/
noncomputable def pySoftmaxRow (C : Nat) (v : Nat → ℝ) (j : Nat) : ℝ :=
  let m := (List.range C).foldl (fun a k => max a (v k)) (v 0)
  Real.exp (v j - m) / ∑ k ∈ range C, Real.exp (v k - m)

namespace PyLayer

/-- Keep the array `a` as `dydx` if in training mode. -/
def saveDydx (l : PyLayer) (a : NpArr) (h : NpStore) : PyLayer × NpStore :=
  if l.training then ({ l with dydx := some h.length }, h ++ [a]) else (l, h)

/-- Keep the input as `dydw` if in training mode: the array itself, not a copy. -/
def saveDydw (l : PyLayer) (x : Nat) : PyLayer := if l.training then { l with dydw := some x } else l

/-- `forward(self,x)`: the array returned, the layer and the arrays afterwards.  Layer.py:48-276 (activations), 117-122 (Exponential), 166-168
(Identity), 287-288 (GlobalBias), 306-307 (Bias), 324-328 (GlobalGain), 342-355 (noise), 368-371 (Dot), 394-397 (Dense), 413-421 (Softmax),
428-432 (Dropout), 445-451, 480-483, 512-518 (time distributed layers). -/
noncomputable def forward (e : PyRnd) (l : PyLayer) (x : Nat) (h : NpStore) : Out (Nat × PyLayer × NpStore) := do
  let X ← h.load x
  match l.kind with
  | .act a =>
    let (l, h) := l.saveDydx (X.map a.d) h
    if a.inPlace then .ok (x, l, h.set x (X.map a.f)) else .ok (h.length, l, h ++ [X.map a.f])
  | .exponential => .ok (h.length, if l.training then { l with dydx := some h.length } else l, h ++ [X.map Real.exp])
  | .identity => .ok (x, l, h)
  | .globalBias =>
    let B ← h.load l.bias
    .ok (h.length, l, h ++ [X.map (· + B.val 0 0)])
  | .bias =>
    let B ← h.load l.bias
    let Y ← npAddRow X B
    .ok (h.length, l, h ++ [Y])
  | .globalGain =>
    let W ← h.load l.weight
    .ok (h.length, if l.training then { l with dydx := some l.weight, dydw := some x } else l, h ++ [X.map (· * W.val 0 0)])
  | .noise => if l.training then .ok (x, l, h.set x { X with val := fun i j => X.val i j + e.noise i j }) else .ok (x, l, h)
  | .dot =>
    let W ← h.load l.weight
    let Y ← npDot X W
    .ok (h.length, l.saveDydw x, h ++ [Y])
  | .dense =>
    let W ← h.load l.weight
    let B ← h.load l.bias
    let Y ← npDot X W
    let Y ← npAddRow Y B
    .ok (h.length, l.saveDydw x, h ++ [Y])
  | .softmax =>
    npCheck (0 < X.cols)
    let Y : NpArr := { X with val := fun i => pySoftmaxRow X.cols (X.val i) }
    let (l, h) := l.saveDydx (Y.map fun p => p * (1 - p)) h
    .ok (h.length, l, h ++ [Y])
  | .dropout rate =>
    if l.training then .ok (h.length, l, h ++ [{ X with val := fun i j => X.val i j * ((if e.keep j then 1 else 0) * (1 / (1 - rate))) }])
    else .ok (x, l, h)
  | .tdDot i _ =>
    let W ← h.load l.weight
    let Y ← npFrames X i
    let Y ← npDot Y W
    let Y ← npSamples Y X.rows
    .ok (h.length, l.saveDydw x, h ++ [Y])
  | .tdBias s =>
    let B ← h.load l.bias
    let Y ← npFrames X s
    let Y ← npAddRow Y B
    let Y ← npSamples Y X.rows
    .ok (h.length, l, h ++ [Y])
  | .tdDense i _ =>
    let W ← h.load l.weight
    let B ← h.load l.bias
    let Y ← npFrames X i
    let Y ← npDot Y W
    let Y ← npAddRow Y B
    let Y ← npSamples Y X.rows
    .ok (h.length, l.saveDydw x, h ++ [Y])

end PyLayer

/-- Model.py:43-47 `predict`: the layers one after the other. -/
noncomputable def pyPredict (e : Nat → PyRnd) : List PyLayer → Nat → NpStore → Out (Nat × List PyLayer × NpStore)
  | [], x, h => .ok (x, [], h)
  | l :: ls, x, h => do
    let (x, l, h) ← l.forward (e 0) x h
    let (x, ls, h) ← pyPredict (fun i => e (i + 1)) ls x h
    .ok (x, l :: ls, h)

end BeeDNN
