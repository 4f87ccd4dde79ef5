import Verif.Model.Json
import Verif.Model.Train

/-!
# Model of `src/NetUtil.cpp` (`save`)

The values of the weights are real numbers; infinities, NaN and the sign of zero are not represented here.
`(int)` casts of sizes and of the batch size keep the value (no size above 2^31-1).
-/

namespace BeeDNN
open J

/-- A `float` with a real value. -/
noncomputable def flt (x : ℝ) : FloatVal := .fin (decide (x < 0)) |x|

namespace NetSave

/-- A call of `jf.add` with an `int`. -/
def addI (k : String) (z : Int) : Call := .int k.toList z
/-- A call of `jf.add` with a `float`. -/
noncomputable def addF (k : String) (x : ℝ) : Call := .float k.toList (flt x)
/-- A call of `jf.add` with a `string`. -/
def addS (k v : String) : Call := .str k.toList v.toList
/-- A call of `jf.add` with a `bool`. -/
def addB (k : String) (b : Bool) : Call := .bool k.toList b

/-- NetUtil.cpp:56-82: engine, problem, optimizer section (`trainParams`), number of layers.
`get_regularizer` and `get_regularizer_parameter`: NetTrain.cpp:188-200. -/
noncomputable def head (classif : Bool) (t : Trainer) (nbLayers : Nat) : List Call :=
  [addS "Engine" "BeeDNN", addS "Problem" (if classif then "Classification" else "Regression"),
    .enter "Optimizer".toList,
    addS "Optimizer" t.optName, addF "LearningRate" t.lr, addI "Epochs" t.epochs, addF "Decay" t.decay, addF "Momentum" t.mom,
    addI "Patience" t.patience, addI "BatchSize" t.batchSize, addS "Loss" t.loss, addB "KeepBest" t.keepBest,
    addI "ReboostEveryEpochs" t.reboostEvery, addB "ClassBalancingWeightLoss" t.balancing] ++
  (match t.reg with
    | some r => [addS "Regularizer" r.kind.name, addF "RegularizerParameter" r.param]
    | none => []) ++
  [.leave, addI "NbLayers" nbLayers]

/-- NetUtil.cpp:94-108: `Layer::weights()` and `biases()` hold one matrix each (Layer.cpp:51-56, 70-75). -/
noncomputable def params (l : Layer) : List Call :=
  (if l.hasWeights then [addS "WeightInitializer" l.wInit, .array "Weight_0".toList (l.weight.data.map flt)] else []) ++
  (if l.hasBiases then [addS "BiasInitializer" l.bInit, .array "Bias_0".toList (l.bias.data.map flt)] else [])

/-- NetUtil.cpp:110-228: by the type string; a `static_cast` to a class the object does not have is undefined behaviour.
A layer of type "Dot" is cast to `LayerDense` (line 119). -/
noncomputable def special (l : Layer) : Out (List Call) :=
  if l.type = "Dense" then
    match l.kind with
    | .dense i o => .ok [addI "InputSize" i, addI "OutputSize" o]
    | _ => .error .badCast
  else if l.type = "Dot" then
    match l.kind with
    | .dense i o => .ok [addI "InputSize" i, addI "OutputSize" o]
    | _ => .error .badCast
  else if l.type = "ChannelBias" then
    match l.kind with
    | .channelBias r c ch => .ok [addI "Rows" r, addI "Cols" c, addI "Channels" ch]
    | _ => .error .badCast
  else if l.type = "Dropout" then
    match l.kind with
    | .dropout r => .ok [addF "Rate" r]
    | _ => .error .badCast
  else if l.type = "RRelu" then
    match l.kind with
    | .rrelu a b => .ok [addF "Alpha1" a, addF "Alpha2" b]
    | _ => .error .badCast
  else if l.type = "GaussianNoise" then
    match l.kind with
    | .gaussianNoise x => .ok [addF "Noise" x]
    | _ => .error .badCast
  else if l.type = "UniformNoise" then
    match l.kind with
    | .uniformNoise x => .ok [addF "Noise" x]
    | _ => .error .badCast
  else if l.type = "MaxPool2D" then
    match l.kind with
    | .maxPool p => .ok [addI "InRows" p.inRows, addI "InCols" p.inCols, addI "Channels" p.channels,
        addI "RowFactor" p.rowFactor, addI "ColFactor" p.colFactor]
    | _ => .error .badCast
  else if l.type = "GlobalMaxPool2D" then
    match l.kind with
    | .globalMaxPool r c ch => .ok [addI "InRows" r, addI "InCols" c, addI "Channels" ch]
    | _ => .error .badCast
  else if l.type = "Convolution2D" then
    match l.kind with
    | .conv p => .ok [addI "InRows" p.inRows, addI "InCols" p.inCols, addI "InChannels" p.inCh, addI "KernelRows" p.kRows,
        addI "KernelCols" p.kCols, addI "RowStride" p.rowStride, addI "ColStride" p.colStride, addI "OutChannels" p.outCh]
    | _ => .error .badCast
  else if l.type = "TimeDistributedBias" then
    match l.kind with
    | .tdBias f => .ok [addI "FrameSize" f]
    | _ => .error .badCast
  else if l.type = "TimeDistributedDot" then
    match l.kind with
    | .tdDot f o => .ok [addI "InFrameSize" f, addI "OutFrameSize" o]
    | _ => .error .badCast
  else if l.type = "TimeDistributedDense" then
    match l.kind with
    | .tdDense f o => .ok [addI "InFrameSize" f, addI "OutFrameSize" o]
    | _ => .error .badCast
  else .ok []

/-- NetUtil.cpp:86-230: the section of layer `i`. -/
noncomputable def layer (i : Nat) (l : Layer) : Out (List Call) := do
  let s ← special l
  return .enter ("Layer_".toList ++ decText i) :: addS "Type" l.type :: (params l ++ (s ++ [.leave]))

/-- NetUtil.cpp:84-231: the layers from number `i` on. -/
noncomputable def layers : Nat → List Layer → Out (List Call)
  | _, [] => .ok []
  | i, l :: ls => do
    let a ← layer i l
    let b ← layers (i + 1) ls
    return a ++ b

/-- The text written for a network with these layers. -/
noncomputable def text (classif : Bool) (t : Trainer) (ls : List Layer) : Out Text := do
  let cs ← layers 0 ls
  let w ← runCalls (head classif t ls.length ++ cs) Writer.clear
  return w.toText

/-- The objects behind a list of addresses. -/
def derefAll (w : World) : List Nat → Out (List Layer)
  | [] => .ok []
  | a :: as => do
    let l ← w.deref a
    let ls ← derefAll w as
    return l :: ls

/-- NetUtil.cpp:51-234 `save(sFile, model, trainParams)`: the text of the file, for network `n`. -/
noncomputable def save (w : World) (n : Nat) (t : Trainer) : Out Text := do
  let ls ← derefAll w (w.nets n).layers
  text (w.nets n).classif t ls

end NetSave

end BeeDNN
