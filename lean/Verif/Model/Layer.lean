import Verif.Model.Initializers
import Verif.Model.Conv
import Verif.Model.Softmax
import Verif.Model.Loss
import Verif.Model.Pooling
import Verif.Model.Activations

/-!
# Model of `src/Layer.cpp` and of the layer classes as objects

The computations of the layers are in `LayersBasic`, `Softmax`, `Pooling`, `Conv`, `LayersMisc` and `Recurrent`;
this file gives the objects: members, constructors, `clone`, `init` and the dispatch of the virtual functions
`forward` and `backpropagation`.  The scalars are the real numbers.  A class and its fixed constructor arguments
are a `LayerKind`, all other members are fields of `Layer` (a class that lacks a member never touches the field).
Sizes are natural numbers: negative constructor arguments are not represented.
-/

namespace BeeDNN

/-- What a call cannot determine: contents of fresh memory, the values random engines deliver, and the rounding
of an index stored in a `float`. -/
structure Env where
  /-- contents of fresh `float` memory -/
  g : Nat → ℝ
  /-- contents of fresh memory of `_mMaxIndex` -/
  gi : Nat → Int
  /-- `(Index)(float)i` -/
  fl : Int → Int
  /-- `int(p*65536.)` -/
  lim : ℝ → Nat
  /-- draws of the integer generator -/
  rng : Nat → Nat
  /-- draws of a real distribution -/
  draw : Nat → ℝ
  /-- draws for a second matrix -/
  drawX : Nat → ℝ

/-- A layer class with the constructor arguments it keeps. -/
inductive LayerKind where
  | dense (i o : Nat)
  | dot (i o : Nat)
  | bias
  | gain
  | affine
  | globalBias
  | globalGain
  | globalAffine
  | channelBias (rows cols channels : Nat)
  | activation (a : Activation)
  | softmax
  | softmin
  | maxPool (p : Pool)
  | globalMaxPool (rows cols channels : Nat)
  | avgPool (p : Pool)
  | globalAvgPool (rows cols channels : Nat)
  | zeroPad (rows cols channels border : Nat)
  | conv (p : Conv)
  | dropout (rate : ℝ)
  | gaussianDropout (proba : ℝ)
  | gaussianNoise (noise : ℝ)
  | uniformNoise (noise : ℝ)
  | randomFlip (rows cols channels : Nat)
  | crelu
  | gated (a1 a2 : Option Activation)
  | prelu
  | pelu
  | terelu
  | rrelu (alpha1 alpha2 : ℝ)
  | tdBias (f : Nat)
  | tdDot (f o : Nat)
  | tdDense (f o : Nat)
  | simpleRNN (f u : Nat)
  | simplestRNN (f : Nat)

/-- Layer.h:46-54 and the members of the derived classes. -/
structure Layer where
  kind : LayerKind
  /-- `_weight` -/
  weight : Mat ℝ := ⟨0, 0, []⟩
  /-- `_gradientWeight` -/
  gradWeight : Mat ℝ := ⟨0, 0, []⟩
  /-- `_bias` -/
  bias : Mat ℝ := ⟨0, 0, []⟩
  /-- `_gradientBias` -/
  gradBias : Mat ℝ := ⟨0, 0, []⟩
  /-- `_bTrainMode` -/
  train : Bool := false
  /-- `_bFirstLayer` -/
  first : Bool := false
  /-- `_sWeightInitializer` -/
  wInit : String := ""
  /-- `_sBiasInitializer` -/
  bInit : String := ""
  /-- `_mask` (dropout layers), `_slopes` (RRelu), `_bFlipped` (random flip) -/
  mask : Mat ℝ := ⟨0, 0, []⟩
  /-- `_mMaxIndex` -/
  maxIndex : Mat Int := ⟨0, 0, []⟩
  /-- `_iSamples` -/
  samples : Nat := 0
  /-- `_im2colT` -/
  im2colT : Mat ℝ := ⟨0, 0, []⟩
  /-- `_tempImg` -/
  tempImg : Mat ℝ := ⟨0, 0, []⟩
  /-- `fastLUT`, a public member -/
  fastLUT : Bool := true
  /-- `_whh` -/
  whh : Mat ℝ := ⟨0, 0, []⟩
  /-- `_wxh` -/
  wxh : Mat ℝ := ⟨0, 0, []⟩
  /-- `_bh` -/
  bh : Mat ℝ := ⟨0, 0, []⟩
  /-- `_h` -/
  h : Mat ℝ := ⟨0, 0, []⟩
  /-- `_savedH` -/
  saved : List (Mat ℝ) := []

namespace LayerKind

/-- The string passed to the constructor of the base class (`_sType`). -/
def typeName : LayerKind → String
  | dense .. => "Dense"
  | dot .. => "Dot"
  | bias => "Bias"
  | gain => "Gain"
  | affine => "Affine"
  | globalBias => "GlobalBias"
  | globalGain => "GlobalGain"
  | globalAffine => "GlobalAffine"
  | channelBias .. => "ChannelBias"
  | activation a => a.name
  | softmax => "Softmax"
  | softmin => "Softmin"
  | maxPool _ => "MaxPool2D"
  | globalMaxPool .. => "GlobalMaxPool2D"
  | avgPool _ => "AveragePooling2D"
  | globalAvgPool .. => "GlobalAveragePooling2D"
  | zeroPad .. => "ZeroPadding2D"
  | conv _ => "Convolution2D"
  | dropout _ => "Dropout"
  | gaussianDropout _ => "GaussianDropout"
  | gaussianNoise _ => "GaussianNoise"
  | uniformNoise _ => "UniformNoise"
  | randomFlip .. => "RandomFlip"
  | crelu => "CRelu"
  | gated .. => "GatedActivation"
  | prelu => "PRelu"
  | pelu => "PELU"
  | terelu => "TERELU"
  | rrelu .. => "RRelu"
  | tdBias _ => "TimeDistributedBias"
  | tdDot .. => "TimeDistributedDot"
  | tdDense .. => "TimeDistributedDense"
  | simpleRNN .. => "RNN"
  | simplestRNN _ => "RNN"

end LayerKind

namespace Layer

/-- Layer.cpp:31-34 `type()` (a `LayerActivation` passes the name it was created from, LayerActivation.cpp:17,
which is the name of the activation, theorem `C25_name`). -/
def type (l : Layer) : String := l.kind.typeName

/-- Layer.cpp:36-39. -/
def setFirst (l : Layer) (b : Bool) : Layer := { l with first := b }
/-- Layer.cpp:41-44. -/
def setTrain (l : Layer) (b : Bool) : Layer := { l with train := b }
/-- Layer.cpp:46-49. -/
def hasWeights (l : Layer) : Bool := l.weight.size ≠ 0
/-- Layer.cpp:65-68. -/
def hasBiases (l : Layer) : Bool := l.bias.size ≠ 0

/-! ## Virtual `init` -/

/-- The overrides of `init()`; the base function (Layer.cpp:28-29) does nothing.
LayerDense.cpp:38-51, LayerDot.cpp:36-50, LayerBias.cpp:34-38, LayerGain.cpp:30-35, LayerAffine.cpp:31-37,
LayerGlobalBias.cpp:31-35, LayerGlobalGain.cpp:32-37, LayerGlobalAffine.cpp:36-42, LayerChannelBias.cpp:37-41,
LayerConvolution2D.cpp:56-67, LayerPRelu.cpp:32-36, LayerPELU.cpp:32-36, LayerTERELU.cpp:33-39,
LayerTimeDistributedBias.cpp:39-43, LayerTimeDistributedDot.cpp:47-52, LayerTimeDistributedDense.cpp:50-56,
LayerSimpleRNN.cpp:22-30, LayerSimplestRNN.cpp:22-27. -/
noncomputable def init (e : Env) (l : Layer) : Out Layer :=
  match l.kind with
  | .dense i o =>
    if i = 0 ∨ o = 0 then .ok l
    else do
      let w ← initCompute e.g e.draw l.wInit l.weight i o
      let b ← initCompute e.g e.drawX l.bInit l.bias 1 o
      return { l with weight := w, bias := b }
  | .dot i o =>
    if i = 0 ∨ o = 0 then .ok l
    else do
      let w ← initCompute e.g e.draw l.wInit l.weight i o
      return { l with weight := w }
  | .bias => .ok { l with bias := l.bias.resize e.g 0 0 }
  | .gain => .ok { l with weight := l.weight.resize e.g 0 0 }
  | .affine => .ok { l with weight := l.weight.resize e.g 0 0, bias := l.bias.resize e.g 0 0 }
  | .globalBias => do
    let b ← l.bias.setConstant 0
    return { l with bias := b }
  | .globalGain => do
    let w ← l.weight.setConstant 1
    return { l with weight := w }
  | .globalAffine => do
    let w ← l.weight.setConstant 1
    let b ← l.bias.setConstant 0
    return { l with weight := w, bias := b }
  | .channelBias _ _ channels => do
    let b ← initCompute e.g e.draw l.bInit l.bias 1 channels
    return { l with bias := b }
  | .conv p => do
    let w := l.weight.resize e.g p.outCh (p.kRows * p.kCols * p.inCh)
    let a := √(6 / ((p.inRows * p.inCols * p.inCh + p.outCols * p.outRows * p.outCh : Nat) : ℝ))
    let w ← setRandomUniform w (-1) 1 e.draw
    let w ← w.scale a
    let gw ← (l.gradWeight.resize e.g w.rows w.cols).setConstant 0
    return { l with weight := w, gradWeight := gw }
  | .prelu => .ok { l with weight := l.weight.resize e.g 0 0 }
  | .pelu => .ok { l with weight := l.weight.resize e.g 0 0 }
  | .terelu => .ok { l with weight := l.weight.resize e.g 0 0 }
  | .tdBias f => do
    let b ← initCompute e.g e.draw l.bInit l.bias 1 f
    return { l with bias := b }
  | .tdDot f o => do
    let w ← initCompute e.g e.draw l.wInit l.weight f o
    return { l with weight := w }
  | .tdDense f o => do
    let w ← initCompute e.g e.draw l.wInit l.weight f o
    let b ← initCompute e.g e.drawX l.bInit l.bias 1 o
    return { l with weight := w, bias := b }
  | .simpleRNN f u => do
    let st ← simpleInit e.g f u e.draw e.drawX ⟨⟨l.whh, l.wxh, l.bh⟩, l.h, l.saved⟩
    return { l with whh := st.w.whh, wxh := st.w.wxh, bh := st.w.bh, h := st.h, saved := st.saved }
  | .simplestRNN f => do
    let st ← simplestInit e.g f e.draw ⟨l.weight, l.h, l.saved⟩
    return { l with weight := st.w, h := st.h, saved := st.saved }
  | _ => .ok l

/-! ## Constructors -/

/-- LayerDense.cpp:16-24. -/
noncomputable def newDense (e : Env) (i o : Nat) (wInit bInit : String) : Out Layer :=
  init e { kind := .dense i o, wInit, bInit }
/-- LayerDot.cpp:17-24. -/
noncomputable def newDot (e : Env) (i o : Nat) (wInit : String) : Out Layer :=
  init e { kind := .dot i o, wInit }
/-- LayerBias.cpp:16-21. -/
noncomputable def newBias (e : Env) (bInit : String) : Out Layer := init e { kind := .bias, bInit }
/-- LayerGain.cpp:14-18. -/
noncomputable def newGain (e : Env) : Out Layer := init e { kind := .gain }
/-- LayerAffine.cpp:13-17. -/
noncomputable def newAffine (e : Env) : Out Layer := init e { kind := .affine }
/-- LayerGlobalBias.cpp:13-19. -/
noncomputable def newGlobalBias (e : Env) : Out Layer :=
  init e { kind := .globalBias, bias := Mat.alloc e.g 1 1, gradBias := Mat.alloc e.g 1 1 }
/-- LayerGlobalGain.cpp:13-19. -/
noncomputable def newGlobalGain (e : Env) : Out Layer :=
  init e { kind := .globalGain, weight := Mat.alloc e.g 1 1, gradWeight := Mat.alloc e.g 1 1 }
/-- LayerGlobalAffine.cpp:13-22. -/
noncomputable def newGlobalAffine (e : Env) : Out Layer :=
  init e { kind := .globalAffine, weight := Mat.alloc e.g 1 1, gradWeight := Mat.alloc e.g 1 1
           bias := Mat.alloc e.g 1 1, gradBias := Mat.alloc e.g 1 1 }
/-- LayerChannelBias.cpp:16-25. -/
noncomputable def newChannelBias (e : Env) (r c ch : Nat) (bInit : String) : Out Layer :=
  init e { kind := .channelBias r c ch, bInit }
/-- LayerActivation.cpp:16-22. -/
noncomputable def newActivation (s : String) : Out Layer :=
  match getActivation s with
  | some a => .ok { kind := .activation a }
  | none => .error .assertFail
/-- LayerSoftmax.cpp:15-17. -/
def newSoftmax : Out Layer := .ok { kind := .softmax }
/-- LayerSoftmin.cpp:17-19. -/
def newSoftmin : Out Layer := .ok { kind := .softmin }
/-- LayerMaxPool2D.cpp:13-25. -/
def newMaxPool (r c ch rf cf : Nat) : Out Layer := do
  let p ← Pool.create r c ch rf cf
  return { kind := .maxPool p }
/-- LayerGlobalMaxPool2D.cpp:13-19. -/
def newGlobalMaxPool (r c ch : Nat) : Out Layer := .ok { kind := .globalMaxPool r c ch }
/-- LayerAveragePooling2D.cpp:14-27. -/
def newAvgPool (r c ch rf cf : Nat) : Out Layer := do
  let p ← Pool.create r c ch rf cf
  return { kind := .avgPool p }
/-- LayerGlobalAveragePooling2D.cpp:13-20. -/
def newGlobalAvgPool (r c ch : Nat) : Out Layer := .ok { kind := .globalAvgPool r c ch }
/-- LayerZeroPadding2D.cpp:17-24. -/
def newZeroPad (r c ch b : Nat) : Out Layer := .ok { kind := .zeroPad r c ch b }
/-- LayerConvolution2D.cpp:19-51. -/
noncomputable def newConv (e : Env) (r c ch kr kc och rs cs : Nat) : Out Layer := do
  let p ← Conv.create r c ch kr kc och rs cs
  init e { kind := .conv p }
/-- LayerDropout.cpp:16-19. -/
def newDropout (rate : ℝ) : Out Layer := .ok { kind := .dropout rate }
/-- LayerGaussianDropout.cpp:15-20 (the deviation is a parameter of the distribution, whose draws are arbitrary
here). -/
def newGaussianDropout (proba : ℝ) : Out Layer := .ok { kind := .gaussianDropout proba }
/-- LayerGaussianNoise.cpp:15-19. -/
def newGaussianNoise (noise : ℝ) : Out Layer := .ok { kind := .gaussianNoise noise }
/-- LayerUniformNoise.cpp:13-17. -/
def newUniformNoise (noise : ℝ) : Out Layer := .ok { kind := .uniformNoise noise }
/-- LayerRandomFlip.cpp:14-22. -/
def newRandomFlip (r c ch : Nat) : Out Layer := .ok { kind := .randomFlip r c ch }
/-- LayerCRelu.cpp:17-21. -/
noncomputable def newCRelu (e : Env) : Out Layer := init e { kind := .crelu }
/-- LayerGatedActivation.cpp:18-24: the pointers may be null.  LayerGLU.cpp:14-16, LayerGTU.cpp, LayerReGLU.cpp,
LayerSeGLU.cpp, LayerSwiGLU.cpp, LayerGEGLU.cpp, LayerBilinear.cpp only fix the two names. -/
noncomputable def newGated (s1 s2 : String) : Out Layer := .ok { kind := .gated (getActivation s1) (getActivation s2) }
/-- LayerPRelu.cpp:15-19. -/
noncomputable def newPRelu (e : Env) : Out Layer := init e { kind := .prelu }
/-- LayerPELU.cpp:15-19. -/
noncomputable def newPELU (e : Env) : Out Layer := init e { kind := .pelu }
/-- LayerTERELU.cpp:16-20. -/
noncomputable def newTERELU (e : Env) : Out Layer := init e { kind := .terelu }
/-- LayerRRelu.cpp:15-25. -/
def newRRelu (a1 a2 : ℝ) : Out Layer := .ok { kind := .rrelu a1 a2 }
/-- LayerTimeDistributedBias.cpp:15-21. -/
noncomputable def newTDBias (e : Env) (f : Nat) (bInit : String) : Out Layer := init e { kind := .tdBias f, bInit }
/-- LayerTimeDistributedDot.cpp:16-24. -/
noncomputable def newTDDot (e : Env) (f o : Nat) (wInit : String) : Out Layer := init e { kind := .tdDot f o, wInit }
/-- LayerTimeDistributedDense.cpp:16-26. -/
noncomputable def newTDDense (e : Env) (f o : Nat) (wInit bInit : String) : Out Layer :=
  init e { kind := .tdDense f o, wInit, bInit }
/-- LayerSimpleRNN.cpp:13-17 and LayerRNN.cpp:13-17. -/
noncomputable def newSimpleRNN (e : Env) (f u : Nat) : Out Layer := init e { kind := .simpleRNN f u }
/-- LayerSimplestRNN.cpp:13-17 and LayerRNN.cpp:13-17. -/
noncomputable def newSimplestRNN (e : Env) (f : Nat) : Out Layer := init e { kind := .simplestRNN f }

/-! ## clone -/

/-- `_pActivation->name()`. -/
def actName : Option Activation → Out String
  | some a => .ok a.name
  | none => .error .nullDeref

/-- The overrides of `clone()`: LayerDense.cpp:29-36, LayerDot.cpp:29-34 (default weight initializer),
LayerBias.cpp:26-32, LayerGain.cpp:23-28, LayerAffine.cpp:22-29, LayerGlobalBias.cpp:24-29,
LayerGlobalGain.cpp:24-30, LayerGlobalAffine.cpp:27-34, LayerChannelBias.cpp:30-35, LayerActivation.cpp:29-32,
LayerSoftmax.cpp:22-25, LayerSoftmin.cpp:25-28, LayerMaxPool2D.cpp:39-42, LayerGlobalMaxPool2D.cpp:31-34,
LayerAveragePooling2D.cpp:41-44, LayerGlobalAveragePooling2D.cpp:34-37, LayerZeroPadding2D.cpp:37-40,
LayerConvolution2D.cpp:81-87, LayerDropout.cpp:24-27, LayerGaussianDropout.cpp:25-28,
LayerGaussianNoise.cpp:24-27, LayerUniformNoise.cpp:22-25, LayerRandomFlip.cpp:27-30, LayerCRelu.cpp:26-29,
LayerGatedActivation.cpp:32-35, LayerPRelu.cpp:24-30, LayerPELU.cpp:24-30, LayerTERELU.cpp:25-31,
LayerRRelu.cpp:30-33, LayerTimeDistributedBias.cpp:26-32, LayerTimeDistributedDot.cpp:29-35,
LayerTimeDistributedDense.cpp:31-38, LayerSimpleRNN.cpp:32-41, LayerSimplestRNN.cpp:29-36. -/
noncomputable def clone (e : Env) (l : Layer) : Out Layer :=
  match l.kind with
  | .dense i o => do
    let p ← newDense e i o l.wInit l.bInit
    let w ← p.weight.assign e.g l.weight
    let b ← p.bias.assign e.g l.bias
    return { p with weight := w, bias := b }
  | .dot i o => do
    let p ← newDot e i o "GlorotUniform"
    let w ← p.weight.assign e.g l.weight
    return { p with weight := w }
  | .bias => do
    let p ← newBias e l.bInit
    let b ← p.bias.assign e.g l.bias
    return { p with bias := b }
  | .gain => do
    let p ← newGain e
    let w ← p.weight.assign e.g l.weight
    return { p with weight := w }
  | .affine => do
    let p ← newAffine e
    let w ← p.weight.assign e.g l.weight
    let b ← p.bias.assign e.g l.bias
    return { p with weight := w, bias := b }
  | .globalBias => do
    let p ← newGlobalBias e
    let b ← p.bias.assign e.g l.bias
    return { p with bias := b }
  | .globalGain => do
    let p ← newGlobalGain e
    let w ← p.weight.assign e.g l.weight
    return { p with weight := w }
  | .globalAffine => do
    let p ← newGlobalAffine e
    let w ← p.weight.assign e.g l.weight
    let b ← p.bias.assign e.g l.bias
    return { p with weight := w, bias := b }
  | .channelBias r c ch => do
    let p ← newChannelBias e r c ch l.bInit
    let b ← p.bias.assign e.g l.bias
    return { p with bias := b }
  | .activation a => newActivation a.name
  | .softmax => newSoftmax
  | .softmin => newSoftmin
  | .maxPool p => newMaxPool p.inRows p.inCols p.channels p.rowFactor p.colFactor
  | .globalMaxPool r c ch => newGlobalMaxPool r c ch
  | .avgPool p => newAvgPool p.inRows p.inCols p.channels p.rowFactor p.colFactor
  | .globalAvgPool r c ch => newGlobalAvgPool r c ch
  | .zeroPad r c ch b => newZeroPad r c ch b
  | .conv c => do
    let p ← newConv e c.inRows c.inCols c.inCh c.kRows c.kCols c.outCh c.rowStride c.colStride
    let w ← p.weight.assign e.g l.weight
    let gw ← p.gradWeight.assign e.g l.gradWeight
    return { p with weight := w, gradWeight := gw }
  | .dropout rate => newDropout rate
  | .gaussianDropout p => newGaussianDropout p
  | .gaussianNoise n => newGaussianNoise n
  | .uniformNoise n => newUniformNoise n
  | .randomFlip r c ch => newRandomFlip r c ch
  | .crelu => newCRelu e
  | .gated a1 a2 => do
    let s1 ← actName a1
    let s2 ← actName a2
    newGated s1 s2
  | .prelu => do
    let p ← newPRelu e
    let w ← p.weight.assign e.g l.weight
    let gw ← p.gradWeight.assign e.g l.gradWeight
    return { p with weight := w, gradWeight := gw }
  | .pelu => do
    let p ← newPELU e
    let w ← p.weight.assign e.g l.weight
    let gw ← p.gradWeight.assign e.g l.gradWeight
    return { p with weight := w, gradWeight := gw }
  | .terelu => do
    let p ← newTERELU e
    let w ← p.weight.assign e.g l.weight
    let gw ← p.gradWeight.assign e.g l.gradWeight
    return { p with weight := w, gradWeight := gw }
  | .rrelu a1 a2 => newRRelu a1 a2
  | .tdBias f => do
    let p ← newTDBias e f l.bInit
    let b ← p.bias.assign e.g l.bias
    return { p with bias := b }
  | .tdDot f o => do
    let p ← newTDDot e f o l.wInit
    let w ← p.weight.assign e.g l.weight
    return { p with weight := w }
  | .tdDense f o => do
    let p ← newTDDense e f o l.wInit l.bInit
    let w ← p.weight.assign e.g l.weight
    let b ← p.bias.assign e.g l.bias
    return { p with weight := w, bias := b }
  | .simpleRNN f u => do
    let p ← newSimpleRNN e f u
    let whh ← p.whh.assign e.g l.whh
    let wxh ← p.wxh.assign e.g l.wxh
    let bh ← p.bh.assign e.g l.bh
    let h ← p.h.assign e.g l.h
    return { p with whh := whh, wxh := wxh, bh := bh, h := h }
  | .simplestRNN f => do
    let p ← newSimplestRNN e f
    let w ← p.weight.assign e.g l.weight
    let h ← p.h.assign e.g l.h
    return { p with weight := w, h := h }

/-! ## forward and backpropagation -/

/-- `-1.e38f`, the start value of the maximum (LayerMaxPool2D.cpp:62, LayerGlobalMaxPool2D.cpp:46). -/
noncomputable def low : ℝ := -1e38

/-- LayerBias.cpp:42-43: `_bias` is computed on first use. -/
noncomputable def lazyBias (e : Env) (l : Layer) (c : Nat) : Out (Mat ℝ) :=
  if l.bias.size = 0 then initCompute e.g e.draw l.bInit l.bias 1 c else .ok l.bias

/-- `_pActivation->apply` through a possibly null pointer. -/
def gatedFns : Option Activation → Option Activation → Out (Activation × Activation)
  | some a1, some a2 => .ok (a1, a2)
  | _, _ => .error .nullDeref

/-- LayerGatedActivation.cpp:42-53.  A null pointer is used only when an entry is computed, after the assertion
of line 44. -/
noncomputable def gatedFwd (e : Env) (a1 a2 : Option Activation) (mIn mOut : Mat ℝ) : Out (Mat ℝ) := do
  check (mIn.cols % 2 = 0)
  if mIn.size = 0 then gatedForward e.g id id mIn mOut
  else do
    let p ← gatedFns a1 a2
    gatedForward e.g p.1.apply p.2.apply mIn mOut

/-- LayerGatedActivation.cpp:55-73. -/
noncomputable def gatedBwd (e : Env) (first : Bool) (a1 a2 : Option Activation) (mIn gOut gIn : Mat ℝ) :
    Out (Mat ℝ) :=
  if first then .ok gIn
  else if mIn.size = 0 then gatedBackward e.g first id id id id mIn gOut gIn
  else do
    let p ← gatedFns a1 a2
    gatedBackward e.g first p.1.apply p.2.apply p.1.derivation p.2.derivation mIn gOut gIn

/-- The virtual function `forward`; returns the layer and `mOut`. -/
noncomputable def forward (e : Env) (l : Layer) (mIn mOut : Mat ℝ) : Out (Layer × Mat ℝ) :=
  match l.kind with
  | .dense _ _ => do
    let o ← denseForward e.g l.weight l.bias mIn mOut
    return (l, o)
  | .dot _ _ => do
    let o ← dotForward e.g l.weight mIn mOut
    return (l, o)
  | .bias => do
    let b ← lazyBias e l mIn.cols
    let (b, o) ← biasForward e.g (fun _ => b) b mIn mOut
    return ({ l with bias := b }, o)
  | .gain => do
    let (w, o) ← gainForward e.g l.weight mIn mOut
    return ({ l with weight := w }, o)
  | .affine => do
    let (w, b, o) ← affineForward e.g l.weight l.bias mIn mOut
    return ({ l with weight := w, bias := b }, o)
  | .globalBias => do
    let o ← globalBiasForward e.g l.bias mIn mOut
    return (l, o)
  | .globalGain => do
    let o ← globalGainForward e.g l.weight mIn mOut
    return (l, o)
  | .globalAffine => do
    let o ← globalAffineForward e.g l.weight l.bias mIn mOut
    return (l, o)
  | .channelBias r c ch => do
    let o ← channelBiasForward e.g ch r c l.bias mIn mOut
    return (l, o)
  | .activation a => do
    let o ← activationForward e.g a.apply mIn mOut
    return (l, o)
  | .softmax => do
    let o ← softmaxForward e.g Real.exp mIn mOut
    return (l, o)
  | .softmin => do
    let o ← softminForward e.g Real.exp mIn mOut
    return (l, o)
  | .maxPool p => do
    let (o, x) ← maxPoolForward e.g e.gi e.fl low p l.train mIn mOut l.maxIndex
    return ({ l with maxIndex := x }, o)
  | .globalMaxPool r c ch => do
    let (o, x) ← globalMaxPoolForward e.g e.gi e.fl low r c ch l.train mIn mOut l.maxIndex
    return ({ l with maxIndex := x }, o)
  | .avgPool p => do
    let o ← avgPoolForward e.g p mIn mOut
    return (l, o)
  | .globalAvgPool r c ch => do
    let o ← globalAvgPoolForward e.g r c ch mIn mOut
    return (l, o)
  | .zeroPad r c ch b => do
    let o ← zeroPadForward e.g r c ch b mIn mOut
    return (l, o)
  | .conv p => do
    let (st, o) ← convForward e.g p l.fastLUT ⟨l.samples, l.im2colT, l.tempImg, l.weight, l.gradWeight⟩ mIn mOut
    return ({ l with samples := st.samples, im2colT := st.im2colT, tempImg := st.tempImg
                     weight := st.weight, gradWeight := st.gradientWeight }, o)
  | .dropout rate => do
    let (m, o) ← dropoutForward e.g e.lim l.train rate e.rng l.mask mIn mOut
    return ({ l with mask := m }, o)
  | .gaussianDropout _ => do
    let (m, o) ← gaussianDropoutForward e.g l.train e.draw l.mask mIn mOut
    return ({ l with mask := m }, o)
  | .gaussianNoise n => do
    let o ← noiseForward e.g l.train n e.draw mIn mOut
    return (l, o)
  | .uniformNoise n => do
    let o ← noiseForward e.g l.train n e.draw mIn mOut
    return (l, o)
  | .randomFlip r c ch => do
    let (m, o) ← flipForward e.g r c ch l.train e.rng l.mask mIn mOut
    return ({ l with mask := m }, o)
  | .crelu => do
    let o ← creluForward e.g mIn mOut
    return (l, o)
  | .gated a1 a2 => do
    let o ← gatedFwd e a1 a2 mIn mOut
    return (l, o)
  | .prelu => do
    let (w, gw, o) ← preluForward e.g l.weight l.gradWeight mIn mOut
    return ({ l with weight := w, gradWeight := gw }, o)
  | .pelu => do
    let (w, gw, o) ← peluForward e.g l.weight l.gradWeight mIn mOut
    return ({ l with weight := w, gradWeight := gw }, o)
  | .terelu => do
    let (w, gw, o) ← tereluForward e.g 1 1 l.weight l.gradWeight mIn mOut
    return ({ l with weight := w, gradWeight := gw }, o)
  | .rrelu a1 a2 => do
    let (s, o) ← rreluForward e.g a1 a2 l.train e.draw l.mask mIn mOut
    return ({ l with mask := s }, o)
  | .tdBias f => do
    let o ← tdBiasForward e.g f l.bias mIn mOut
    return (l, o)
  | .tdDot f o => do
    let out ← tdDotForward e.g f o l.weight mIn mOut
    return (l, out)
  | .tdDense f o => do
    let out ← tdDenseForward e.g f o l.weight l.bias mIn mOut
    return (l, out)
  | .simpleRNN f u => do
    let (st, o) ← rnnForward e.g f l.train (simpleInit e.g f u e.draw e.drawX) (simpleFrame e.g Real.tanh)
      ⟨⟨l.whh, l.wxh, l.bh⟩, l.h, l.saved⟩ mIn mOut
    return ({ l with whh := st.w.whh, wxh := st.w.wxh, bh := st.w.bh, h := st.h, saved := st.saved }, o)
  | .simplestRNN f => do
    let (st, o) ← rnnForward e.g f l.train (simplestInit e.g f e.draw) (simplestFrame e.g f)
      ⟨l.weight, l.h, l.saved⟩ mIn mOut
    return ({ l with weight := st.w, h := st.h, saved := st.saved }, o)

/-- Gradient members and `mGradientIn` as the record of `LayersBasic`. -/
def grads (l : Layer) (gIn : Mat ℝ) : Grads ℝ := ⟨l.gradWeight, l.gradBias, gIn⟩

/-- Write the gradient members back. -/
def setGrads (l : Layer) (r : Grads ℝ) : Layer × Mat ℝ :=
  ({ l with gradWeight := r.gW, gradBias := r.gB }, r.gIn)

/-- The virtual function `backpropagation`; returns the layer and `mGradientIn`. -/
noncomputable def backprop (e : Env) (l : Layer) (mIn gOut gIn : Mat ℝ) : Out (Layer × Mat ℝ) :=
  match l.kind with
  | .dense _ _ => do
    let r ← denseBackward e.g l.first l.weight mIn gOut (l.grads gIn)
    return l.setGrads r
  | .dot _ _ => do
    let r ← dotBackward e.g l.first l.weight mIn gOut (l.grads gIn)
    return l.setGrads r
  | .bias => do
    let r ← biasBackward e.g l.first gOut (l.grads gIn)
    return l.setGrads r
  | .gain => do
    let r ← gainBackward e.g l.first l.weight mIn gOut (l.grads gIn)
    return l.setGrads r
  | .affine => do
    let r ← affineBackward e.g l.first l.weight mIn gOut (l.grads gIn)
    return l.setGrads r
  | .globalBias => do
    let r ← globalBiasBackward e.g l.first gOut (l.grads gIn)
    return l.setGrads r
  | .globalGain => do
    let r ← globalGainBackward e.g l.first l.weight mIn gOut (l.grads gIn)
    return l.setGrads r
  | .globalAffine => do
    let r ← globalAffineBackward e.g l.first l.weight mIn gOut (l.grads gIn)
    return l.setGrads r
  | .channelBias r c ch => do
    let r ← channelBiasBackward e.g l.first ch r c gOut (l.grads gIn)
    return l.setGrads r
  | .activation a => do
    let gi ← activationBackward e.g l.first a.derivation mIn gOut gIn
    return (l, gi)
  | .softmax => do
    let gi ← softmaxBackward e.g Real.exp l.first mIn gOut gIn
    return (l, gi)
  | .softmin => do
    let gi ← softminBackward e.g Real.exp l.first mIn gOut gIn
    return (l, gi)
  | .maxPool p => do
    let gi ← maxPoolBackward e.g p l.first l.maxIndex gOut gIn
    return (l, gi)
  | .globalMaxPool r c ch => do
    let gi ← globalMaxPoolBackward e.g r c ch l.first l.maxIndex gOut gIn
    return (l, gi)
  | .avgPool p => do
    let gi ← avgPoolBackward e.g p l.first gOut gIn
    return (l, gi)
  | .globalAvgPool r c ch => do
    let gi ← globalAvgPoolBackward e.g r c ch l.first gOut gIn
    return (l, gi)
  | .zeroPad r c ch b => do
    let gi ← zeroPadBackward e.g r c ch b l.first gOut gIn
    return (l, gi)
  | .conv p => do
    let (st, gi) ← convBackward e.g p l.fastLUT l.first
      ⟨l.samples, l.im2colT, l.tempImg, l.weight, l.gradWeight⟩ mIn gOut gIn
    return ({ l with samples := st.samples, im2colT := st.im2colT, tempImg := st.tempImg
                     weight := st.weight, gradWeight := st.gradientWeight }, gi)
  | .dropout rate => do
    let gi ← dropoutBackward e.g l.first rate l.mask gOut gIn
    return (l, gi)
  | .gaussianDropout _ => do
    let gi ← gaussianDropoutBackward e.g l.train l.first l.mask gOut gIn
    return (l, gi)
  | .gaussianNoise _ => do
    let gi ← noiseBackward e.g l.first gOut gIn
    return (l, gi)
  | .uniformNoise _ => do
    let gi ← noiseBackward e.g l.first gOut gIn
    return (l, gi)
  | .randomFlip r c ch => do
    let gi ← flipBackward e.g r c ch l.first l.mask mIn gOut gIn
    return (l, gi)
  | .crelu => do
    let gi ← creluBackward e.g l.first mIn gOut gIn
    return (l, gi)
  | .gated a1 a2 => do
    let gi ← gatedBwd e l.first a1 a2 mIn gOut gIn
    return (l, gi)
  | .prelu => do
    let (gw, gi) ← preluBackward e.g l.first l.weight l.gradWeight mIn gOut gIn
    return ({ l with gradWeight := gw }, gi)
  | .pelu => do
    let (w, gw, gi) ← peluBackward e.g l.first l.weight l.gradWeight mIn gOut gIn
    return ({ l with weight := w, gradWeight := gw }, gi)
  | .terelu => do
    let (gw, gi) ← tereluBackward e.g 1 1 l.first l.weight l.gradWeight mIn gOut gIn
    return ({ l with gradWeight := gw }, gi)
  | .rrelu _ _ => do
    let gi ← rreluBackward e.g l.first l.mask mIn gOut gIn
    return (l, gi)
  | .tdBias f => do
    let r ← tdBiasBackward e.g l.first f gOut (l.grads gIn)
    return l.setGrads r
  | .tdDot f o => do
    let r ← tdDenseBackward e.g false l.first f o l.weight mIn gOut (l.grads gIn)
    return l.setGrads r
  | .tdDense f o => do
    let r ← tdDenseBackward e.g true l.first f o l.weight mIn gOut (l.grads gIn)
    return l.setGrads r
  | .simpleRNN f _ => do
    let (gw, gi) ← rnnBackward e.g f simpleBackFrame l.saved l.gradWeight mIn gOut gIn
    return ({ l with gradWeight := gw }, gi)
  | .simplestRNN f => do
    let (gw, gi) ← rnnBackward e.g f (simplestBackFrame e.g l.first l.weight) l.saved l.gradWeight mIn gOut gIn
    return ({ l with gradWeight := gw }, gi)

end Layer

end BeeDNN
