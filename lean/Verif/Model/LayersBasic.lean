import Verif.Model.Matrix

/-!
# Dense, dot, bias, gain, affine and activation layers

Each layer is modelled by its `forward` and `backpropagation` functions on explicit members.  `mOut` and the
old gradients are parameters because the code writes in existing matrices; the theorems quantify over them.
`g` is the content of fresh memory.  The output matrix of a layer is never one of its inputs
(Net.cpp:79-104 and NetTrain.cpp:556-590 use separate matrices).
-/

namespace BeeDNN
variable {α : Type}

/-- The matrices written by `backpropagation`: `_gradientWeight`, `_gradientBias` (Layer.h:44-45) and the
argument `mGradientIn`. -/
structure Grads (α : Type) where
  gW : Mat α
  gB : Mat α
  gIn : Mat α
  deriving DecidableEq, Repr

/-- LayerDense.cpp:53-59. -/
def denseForward [Zero α] [Add α] [Mul α] (g : Nat → α) (w b mIn mOut : Mat α) : Out (Mat α) := do
  check (mIn.cols = w.rows)
  check (w.cols = b.cols)
  let t ← Mat.mul g mIn w
  let mOut ← mOut.assign g t
  let t ← Mat.rowWiseAdd mOut b
  mOut.assign g t

/-- LayerDense.cpp:61-72. -/
def denseBackward [Zero α] [One α] [Add α] [Mul α] [Div α] [NatCast α] (g : Nat → α) (first : Bool)
    (w mIn gOut : Mat α) (old : Grads α) : Out (Grads α) := do
  let xt ← mIn.transpose g
  let t ← Mat.mul g xt gOut
  let gW ← old.gW.assign g t
  let gW ← gW.scale (1 / (mIn.rows : α))
  let t ← Mat.colWiseMean g gOut
  let gB ← old.gB.assign g t
  if first then return ⟨gW, gB, old.gIn⟩
  else
    let wt ← w.transpose g
    let t ← Mat.mul g gOut wt
    let gIn ← old.gIn.assign g t
    return ⟨gW, gB, gIn⟩

/-- LayerDot.cpp:52-56. -/
def dotForward [Zero α] [Add α] [Mul α] (g : Nat → α) (w mIn mOut : Mat α) : Out (Mat α) := do
  check (mIn.cols = w.rows)
  let t ← Mat.mul g mIn w
  mOut.assign g t

/-- LayerDot.cpp:58-65. -/
def dotBackward [Zero α] [One α] [Add α] [Mul α] [Div α] [NatCast α] (g : Nat → α) (first : Bool)
    (w mIn gOut : Mat α) (old : Grads α) : Out (Grads α) := do
  let xt ← mIn.transpose g
  let t ← Mat.mul g xt gOut
  let t ← t.scale (1 / (mIn.rows : α))
  let gW ← old.gW.assign g t
  if first then return ⟨gW, old.gB, old.gIn⟩
  else
    let wt ← w.transpose g
    let t ← Mat.mul g gOut wt
    let gIn ← old.gIn.assign g t
    return ⟨gW, old.gB, gIn⟩

/-- LayerBias.cpp:40-46.  Returns the bias as well, because it is created at the first call;
`fresh c` is what `Initializers::compute(bias_initializer(),_bias,1,c)` leaves in `_bias`. -/
def biasForward [Add α] (g : Nat → α) (fresh : Nat → Mat α) (b mIn mOut : Mat α) :
    Out (Mat α × Mat α) := do
  let b := if b.size = 0 then fresh mIn.cols else b
  let t ← Mat.rowWiseAdd mIn b
  let mOut ← mOut.assign g t
  return (b, mOut)

/-- LayerBias.cpp:48-58. -/
def biasBackward [Zero α] [Add α] [Div α] [NatCast α] (g : Nat → α) (first : Bool) (gOut : Mat α)
    (old : Grads α) : Out (Grads α) := do
  let t ← Mat.colWiseMean g gOut
  let gB ← old.gB.assign g t
  if first then return ⟨old.gW, gB, old.gIn⟩
  else
    let gIn ← old.gIn.assign g gOut
    return ⟨old.gW, gB, gIn⟩

/-- The double loop `m(i,j) *= w(j)` (LayerGain.cpp:44-48, 59-63; LayerAffine.cpp:65-69). -/
def scaleCols [Mul α] (w m : Mat α) : Out (Mat α) :=
  forN m.rows (fun i m => forN m.cols (fun j m => do
    let x ← m.get i j
    let y ← w.getI j
    m.set i j (x * y)) m) m

/-- LayerGain.cpp:37-49; returns the weights (created at the first call) and the output. -/
def gainForward [One α] [Mul α] (g : Nat → α) (w mIn mOut : Mat α) : Out (Mat α × Mat α) := do
  let w ← if w.size = 0 then w.setConstantRC g 1 mIn.cols 1 else .ok w
  let mOut ← mOut.assign g mIn
  let mOut ← scaleCols w mOut
  return (w, mOut)

/-- LayerGain.cpp:51-64. -/
def gainBackward [Zero α] [Add α] [Mul α] [Div α] [NatCast α] (g : Nat → α) (first : Bool)
    (w mIn gOut : Mat α) (old : Grads α) : Out (Grads α) := do
  let xt ← mIn.transpose g
  let t ← Mat.mul g xt gOut
  let t ← Mat.colWiseMean g t
  let gW ← old.gW.assign g t
  if first then return ⟨gW, old.gB, old.gIn⟩
  else
    let gIn ← old.gIn.assign g gOut
    let gIn ← scaleCols w gIn
    return ⟨gW, old.gB, gIn⟩

/-- LayerAffine.cpp:39-54; returns weights, bias (created at the first call) and output. -/
def affineForward [Zero α] [One α] [Add α] [Mul α] (g : Nat → α) (w b mIn mOut : Mat α) :
    Out (Mat α × Mat α × Mat α) := do
  let b0 := b
  let b ← if b0.size = 0 then b.setConstantRC g 1 mIn.cols 0 else .ok b
  let w ← if b0.size = 0 then w.setConstantRC g 1 mIn.cols 1 else .ok w
  let mOut := mOut.resize g mIn.rows mIn.cols
  let mOut ← forN mOut.rows (fun i m => forN m.cols (fun j m => do
    let x ← mIn.get i j
    let y ← w.getI j
    let z ← b.getI j
    m.set i j (x * y + z)) m) mOut
  return (w, b, mOut)

/-- LayerAffine.cpp:56-70. -/
def affineBackward [Zero α] [Add α] [Mul α] [Div α] [NatCast α] (g : Nat → α) (first : Bool)
    (w mIn gOut : Mat α) (old : Grads α) : Out (Grads α) := do
  let t ← Mat.colWiseMean g gOut
  let gB ← old.gB.assign g t
  let xt ← mIn.transpose g
  let t ← Mat.mul g xt gOut
  let t ← Mat.colWiseMean g t
  let gW ← old.gW.assign g t
  if first then return ⟨gW, gB, old.gIn⟩
  else
    let gIn ← old.gIn.assign g gOut
    let gIn ← scaleCols w gIn
    return ⟨gW, gB, gIn⟩

/-- LayerGlobalBias.cpp:37-40 (`array()` is the matrix itself, Matrix.h:114-121). -/
def globalBiasForward [Add α] (g : Nat → α) (b mIn mOut : Mat α) : Out (Mat α) := do
  let x ← b.getI 0
  let t ← mIn.addScalar x
  mOut.assign g t

/-- LayerGlobalBias.cpp:42-52. -/
def globalBiasBackward [Zero α] [Add α] [Div α] [NatCast α] (g : Nat → α) (first : Bool) (gOut : Mat α)
    (old : Grads α) : Out (Grads α) := do
  let x ← gOut.mean
  let gB ← old.gB.setI 0 x
  if first then return ⟨old.gW, gB, old.gIn⟩
  else
    let gIn ← old.gIn.assign g gOut
    return ⟨old.gW, gB, gIn⟩

/-- LayerGlobalGain.cpp:39-42. -/
def globalGainForward [Mul α] (g : Nat → α) (w mIn mOut : Mat α) : Out (Mat α) := do
  let x ← w.getI 0
  let t ← mIn.scale x
  mOut.assign g t

/-- LayerGlobalGain.cpp:44-52. -/
def globalGainBackward [Zero α] [Add α] [Mul α] [Div α] [NatCast α] (g : Nat → α) (first : Bool)
    (w mIn gOut : Mat α) (old : Grads α) : Out (Grads α) := do
  let xt ← mIn.transpose g
  let t ← Mat.mul g xt gOut
  let x ← t.mean
  let gW ← old.gW.setI 0 x
  if first then return ⟨gW, old.gB, old.gIn⟩
  else
    let x ← w.getI 0
    let t ← gOut.scale x
    let gIn ← old.gIn.assign g t
    return ⟨gW, old.gB, gIn⟩

/-- LayerGlobalAffine.cpp:44-47. -/
def globalAffineForward [Add α] [Mul α] (g : Nat → α) (w b mIn mOut : Mat α) : Out (Mat α) := do
  let x ← w.getI 0
  let t ← mIn.scale x
  let y ← b.getI 0
  let t ← t.addScalar y
  mOut.assign g t

/-- LayerGlobalAffine.cpp:49-58. -/
def globalAffineBackward [Zero α] [Add α] [Mul α] [Div α] [NatCast α] (g : Nat → α) (first : Bool)
    (w mIn gOut : Mat α) (old : Grads α) : Out (Grads α) := do
  let xt ← mIn.transpose g
  let t ← Mat.mul g xt gOut
  let x ← t.mean
  let gW ← old.gW.setI 0 x
  let x ← gOut.mean
  let gB ← old.gB.setI 0 x
  if first then return ⟨gW, gB, old.gIn⟩
  else
    let x ← w.getI 0
    let t ← gOut.scale x
    let gIn ← old.gIn.assign g t
    return ⟨gW, gB, gIn⟩

/-- LayerChannelBias.cpp:50-54. -/
def channelBiasForward [Add α] (g : Nat → α) (H R C : Nat) (b mIn mOut : Mat α) : Out (Mat α) := do
  let mOut ← mOut.assign g mIn
  Mat.channelWiseAdd mOut mIn.rows H R C b

/-- LayerChannelBias.cpp:56-66. -/
def channelBiasBackward [Zero α] [One α] [Add α] [Mul α] [Div α] [NatCast α] (g : Nat → α) (first : Bool)
    (H R C : Nat) (gOut : Mat α) (old : Grads α) : Out (Grads α) := do
  let t ← Mat.channelWiseMean g gOut gOut.rows H R C
  let gB ← old.gB.assign g t
  if first then return ⟨old.gW, gB, old.gIn⟩
  else
    let gIn ← old.gIn.assign g gOut
    return ⟨old.gW, gB, gIn⟩

/-- LayerActivation.cpp:34-41; `act` is `_pActivation->apply`. -/
def activationForward (g : Nat → α) (act : α → α) (mIn mOut : Mat α) : Out (Mat α) :=
  let mOut := mOut.resize g mIn.rows mIn.cols
  forN mOut.size (fun i m => do
    let x ← mIn.getI i
    m.setI i (act x)) mOut

/-- LayerActivation.cpp:43-57; `der` is `_pActivation->derivation`. -/
def activationBackward [Mul α] (g : Nat → α) (first : Bool) (der : α → α) (mIn gOut gIn : Mat α) :
    Out (Mat α) := do
  check (mIn.rows = gOut.rows)
  check (mIn.cols = gOut.cols)
  if first then return gIn
  else
    let gIn := gIn.resize g gOut.rows gOut.cols
    let gIn ← forN gIn.size (fun i m => do
      let x ← mIn.getI i
      m.setI i (der x)) gIn
    let t ← gIn.cwiseProduct gOut
    gIn.assign g t

end BeeDNN
