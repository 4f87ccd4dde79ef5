import Verif.Model.LayersBasic
import Mathlib.Analysis.SpecialFunctions.Exp

/-!
# Model of dropout, noise, flip, CRelu, gated, rectifier and time-distributed layers

Members of a layer that a call can change are passed in and returned.  Random draws are arbitrary streams
(`rng`: raw generator outputs, `draw`: values of a distribution).  The rectifiers with learned parameters
use `expf`/`expm1f` and are modelled over the reals; float literals are exact reals.
-/

namespace BeeDNN

variable {α : Type}

/-! ## Dropout and noise -/

/-- LayerDropout.cpp:29-40 `forward`; returns `_mask` and `mOut`.  `lim p` is `int(p*65536.)`, see
`Mat.setQuickBernoulli`. -/
def dropoutForward [Zero α] [One α] [Sub α] [Mul α] [Div α] [DecidableEq α] (g : Nat → α) (lim : α → Nat)
    (train : Bool) (rate : α) (rng : Nat → Nat) (mask mIn mOut : Mat α) : Out (Mat α × Mat α) :=
  if train ∧ rate ≠ 0 then do
    let mask := mask.resize g mIn.rows mIn.cols
    let mask ← Mat.setQuickBernoulli mask (lim (1 - rate)) rng
    let mask ← mask.scale (1 / (1 - rate))
    let t ← mIn.cwiseProduct mask
    let mOut ← mOut.assign g t
    return (mask, mOut)
  else do
    let mOut ← mOut.assign g mIn
    return (mask, mOut)

/-- LayerDropout.cpp:42-53 `backpropagation`. -/
def dropoutBackward [Zero α] [Mul α] [DecidableEq α] (g : Nat → α) (first : Bool) (rate : α)
    (mask gOut gIn : Mat α) : Out (Mat α) :=
  if first then .ok gIn
  else if rate ≠ 0 then do
    let t ← gOut.cwiseProduct mask
    gIn.assign g t
  else gIn.assign g gOut

/-- LayerGaussianDropout.cpp:30-43 `forward`; returns `_mask` and `mOut`. -/
def gaussianDropoutForward [Zero α] [Add α] [Mul α] (g : Nat → α) (train : Bool) (draw : Nat → α)
    (mask mIn mOut : Mat α) : Out (Mat α × Mat α) :=
  if train then do
    let mask := mask.resize g 1 mIn.size
    let mask ← forN mask.size (fun i m => m.set 0 i (draw i)) mask
    let d ← Mat.asDiagonal g mask
    let t ← Mat.mul g mIn d
    let mOut ← mOut.assign g t
    return (mask, mOut)
  else do
    let mOut ← mOut.assign g mIn
    return (mask, mOut)

/-- LayerGaussianDropout.cpp:45-54 `backpropagation`. -/
def gaussianDropoutBackward [Zero α] [Add α] [Mul α] (g : Nat → α) (train first : Bool)
    (mask gOut gIn : Mat α) : Out (Mat α) := do
  check (train = true)
  if first then return gIn
  else do
    let d ← Mat.asDiagonal g mask
    let t ← Mat.mul g gOut d
    gIn.assign g t

/-- LayerGaussianNoise.cpp:28-36 and LayerUniformNoise.cpp:27-35 `forward` (they differ in the distribution
of the draws only). -/
def noiseForward [Zero α] [Add α] [LT α] [DecidableRel (α := α) (· < ·)] (g : Nat → α) (train : Bool)
    (noise : α) (draw : Nat → α) (mIn mOut : Mat α) : Out (Mat α) := do
  let mOut ← mOut.assign g mIn
  if train ∧ 0 < noise then
    forN mOut.size (fun i m => do
      let x ← m.getI i
      m.setI i (x + draw i)) mOut
  else return mOut

/-- LayerGaussianNoise.cpp:38-46 and LayerUniformNoise.cpp:37-44 `backpropagation`. -/
def noiseBackward (g : Nat → α) (first : Bool) (gOut gIn : Mat α) : Out (Mat α) :=
  if first then .ok gIn else gIn.assign g gOut

/-! ## RandomFlip -/

/-- LayerRandomFlip.cpp:54-68 and 81-95: the planes of the selected samples go through `reverseData`
row by row. -/
def flipSamples [Zero α] [DecidableEq α] (H W K samples : Nat) (flipped m : Mat α) : Out (Mat α) :=
  forN samples (fun sample m => do
    let f ← flipped.getI sample
    if f = 0 then return m
    else
      forN K (fun channel m => do
        check (sample < m.rows)
        let base := sample * m.cols + channel * (H * W)
        forN H (fun ri m => do
          let l ← Mat.reverseData m.data (base + ri * W) W
          return { m with data := l }) m) m) m

/-- LayerRandomFlip.cpp:44-69 `forward`; returns `_flipped` and `mOut`.  (The early return is taken in
*training* mode.) -/
def flipForward [Zero α] [One α] [DecidableEq α] (g : Nat → α) (H W K : Nat) (train : Bool) (rng : Nat → Nat)
    (flipped mIn mOut : Mat α) : Out (Mat α × Mat α) := do
  let mOut ← mOut.assign g mIn
  if train then return (flipped, mOut)
  else
    let flipped := flipped.resize g mIn.rows 1
    let flipped ← Mat.setQuickBernoulli flipped 32768 rng
    let mOut ← flipSamples H W K mIn.rows flipped mOut
    return (flipped, mOut)

/-- LayerRandomFlip.cpp:71-96 `backpropagation`. -/
def flipBackward [Zero α] [DecidableEq α] (g : Nat → α) (H W K : Nat) (first : Bool) (flipped mIn gOut gIn : Mat α) :
    Out (Mat α) :=
  if first then .ok gIn
  else do
    let gIn ← gIn.assign g gOut
    flipSamples H W K mIn.rows flipped gIn

/-! ## CRelu and gated activations -/

/-- LayerCRelu.cpp:36-49 `forward`. -/
def creluForward [Zero α] [Neg α] [LE α] [DecidableRel (α := α) (· ≤ ·)] (g : Nat → α) (mIn mOut : Mat α) :
    Out (Mat α) := do
  let n := mIn.cols
  let mOut ← mOut.setConstantRC g mIn.rows (n * 2) 0
  forN mIn.rows (fun r o =>
    forN n (fun c o => do
      let f ← mIn.get r c
      if 0 ≤ f then o.set r c f else o.set r (c + n) (-f)) o) mOut

/-- LayerCRelu.cpp:51-66 `backpropagation`. -/
def creluBackward [Zero α] [Neg α] [LT α] [DecidableRel (α := α) (· < ·)] (g : Nat → α) (first : Bool)
    (mIn gOut gIn : Mat α) : Out (Mat α) :=
  if first then .ok gIn
  else do
    let n := mIn.cols
    let gIn ← gIn.setConstantRC g mIn.rows n 0
    forN mIn.rows (fun r o =>
      forN n (fun c o => do
        let f ← mIn.get r c
        if 0 < f then do
          let x ← gOut.get r c
          o.set r c x
        else do
          let x ← gOut.get r (c + n)
          o.set r c (-x)) o) gIn

/-- LayerGatedActivation.cpp:42-53 `forward`; `a1`, `a2` are the `apply` functions of the two activations.
(The loop variables are `int` in the source.) -/
def gatedForward [Mul α] (g : Nat → α) (a1 a2 : α → α) (mIn mOut : Mat α) : Out (Mat α) := do
  check (mIn.cols % 2 = 0)
  let half := mIn.cols / 2
  let mOut := mOut.resize g mIn.rows half
  forN mIn.rows (fun r o =>
    forN half (fun c o => do
      let x ← mIn.get r c
      let y ← mIn.get r (c + half)
      o.set r c (a1 x * a2 y)) o) mOut

/-- LayerGatedActivation.cpp:55-72 `backpropagation`; `d1`, `d2` are the `derivation` functions. -/
def gatedBackward [Mul α] (g : Nat → α) (first : Bool) (a1 a2 d1 d2 : α → α) (mIn gOut gIn : Mat α) :
    Out (Mat α) :=
  if first then .ok gIn
  else
    let gIn := gIn.resize g mIn.rows mIn.cols
    let half := mIn.cols / 2
    forN mIn.rows (fun r o =>
      forN half (fun c o => do
        let gv ← gOut.get r c
        let x ← mIn.get r c
        let y ← mIn.get r (c + half)
        let o ← o.set r c (gv * a2 y * d1 x)
        o.set r (c + half) (gv * a1 x * d2 y)) o) gIn

/-! ## Rectifiers -/

/-- LayerPRelu.cpp:38-54 `forward`; returns `_weight`, `_gradientWeight` and `mOut`. -/
noncomputable def preluForward (g : Nat → ℝ) (w gw mIn mOut : Mat ℝ) : Out (Mat ℝ × Mat ℝ × Mat ℝ) := do
  let fresh := w.size = 0
  let w ← if fresh then w.setConstantRC g 1 mIn.cols 0.25 else .ok w
  let gw := if fresh then gw.resize g w.rows w.cols else gw
  let mOut ← mOut.assign g mIn
  let mOut ← forN mOut.rows (fun i m => forN m.cols (fun j m => do
    let x ← m.get i j
    if x < 0 then do
      let y ← w.getI j
      m.set i j (x * y)
    else return m) m) mOut
  return (w, gw, mOut)

/-- LayerPRelu.cpp:56-81 `backpropagation`; returns `_gradientWeight` and `mGradientIn`. -/
noncomputable def preluBackward (g : Nat → ℝ) (first : Bool) (w gw mIn gOut gIn : Mat ℝ) :
    Out (Mat ℝ × Mat ℝ) := do
  let gw ← gw.setConstant 0
  let gw ← forN mIn.rows (fun i gw => forN mIn.cols (fun j gw => do
    let x ← mIn.get i j
    if x < 0 then do
      let y ← gOut.get i j
      let z ← gw.get 0 j
      gw.set 0 j (z + x * y)
    else return gw) gw) gw
  let gw ← gw.divScalar (mIn.rows : ℝ)
  if first then return (gw, gIn)
  else
    let gIn ← gIn.assign g gOut
    let gIn ← forN gIn.rows (fun i m => forN m.cols (fun j m => do
      let x ← mIn.get i j
      if x < 0 then do
        let y ← m.get i j
        let z ← w.getI j
        m.set i j (y * z)
      else return m) m) gIn
    return (gw, gIn)

/-- LayerPELU.cpp:38-57 `forward`; returns `_weight`, `_gradientWeight` and `mOut`.  (A division by a zero
parameter is a floating-point division; the theorems exclude it.) -/
noncomputable def peluForward (g : Nat → ℝ) (w gw mIn mOut : Mat ℝ) : Out (Mat ℝ × Mat ℝ × Mat ℝ) := do
  let fresh := w.size = 0
  let w ← if fresh then (w.resize g 2 mIn.cols).setConstant 1 else .ok w
  let gw := if fresh then gw.resize g w.rows w.cols else gw
  let mOut ← mOut.assign g mIn
  let mOut ← forN mOut.rows (fun i m => forN m.cols (fun j m => do
    let x ← m.get i j
    let a ← w.get 0 j
    let b ← w.get 1 j
    if 0 < x then m.set i j (x * (a / b))
    else m.set i j (a * (Real.exp (x / b) - 1))) m) mOut
  return (w, gw, mOut)

/-- LayerPELU.cpp:67-68 and 70-71: one entry of the positivity constraint. -/
noncomputable def peluClampEntry (w : Mat ℝ) (p j : Nat) : Out (Mat ℝ) := do
  let a ← w.get p j
  if a < 0.1 then w.set p j 0.1 else .ok w

/-- LayerPELU.cpp:59-105 `backpropagation`; returns `_weight` (clamped, lines 65-72), `_gradientWeight` and
`mGradientIn`. -/
noncomputable def peluBackward (g : Nat → ℝ) (first : Bool) (w gw mIn gOut gIn : Mat ℝ) :
    Out (Mat ℝ × Mat ℝ × Mat ℝ) := do
  let gw ← gw.setConstant 0
  let w ← forN mIn.cols (fun j w => do
    let w ← peluClampEntry w 0 j
    peluClampEntry w 1 j) w
  let gw ← forN mIn.rows (fun i gw => forN mIn.cols (fun j gw => do
    let x ← mIn.get i j
    let a ← w.get 0 j
    let b ← w.get 1 j
    let z ← gw.get 0 j
    let gw ← gw.set 0 j (z + if 0 < x then x / b else Real.exp (x / b) - 1)
    let z ← gw.get 1 j
    gw.set 1 j (z + if 0 < x then -a * (x / (b * b)) else -a * (x / (b * b)) * Real.exp (x / b))) gw) gw
  let gw ← gw.divScalar (mIn.rows : ℝ)
  if first then return (w, gw, gIn)
  else
    let gIn ← gIn.assign g gOut
    let gIn ← forN gIn.rows (fun i m => forN m.cols (fun j m => do
      let x ← mIn.get i j
      let y ← m.get i j
      let a ← w.get 0 j
      let b ← w.get 1 j
      m.set i j (y * if 0 < x then a / b else a / b * Real.exp (x / b))) m) gIn
    return (w, gw, gIn)

/-- LayerTERELU.cpp:41-59 `forward` (`_alpha` and `_mu` are 1 after construction and never change, lines
36-37). -/
noncomputable def tereluForward (g : Nat → ℝ) (alpha mu : ℝ) (w gw mIn mOut : Mat ℝ) :
    Out (Mat ℝ × Mat ℝ × Mat ℝ) := do
  let fresh := w.size = 0
  let w ← if fresh then w.setConstantRC g 1 mIn.cols 1 else .ok w
  let gw := if fresh then gw.resize g w.rows w.cols else gw
  let mOut ← mOut.assign g mIn
  let mOut ← forN mOut.rows (fun i m => forN m.cols (fun j m => do
    let x ← mIn.get i j
    if x ≤ 0 then m.set i j (alpha * (Real.exp x - 1))
    else if mu ≤ x then do
      let b ← w.getI j
      m.set i j (b * (mu - (Real.exp (mu - x) - 1)))
    else return m) m) mOut
  return (w, gw, mOut)

/-- LayerTERELU.cpp:61-88 `backpropagation`; returns `_gradientWeight` and `mGradientIn`. -/
noncomputable def tereluBackward (g : Nat → ℝ) (alpha mu : ℝ) (first : Bool) (w gw mIn gOut gIn : Mat ℝ) :
    Out (Mat ℝ × Mat ℝ) := do
  let gw ← gw.setConstant 0
  let gw ← forN mIn.rows (fun i gw => forN mIn.cols (fun j gw => do
    let x ← mIn.get i j
    if mu ≤ x then do
      let z ← gw.get 0 j
      gw.set 0 j (z + (mu - (Real.exp (mu - x) - 1)))
    else return gw) gw) gw
  let gw ← gw.divScalar (mIn.rows : ℝ)
  if first then return (gw, gIn)
  else
    let gIn ← gIn.assign g gOut
    let gIn ← forN gIn.rows (fun i m => forN m.cols (fun j m => do
      let x ← mIn.get i j
      if x ≤ 0 then do
        let y ← m.get i j
        m.set i j (y * (alpha * Real.exp x))
      else if mu ≤ x then do
        let y ← m.get i j
        let b ← w.getI j
        m.set i j (y * (b * Real.exp (mu - x)))
      else return m) m) gIn
    return (gw, gIn)

/-- Matrix.cpp:468-474 `setRandomUniform`: the constructor of `std::uniform_real_distribution` requires
`fMin <= fMax`. -/
def setRandomUniform [LT α] [DecidableRel (α := α) (· < ·)] (m : Mat α) (lo hi : α) (draw : Nat → α) : Out (Mat α) :=
  if hi < lo then .error .libPrecondition else m.setDraws draw

/-- LayerRRelu.cpp:40-58 `forward`; returns `_slopes` and `mOut`.  `inv1`, `inv2`, `mean` are `_invAlpha1`,
`_invAlpha2`, `_invAlphaMean` (constructor, lines 18-22). -/
noncomputable def rreluForward (g : Nat → ℝ) (alpha1 alpha2 : ℝ) (train : Bool) (draw : Nat → ℝ)
    (slopes mIn mOut : Mat ℝ) : Out (Mat ℝ × Mat ℝ) := do
  let inv1 := 1 / alpha1
  let inv2 := 1 / alpha2
  let mean := (inv1 + inv2) * 0.5
  let mOut ← mOut.assign g mIn
  if train then do
    let slopes := slopes.resize g mIn.rows mIn.cols
    let slopes ← setRandomUniform slopes inv1 inv2 draw
    let mOut ← forN mOut.size (fun i m => do
      let x ← m.getI i
      if x < 0 then do
        let y ← slopes.getI i
        m.setI i (x * y)
      else return m) mOut
    return (slopes, mOut)
  else do
    let mOut ← forN mOut.size (fun i m => do
      let x ← m.getI i
      if x < 0 then m.setI i (x * mean) else return m) mOut
    return (slopes, mOut)

/-- LayerRRelu.cpp:60-72 `backpropagation`. -/
noncomputable def rreluBackward (g : Nat → ℝ) (first : Bool) (slopes mIn gOut gIn : Mat ℝ) : Out (Mat ℝ) :=
  if first then .ok gIn
  else do
    let gIn ← gIn.assign g gOut
    forN gIn.size (fun i m => do
      let x ← mIn.getI i
      if x < 0 then do
        let y ← m.getI i
        let z ← slopes.getI i
        m.setI i (y * z)
      else return m) gIn

/-! ## Time-distributed layers -/

section
variable [Zero α] [One α] [Add α] [Mul α] [Div α] [NatCast α]

/-- LayerTimeDistributedBias.cpp:45-51 `forward`; `F` is `_iFrameSize`. -/
def tdBiasForward [Add α] (g : Nat → α) (F : Nat) (b mIn mOut : Mat α) : Out (Mat α) :=
  if F = 0 then .error .divByZero
  else do
    let mInR ← mIn.viewResize (mIn.size / F) F
    let t ← Mat.rowWiseAdd mInR b
    let mOut ← mOut.assign g t
    return mOut.resize g mIn.rows mIn.cols

/-- LayerTimeDistributedBias.cpp:53-65 `backpropagation`. -/
def tdBiasBackward (g : Nat → α) (first : Bool) (F : Nat) (gOut : Mat α) (old : Grads α) : Out (Grads α) :=
  if F = 0 then .error .divByZero
  else do
    let gOutR ← gOut.viewResize (gOut.size / F) F
    let t ← Mat.colWiseMean g gOutR
    let gB ← old.gB.assign g t
    if first then return ⟨old.gW, gB, old.gIn⟩
    else
      let gIn ← old.gIn.assign g gOut
      return ⟨old.gW, gB, gIn⟩

/-- LayerTimeDistributedDot.cpp:55-62 `forward`; `F`, `O` are `_iInFrameSize`, `_iOutFrameSize`. -/
def tdDotForward (g : Nat → α) (F O : Nat) (w mIn mOut : Mat α) : Out (Mat α) :=
  if F = 0 then .error .divByZero
  else do
    let frames := mIn.cols / F
    let mInR ← mIn.viewResize (frames * mIn.rows) F
    let t ← Mat.mul g mInR w
    let mOut ← mOut.assign g t
    return mOut.resize g mIn.rows (frames * O)

/-- LayerTimeDistributedDense.cpp:58-67 `forward`. -/
def tdDenseForward (g : Nat → α) (F O : Nat) (w b mIn mOut : Mat α) : Out (Mat α) :=
  if F = 0 then .error .divByZero
  else do
    let frames := mIn.cols / F
    let mInR ← mIn.viewResize (frames * mIn.rows) F
    let t ← Mat.mul g mInR w
    let mOut ← mOut.assign g t
    let t ← Mat.rowWiseAdd mOut b
    let mOut ← mOut.assign g t
    return mOut.resize g mIn.rows (frames * O)

/-- LayerTimeDistributedDot.cpp:64-80 and LayerTimeDistributedDense.cpp:69-86 `backpropagation`
(`dense`: the bias gradient, line 79, exists in the latter only). -/
def tdDenseBackward (g : Nat → α) (dense first : Bool) (F O : Nat) (w mIn gOut : Mat α) (old : Grads α) :
    Out (Grads α) :=
  if O = 0 then .error .divByZero
  else do
    let frames := gOut.cols / O
    let gOutR ← gOut.viewResize (frames * gOut.rows) O
    let mInR ← mIn.viewResize (frames * mIn.rows) F
    let xt ← mInR.transpose g
    let t ← Mat.mul g xt gOutR
    let t ← t.scale (1 / (mIn.rows : α))
    let gW ← old.gW.assign g t
    let gB ← if dense then do
        let t ← Mat.colWiseMean g gOutR
        old.gB.assign g t
      else .ok old.gB
    if first then return ⟨gW, gB, old.gIn⟩
    else
      let wt ← w.transpose g
      let t ← Mat.mul g gOutR wt
      let gIn ← old.gIn.assign g t
      return ⟨gW, gB, gIn.resize g mIn.rows (frames * F)⟩

end

end BeeDNN
