import Verif.Model.Matrix

/-!
# Model of `LayerConvolution2D`

The matrices `_im2colT`, `_tempImg`, `_weight`, `_gradientWeight` and the sample count are the state
`ConvState`; the geometry (constant after construction) is `Conv`.  `Index` members are natural numbers:
the constructor is modelled only for kernels that fit (`2*border ≤ size`), otherwise the source goes on with
negative sizes.
-/

namespace BeeDNN

variable {α : Type}

/-- Members of LayerConvolution2D.h that are fixed by the constructor. -/
structure Conv where
  inRows : Nat
  inCols : Nat
  inCh : Nat
  kRows : Nat
  kCols : Nat
  outCh : Nat
  rowStride : Nat
  colStride : Nat
  outRows : Nat
  outCols : Nat
  lut : List Nat
  deriving DecidableEq, Repr

/-- LayerConvolution2D.cpp:345-359 `create_im2col_LUT` (`std::vector::resize` value-initialises; element
access out of range would be undefined behaviour). -/
def createLUT (inRows inCols inCh kRows kCols : Nat) : Out (List Nat) :=
  forN inCh (fun ch l =>
    forN kRows (fun kr l =>
      forN kCols (fun kc l =>
        wr l (kc + kr * kCols + ch * kRows * kCols) (ch * inRows * inCols + kr * inCols + kc)) l) l)
    (tab (kRows * kCols * inCh) (fun _ => 0))

/-- LayerConvolution2D.cpp:34-45: output size from input size, kernel size and stride. -/
def convOutSize (n k stride : Nat) : Nat :=
  let o := n - 2 * (k / 2)
  if stride > 1 then (o + 1) / stride else o

/-- LayerConvolution2D.cpp:19-51, constructor (the random weights of `init` are part of the state;
kernels larger than the image give negative sizes in the source and an error here). -/
def Conv.create (inRows inCols inCh kRows kCols outCh rowStride colStride : Nat) : Out Conv := do
  check (2 * (kRows / 2) ≤ inRows ∧ 2 * (kCols / 2) ≤ inCols)
  let lut ← createLUT inRows inCols inCh kRows kCols
  return { inRows, inCols, inCh, kRows, kCols, outCh, rowStride, colStride
           outRows := convOutSize inRows kRows rowStride
           outCols := convOutSize inCols kCols colStride
           lut }

/-- Mutable members of LayerConvolution2D. -/
structure ConvState (α : Type) where
  samples : Nat
  im2colT : Mat α
  tempImg : Mat α
  weight : Mat α
  gradientWeight : Mat α

/-- LayerConvolution2D.cpp:128-168 `im2col`. -/
def im2col (g : Nat → α) (p : Conv) (mIn mCol : Mat α) : Out (Mat α) := do
  check (mIn.cols = p.inRows * p.inCols * p.inCh)
  let samples := mIn.rows
  let mCol := mCol.resize g (p.outRows * p.outCols * samples) (p.kRows * p.kCols * p.inCh)
  forN samples (fun s m =>
    forN p.inCh (fun ch m =>
      forN p.kRows (fun kr m =>
        forN p.kCols (fun kc m =>
          forN p.outRows (fun r m =>
            forN p.outCols (fun c m => do
              let rowInPlane := r * p.rowStride + kr
              let colInPlane := c * p.colStride + kc
              check (rowInPlane < p.inRows)
              check (colInPlane < p.inCols)
              let f ← mIn.get s (ch * p.inRows * p.inCols + rowInPlane * p.inCols + colInPlane)
              m.set (s * p.outCols * p.outRows + r * p.outCols + c)
                (ch * p.kRows * p.kCols + kr * p.kCols + kc) f) m) m) m) m) m) mCol

/-- LayerConvolution2D.cpp:316-343 `im2col_LUT`. -/
def im2colLUT (g : Nat → α) (p : Conv) (mIn mCol : Mat α) : Out (Mat α) := do
  check (mIn.cols = p.inRows * p.inCols * p.inCh)
  let samples := mIn.rows
  let mCol := mCol.resize g (p.outRows * p.outCols * samples) (p.kRows * p.kCols * p.inCh)
  let lutRows := p.lut.length
  forN samples (fun s m =>
    forN p.outRows (fun r m =>
      forN p.outCols (fun c m => do
        let decal := s * p.inRows * p.inCols * p.inCh + r * p.inCols * p.rowStride + c * p.colStride
        let rowDest := c + r * p.outCols
        let base := rowDest * m.cols + s * p.outCols * p.outRows * lutRows
        forN lutRows (fun i m => do
          let k ← rd p.lut i
          let x ← mIn.raw (decal + k)
          m.setRaw (base + i) x) m) m) m) mCol

section
variable [Zero α] [One α] [Add α] [Mul α] [Div α] [NatCast α]

/-- LayerConvolution2D.cpp:170-214 `col2im`. -/
def col2im (g : Nat → α) (p : Conv) (samples : Nat) (mCol mIm : Mat α) : Out (Mat α) := do
  check (mCol.rows = p.kRows * p.kCols * p.inCh)
  check (mCol.cols = p.outRows * p.outCols * samples)
  let mIm ← mIm.setConstantRC g samples (p.inCh * p.inRows * p.inCols) 0
  let mIm ← forN samples (fun s m =>
    forN p.outRows (fun r m =>
      forN p.outCols (fun c m =>
        forN p.inCh (fun ch m =>
          forN p.kRows (fun kr m =>
            forN p.kCols (fun kc m => do
              let rowInPlane := r * p.rowStride + kr
              let colInPlane := c * p.colStride + kc
              check (rowInPlane < p.inRows)
              check (colInPlane < p.inCols)
              let f ← mCol.get (ch * p.kRows * p.kCols + kr * p.kCols + kc)
                (s * p.outCols * p.outRows + r * p.outCols + c)
              let j := ch * p.inRows * p.inCols + rowInPlane * p.inCols + colInPlane
              let x ← m.get s j
              m.set s j (x + f)) m) m) m) m) m) mIm
  mIm.scale (1 / ((p.kRows * p.kCols * p.outCh : Nat) : α))

/-- LayerConvolution2D.cpp:216-271 `col2im_LUT`. -/
def col2imLUT (g : Nat → α) (p : Conv) (samples : Nat) (mCol mIm : Mat α) : Out (Mat α) := do
  check (mCol.rows = p.kRows * p.kCols * p.inCh)
  check (mCol.cols = p.outRows * p.outCols * samples)
  let mIm ← mIm.setConstantRC g samples (p.inCh * p.inRows * p.inCols) 0
  let mIm ← forN samples (fun s m =>
    forN p.outRows (fun r m => do
      let fromCol := s * p.outCols * p.outRows + r * p.outCols
      let decal := s * p.inRows * p.inCols * p.inCh + r * p.rowStride * p.inCols
      forN p.inCh (fun ch m =>
        forN p.kRows (fun kr m => do
          let rowInPlane := kr * p.inCols + ch * p.inRows * p.inCols
          forN p.kCols (fun kc m =>
            forN p.outCols (fun c m => do
              let f ← mCol.get (ch * p.kRows * p.kCols + kr * p.kCols + kc) (fromCol + c)
              let i := decal + (rowInPlane + kc + c * p.colStride)
              let x ← m.raw i
              m.setRaw i (x + f)) m) m) m) m) m) mIm
  mIm.scale (1 / ((p.kRows * p.kCols * p.outCh : Nat) : α))
end

/-- LayerConvolution2D.cpp:273-292 `reshape_to_out`; returns the new `mOut` and `_tempImg`. -/
def reshapeToOut (g : Nat → α) (p : Conv) (samples : Nat) (mOut tempImg : Mat α) : Out (Mat α × Mat α) := do
  check (mOut.cols = samples * p.outRows * p.outCols)
  check (mOut.rows = p.outCh)
  let mOut := mOut.resize g (samples * p.outCh) (p.outRows * p.outCols)
  let tempImg ← tempImg.assign g mOut
  let mOut ← forN p.outCh (fun o m =>
    forN samples (fun s m => do
      let origRow := s + o * samples
      let destRow := o + s * p.outCh
      let v ← tempImg.row origRow
      m.rowAssign destRow v) m) mOut
  return (mOut.resize g samples (p.outRows * p.outCols * p.outCh), tempImg)

/-- LayerConvolution2D.cpp:294-314 `reshape_from_out`. -/
def reshapeFromOut (g : Nat → α) (p : Conv) (samples : Nat) (mOut tempImg : Mat α) :
    Out (Mat α × Mat α) := do
  check (mOut.cols = p.outCh * p.outRows * p.outCols)
  check (mOut.rows = samples)
  let mOut := mOut.resize g (samples * p.outCh) (p.outRows * p.outCols)
  let tempImg ← tempImg.assign g mOut
  let mOut ← forN p.outCh (fun o m =>
    forN samples (fun s m => do
      let origRow := s + o * samples
      let destRow := o + s * p.outCh
      let v ← tempImg.row destRow
      m.rowAssign origRow v) m) mOut
  return (mOut.resize g p.outCh (p.outRows * p.outCols * samples), tempImg)

section
variable [Zero α] [One α] [Add α] [Mul α] [Div α] [NatCast α]

/-- LayerConvolution2D.cpp:89-98 `forward`; returns the new state and `mOut`. -/
def convForward (g : Nat → α) (p : Conv) (fastLUT : Bool) (st : ConvState α) (mIn mOut : Mat α) :
    Out (ConvState α × Mat α) := do
  let col ← if fastLUT then im2colLUT g p mIn st.im2colT else im2col g p mIn st.im2colT
  let st := { st with im2colT := col, samples := mIn.rows }
  let colT ← Mat.transpose g st.im2colT
  let y ← Mat.mul g st.weight colT
  let mOut ← mOut.assign g y
  let r ← reshapeToOut g p st.samples mOut st.tempImg
  return ({ st with tempImg := r.2 }, r.1)

/-- LayerConvolution2D.cpp:100-126 `backpropagation`; returns the new state and `mGradientIn`.  The final
asserts (lines 124-125) compare with the sizes of `mIn`. -/
def convBackward (g : Nat → α) (p : Conv) (fastLUT first : Bool) (st : ConvState α)
    (mIn mGradientOut mGradientIn : Mat α) : Out (ConvState α × Mat α) := do
  check (mGradientOut.rows = st.samples)
  check (mGradientOut.cols = p.outRows * p.outCols * p.outCh)
  let unflat ← Mat.copy g mGradientOut
  let r ← reshapeFromOut g p st.samples unflat st.tempImg
  let unflat := r.1
  let st := { st with tempImg := r.2 }
  let gw ← Mat.mul g unflat st.im2colT
  let gw ← st.gradientWeight.assign g gw
  let st := { st with gradientWeight := gw }
  check (st.gradientWeight.rows = st.weight.rows)
  check (st.gradientWeight.cols = st.weight.cols)
  if first then return (st, mGradientIn)
  else do
    let wT ← Mat.transpose g st.weight
    let gradientCol ← Mat.mul g wT unflat
    let gi ← if fastLUT then col2imLUT g p st.samples gradientCol mGradientIn
      else col2im g p st.samples gradientCol mGradientIn
    check (gi.rows = mIn.rows)
    check (gi.cols = mIn.cols)
    return (st, gi)
end

end BeeDNN
