import Verif.Model.Matrix

/-!
# Model of the pooling and padding layers

`LayerMaxPool2D`, `LayerGlobalMaxPool2D`, `LayerAveragePooling2D`, `LayerGlobalAveragePooling2D`,
`LayerZeroPadding2D`.  The sources read and write through pointers `m.row(sample).data()+offset`; such an
access is `Mat.raw`/`Mat.setRaw` at the flat position in the whole buffer (a position outside the row but
inside the buffer is what the C++ code would touch, too).  `Index` members are natural numbers
(negative constructor arguments are not modelled); the assertion of `row(sample)` (Matrix.h:629-641) is
kept as `check`.
-/

namespace BeeDNN

variable {α : Type}

/-- `lPtr[i]=x` with a possibly negative position: a position below the buffer is out of bounds. -/
def Mat.setRawInt (m : Mat α) (i : Int) (x : α) : Out (Mat α) :=
  if 0 ≤ i then m.setRaw i.toNat x else .error .outOfBounds

/-- Members of LayerMaxPool2D / LayerAveragePooling2D (LayerMaxPool2D.h, LayerAveragePooling2D.h). -/
structure Pool where
  inRows : Nat
  inCols : Nat
  channels : Nat
  rowFactor : Nat
  colFactor : Nat
  outRows : Nat
  outCols : Nat
  inPlane : Nat
  outPlane : Nat
  deriving DecidableEq, Repr

/-- LayerMaxPool2D.cpp:13-25 and LayerAveragePooling2D.cpp:14-27, constructors (the member
`_fInvKernelSize` of the latter is computed in `avgPoolForward`). -/
def Pool.create (inRows inCols channels rowFactor colFactor : Nat) : Out Pool :=
  if rowFactor = 0 ∨ colFactor = 0 then .error .divByZero
  else .ok
    { inRows, inCols, channels, rowFactor, colFactor
      outRows := inRows / rowFactor
      outCols := inCols / colFactor
      inPlane := inRows * inCols
      outPlane := (inRows / rowFactor) * (inCols / colFactor) }

section MaxPool
variable [LT α] [DecidableRel (α := α) (· < ·)]

/-- LayerMaxPool2D.cpp:61-78: scan of one window; returns `fMax` and `iPosIn` (−1 if nothing was
selected).  `low` is the literal `-1.e38f`, `base` the offset of `lIn` in the buffer. -/
def maxWindow (p : Pool) (low : α) (mIn : Mat α) (base r c : Nat) : Out (α × Int) :=
  forN p.rowFactor (fun i st =>
    forN p.colFactor (fun j st => do
      let ri := r * p.rowFactor + i
      let ci := c * p.colFactor + j
      let iIndex := ri * p.inCols + ci
      let fSample ← mIn.raw (base + iIndex)
      return if st.1 < fSample then (fSample, (iIndex : Int)) else st) st) (low, -1)

/-- LayerMaxPool2D.cpp:44-87 `forward`.  `_mMaxIndex` is a matrix of `float` in the source; it is only
written with `(float)iPosIn` and read with `(Index)`, so it is modelled as a matrix of integers where
`fl i` is the value of `(Index)(float)i`. -/
def maxPoolForward (g : Nat → α) (gi : Nat → Int) (fl : Int → Int) (low : α) (p : Pool) (train : Bool)
    (mIn mOut : Mat α) (mMaxIndex : Mat Int) : Out (Mat α × Mat Int) :=
  let mOut := mOut.resize g mIn.rows (p.outPlane * p.channels)
  let mMaxIndex := if train then mMaxIndex.resize gi mOut.rows mOut.cols else mMaxIndex
  forN mIn.rows (fun sample st =>
    forN p.channels (fun channel st => do
      check (sample < mIn.rows)
      check (sample < st.1.rows)
      let baseIn := sample * mIn.cols + channel * p.inPlane
      let baseOut := sample * st.1.cols + channel * p.outPlane
      forN p.outRows (fun r st =>
        forN p.outCols (fun c st => do
          let w ← maxWindow p low mIn baseIn r c
          let iIndexOut := r * p.outCols + c
          let o ← st.1.setRaw (baseOut + iIndexOut) w.1
          let x ← if train then st.2.set sample (channel * p.outPlane + iIndexOut) (fl w.2) else .ok st.2
          return (o, x)) st) st) st) (mOut, mMaxIndex)

/-- LayerMaxPool2D.cpp:89-111 `backpropagation`.  Line 107 reads `_mMaxIndex(i)` with the position `i`
in the output plane as flat position in the whole matrix, for every sample and channel. -/
def maxPoolBackward [Zero α] (g : Nat → α) (p : Pool) (first : Bool) (mMaxIndex : Mat Int)
    (mGradientOut mGradientIn : Mat α) : Out (Mat α) :=
  if first then .ok mGradientIn
  else do
    let mGradientIn ← mGradientIn.setConstantRC g mGradientOut.rows (p.inPlane * p.channels) 0
    forN mGradientOut.rows (fun sample gi =>
      forN p.channels (fun channel gi => do
        check (sample < mGradientOut.rows)
        check (sample < gi.rows)
        let baseOut := sample * mGradientOut.cols + channel * p.outPlane
        let baseIn := sample * gi.cols + channel * p.inPlane
        forN p.outPlane (fun i gi => do
          let x ← mGradientOut.raw (baseOut + i)
          let k ← mMaxIndex.getI i
          gi.setRawInt (baseIn + k) x) gi) gi) mGradientIn

/-- LayerGlobalMaxPool2D.cpp:46-57: scan of one plane. -/
def globalMaxPlane (R C : Nat) (low : α) (mIn : Mat α) (sample channel : Nat) : Out (α × Int) :=
  forN R (fun r st =>
    forN C (fun c st => do
      let iPosIn := channel * R * C + r * C + c
      let fSample ← mIn.get sample iPosIn
      return if st.1 < fSample then (fSample, (iPosIn : Int)) else st) st) (low, -1)

/-- LayerGlobalMaxPool2D.cpp:36-66 `forward` (`_mMaxIndex` as in `maxPoolForward`). -/
def globalMaxPoolForward (g : Nat → α) (gi : Nat → Int) (fl : Int → Int) (low : α)
    (inRows inCols channels : Nat) (train : Bool)
    (mIn mOut : Mat α) (mMaxIndex : Mat Int) : Out (Mat α × Mat Int) :=
  let mOut := mOut.resize g mIn.rows channels
  let mMaxIndex := if train then mMaxIndex.resize gi mOut.rows mOut.cols else mMaxIndex
  forN mIn.rows (fun sample st =>
    forN channels (fun channel st => do
      let w ← globalMaxPlane inRows inCols low mIn sample channel
      let o ← st.1.set sample channel w.1
      let x ← if train then st.2.set sample channel (fl w.2) else .ok st.2
      return (o, x)) st) (mOut, mMaxIndex)

end MaxPool

/-- `m(iR,iC)=x` with a possibly negative column: only the upper bounds are asserted (Matrix.h:236-241),
a negative total position is out of bounds. -/
def Mat.setColInt (m : Mat α) (r : Nat) (c : Int) (x : α) : Out (Mat α) := do
  check (r < m.rows)
  check (c < (m.cols : Int))
  m.setRawInt ((r * m.cols : Nat) + c) x

/-- LayerGlobalMaxPool2D.cpp:68-84 `backpropagation`. -/
def globalMaxPoolBackward [Zero α] (g : Nat → α) (inRows inCols channels : Nat) (first : Bool)
    (mMaxIndex : Mat Int) (mGradientOut mGradientIn : Mat α) : Out (Mat α) :=
  if first then .ok mGradientIn
  else do
    let mGradientIn ← mGradientIn.setConstantRC g mGradientOut.rows (channels * inCols * inRows) 0
    forN mGradientOut.rows (fun sample gi =>
      forN channels (fun channel gi => do
        let x ← mGradientOut.get sample channel
        let k ← mMaxIndex.get sample channel
        gi.setColInt sample k x) gi) mGradientIn

section Average
variable [Zero α] [One α] [Add α] [Mul α] [Div α] [NatCast α]

/-- LayerAveragePooling2D.cpp:46-77 `forward`; `_fInvKernelSize` is line 26 of the constructor. -/
def avgPoolForward (g : Nat → α) (p : Pool) (mIn mOut : Mat α) : Out (Mat α) :=
  let inv : α := 1 / ((p.rowFactor * p.colFactor : Nat) : α)
  let mOut := mOut.resize g mIn.rows (p.outPlane * p.channels)
  forN mIn.rows (fun sample o =>
    forN p.channels (fun channel o => do
      check (sample < mIn.rows)
      check (sample < o.rows)
      let baseIn := sample * mIn.cols + channel * p.inPlane
      let baseOut := sample * o.cols + channel * p.outPlane
      forN p.outRows (fun r o =>
        forN p.outCols (fun c o => do
          let fSum ← forN p.rowFactor (fun i s =>
            forN p.colFactor (fun j s => do
              let ri := r * p.rowFactor + i
              let ci := c * p.colFactor + j
              let x ← mIn.raw (baseIn + (ri * p.inCols + ci))
              return s + x) s) (0 : α)
          o.setRaw (baseOut + (r * p.outCols + c)) (fSum * inv)) o) o) o) mOut

/-- LayerAveragePooling2D.cpp:79-114 `backpropagation`. -/
def avgPoolBackward (g : Nat → α) (p : Pool) (first : Bool) (mGradientOut mGradientIn : Mat α) :
    Out (Mat α) :=
  let inv : α := 1 / ((p.rowFactor * p.colFactor : Nat) : α)
  if first then .ok mGradientIn
  else do
    let mGradientIn ← mGradientIn.setConstantRC g mGradientOut.rows (p.inPlane * p.channels) 0
    forN mGradientOut.rows (fun sample gi =>
      forN p.channels (fun channel gi => do
        check (sample < mGradientOut.rows)
        check (sample < gi.rows)
        let baseOut := sample * mGradientOut.cols + channel * p.outPlane
        let baseIn := sample * gi.cols + channel * p.inPlane
        forN p.outRows (fun r gi =>
          forN p.outCols (fun c gi => do
            let x ← mGradientOut.raw (baseOut + (c + r * p.outCols))
            let fGradOut := x * inv
            forN p.rowFactor (fun i gi =>
              forN p.colFactor (fun j gi => do
                let ri := r * p.rowFactor + i
                let ci := c * p.colFactor + j
                let y ← gi.raw (baseIn + (ri * p.inCols + ci))
                gi.setRaw (baseIn + (ri * p.inCols + ci)) (y + fGradOut)) gi) gi) gi) gi) gi) mGradientIn

/-- LayerGlobalAveragePooling2D.cpp:39-64 `forward`; `_fInvKernelSize` is line 21 of the constructor
(for an empty plane it is `1/0`, an infinity in the source; the theorems assume a non-empty plane). -/
def globalAvgPoolForward (g : Nat → α) (inRows inCols channels : Nat) (mIn mOut : Mat α) : Out (Mat α) :=
  let inPlane := inRows * inCols
  let inv : α := 1 / ((inRows * inCols : Nat) : α)
  let mOut := mOut.resize g mIn.rows channels
  forN mIn.rows (fun sample o =>
    forN channels (fun channel o => do
      check (sample < mIn.rows)
      check (sample < o.rows)
      let baseIn := sample * mIn.cols + channel * inPlane
      let baseOut := sample * o.cols + channel
      let fSum ← forN inRows (fun ri s =>
        forN inCols (fun ci s => do
          let x ← mIn.raw (baseIn + (ri * inCols + ci))
          return s + x) s) (0 : α)
      o.setRaw baseOut (fSum * inv)) o) mOut

/-- LayerGlobalAveragePooling2D.cpp:66-95 `backpropagation`. -/
def globalAvgPoolBackward (g : Nat → α) (inRows inCols channels : Nat) (first : Bool)
    (mGradientOut mGradientIn : Mat α) : Out (Mat α) :=
  let inPlane := inRows * inCols
  let inv : α := 1 / ((inRows * inCols : Nat) : α)
  if first then .ok mGradientIn
  else
    let mGradientIn := mGradientIn.resize g mGradientOut.rows (inPlane * channels)
    forN mGradientOut.rows (fun sample gi =>
      forN channels (fun channel gi => do
        check (sample < mGradientOut.rows)
        check (sample < gi.rows)
        let baseOut := sample * mGradientOut.cols + channel
        let baseIn := sample * gi.cols + channel * inPlane
        let x ← mGradientOut.raw baseOut
        let fGradOut := x * inv
        forN inRows (fun ri gi =>
          forN inCols (fun ci gi => gi.setRaw (baseIn + (ri * inCols + ci)) fGradOut) gi) gi) gi) mGradientIn

end Average

/-- LayerZeroPadding2D.cpp:42-65 `forward`. -/
def zeroPadForward [Zero α] (g : Nat → α) (inRows inCols channels border : Nat) (mIn mOut : Mat α) :
    Out (Mat α) := do
  let outCol := inCols + 2 * border
  let outPlane := (inRows + 2 * border) * outCol
  let inPlane := inRows * inCols
  let mOut ← mOut.setConstantRC g mIn.rows (outPlane * channels) 0
  forN mIn.rows (fun sample o =>
    forN channels (fun channel o => do
      check (sample < mIn.rows)
      check (sample < o.rows)
      let baseIn := sample * mIn.cols + channel * inPlane
      let baseOut := sample * o.cols + channel * outPlane
      forN inRows (fun r o =>
        forN inCols (fun c o => do
          let x ← mIn.raw (baseIn + (r * inCols + c))
          o.setRaw (baseOut + ((r + border) * outCol + c + border)) x) o) o) o) mOut

/-- LayerZeroPadding2D.cpp:67-96 `backpropagation`. -/
def zeroPadBackward (g : Nat → α) (inRows inCols channels border : Nat) (first : Bool)
    (mGradientOut mGradientIn : Mat α) : Out (Mat α) :=
  if first then .ok mGradientIn
  else
    let outCol := inCols + 2 * border
    let outPlane := (inRows + 2 * border) * outCol
    let inPlane := inRows * inCols
    let mGradientIn := mGradientIn.resize g mGradientOut.rows (inPlane * channels)
    forN mGradientOut.rows (fun sample gi =>
      forN channels (fun channel gi => do
        check (sample < mGradientOut.rows)
        check (sample < gi.rows)
        let baseIn := sample * gi.cols + channel * inPlane
        let baseOut := sample * mGradientOut.cols + channel * outPlane
        forN inRows (fun r gi =>
          forN inCols (fun c gi => do
            let x ← mGradientOut.raw (baseOut + ((r + border) * outCol + c + border))
            gi.setRaw (baseIn + (r * inCols + c)) x) gi) gi) gi) mGradientIn

end BeeDNN
