import Verif.Model.LayersBasic

/-!
# Softmax and softmin layers

The scalar type is arbitrary; `ex` is the exponential (`::exp`, Matrix.h:496-504).  The work matrix `S` is
assigned completely at the start of every round (`operator=`, Matrix.h:104-112), so it is a local value here.
-/

namespace BeeDNN
variable {α : Type}

/-- LayerSoftmax.cpp:35-36, 55-56 and LayerSoftmin.cpp:38-39, 56-57: `S -= max(S); S = exp(S)`. -/
def expShifted [Zero α] [Sub α] [LT α] [DecidableRel (α := α) (· < ·)] (g : Nat → α) (ex : α → α) (S : Mat α) :
    Out (Mat α) := do
  let mx ← S.maxCoeff
  let S ← S.cwise (· - mx)
  let t ← S.cwise ex
  S.assign g t

/-- LayerSoftmax.cpp:32-38 (the same text as LayerSoftmin.cpp:35-41): normalise each row in place. -/
def softmaxRows [Zero α] [Add α] [Sub α] [Div α] [LT α] [DecidableRel (α := α) (· < ·)] (g : Nat → α)
    (ex : α → α) (mOut : Mat α) : Out (Mat α) :=
  forN mOut.rows (fun r mOut => do
    let S ← mOut.row r
    let S ← expShifted g ex S
    let s ← S.sum
    let t ← S.divScalar s
    mOut.rowAssign r t) mOut

/-- LayerSoftmax.cpp:27-39. -/
def softmaxForward [Zero α] [Add α] [Sub α] [Div α] [LT α] [DecidableRel (α := α) (· < ·)] (g : Nat → α)
    (ex : α → α) (mIn mOut : Mat α) : Out (Mat α) := do
  let mOut ← mOut.assign g mIn
  softmaxRows g ex mOut

/-- LayerSoftmax.cpp:43-65. -/
def softmaxBackward [Zero α] [One α] [Add α] [Sub α] [Mul α] [Div α] [LT α] [DecidableRel (α := α) (· < ·)]
    (g : Nat → α) (ex : α → α) (first : Bool) (mIn gOut gIn : Mat α) : Out (Mat α) :=
  if first then .ok gIn
  else do
    let gIn ← gIn.assign g gOut
    forN mIn.rows (fun r gIn => do
      let S ← mIn.row r
      let S ← expShifted g ex S
      let s ← S.sum
      let S ← S.divScalar s
      forN S.cols (fun c gIn => do
        let p ← S.getI c
        let x ← gIn.get r c
        gIn.set r c (x * (p * (1 - p)))) gIn) gIn

/-- LayerSoftmin.cpp:30-42. -/
def softminForward [Zero α] [Neg α] [Add α] [Sub α] [Div α] [LT α] [DecidableRel (α := α) (· < ·)]
    (g : Nat → α) (ex : α → α) (mIn mOut : Mat α) : Out (Mat α) := do
  let t ← mIn.neg
  let mOut ← mOut.assign g t
  softmaxRows g ex mOut

/-- LayerSoftmin.cpp:45-66. -/
def softminBackward [Zero α] [Neg α] [Add α] [Sub α] [Mul α] [Div α] [LT α] [DecidableRel (α := α) (· < ·)]
    (g : Nat → α) (ex : α → α) (first : Bool) (mIn gOut gIn : Mat α) : Out (Mat α) :=
  if first then .ok gIn
  else
    forN mIn.rows (fun r gIn => do
      let S ← mIn.row r
      let S ← S.neg
      let S ← expShifted g ex S
      let s ← S.sum
      forN S.cols (fun c gIn => do
        let e ← S.getI c
        let x ← gOut.get r c
        gIn.set r c (-x * (e * (s - e)) / (s * s))) gIn) (gIn.resize g gOut.rows gOut.cols)

end BeeDNN
