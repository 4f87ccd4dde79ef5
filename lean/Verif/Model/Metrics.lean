import Verif.Model.Scaler
import Verif.Model.Net

/-!
# Model of `src/Metrics.cpp`

`float` is modelled by `ℝ`; a division by zero gives the arbitrary number `div0`.
-/

namespace BeeDNN

/-- `(Index)x` for a `float` (`Index` is `std::ptrdiff_t`, 64 bits, Matrix.h:31): truncation towards zero, undefined when the result does not fit. -/
noncomputable def toIndex (x : ℝ) : Out Int :=
  if -9223372036854775809 < x ∧ x < 9223372036854775808 then .ok (if 0 ≤ x then ⌊x⌋ else ⌈x⌉) else .error .badCast

/-- `m(iR,iC)++` (Matrix.h:236-241) with signed indices: only the upper bounds are asserted. -/
noncomputable def Mat.incr (m : Mat ℝ) (r c : Int) : Out (Mat ℝ) := do
  check (r < m.rows)
  check (c < m.cols)
  let i := r * m.cols + c
  if i < 0 then .error .outOfBounds
  else do
    let x ← m.raw i.toNat
    m.setRaw i.toNat (x + 1)

/-- Metrics.h:26-30. -/
structure Metrics where
  /-- `_accuracy` -/
  accuracy : ℝ := 0
  /-- `_balancedAccuracy` -/
  balanced : ℝ := 0
  /-- `_mConfusionMatrix` -/
  confusion : Mat ℝ := Mat.empty
  /-- `_mConfusionMatrixNormalized` -/
  normalized : Mat ℝ := Mat.empty

namespace Metrics

/-- Metrics.cpp:54-61; `K` is `iNbClass`. -/
noncomputable def count (mRef mTest : Mat ℝ) (K : Int) (m : Mat ℝ) : Out (Mat ℝ) :=
  forN mRef.rows (fun i m => do
    let x ← mTest.getI i
    let p ← toIndex (World.roundf x)
    let p := max (min p (K - 1)) 0
    let y ← mRef.getI i
    let r ← toIndex y
    m.incr r p) m

/-- Metrics.cpp:43-74.  A negative number of classes makes an empty matrix here. -/
noncomputable def compute (g : Nat → ℝ) (div0 : ℝ) (m : Metrics) (mRef mTest : Mat ℝ) (iNbClass : Int) : Out Metrics := do
  check (mRef.rows = mTest.rows)
  let K ← (if iNbClass = 0 then do
      let x ← mRef.maxCoeff
      let k ← toIndex x
      return k + 1
    else return iNbClass : Out Int)
  let c ← m.confusion.setConstantRC g K.toNat K.toNat 0
  let c ← count mRef mTest K c
  let fTrace ← c.trace
  let fSum ← c.sum
  let s ← c.rowWiseSum g
  let q ← c.rowWiseScalar (rdiv div0) s
  let q ← q.scale 100
  let n ← m.normalized.assign g q
  let t ← n.trace
  return ⟨rdiv div0 fTrace fSum * 100, rdiv div0 t n.rows, c, n⟩

end Metrics

end BeeDNN
