import Verif.Model.Matrix
import Mathlib.Analysis.SpecialFunctions.Sqrt

/-!
# Data scalers (MinMaxScaler.cpp, StandardScaler.cpp)

`float` is modelled by `ℝ`; the result of a division by zero is the arbitrary number `div0`, `g` is the content
of fresh memory.
-/

namespace BeeDNN

/-- `x/y` for two `float`s. -/
noncomputable def rdiv (div0 x y : ℝ) : ℝ := if y = 0 then div0 else x / y

/-- The matrix made by the constructor (Matrix.h:36-43). -/
def Mat.empty {α : Type} : Mat α := ⟨0, 0, []⟩

/-- MinMaxScaler.h:13-23. -/
structure MinMaxScaler where
  /-- `_mMin` -/
  mn : Mat ℝ := Mat.empty
  /-- `_mMax` -/
  mx : Mat ℝ := Mat.empty

namespace MinMaxScaler

/-- MinMaxScaler.cpp:16-29. -/
noncomputable def fit (g : Nat → ℝ) (s : MinMaxScaler) (m : Mat ℝ) : Out MinMaxScaler := do
  let a ← m.colWiseMin g
  let mn ← s.mn.assign g a
  let b ← m.colWiseMax g
  let mx ← s.mx.assign g b
  forN m.cols (fun i s => do
    let a ← s.mn.getI i
    let b ← s.mx.getI i
    if a = b then
      let mn ← s.mn.setI i 0
      let mx ← s.mx.setI i 1
      return ⟨mn, mx⟩
    else return s) ⟨mn, mx⟩

/-- MinMaxScaler.cpp:31-36. -/
noncomputable def transform (div0 : ℝ) (s : MinMaxScaler) (m : Mat ℝ) : Out (Mat ℝ) :=
  forN m.rows (fun i m => forN m.cols (fun j m => do
    let x ← m.get i j
    let a ← s.mn.getI j
    let b ← s.mx.getI j
    let a' ← s.mn.getI j
    m.set i j (rdiv div0 (x - a) (b - a'))) m) m

end MinMaxScaler

/-- StandardScaler.h:13-23. -/
structure StandardScaler where
  /-- `_mMean` -/
  mean : Mat ℝ := Mat.empty
  /-- `_mStd` -/
  std : Mat ℝ := Mat.empty

namespace StandardScaler

/-- StandardScaler.cpp:16-36. -/
noncomputable def fit (div0 : ℝ) (g : Nat → ℝ) (s : StandardScaler) (m : Mat ℝ) : Out StandardScaler := do
  let sum ← m.colWiseSum g
  let sumSq ← m.colWiseSumSq g
  forN m.cols (fun i s => do
    let a ← sum.getI i
    let mean := rdiv div0 a m.rows
    let q ← sumSq.getI i
    let var := rdiv div0 q m.rows - rdiv div0 (a * a) ((m.rows : ℝ) * m.rows)
    let me ← s.mean.setI i mean
    let st ← s.std.setI i (if var ≠ 0 then Real.sqrt var else 1)
    return ⟨me, st⟩) ⟨s.mean.resize g 1 m.cols, s.std.resize g 1 m.cols⟩

/-- StandardScaler.cpp:38-43. -/
noncomputable def transform (div0 : ℝ) (s : StandardScaler) (m : Mat ℝ) : Out (Mat ℝ) :=
  forN m.rows (fun i m => forN m.cols (fun j m => do
    let x ← m.get i j
    let a ← s.mean.get 0 j
    let b ← s.std.get 0 j
    m.set i j (rdiv div0 (x - a) b)) m) m

end StandardScaler

end BeeDNN
