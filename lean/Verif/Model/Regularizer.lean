import Verif.Model.Optimizer
import Mathlib.Analysis.SpecialFunctions.Trigonometric.DerivHyp
import Mathlib.Analysis.SpecialFunctions.Sqrt

/-!
# Model of src/Regularizer.cpp

Scalars are real numbers (rounding, infinities, NaN and the sign of zero are not modelled).  The parameter is −1 until
`set_parameter` is called.
-/

namespace BeeDNN

/-- The classes of Regularizer.cpp:36-233. -/
inductive RegKind
  | none | l1 | l2 | l1l2 | gradientClip | gradientNormClip | gradientClipTanh
  deriving DecidableEq, Repr

/-- Regularizer.h and Regularizer.cpp:18-21. -/
structure Reg where
  kind : RegKind
  param : ℝ

/-- Regularizer.cpp:18-21, the constructor. -/
noncomputable def Reg.new (k : RegKind) : Reg := ⟨k, -1⟩

/-- `set_parameter` (lines 26-29, 71-77, 99-105, 129-135, 157-163, 188-194, 220-226). -/
noncomputable def Reg.setParameter (r : Reg) (p : ℝ) : Reg :=
  { r with param := match r.kind with
    | .none => p
    | .l1 | .l2 | .l1l2 | .gradientNormClip => if p = -1 then 0.01 else p
    | .gradientClip | .gradientClipTanh => if p = -1 then 0.001 else p }

/-- Lines 200-202.  A norm ≤ 0 with a negative parameter makes the code divide by zero; the floating point result
(NaN) is not modelled, see the precondition of the theorems. -/
noncomputable def normClip (g : Nat → ℝ) (p norm : ℝ) (dw : Mat ℝ) : Out (Mat ℝ) :=
  if p < norm then do
    let a ← dw.divScalar norm
    let b ← a.scale p
    dw.assign g b
  else .ok dw

/-- `apply(w, dw)`: the new weights and gradients. -/
noncomputable def Reg.apply (g : Nat → ℝ) (r : Reg) (w dw : Mat ℝ) : Out (Mat ℝ × Mat ℝ) :=
  match r.kind with
  -- lines 50-54
  | .none => .ok (w, dw)
  -- line 81
  | .l1 => do
    let s ← w.cwiseSign
    let s ← s.scale r.param
    let t ← dw.add s
    let dw ← dw.assign g t
    return (w, dw)
  -- line 109
  | .l2 => do
    let s ← w.scale r.param
    let t ← dw.add s
    let dw ← dw.assign g t
    return (w, dw)
  -- line 139
  | .l1l2 => do
    let s ← w.scale r.param
    let t ← dw.add s
    let s ← w.cwiseSign
    let s ← s.scale r.param
    let t ← t.add s
    let dw ← dw.assign g t
    return (w, dw)
  -- line 168
  | .gradientClip => do
    let dw ← dw.clamp (-r.param) r.param
    return (w, dw)
  -- lines 200-202
  | .gradientNormClip => do
    let n2 ← dw.squaredNorm
    let dw ← normClip g r.param (Real.sqrt n2) dw
    return (w, dw)
  -- line 231
  | .gradientClipTanh => do
    let a ← dw.scale (1 / r.param)
    let b ← a.cwise Real.tanh
    let c ← b.scale r.param
    let dw ← dw.assign g c
    return (w, dw)

/-- Regularizer.cpp:235-259 `create_regularizer` (`none`: null pointer). -/
def createRegularizer (s : String) : Option RegKind :=
  if s = "None" then some .none
  else if s = "L1" then some .l1
  else if s = "L2" then some .l2
  else if s = "L1L2" then some .l1l2
  else if s = "GradientClip" then some .gradientClip
  else if s = "GradientNormClip" then some .gradientNormClip
  else if s = "GradientClipTanh" then some .gradientClipTanh
  else Option.none

/-- The `name` functions. -/
def RegKind.name : RegKind → String
  | .none => "None"
  | .l1 => "L1"
  | .l2 => "L2"
  | .l1l2 => "L1L2"
  | .gradientClip => "GradientClip"
  | .gradientNormClip => "GradientNormClip"
  | .gradientClipTanh => "GradientClipTanh"

/-- Regularizer.cpp:261-272 `list_regularizer_available`. -/
def regularizerNames : List String :=
  ["None", "L1", "L2", "L1L2", "GradientClip", "GradientNormClip", "GradientClipTanh"]

end BeeDNN
