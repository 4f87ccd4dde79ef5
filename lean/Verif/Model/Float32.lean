import Mathlib.Data.Real.Archimedean
import Mathlib.Data.Int.Log
import Mathlib.Algebra.Order.Floor.Ring

/-!
# Arithmetic of `float`

`MatrixFloat` is `Matrix<float>` (Matrix.h:685).  This file models `float` as IEEE 754 binary32 with rounding to
nearest, ties to even, the default of all supported compilers: the exact result of an operation is rounded to 24
significant bits with exponents from −126 to 127, gradual underflow, and overflow to infinity.  Not modelled: the sign
of zero (so a division by zero is a NaN here), payloads of NaN, other rounding modes, and fused or double-width
evaluation that a compiler may choose.

The matrix and layer functions of the model that need no law of the scalars are defined for every type with these operations,
hence for this one.
-/

namespace BeeDNN

/-- The nearest integer, the even one if there are two. -/
noncomputable def nearestEven (y : ℝ) : ℤ :=
  if y - ⌊y⌋ < 1 / 2 then ⌊y⌋
  else if 1 / 2 < y - ⌊y⌋ then ⌊y⌋ + 1
  else if Even ⌊y⌋ then ⌊y⌋ else ⌊y⌋ + 1

/-- The exponent of the last of 24 significant bits of a number, at least −149. -/
noncomputable def lastBit (x : ℝ) : ℤ := max (Int.log 2 |x| - 23) (-149)

/-- Rounding to 24 significant bits. -/
noncomputable def rnd (x : ℝ) : ℝ := nearestEven (x / 2 ^ lastBit x) * 2 ^ lastBit x

/-- Values of type `float`. -/
inductive F32
  | fin (x : ℝ)
  | inf (neg : Bool)
  | nan

namespace F32

/-- Rounding with overflow. -/
noncomputable def round (x : ℝ) : F32 := if |rnd x| < 2 ^ 128 then fin (rnd x) else inf (decide (x < 0))

noncomputable def add : F32 → F32 → F32
  | fin x, fin y => round (x + y)
  | fin _, inf s => inf s
  | inf s, fin _ => inf s
  | inf s, inf t => if s = t then inf s else nan
  | nan, _ => nan
  | _, nan => nan

def neg : F32 → F32
  | fin x => fin (-x)
  | inf s => inf !s
  | nan => nan

noncomputable def mul : F32 → F32 → F32
  | fin x, fin y => round (x * y)
  | fin x, inf s => if x = 0 then nan else inf (s != decide (x < 0))
  | inf s, fin x => if x = 0 then nan else inf (s != decide (x < 0))
  | inf s, inf t => inf (s != t)
  | nan, _ => nan
  | _, nan => nan

/-- A zero divisor gives a NaN, as its sign is not modelled. -/
noncomputable def div : F32 → F32 → F32
  | fin x, fin y => if y = 0 then nan else round (x / y)
  | fin _, inf _ => fin 0
  | inf s, fin y => if y = 0 then nan else inf (s != decide (y < 0))
  | inf _, inf _ => nan
  | nan, _ => nan
  | _, nan => nan

/-- Every comparison with a NaN is false. -/
def lt : F32 → F32 → Prop
  | fin x, fin y => x < y
  | fin _, inf s => s = false
  | inf s, fin _ => s = true
  | inf s, inf t => s = true ∧ t = false
  | nan, _ => False
  | _, nan => False

noncomputable instance : Zero F32 := ⟨fin 0⟩
noncomputable instance : One F32 := ⟨fin 1⟩
noncomputable instance : Add F32 := ⟨add⟩
instance : Neg F32 := ⟨neg⟩
noncomputable instance : Sub F32 := ⟨fun a b => add a (neg b)⟩
noncomputable instance : Mul F32 := ⟨mul⟩
noncomputable instance : Div F32 := ⟨div⟩
/-- Conversion of an integer, `(float)n`. -/
noncomputable instance : NatCast F32 := ⟨fun n => round n⟩
instance : LT F32 := ⟨lt⟩
noncomputable instance : DecidableRel (α := F32) (· < ·) := Classical.decRel _
noncomputable instance : Inhabited F32 := ⟨fin 0⟩
noncomputable instance : DecidableEq F32 := Classical.decEq _
/-- Literals such as `0.9f`. -/
noncomputable instance : OfScientific F32 := ⟨fun m s e => round (OfScientific.ofScientific m s e)⟩

end F32

end BeeDNN
