import Verif.Spec.Json
import Verif.Model.Core
import Mathlib.Data.Int.Log
import Mathlib.Data.Nat.Digits.Defs
import Mathlib.Data.List.DropRight
import Mathlib.Data.Real.Archimedean

/-!
# Model of `src/JsonFile.cpp`

Text is a list of characters (`Text`).  The stream operators for numbers are modelled for the default format
(`%d`, and `%g` with six digits) of the C locale.
-/

namespace BeeDNN.J

/-! ## Numbers as text -/

/-- The character of a digit. -/
def digitChar (d : Nat) : Char := Char.ofNat (48 + d)

/-- Decimal digits. -/
def decText (n : Nat) : Text := if n = 0 then ['0'] else (Nat.digits 10 n).reverse.map digitChar

/-- `ss << iVal` (JsonFile.cpp:60). -/
def intText (z : Int) : Text := if z < 0 then '-' :: decText z.natAbs else decText z.natAbs

/-- A `float` as the stream operator sees it: sign and magnitude, or one of the special values. -/
inductive FloatVal where
  | fin (neg : Bool) (mag : ℝ)
  | inf (neg : Bool)
  | nan (neg : Bool)

/-- Rounding to the nearest integer, ties to even. -/
noncomputable def roundEven (x : ℝ) : Nat :=
  if x - ⌊x⌋₊ < 1 / 2 then ⌊x⌋₊
  else if 1 / 2 < x - ⌊x⌋₊ then ⌊x⌋₊ + 1
  else if ⌊x⌋₊ % 2 = 0 then ⌊x⌋₊ else ⌊x⌋₊ + 1

/-- Six significant digits and the decimal exponent of the first one. -/
noncomputable def gMant (x : ℝ) : Nat × Int :=
  let e := Int.log 10 x
  let m := roundEven (x / (10 : ℝ) ^ (e - 5))
  if m = 10 ^ 6 then (10 ^ 5, e + 1) else (m, e)

/-- Digits without trailing zeros. -/
def strip (f : Text) : Text := f.rdropWhile (· == '0')

/-- Digits before and after the decimal point. -/
def dotted (i f : Text) : Text := if strip f = [] then i else i ++ '.' :: strip f

/-- At least two digits. -/
def pad2 (t : Text) : Text := if t.length < 2 then '0' :: t else t

/-- Format `%g` of a number with digits `m` (six) and exponent `e`. -/
def gBody (m : Nat) (e : Int) : Text :=
  let ds := decText m
  if e < -4 ∨ 6 ≤ e then dotted (ds.take 1) (ds.drop 1) ++ 'e' :: (if e < 0 then '-' else '+') :: pad2 (decText e.natAbs)
  else if 0 ≤ e then dotted (ds.take (e.toNat + 1)) (ds.drop (e.toNat + 1))
  else dotted ['0'] (List.replicate ((-e).toNat - 1) '0' ++ ds)

/-- Magnitude. -/
noncomputable def gText (x : ℝ) : Text := if x = 0 then ['0'] else gBody (gMant x).1 (gMant x).2

/-- `ss << fVal` (JsonFile.cpp:67 and 81). -/
noncomputable def floatText : FloatVal → Text
  | .fin neg x => if neg then '-' :: gText x else gText x
  | .inf neg => if neg then ['-', 'i', 'n', 'f'] else ['i', 'n', 'f']
  | .nan neg => if neg then ['-', 'n', 'a', 'n'] else ['n', 'a', 'n']

/-! ## The writer -/

/-- JsonFile.h:32-34. -/
structure Writer where
  /-- `_bPendingComma` -/
  pending : Bool
  /-- `_sSectionIndent` -/
  indent : Text
  /-- `_sOut` -/
  out : Text

namespace Writer

/-- JsonFile.cpp:16-26, constructor and `clear`. -/
def clear : Writer := ⟨false, [' ', ' ', ' ', ' '], []⟩

/-- JsonFile.cpp:28-31 `to_string`; `save` (98-102) writes this text. -/
def toText (w : Writer) : Text := '{' :: w.out ++ ['\n', '}']

/-- JsonFile.cpp:33-42. -/
def enter (w : Writer) (s : Text) : Writer :=
  let out := if w.pending then w.out ++ [','] else w.out
  ⟨false, w.indent ++ [' ', ' ', ' ', ' '], out ++ ('\n' :: w.indent ++ '"' :: s ++ ['"', ':', '{'])⟩

/-- JsonFile.cpp:44-50; `substr(4)` of a shorter string throws `out_of_range`. -/
def leave (w : Writer) : Out Writer :=
  if w.indent.length < 4 then .error .exception
  else .ok ⟨true, w.indent.drop 4, w.out ++ ('\n' :: w.indent.drop 4 ++ ['}'])⟩

/-- JsonFile.cpp:89-96 `add_string`. -/
def addString (w : Writer) (k s : Text) : Writer :=
  let out := if w.pending then w.out ++ [','] else w.out
  ⟨true, w.indent, out ++ ('\n' :: w.indent ++ '"' :: k ++ '"' :: ':' :: s)⟩

/-- JsonFile.cpp:52-55. -/
def addStr (w : Writer) (k v : Text) : Writer := w.addString k ('"' :: v ++ ['"'])
/-- JsonFile.cpp:57-62. -/
def addInt (w : Writer) (k : Text) (z : Int) : Writer := w.addString k (intText z)
/-- JsonFile.cpp:64-69. -/
noncomputable def addFloat (w : Writer) (k : Text) (x : FloatVal) : Writer := w.addString k (floatText x)
/-- JsonFile.cpp:71-74. -/
def addBool (w : Writer) (k : Text) (b : Bool) : Writer :=
  w.addString k (if b then ['t', 'r', 'u', 'e'] else ['f', 'a', 'l', 's', 'e'])

/-- JsonFile.cpp:76-87 `add_array`; `iSize` is the number of values `pVal` points to (NetUtil.cpp:95,104 pass `size()` and `data()`). -/
noncomputable def addArray (w : Writer) (k : Text) (xs : List FloatVal) : Writer :=
  let ss := (List.range xs.length).foldl (fun ss i =>
    let ss := ss ++ floatText (xs.getD i (.nan false))
    if i ≠ xs.length - 1 then ss ++ [','] else ss) []
  w.addString k ('[' :: ss ++ [']'])

end Writer

/-- A call of the interface (JsonFile.h:19-27). -/
inductive Call where
  | enter (s : Text)
  | leave
  | str (k v : Text)
  | int (k : Text) (z : Int)
  | float (k : Text) (x : FloatVal)
  | bool (k : Text) (b : Bool)
  | array (k : Text) (xs : List FloatVal)

/-- One call. -/
noncomputable def Call.run (w : Writer) : Call → Out Writer
  | .enter s => .ok (w.enter s)
  | .leave => w.leave
  | .str k v => .ok (w.addStr k v)
  | .int k z => .ok (w.addInt k z)
  | .float k x => .ok (w.addFloat k x)
  | .bool k b => .ok (w.addBool k b)
  | .array k xs => .ok (w.addArray k xs)

/-- A sequence of calls. -/
noncomputable def runCalls : List Call → Writer → Out Writer
  | [], w => .ok w
  | c :: cs, w => do
    let w ← c.run w
    runCalls cs w

end BeeDNN.J
