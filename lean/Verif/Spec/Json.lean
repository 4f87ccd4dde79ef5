import Mathlib.Data.Real.Basic

/-!
# Specification: JSON texts (RFC 8259)

A recursive descent parser.  The nesting depth and length are bounded by the fuel of `parse`, which is more than the length of the text.
-/

namespace BeeDNN.J

/-- A sequence of characters. -/
abbrev Text := List Char

/-- JSON values; a number is kept as its text (`numVal` reads it), members of an object are kept in order. -/
inductive Json where
  | null
  | bool (b : Bool)
  | num (t : Text)
  | str (s : Text)
  | arr (l : List Json)
  | obj (l : List (Text × Json))

/-! ## Numbers -/

/-- The natural number that decimal digits stand for. -/
def digVal (t : Text) : Nat := t.foldl (fun a c => 10 * a + (c.toNat - 48)) 0

/-- Sign, digits before and after the decimal point, exponent. -/
structure NumParts where
  neg : Bool
  int : Text
  frac : Text
  expo : Int

/-- One digit at least, nothing else. -/
def isDigits (t : Text) : Bool := !t.isEmpty && t.all Char.isDigit

/-- The exponent part: empty, or `e` or `E`, an optional sign and digits. -/
def splitExp : Text → Option Int
  | [] => some 0
  | c :: r =>
    if c = 'e' ∨ c = 'E' then
      match r with
      | '-' :: d => if isDigits d then some (-(digVal d : Int)) else none
      | '+' :: d => if isDigits d then some (digVal d) else none
      | d => if isDigits d then some (digVal d) else none
    else none

/-- The fraction part: empty, or a point and digits; then the exponent part. -/
def splitFrac : Text → Option (Text × Int)
  | '.' :: r => if (r.takeWhile Char.isDigit).isEmpty then none else (splitExp (r.dropWhile Char.isDigit)).map (fun e => (r.takeWhile Char.isDigit, e))
  | r => (splitExp r).map (fun e => ([], e))

/-- `0`, or digits that do not start with `0`. -/
def intOk : Text → Bool
  | [] => false
  | c :: r => c != '0' || r.isEmpty

/-- The parts of a JSON number. -/
def splitNum (t : Text) : Option NumParts :=
  let neg := t.head? == some '-'
  let t := if neg then t.tail else t
  let i := t.takeWhile Char.isDigit
  if intOk i then (splitFrac (t.dropWhile Char.isDigit)).map (fun p => ⟨neg, i, p.1, p.2⟩) else none

/-- The number that a JSON number stands for. -/
noncomputable def numVal (t : Text) : ℝ :=
  match splitNum t with
  | some p => (if p.neg then -1 else 1) * (digVal (p.int ++ p.frac) : ℝ) * (10 : ℝ) ^ (p.expo - p.frac.length)
  | none => 0

/-- Characters that occur in numbers. -/
def isNumChar (c : Char) : Bool := c.isDigit || c == '-' || c == '+' || c == '.' || c == 'e' || c == 'E'

/-! ## Values -/

/-- White space. -/
def isSp (c : Char) : Bool := c == ' ' || c == '\n' || c == '\t' || c == '\r'

/-- Skip white space. -/
def ws (t : Text) : Text := t.dropWhile isSp

/-- The character after a backslash. -/
def unescape (c : Char) : Option Char :=
  if c = '"' then some '"' else if c = '\\' then some '\\' else if c = '/' then some '/'
  else if c = 'b' then some (Char.ofNat 8) else if c = 'f' then some (Char.ofNat 12) else if c = 'n' then some '\n'
  else if c = 'r' then some '\r' else if c = 't' then some '\t' else none

/-- A hexadecimal digit. -/
def hex (c : Char) : Option Nat :=
  if c.isDigit then some (c.toNat - 48)
  else if 'a' ≤ c ∧ c ≤ 'f' then some (c.toNat - 87)
  else if 'A' ≤ c ∧ c ≤ 'F' then some (c.toNat - 55) else none

/-- The contents of a string, after its opening quote. -/
def pString : Text → Option (Text × Text)
  | [] => none
  | c :: r =>
    if c = '"' then some ([], r)
    else if c = '\\' then
      match r with
      | 'u' :: a :: b :: c :: d :: r => do
        let x ← hex a
        let y ← hex b
        let z ← hex c
        let t ← hex d
        let p ← pString r
        return (Char.ofNat (((x * 16 + y) * 16 + z) * 16 + t) :: p.1, p.2)
      | e :: r => do
        let x ← unescape e
        let p ← pString r
        return (x :: p.1, p.2)
      | [] => none
    else if c.toNat < 32 then none
    else do
      let p ← pString r
      return (c :: p.1, p.2)

/-- A number. -/
def pNumber (t : Text) : Option (Json × Text) :=
  if (splitNum (t.takeWhile isNumChar)).isSome then some (.num (t.takeWhile isNumChar), t.dropWhile isNumChar) else none

mutual
/-- A value. -/
def pValue : Nat → Text → Option (Json × Text)
  | 0, _ => none
  | n + 1, t =>
    match ws t with
    | '"' :: r => (pString r).map (fun p => (.str p.1, p.2))
    | '{' :: r =>
      match ws r with
      | '}' :: r => some (.obj [], r)
      | r => (pMembers n r).map (fun p => (.obj p.1, p.2))
    | '[' :: r =>
      match ws r with
      | ']' :: r => some (.arr [], r)
      | r => (pItems n r).map (fun p => (.arr p.1, p.2))
    | 't' :: 'r' :: 'u' :: 'e' :: r => some (.bool true, r)
    | 'f' :: 'a' :: 'l' :: 's' :: 'e' :: r => some (.bool false, r)
    | 'n' :: 'u' :: 'l' :: 'l' :: r => some (.null, r)
    | r => pNumber r

/-- One or more members and the closing brace. -/
def pMembers : Nat → Text → Option (List (Text × Json) × Text)
  | 0, _ => none
  | n + 1, t =>
    match ws t with
    | '"' :: r => do
      let k ← pString r
      match ws k.2 with
      | ':' :: r => do
        let v ← pValue n r
        match ws v.2 with
        | ',' :: r => do
          let l ← pMembers n r
          return ((k.1, v.1) :: l.1, l.2)
        | '}' :: r => return ([(k.1, v.1)], r)
        | _ => none
      | _ => none
    | _ => none

/-- One or more items and the closing bracket. -/
def pItems : Nat → Text → Option (List Json × Text)
  | 0, _ => none
  | n + 1, t => do
    let v ← pValue n t
    match ws v.2 with
    | ',' :: r => do
      let l ← pItems n r
      return (v.1 :: l.1, l.2)
    | ']' :: r => return ([v.1], r)
    | _ => none
end

/-- The value of a JSON text, if it is one. -/
def parse (t : Text) : Option Json :=
  match pValue (t.length + 1) t with
  | some (v, r) => if (ws r).isEmpty then some v else none
  | none => none

/-- A text without quotes, backslashes and control characters. -/
def Clean (t : Text) : Prop := ∀ c ∈ t, c ≠ '"' ∧ c ≠ '\\' ∧ ¬ c.toNat < 32

end BeeDNN.J
