import Verif.Model.Matrix

/-!
# Matrices as text (src/Matrix.cpp:357-439)

Number formatting and parsing belong to the C++ library and are parameters: `pr` prints a number, `ps`
parses a token.
-/

namespace BeeDNN

/-- White space of the "C" locale. -/
def isWs (c : Char) : Bool :=
  c == ' ' || c == '\n' || c == '\t' || c == '\r' || c == '\x0b' || c == '\x0c'

/-- Matrix.cpp:390-395 and 413-418, `while(!ss.eof()) { float sF; ss >> sF; vf.push_back(sF); }`, as a
scanner over the remaining characters and the token read so far.
* When only white space is left the extraction fails and the uninitialised `sF` (`junk`) is pushed.
* When a token is not a number the stream fails without reaching its end and the loop never ends
  (it pushes until memory is exhausted).
Simplification: a token is a maximal run of non-blank characters; inputs such as `1-2`, which
`operator>>` splits in two numbers, are not modelled. -/
def readLoop {α : Type} (ps : List Char → Option α) (junk : α) : List Char → List Char → Out (List α)
  | [], [] => .ok [junk]
  | [], c :: tok =>
    match ps (c :: tok) with
    | none => .error .diverges
    | some x => .ok [x]
  | c :: cs, tok =>
    if isWs c then
      match tok with
      | [] => readLoop ps junk cs []
      | t :: tok =>
        match ps (t :: tok) with
        | none => .error .diverges
        | some x => (readLoop ps junk cs []).map (x :: ·)
    else readLoop ps junk cs (tok ++ [c])

/-- `std::copy(vf.begin(),vf.end(),r.data())` (Matrix.cpp:402, 424). -/
def copyVec {α : Type} (vf : List α) (r : Mat α) : Out (Mat α) :=
  forN vf.length (fun i r => do
    let x ← rd vf i
    r.setRaw i x) r

/-- Matrix.cpp:357-369 `toString`. -/
def toStr {α : Type} (pr : α → List Char) (m : Mat α) : Out (List Char) :=
  forN m.rows (fun iL ss => do
    let ss ← forN m.cols (fun iR ss => do
      let x ← m.get iL iR
      return ss ++ (pr x ++ [' '])) ss
    return if iL + 1 < m.rows then ss ++ ['\n'] else ss) []

/-- Matrix.cpp:406-426 `fromString`. -/
def fromStr {α : Type} (ps : List Char → Option α) (junk : α) (g : Nat → α) (s : List Char) :
    Out (Mat α) := do
  let vf ← readLoop ps junk s []
  let iNbCols := s.count '\n' + 1
  let iNbLine := vf.length / iNbCols
  copyVec vf ((Mat.mk 0 0 []).resize g iNbLine iNbCols)

/-- Matrix.cpp:428-439 `toFile`: the text written. -/
def toFile {α : Type} (pr : α → List Char) (m : Mat α) : Out (List Char) :=
  forN m.rows (fun iL ss => do
    let ss ← forN m.cols (fun iR ss => do
      let x ← m.get iL iR
      return ss ++ (pr x ++ [' '])) ss
    return ss ++ ['\n']) []

/-- The lines delivered by repeated `getline` (the last one, after the final `\n`, may be empty). -/
def splitLines : List Char → List (List Char)
  | [] => [[]]
  | c :: cs =>
    if c = '\n' then [] :: splitLines cs
    else match splitLines cs with
      | [] => [[c]]
      | l :: ls => (c :: l) :: ls

/-- Matrix.cpp:376-396: number of non-empty lines and all values read. -/
def readLines {α : Type} (ps : List Char → Option α) (junk : α) : List (List Char) → Out (Nat × List α)
  | [] => .ok (0, [])
  | l :: ls =>
    if l = [] then readLines ps junk ls
    else do
      let v ← readLoop ps junk (l.map (fun c => if c = ',' then ' ' else c)) []
      let (n, vs) ← readLines ps junk ls
      return (n + 1, v ++ vs)

/-- Matrix.cpp:371-404 `fromFile`; `none`: the file cannot be opened. -/
def fromFile {α : Type} (ps : List Char → Option α) (junk : α) (g : Nat → α) :
    Option (List Char) → Out (Mat α)
  | none => .ok ⟨0, 0, []⟩
  | some text => do
    let (iNbLine, vf) ← readLines ps junk (splitLines text)
    if iNbLine = 0 then return ⟨0, 0, []⟩
    else copyVec vf (Mat.alloc g iNbLine (vf.length / iNbLine))

end BeeDNN
