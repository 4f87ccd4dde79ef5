/-!
# Core of the model: outcomes of C++ code, loops, raw buffers

Nothing in this file is specific to one function of the library; it fixes how C++ phenomena
(undefined behaviour, `for` loops, `new T[n]`, pointer reads and writes) are represented.
-/

namespace BeeDNN

/-- Ways in which the modelled C++ code can leave defined behaviour or normal completion. -/
inductive Fault where
  /-- read or write outside the buffer (C++: undefined behaviour) -/
  | outOfBounds
  /-- an `assert` of the source fails (precondition violated; undefined in release builds) -/
  | assertFail
  /-- access to storage that was already released -/
  | useAfterFree
  /-- `delete[]` of storage that is not currently allocated -/
  | doubleFree
  /-- dereference of a null pointer -/
  | nullDeref
  /-- integer division or remainder by zero -/
  | divByZero
  /-- a C++ exception escapes the function -/
  | exception
  /-- the loop of the source never terminates -/
  | diverges
  /-- conversion of a floating point value to an integer type that cannot hold it (undefined behaviour) -/
  | badCast
  /-- a precondition of a standard library function is violated (undefined behaviour) -/
  | libPrecondition
  deriving DecidableEq, Repr

/-- Outcome of running a piece of C++: a value, or a fault. -/
abbrev Out (α : Type) := Except Fault α

/-- `for(Index i=0;i<n;i++) body` acting on a state. -/
def forN {σ : Type} : Nat → (Nat → σ → Out σ) → σ → Out σ
  | 0, _, s => .ok s
  | n + 1, body, s => (forN n body s).bind (body n)

/-- `assert(c)`. -/
def check (c : Prop) [Decidable c] : Out Unit :=
  if c then .ok () else .error .assertFail

/-- Read of cell `i` through a pointer to the buffer `l`. -/
def rd {α : Type} (l : List α) (i : Nat) : Out α :=
  match l[i]? with
  | some x => .ok x
  | none => .error .outOfBounds

/-- Write of `x` in cell `i` through a pointer to the buffer `l`. -/
def wr {α : Type} (l : List α) (i : Nat) (x : α) : Out (List α) :=
  if i < l.length then .ok (l.set i x) else .error .outOfBounds

/-- A buffer of length `n` with contents `d 0, d 1, …`.  `tab n g` with an arbitrary `g` is the
memory returned by `new T[n]`. -/
def tab {α : Type} (n : Nat) (d : Nat → α) : List α := (List.range n).map d

/-- Left-to-right accumulation `s=0; for(i<n) s+=f(i);` with the bare operations of the scalar type
(no algebraic law is used, so this is also the order of operations of floating point code). -/
def accN {α : Type} [Zero α] [Add α] : Nat → (Nat → α) → α
  | 0, _ => 0
  | n + 1, f => accN n f + f n

end BeeDNN
