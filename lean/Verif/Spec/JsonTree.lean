import Verif.Model.Json

/-!
# Specification: call trees of the JSON writer

Properly nested sequences of calls are trees; `Node.Is` says which JSON value such a tree stands for.
-/

namespace BeeDNN.J

/-- A value to be added. -/
inductive Leaf where
  | str (v : Text)
  | int (z : Int)
  | float (x : FloatVal)
  | bool (b : Bool)
  | array (xs : List FloatVal)

/-- A call that adds, or a section with what is called inside. -/
inductive Node where
  | leaf (k : Text) (v : Leaf)
  | sect (k : Text) (cs : List Node)

/-- The call of a leaf. -/
def Leaf.call (k : Text) : Leaf → Call
  | .str v => .str k v
  | .int z => .int k z
  | .float x => .float k x
  | .bool b => .bool k b
  | .array xs => .array k xs

mutual
/-- The calls of a tree in order. -/
def Node.calls : Node → List Call
  | .leaf k v => [v.call k]
  | .sect k cs => .enter k :: (callsAll cs ++ [.leave])
/-- The calls of several trees in order. -/
def callsAll : List Node → List Call
  | [] => []
  | n :: ns => n.calls ++ callsAll ns
end

/-- A finite number (the magnitude is not negative). -/
def FloatVal.Finite : FloatVal → Prop
  | .fin _ x => 0 ≤ x
  | _ => False

/-- Strings are clean, numbers are finite. -/
def Leaf.Ok : Leaf → Prop
  | .str v => Clean v
  | .float x => x.Finite
  | .array xs => ∀ x ∈ xs, x.Finite
  | _ => True

mutual
/-- Names and strings are clean, numbers are finite. -/
def Node.Ok : Node → Prop
  | .leaf k v => Clean k ∧ v.Ok
  | .sect k cs => Clean k ∧ okAll cs
/-- Of all trees. -/
def okAll : List Node → Prop
  | [] => True
  | n :: ns => n.Ok ∧ okAll ns
end

/-- A JSON number with the value of a finite number up to a relative error of 5e-6 (six significant digits). -/
def FloatVal.Is : FloatVal → Json → Prop
  | .fin neg x, .num t => (splitNum t).isSome = true ∧ |numVal t - (if neg then -x else x)| ≤ 5 / 10 ^ 6 * x
  | _, _ => False

/-- The JSON value that stands for a leaf. -/
def Leaf.Is : Leaf → Json → Prop
  | .str v, .str s => s = v
  | .int z, .num t => (splitNum t).isSome = true ∧ numVal t = z
  | .float x, j => x.Is j
  | .bool b, .bool b' => b' = b
  | .array xs, .arr l => List.Forall₂ FloatVal.Is xs l
  | _, _ => False

mutual
/-- The member of an object that stands for a tree. -/
def Node.Is : Node → Text × Json → Prop
  | .leaf k v, p => p.1 = k ∧ v.Is p.2
  | .sect k cs, p => p.1 = k ∧ ∃ l, p.2 = .obj l ∧ allIs cs l
/-- The members that stand for trees, one each, in order. -/
def allIs : List Node → List (Text × Json) → Prop
  | [], [] => True
  | n :: ns, p :: ps => n.Is p ∧ allIs ns ps
  | _, _ => False
end

end BeeDNN.J
