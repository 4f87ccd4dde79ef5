import Verif.Model.PyArray
import Verif.Spec.Readers

/-! # Specification: arrays of any dimension -/

namespace BeeDNN

/-- The index lies inside of the array. -/
def Inside : List Nat → List Nat → Prop
  | [], [] => True
  | d :: ds, i :: is => i < d ∧ Inside ds is
  | _, _ => False

/-- The place of an index when the last one runs fastest. -/
def place : List Nat → List Nat → Nat
  | _ :: ds, i :: is => i * ds.prod + place ds is
  | _, _ => 0

/-- The array has as many numbers as its shape says. -/
def NdArr.Ok (a : NdArr) : Prop := a.data.length = a.shape.prod

/-- The number at an index inside of the array. -/
def NdArr.at (a : NdArr) (idx : List Nat) : Option ℝ := a.data[place a.shape idx]?

end BeeDNN
