import Mathlib.Data.Real.Basic
import Mathlib.Data.Finset.Card
import Mathlib.Data.Finset.Range

/-! # Class balancing -/

namespace BeeDNN

/-- How many of the `N` samples, with classes `cls`, are of class `k`. -/
def classCount (N : Nat) (cls : Nat → Nat) (k : Nat) : Nat := ((Finset.range N).filter (fun i => cls i = k)).card

end BeeDNN
