import Verif.Model.PyMeta

/-! # Specification: `MetaOptimizer` of the Python library -/

namespace BeeDNN.PyMeta

/-- A way to switch between the `cpu` threads of each of `T` tries: they all come to their end, where they are joined. -/
structure Complete (E cpu T : Nat) (acc : Nat → Nat → Nat → ℝ) (sched : Nat → List Nat) : Prop where
  threads : ∀ tr, tr < T → ∀ i ∈ sched tr, i < cpu
  joined : ∀ tr i, tr < T → i < cpu → ((run E acc sched (tr + 1)).pc i).1 = E

/-- No thread is switched away from within a callback. -/
def Quiet (E : Nat) (acc : Nat → Nat → ℝ) (tr : Nat) : List Nat → PyMeta → Prop
  | [], _ => True
  | i :: l, s => (∀ j, j ≠ i → (s.pc j).2 = 0) ∧ Quiet E acc tr l (s.step E acc tr i)

end BeeDNN.PyMeta
