import Mathlib.Data.Real.Basic
import Mathlib.Logic.Function.Basic

/-!
# The Python library (python/beednn): `MetaOptimizer`

Each try trains one copy of the model in each thread (MetaOptimizer.py:47-59); the threads share only the attributes of the `MetaOptimizer`, which the callback changes
after each epoch.  Threads may be switched between any two of its accesses; what happens between them concerns the thread's own copies only.  Output and saved files are left out.
-/

namespace BeeDNN

/-- `max_accuracy`, `best_net` (MetaOptimizer.py:21-22: the copy of the model of a try, thread and epoch), and for each thread the epoch whose callback is next or running, and
how far this is: 0 before the test, 1 before the assignment to `max_accuracy`, 2 before that to `best_net`. -/
structure PyMeta where
  max : ℝ := -1
  best : Option (Nat × Nat × Nat) := none
  pc : Nat → Nat × Nat := fun _ => (0, 0)

namespace PyMeta

/-- One access of thread `i` in try `tr`.  MetaOptimizer.py:36-39; `acc i ep` is `current_train_accuracy` after epoch `ep` of thread `i`: an entry of `PyLog.train`, or -1
if the metrics are not "accuracy" (Model.py:66, 170).  Training is left out, and a thread does nothing after `E` epochs. -/
noncomputable def step (E : Nat) (acc : Nat → Nat → ℝ) (tr i : Nat) (s : PyMeta) : PyMeta :=
  let ep := (s.pc i).1
  if E ≤ ep then s
  else if (s.pc i).2 = 0 then
    if s.max < acc i ep then { s with pc := Function.update s.pc i (ep, 1) } else { s with pc := Function.update s.pc i (ep + 1, 0) }
  else if (s.pc i).2 = 1 then { s with max := acc i ep, pc := Function.update s.pc i (ep, 2) }
  else { s with best := some (tr, i, ep), pc := Function.update s.pc i (ep + 1, 0) }

/-- The new threads of a try (MetaOptimizer.py:48-56). -/
def start (s : PyMeta) : PyMeta := { s with pc := fun _ => (0, 0) }

/-- The accesses of the threads in the order `l`. -/
noncomputable def steps (E : Nat) (acc : Nat → Nat → ℝ) (tr : Nat) (l : List Nat) (s : PyMeta) : PyMeta := l.foldl (fun s i => s.step E acc tr i) s

/-- MetaOptimizer.py:47-59: `n` tries, with the threads switched in try `tr` as in `sched tr`. -/
noncomputable def run (E : Nat) (acc : Nat → Nat → Nat → ℝ) (sched : Nat → List Nat) : Nat → PyMeta
  | 0 => {}
  | n + 1 => (run E acc sched n).start.steps E (acc n) n (sched n)

end PyMeta
end BeeDNN
