import Verif.Lemmas.PyMeta
import Mathlib.Tactic.NormNum
import Mathlib.Tactic.IntervalCases

/-! # C140: `MetaOptimizer` of the Python library: best model over threads and tries -/

namespace BeeDNN
open PyMeta

/-- **C140**: in whatever way the threads are switched, `MetaOptimizer` ends either as it began, or with the training accuracy of some epoch of some thread and the copy of a model
of some epoch of some thread, both more than -1.  These may be of different models, and neither need be the best (see `C140_mismatch` and `C140_lost`). -/
theorem C140_any_partial {E cpu T : Nat} {acc : Nat → Nat → Nat → ℝ} {sched : Nat → List Nat} (h : Complete E cpu T acc sched) :
    let s := run E acc sched T
    s.max = -1 ∧ s.best = none ∨
      (-1 < s.max ∧ ∃ tr i ep, tr < T ∧ i < cpu ∧ ep < E ∧ acc tr i ep = s.max) ∧
        ∃ tr i ep, tr < T ∧ i < cpu ∧ ep < E ∧ s.best = some (tr, i, ep) ∧ -1 < acc tr i ep := run_any h T le_rfl

/-- **C140**: if no thread is switched away from within a callback, the final accuracy is the greatest of all epochs of all threads, and the model is one that had it. -/
theorem C140_locked_partial {E cpu T : Nat} {acc : Nat → Nat → Nat → ℝ} {sched : Nat → List Nat} (h : Complete E cpu T acc sched)
    (hq : ∀ tr, tr < T → Quiet E (acc tr) tr (sched tr) (run E acc sched tr).start) :
    let s := run E acc sched T
    (∀ tr i ep, tr < T → i < cpu → ep < E → acc tr i ep ≤ s.max) ∧
      (s.max = -1 ∧ s.best = none ∨ ∃ tr i ep, tr < T ∧ i < cpu ∧ ep < E ∧ s.best = some (tr, i, ep) ∧ acc tr i ep = s.max) := by
  obtain ⟨h1, h2⟩ := run_lock h hq T le_rfl
  refine ⟨h1, h2.elim (fun h3 => ?_) .inr⟩
  rcases run_any h T le_rfl with h4 | h4
  · exact .inl h4
  · exact absurd h3 (ne_of_gt h4.1.1)

/-- **C140**: so it is with one thread (`set_nb_cpu(1)`). -/
theorem C140_one {E T : Nat} {acc : Nat → Nat → Nat → ℝ} {sched : Nat → List Nat} (h : Complete E 1 T acc sched) :
    let s := run E acc sched T
    (∀ tr ep, tr < T → ep < E → acc tr 0 ep ≤ s.max) ∧
      (s.max = -1 ∧ s.best = none ∨ ∃ tr ep, tr < T ∧ ep < E ∧ s.best = some (tr, 0, ep) ∧ acc tr 0 ep = s.max) := by
  obtain ⟨h1, h2⟩ := C140_locked_partial h fun tr htr => quiet_one _ _ (fun i hi => by have := h.threads tr htr i hi; omega) fun _ _ => rfl
  refine ⟨fun tr ep htr hep => h1 tr 0 ep htr (by decide) hep, h2.imp_right ?_⟩
  rintro ⟨tr, i, ep, g1, g2, g3, g4, g5⟩
  obtain rfl : i = 0 := by omega
  exact ⟨tr, ep, g1, g3, g4, g5⟩

/-- Two threads of one epoch each. -/
theorem two_complete (acc : Nat → Nat → Nat → ℝ) {l : List Nat} (hl : ∀ i ∈ l, i < 2) (h0 : ((run 1 acc (fun _ => l) 1).pc 0).1 = 1) (h1 : ((run 1 acc (fun _ => l) 1).pc 1).1 = 1) :
    Complete 1 2 1 acc fun _ => l :=
  ⟨fun _ _ => hl, fun tr i htr hi => by
    obtain rfl : tr = 0 := by omega
    interval_cases i
    · exact h0
    · exact h1⟩

/-- **C140**: with two threads the model kept may be the worse one, while the accuracy is that of the better one. -/
theorem C140_mismatch {acc : Nat → Nat → Nat → ℝ} (h1 : -1 < acc 0 1 0) (h2 : acc 0 1 0 < acc 0 0 0) :
    ∃ sched, Complete 1 2 1 acc sched ∧ (run 1 acc sched 1).max = acc 0 0 0 ∧ (run 1 acc sched 1).best = some (0, 1, 0) := by
  have h3 : -1 < acc 0 0 0 := h1.trans h2
  refine ⟨fun _ => [1, 0, 1, 0, 0, 1], two_complete acc (by decide) ?_ ?_, ?_, ?_⟩ <;>
    simp [run, steps, start, PyMeta.step, h1, h3, Function.update]

/-- **C140**: with two threads the better accuracy and the better model may both be lost. -/
theorem C140_lost {acc : Nat → Nat → Nat → ℝ} (h1 : -1 < acc 0 1 0) (h2 : acc 0 1 0 < acc 0 0 0) :
    ∃ sched, Complete 1 2 1 acc sched ∧ (run 1 acc sched 1).max = acc 0 1 0 ∧ (run 1 acc sched 1).best = some (0, 1, 0) := by
  have h3 : -1 < acc 0 0 0 := h1.trans h2
  refine ⟨fun _ => [1, 0, 0, 0, 1, 1], two_complete acc (by decide) ?_ ?_, ?_, ?_⟩ <;>
    simp [run, steps, start, PyMeta.step, h1, h3, Function.update]

/-- 90% and 80% are such accuracies. -/
example : ∃ acc : Nat → Nat → Nat → ℝ, -1 < acc 0 1 0 ∧ acc 0 1 0 < acc 0 0 0 := ⟨fun _ i _ => if i = 0 then 90 else 80, by norm_num, by norm_num⟩

/-- **C140**: unless the metrics are "accuracy", no model is ever kept. -/
theorem C140_no_metrics {E : Nat} {acc : Nat → Nat → Nat → ℝ} (ha : ∀ tr i ep, acc tr i ep = -1) (sched : Nat → List Nat) :
    ∀ T, (run E acc sched T).max = -1 ∧ (run E acc sched T).best = none
  | 0 => ⟨rfl, rfl⟩
  | T + 1 => steps_none (ha T) _ _ (C140_no_metrics ha sched T).1 (C140_no_metrics ha sched T).2 fun _ => rfl

/-- Two threads one after the other: a complete and uninterrupted order. -/
example : ∃ (acc : Nat → Nat → Nat → ℝ) (sched : Nat → List Nat), Complete 1 2 1 acc sched ∧ (∀ tr, tr < 1 → Quiet 1 (acc tr) tr (sched tr) (run 1 acc sched tr).start) ∧
    (run 1 acc sched 1).max = 90 := by
  refine ⟨fun _ i _ => if i = 0 then 90 else 80, fun _ => [1, 1, 1, 0, 0, 0], two_complete _ (by decide) ?_ ?_, fun tr htr => ?_, ?_⟩
  · simp [run, steps, start, PyMeta.step, Function.update]; norm_num
  · simp [run, steps, start, PyMeta.step, Function.update]; norm_num
  · obtain rfl : tr = 0 := by omega
    simp only [Quiet, run, start, PyMeta.step, Function.update]
    norm_num
    refine ⟨?_, ?_, ?_, ?_, ?_⟩ <;> intro j hj <;> by_cases h : j = 1 <;> simp_all [Function.update]
  · simp [run, steps, start, PyMeta.step, Function.update]; norm_num

/-- One thread of two epochs, in two tries. -/
example : ∃ acc : Nat → Nat → Nat → ℝ, Complete 2 1 2 acc fun _ => List.replicate 6 0 := by
  refine ⟨fun tr _ ep => if tr = 0 then 10 * (ep + 1) else 30 * (ep + 1), fun _ _ i hi => by simp at hi; omega, fun tr i htr hi => ?_⟩
  obtain rfl : i = 0 := by omega
  interval_cases tr
  · simp [run, steps, start, PyMeta.step, Function.update, List.replicate]; norm_num
  · simp [run, steps, start, PyMeta.step, Function.update, List.replicate]; norm_num

end BeeDNN
