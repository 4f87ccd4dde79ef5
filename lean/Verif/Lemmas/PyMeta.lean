import Verif.Spec.PyMeta
import Mathlib.Tactic.Linarith

/-! # Lemmas on `MetaOptimizer` of the Python library -/

namespace BeeDNN.PyMeta

/-- What holds with any switching of threads; `V` are the copies made so far or being made, with their accuracies. -/
structure Any (E : Nat) (acc : Nat → Nat → ℝ) (cpu tr : Nat) (V : Nat × Nat × Nat → ℝ → Prop) (s : PyMeta) : Prop where
  max : s.max = -1 ∨ ∃ z, V z s.max
  gt : s.max = -1 ∨ -1 < s.max
  best : ∀ z, s.best = some z → ∃ a, V z a ∧ -1 < a
  fresh : s.max = -1 → s.best = none
  full : s.max ≠ -1 → s.best ≠ none ∨ ∃ i, i < cpu ∧ (s.pc i).2 ≠ 0
  busy : ∀ i, (s.pc i).2 ≠ 0 → (s.pc i).1 < E ∧ -1 < acc i (s.pc i).1
  two : ∀ i, 2 ≤ (s.pc i).2 → s.max ≠ -1

theorem Any.step {E : Nat} {acc : Nat → Nat → ℝ} {cpu tr : Nat} {V : Nat × Nat × Nat → ℝ → Prop} {s : PyMeta} (h : s.Any E acc cpu tr V)
    (hV : ∀ i ep, i < cpu → ep < E → V (tr, i, ep) (acc i ep)) {i : Nat} (hi : i < cpu) : (s.step E acc tr i).Any E acc cpu tr V := by
  have hge : -1 ≤ s.max := by
    rcases h.gt with h1 | h1
    · exact h1.ge
    · exact h1.le
  unfold PyMeta.step
  dsimp only
  split_ifs with h1 h2 h3 h4
  · exact h
  · refine ⟨h.max, h.gt, h.best, h.fresh, fun hm => .inr ⟨i, hi, by simp⟩, fun j => ?_, fun j => ?_⟩
    · rcases eq_or_ne j i with rfl | hj
      · dsimp only
        rw [Function.update_self]
        exact fun _ => ⟨by omega, by linarith⟩
      · dsimp only
        rw [Function.update_of_ne hj]
        exact h.busy j
    · rcases eq_or_ne j i with rfl | hj
      · dsimp only
        rw [Function.update_self]
        exact fun h => absurd h (by simp)
      · dsimp only
        rw [Function.update_of_ne hj]
        exact h.two j
  · refine ⟨h.max, h.gt, h.best, h.fresh, fun hm => ?_, fun j => ?_, fun j => ?_⟩
    · rcases h.full hm with h4 | ⟨j, h4, h5⟩
      · exact .inl h4
      · have hj : j ≠ i := fun e => h5 (e ▸ h2)
        exact .inr ⟨j, h4, by dsimp only; rw [Function.update_of_ne hj]; exact h5⟩
    · rcases eq_or_ne j i with rfl | hj
      · dsimp only
        rw [Function.update_self]
        exact fun h => absurd rfl h
      · dsimp only
        rw [Function.update_of_ne hj]
        exact h.busy j
    · rcases eq_or_ne j i with rfl | hj
      · dsimp only
        rw [Function.update_self]
        exact fun h => absurd h (by simp)
      · dsimp only
        rw [Function.update_of_ne hj]
        exact h.two j
  · have hb := h.busy i h2
    refine ⟨.inr ⟨_, hV i _ hi hb.1⟩, .inr hb.2, h.best, fun hm => ?_, fun hm => .inr ⟨i, hi, by simp⟩, fun j => ?_, fun j _ => ne_of_gt hb.2⟩
    · exact absurd hm (ne_of_gt hb.2)
    · rcases eq_or_ne j i with rfl | hj
      · dsimp only
        rw [Function.update_self]
        exact fun _ => hb
      · dsimp only
        rw [Function.update_of_ne hj]
        exact h.busy j
  · have hb := h.busy i h2
    have hm := h.two i (by omega)
    refine ⟨h.max, h.gt, fun z hz => ?_, fun hm' => absurd hm' hm, fun _ => .inl (by simp), fun j => ?_, fun j _ => hm⟩
    · obtain rfl := Option.some.inj hz
      exact ⟨_, hV i _ hi hb.1, hb.2⟩
    · rcases eq_or_ne j i with rfl | hj
      · dsimp only
        rw [Function.update_self]
        exact fun h => absurd rfl h
      · dsimp only
        rw [Function.update_of_ne hj]
        exact h.busy j

theorem Any.steps {E : Nat} {acc : Nat → Nat → ℝ} {cpu tr : Nat} {V : Nat × Nat × Nat → ℝ → Prop} (hV : ∀ i ep, i < cpu → ep < E → V (tr, i, ep) (acc i ep)) :
    ∀ (l : List Nat) (s : PyMeta), s.Any E acc cpu tr V → (∀ i ∈ l, i < cpu) → (s.steps E acc tr l).Any E acc cpu tr V
  | [], _, h, _ => h
  | i :: l, _, h, hl => Any.steps hV l _ (h.step hV (hl i (by simp))) fun j hj => hl j (by simp [hj])

/-- A thread in a callback has epochs left. -/
theorem Any.idle {E : Nat} {acc : Nat → Nat → ℝ} {cpu tr : Nat} {V : Nat × Nat × Nat → ℝ → Prop} {s : PyMeta} (h : s.Any E acc cpu tr V) (hj : ∀ i, i < cpu → (s.pc i).1 = E) :
    s.max ≠ -1 → s.best ≠ none := fun hm => by
  rcases h.full hm with h1 | ⟨i, h1, h2⟩
  · exact h1
  · have := (h.busy i h2).1
    rw [hj i h1] at this
    omega

theorem run_any {E cpu T : Nat} {acc : Nat → Nat → Nat → ℝ} {sched : Nat → List Nat} (h : Complete E cpu T acc sched) :
    ∀ n, n ≤ T → let s := run E acc sched n
      (s.max = -1 ∧ s.best = none ∨ (-1 < s.max ∧ ∃ tr i ep, tr < n ∧ i < cpu ∧ ep < E ∧ acc tr i ep = s.max) ∧
        ∃ tr i ep, tr < n ∧ i < cpu ∧ ep < E ∧ s.best = some (tr, i, ep) ∧ -1 < acc tr i ep) := by
  intro n
  induction n with
  | zero => exact fun _ => .inl ⟨rfl, rfl⟩
  | succ n ih =>
    intro hn
    have ih := ih (by omega)
    dsimp only at ih ⊢
    let V : Nat × Nat × Nat → ℝ → Prop := fun z a => z.1 < n + 1 ∧ z.2.1 < cpu ∧ z.2.2 < E ∧ acc z.1 z.2.1 z.2.2 = a
    have h0 : (run E acc sched n).start.Any E (acc n) cpu n V := by
      have hpc : ∀ i, ((run E acc sched n).start.pc i).2 = 0 := fun _ => rfl
      rcases ih with ⟨h1, h2⟩ | ⟨⟨h1, tr, i, ep, h2, h3, h4, h5⟩, tr', i', ep', g1, g2, g3, g4, g5⟩
      · exact ⟨.inl h1, .inl h1, fun z hz => (by rw [show (run E acc sched n).start.best = none from h2] at hz; cases hz), fun _ => h2, fun hm => absurd h1 hm,
          fun i hi => absurd (hpc i) hi, fun i hi => by rw [hpc i] at hi; omega⟩
      · refine ⟨.inr ⟨(tr, i, ep), by omega, h3, h4, h5⟩, .inr h1, fun z hz => ?_, fun hm => absurd hm (ne_of_gt h1), fun _ => .inl ?_, fun i hi => absurd (hpc i) hi,
          fun i hi => by rw [hpc i] at hi; omega⟩
        · rw [show (run E acc sched n).start.best = some (tr', i', ep') from g4] at hz
          obtain rfl := Option.some.inj hz
          exact ⟨_, ⟨by dsimp only; omega, g2, g3, rfl⟩, g5⟩
        · rw [show (run E acc sched n).start.best = some (tr', i', ep') from g4]
          simp
    have h1 := Any.steps (fun i ep hi hep => show V (n, i, ep) (acc n i ep) from ⟨Nat.lt_succ_self n, hi, hep, rfl⟩) (sched n) _ h0 (h.threads n (by omega))
    have h2 := h1.idle fun i hi => h.joined n i (by omega) hi
    change (run E acc sched (n + 1)).Any E (acc n) cpu n V at h1
    change (run E acc sched (n + 1)).max ≠ -1 → (run E acc sched (n + 1)).best ≠ none at h2
    by_cases hm : (run E acc sched (n + 1)).max = -1
    · exact .inl ⟨hm, h1.fresh hm⟩
    · obtain ⟨⟨tr, i, ep⟩, h3, h4, h5, h6⟩ := h1.max.resolve_left hm
      obtain ⟨⟨tr', i', ep'⟩, g⟩ := Option.ne_none_iff_exists'.1 (h2 hm)
      obtain ⟨a, ⟨g1, g2, g3, g4⟩, g5⟩ := h1.best _ g
      exact .inr ⟨⟨h1.gt.resolve_left hm, tr, i, ep, h3, h4, h5, h6⟩, tr', i', ep', g1, g2, g3, g, by rw [show acc tr' i' ep' = a from g4]; exact g5⟩

/-- What holds if no callback is interrupted. -/
structure Lock (E : Nat) (acc : Nat → Nat → ℝ) (cpu : Nat) (V : Nat × Nat × Nat → ℝ → Prop) (s : PyMeta) : Prop where
  seen : ∀ i ep, ep < (s.pc i).1 → acc i ep ≤ s.max
  one : ∀ i, (s.pc i).2 = 1 → s.max < acc i (s.pc i).1
  two : ∀ i, 2 ≤ (s.pc i).2 → s.max = acc i (s.pc i).1
  busy : ∀ i, (s.pc i).2 ≠ 0 → i < cpu ∧ (s.pc i).1 < E
  best : (∀ i, (s.pc i).2 < 2) → s.max = -1 ∨ ∃ z, s.best = some z ∧ V z s.max

theorem Lock.step {E : Nat} {acc : Nat → Nat → ℝ} {cpu tr : Nat} {V : Nat × Nat × Nat → ℝ → Prop} {s : PyMeta} (h : s.Lock E acc cpu V)
    {i : Nat} (hi : i < cpu) (hV : ∀ ep, ep < E → V (tr, i, ep) (acc i ep)) (hq : ∀ j, j ≠ i → (s.pc j).2 = 0) : (s.step E acc tr i).Lock E acc cpu V ∧ s.max ≤ (s.step E acc tr i).max := by
  unfold PyMeta.step
  dsimp only
  split_ifs with h1 h2 h3 h4
  · exact ⟨h, le_rfl⟩
  · refine ⟨⟨fun j ep => ?_, fun j => ?_, fun j => ?_, fun j hj => ?_, fun hall => h.best fun j => ?_⟩, le_rfl⟩
    · rcases eq_or_ne j i with rfl | hj
      · dsimp only
        rw [Function.update_self]
        exact h.seen j ep
      · dsimp only
        rw [Function.update_of_ne hj]
        exact h.seen j ep
    · rcases eq_or_ne j i with rfl | hj
      · dsimp only
        rw [Function.update_self]
        exact fun _ => h3
      · dsimp only
        rw [Function.update_of_ne hj]
        exact h.one j
    · rcases eq_or_ne j i with rfl | hj
      · dsimp only
        rw [Function.update_self]
        exact fun h => absurd h (by simp)
      · dsimp only
        rw [Function.update_of_ne hj]
        exact h.two j
    · rcases eq_or_ne j i with rfl | hne
      · dsimp only
        rw [Function.update_self]
        exact ⟨hi, by dsimp only; omega⟩
      · dsimp only at hj
        rw [Function.update_of_ne hne] at hj
        exact absurd (hq j hne) hj
    · rcases eq_or_ne j i with rfl | hj
      · omega
      · rw [hq j hj]; decide
  · refine ⟨⟨fun j ep => ?_, fun j => ?_, fun j => ?_, fun j hj => ?_, fun hall => h.best fun j => ?_⟩, le_rfl⟩
    · rcases eq_or_ne j i with rfl | hj
      · dsimp only
        rw [Function.update_self]
        intro hep
        rcases Nat.lt_or_ge ep (s.pc j).1 with h5 | h5
        · exact h.seen j ep h5
        · rw [show ep = (s.pc j).1 by dsimp only at hep; omega]
          exact not_lt.1 h3
      · dsimp only
        rw [Function.update_of_ne hj]
        exact h.seen j ep
    · rcases eq_or_ne j i with rfl | hj
      · dsimp only
        rw [Function.update_self]
        exact fun h => absurd h (by simp)
      · dsimp only
        rw [Function.update_of_ne hj]
        exact h.one j
    · rcases eq_or_ne j i with rfl | hj
      · dsimp only
        rw [Function.update_self]
        exact fun h => absurd h (by simp)
      · dsimp only
        rw [Function.update_of_ne hj]
        exact h.two j
    · refine absurd ?_ hj
      rcases eq_or_ne j i with rfl | hne
      · dsimp only; rw [Function.update_self]
      · dsimp only; rw [Function.update_of_ne hne]; exact hq j hne
    · rcases eq_or_ne j i with rfl | hj
      · omega
      · rw [hq j hj]; decide
  · have h5 := h.one i h4
    refine ⟨⟨fun j ep => ?_, fun j => ?_, fun j => ?_, fun j hj => ?_, fun hall => ?_⟩, h5.le⟩
    · rcases eq_or_ne j i with rfl | hj
      · dsimp only
        rw [Function.update_self]
        exact fun hep => (h.seen j ep hep).trans h5.le
      · dsimp only
        rw [Function.update_of_ne hj]
        exact fun hep => (h.seen j ep hep).trans h5.le
    · rcases eq_or_ne j i with rfl | hj
      · dsimp only
        rw [Function.update_self]
        exact fun h => absurd h (by simp)
      · dsimp only
        rw [Function.update_of_ne hj, hq j hj]
        exact fun h => absurd h (by simp)
    · rcases eq_or_ne j i with rfl | hj
      · dsimp only
        rw [Function.update_self]
        exact fun _ => rfl
      · dsimp only
        rw [Function.update_of_ne hj, hq j hj]
        exact fun h => absurd h (by simp)
    · rcases eq_or_ne j i with rfl | hne
      · dsimp only
        rw [Function.update_self]
        exact ⟨hi, by dsimp only; omega⟩
      · dsimp only at hj
        rw [Function.update_of_ne hne] at hj
        exact absurd (hq j hne) hj
    · have := hall i
      dsimp only at this
      rw [Function.update_self] at this
      exact absurd this (by simp)
  · have h5 := h.two i (by omega)
    refine ⟨⟨fun j ep => ?_, fun j => ?_, fun j => ?_, fun j hj => ?_, fun hall => .inr ⟨_, rfl, ?_⟩⟩, le_rfl⟩
    · rcases eq_or_ne j i with rfl | hj
      · dsimp only
        rw [Function.update_self]
        intro hep
        rcases Nat.lt_or_ge ep (s.pc j).1 with h6 | h6
        · exact h.seen j ep h6
        · rw [show ep = (s.pc j).1 by dsimp only at hep; omega]
          exact h5.ge
      · dsimp only
        rw [Function.update_of_ne hj]
        exact h.seen j ep
    · rcases eq_or_ne j i with rfl | hj
      · dsimp only
        rw [Function.update_self]
        exact fun h => absurd h (by simp)
      · dsimp only
        rw [Function.update_of_ne hj]
        exact h.one j
    · rcases eq_or_ne j i with rfl | hj
      · dsimp only
        rw [Function.update_self]
        exact fun h => absurd h (by simp)
      · dsimp only
        rw [Function.update_of_ne hj]
        exact h.two j
    · refine absurd ?_ hj
      rcases eq_or_ne j i with rfl | hne
      · dsimp only; rw [Function.update_self]
      · dsimp only; rw [Function.update_of_ne hne]; exact hq j hne
    · dsimp only
      rw [h5]
      exact hV _ (by omega)

theorem Lock.steps {E : Nat} {acc : Nat → Nat → ℝ} {cpu tr : Nat} {V : Nat × Nat × Nat → ℝ → Prop} (hV : ∀ i ep, i < cpu → ep < E → V (tr, i, ep) (acc i ep)) :
    ∀ (l : List Nat) (s : PyMeta), s.Lock E acc cpu V → (∀ i ∈ l, i < cpu) → Quiet E acc tr l s → (s.steps E acc tr l).Lock E acc cpu V ∧ s.max ≤ (s.steps E acc tr l).max
  | [], _, h, _, _ => ⟨h, le_rfl⟩
  | i :: l, s, h, hl, hq => by
    obtain ⟨h1, h2⟩ := h.step (hl i (by simp)) (fun ep => hV i ep (hl i (by simp))) hq.1
    obtain ⟨h3, h4⟩ := Lock.steps hV l _ h1 (fun j hj => hl j (by simp [hj])) hq.2
    exact ⟨h3, h2.trans h4⟩

theorem run_lock {E cpu T : Nat} {acc : Nat → Nat → Nat → ℝ} {sched : Nat → List Nat} (h : Complete E cpu T acc sched)
    (hq : ∀ tr, tr < T → Quiet E (acc tr) tr (sched tr) (run E acc sched tr).start) :
    ∀ n, n ≤ T → let s := run E acc sched n
      (∀ tr i ep, tr < n → i < cpu → ep < E → acc tr i ep ≤ s.max) ∧
        (s.max = -1 ∨ ∃ tr i ep, tr < n ∧ i < cpu ∧ ep < E ∧ s.best = some (tr, i, ep) ∧ acc tr i ep = s.max) := by
  intro n
  induction n with
  | zero => exact fun _ => ⟨fun tr i ep htr => absurd htr (Nat.not_lt_zero _), .inl rfl⟩
  | succ n ih =>
    intro hn
    obtain ⟨h1, h2⟩ := ih (by omega)
    let V : Nat × Nat × Nat → ℝ → Prop := fun z a => z.1 < n + 1 ∧ z.2.1 < cpu ∧ z.2.2 < E ∧ acc z.1 z.2.1 z.2.2 = a
    have h0 : (run E acc sched n).start.Lock E (acc n) cpu V := by
      have hpc : ∀ i, ((run E acc sched n).start.pc i) = (0, 0) := fun _ => rfl
      refine ⟨fun i ep hep => ?_, fun i hi => ?_, fun i hi => ?_, fun i hi => ?_, fun _ => ?_⟩
      · rw [hpc] at hep
        exact absurd hep (Nat.not_lt_zero _)
      · rw [hpc] at hi
        cases hi
      · rw [hpc] at hi
        exact absurd hi (by decide)
      · rw [hpc] at hi
        exact absurd rfl hi
      · rcases h2 with h3 | ⟨tr, i, ep, g1, g2, g3, g4, g5⟩
        · exact .inl h3
        · exact .inr ⟨_, g4, by dsimp only; omega, g2, g3, g5⟩
    obtain ⟨h3, h4⟩ := Lock.steps (fun i ep hi hep => show V (n, i, ep) (acc n i ep) from ⟨Nat.lt_succ_self n, hi, hep, rfl⟩) (sched n) _ h0 (h.threads n (by omega)) (hq n (by omega))
    change (run E acc sched (n + 1)).Lock E (acc n) cpu V at h3
    change (run E acc sched n).max ≤ (run E acc sched (n + 1)).max at h4
    refine ⟨fun tr i ep htr hi hep => ?_, ?_⟩
    · rcases Nat.lt_or_ge tr n with h5 | h5
      · exact (h1 tr i ep h5 hi hep).trans h4
      · obtain rfl : tr = n := by omega
        exact h3.seen i ep (by rw [h.joined tr i (by omega) hi]; exact hep)
    · have hb : ∀ i, ((run E acc sched (n + 1)).pc i).2 < 2 := fun i => by
        by_contra hi
        obtain ⟨h6, h7⟩ := h3.busy i (by omega)
        rw [h.joined n i (by omega) h6] at h7
        omega
      rcases h3.best hb with h5 | ⟨⟨tr, i, ep⟩, h5, h6, h7, h8, h9⟩
      · exact .inl h5
      · exact .inr ⟨tr, i, ep, h6, h7, h8, h5, h9⟩

/-- With one thread, no callback is interrupted. -/
theorem quiet_one {E : Nat} {acc : Nat → Nat → ℝ} {tr : Nat} : ∀ (l : List Nat) (s : PyMeta), (∀ i ∈ l, i = 0) → (∀ j, j ≠ 0 → (s.pc j).2 = 0) → Quiet E acc tr l s
  | [], _, _, _ => trivial
  | i :: l, s, hl, hs => by
    obtain rfl := hl i (by simp)
    refine ⟨hs, quiet_one l _ (fun j hj => hl j (by simp [hj])) fun j hj => ?_⟩
    have e : (s.step E acc tr 0).pc j = s.pc j := by
      unfold PyMeta.step
      dsimp only
      split_ifs
      all_goals first | rfl | (dsimp only; rw [Function.update_of_ne hj])
    rw [e]
    exact hs j hj

/-- Without the metrics "accuracy", nothing happens. -/
theorem steps_none {E : Nat} {acc : Nat → Nat → ℝ} {tr : Nat} (ha : ∀ i ep, acc i ep = -1) :
    ∀ (l : List Nat) (s : PyMeta), s.max = -1 → s.best = none → (∀ j, (s.pc j).2 = 0) → (s.steps E acc tr l).max = -1 ∧ (s.steps E acc tr l).best = none
  | [], _, h1, h2, _ => ⟨h1, h2⟩
  | i :: l, s, h1, h2, h3 => by
    have e : (s.step E acc tr i).max = -1 ∧ (s.step E acc tr i).best = none ∧ ∀ j, ((s.step E acc tr i).pc j).2 = 0 := by
      unfold PyMeta.step
      dsimp only
      rw [if_pos (h3 i), if_neg (show ¬ s.max < acc i (s.pc i).1 by rw [ha, h1]; exact lt_irrefl _)]
      split_ifs
      · exact ⟨h1, h2, h3⟩
      · refine ⟨h1, h2, fun j => ?_⟩
        rcases eq_or_ne j i with rfl | hj
        · dsimp only; rw [Function.update_self]
        · dsimp only; rw [Function.update_of_ne hj]; exact h3 j
    exact steps_none ha l _ e.1 e.2.1 e.2.2

end BeeDNN.PyMeta
