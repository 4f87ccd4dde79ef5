import Verif.Spec.Meta
import Verif.Lemmas.NetFrame
import Verif.Lemmas.Core

/-!
# Lemmas on the meta-optimizer
-/

namespace BeeDNN.Meta

/-! ## Interleavings -/

/-- The ways a step can go. -/
inductive Step (cb : Bool) (i : Nat) (s : Shared) : Shared → Prop
  | none (h : ∀ t, s.threads[i]? = some t → t.todo = []) : Step cb i s s
  | skip (a : ℝ) (r : List ℝ) (h : s.threads[i]? = some ⟨a :: r, .idle⟩) (ha : a ≤ s.best) : Step cb i s { s with threads := s.threads.set i ⟨r, .idle⟩ }
  | enter (a : ℝ) (r : List ℝ) (h : s.threads[i]? = some ⟨a :: r, .idle⟩) (ha : s.best < a) :
      Step cb i s { s with threads := s.threads.set i ⟨a :: r, .write⟩ }
  | write (a : ℝ) (r : List ℝ) (h : s.threads[i]? = some ⟨a :: r, .write⟩) : Step cb i s { s with best := a, threads := s.threads.set i ⟨a :: r, .call⟩ }
  | call (a : ℝ) (r : List ℝ) (h : s.threads[i]? = some ⟨a :: r, .call⟩) (hc : cb = true) :
      Step cb i s { s with threads := s.threads.set i ⟨r, .idle⟩, log := s.log ++ [(i, a)] }

theorem step_cases {cb : Bool} {i : Nat} {s s' : Shared} (h : step cb i s = .ok s') : Step cb i s s' := by
  unfold step at h
  split at h
  · rename_i hn
    injection h with h
    subst h
    exact .none (fun t ht => by rw [hn] at ht; cases ht)
  · rename_i t ht
    obtain ⟨todo, pc⟩ := t
    dsimp only at h
    cases todo with
    | nil =>
      dsimp only at h
      injection h with h
      subst h
      exact .none (fun t h => by rw [ht] at h; injection h with h; rw [← h])
    | cons a r =>
      dsimp only at h
      cases pc with
      | idle =>
        dsimp only at h
        split at h
        · rename_i ha
          injection h with h
          subst h
          exact .enter a r ht ha
        · rename_i ha
          injection h with h
          subst h
          exact .skip a r ht (not_lt.1 ha)
      | write =>
        dsimp only at h
        injection h with h
        subst h
        exact .write a r ht
      | call =>
        dsimp only at h
        split at h
        · rename_i hc
          injection h with h
          subst h
          exact .call a r ht hc
        · cases h

theorem run_append (cb : Bool) : ∀ (p q : List Nat) (s : Shared), run cb (p ++ q) s = (run cb p s).bind (run cb q)
  | [], q, s => rfl
  | i :: p, q, s => by
    rw [List.cons_append, run, run]
    cases h : step cb i s with
    | error f => rfl
    | ok s' =>
      rw [bind_ok', bind_ok']
      exact run_append cb p q s'

/-- A property that steps keep. -/
theorem run_inv {cb : Bool} {P : Shared → Prop} (hs : ∀ i s s', P s → Step cb i s s' → P s') :
    ∀ (is : List Nat) {s s' : Shared}, P s → run cb is s = .ok s' → P s'
  | [], s, s', hp, h => by
    injection h with h
    exact h ▸ hp
  | i :: is, s, s', hp, h => by
    rw [run] at h
    obtain ⟨s1, h1, h⟩ := ok_bind h
    exact run_inv hs is (hs i s s1 hp (step_cases h1)) h

theorem get_set {l : List Thread} {i j : Nat} {t u : Thread} (h : (l.set i t)[j]? = some u) : (i = j ∧ u = t) ∨ (i ≠ j ∧ l[j]? = some u) := by
  rw [List.getElem?_set] at h
  by_cases hij : i = j
  · rw [if_pos hij] at h
    split at h
    · injection h with h
      exact .inl ⟨hij, h.symm⟩
    · cases h
  · rw [if_neg hij] at h
    exact .inr ⟨hij, h⟩

/-- What holds in every interleaving. -/
structure Any (reports : List (List ℝ)) (s : Shared) : Prop where
  best : s.best = -1 ∨ ∃ r ∈ reports, s.best ∈ r
  low : -1 ≤ s.best
  todo : ∀ (i : Nat) (t : Thread), s.threads[i]? = some t → ∃ d, reports[i]? = some (d ++ t.todo)
  pend : ∀ (i : Nat) (t : Thread) (a : ℝ) (r : List ℝ), s.threads[i]? = some t → t.todo = a :: r → t.pc ≠ .idle → -1 < a
  log : ∀ p ∈ s.log, -1 < p.2 ∧ ∃ r, reports[p.1]? = some r ∧ p.2 ∈ r

theorem any_start (reports : List (List ℝ)) : Any reports (startRound reports []) := by
  refine ⟨.inl rfl, le_refl _, ?_, ?_, by simp [startRound]⟩
  · intro i t h
    simp only [startRound, List.getElem?_map, Option.map_eq_some_iff] at h
    obtain ⟨r, h1, h2⟩ := h
    exact ⟨[], by rw [h1, ← h2]; rfl⟩
  · intro i t a r h h2 h3
    simp only [startRound, List.getElem?_map, Option.map_eq_some_iff] at h
    obtain ⟨r, h1, h4⟩ := h
    exact absurd (by rw [← h4]) h3

theorem any_step {cb : Bool} {reports : List (List ℝ)} (i : Nat) (s s' : Shared) (ha : Any reports s) (h : Step cb i s s') : Any reports s' := by
  obtain ⟨b, l, t, p, g⟩ := ha
  cases h with
  | none => exact ⟨b, l, t, p, g⟩
  | skip a r h1 h2 =>
    refine ⟨b, l, ?_, ?_, g⟩
    · intro j u hj
      rcases get_set hj with ⟨rfl, rfl⟩ | ⟨_, hj⟩
      · obtain ⟨d, hd⟩ := t _ _ h1
        exact ⟨d ++ [a], by rw [hd]; simp⟩
      · exact t j u hj
    · intro j u x y hj hx hp
      rcases get_set hj with ⟨rfl, rfl⟩ | ⟨_, hj⟩
      · exact absurd rfl hp
      · exact p j u x y hj hx hp
  | enter a r h1 h2 =>
    refine ⟨b, l, ?_, ?_, g⟩
    · intro j u hj
      rcases get_set hj with ⟨rfl, rfl⟩ | ⟨_, hj⟩
      · exact t _ ⟨a :: r, .idle⟩ h1
      · exact t j u hj
    · intro j u x y hj hx hp
      rcases get_set hj with ⟨rfl, rfl⟩ | ⟨_, hj⟩
      · injection hx with hx _
        rw [← hx]
        exact lt_of_le_of_lt l h2
      · exact p j u x y hj hx hp
  | write a r h1 =>
    have hp := p _ _ a r h1 rfl (by simp)
    refine ⟨?_, hp.le, ?_, ?_, g⟩
    · obtain ⟨d, hd⟩ := t _ _ h1
      exact .inr ⟨_, List.mem_of_getElem? hd, by simp⟩
    · intro j u hj
      rcases get_set hj with ⟨rfl, rfl⟩ | ⟨_, hj⟩
      · exact t _ ⟨a :: r, .write⟩ h1
      · exact t j u hj
    · intro j u x y hj hx hp'
      rcases get_set hj with ⟨rfl, rfl⟩ | ⟨_, hj⟩
      · injection hx with hx _
        rw [← hx]
        exact hp
      · exact p j u x y hj hx hp'
  | call a r h1 hc =>
    have hp := p _ _ a r h1 rfl (by simp)
    refine ⟨b, l, ?_, ?_, ?_⟩
    · intro j u hj
      rcases get_set hj with ⟨rfl, rfl⟩ | ⟨_, hj⟩
      · obtain ⟨d, hd⟩ := t _ _ h1
        exact ⟨d ++ [a], by rw [hd]; simp⟩
      · exact t j u hj
    · intro j u x y hj hx hp'
      rcases get_set hj with ⟨rfl, rfl⟩ | ⟨_, hj⟩
      · exact absurd rfl hp'
      · exact p j u x y hj hx hp'
    · intro q hq
      rw [List.mem_append, List.mem_singleton] at hq
      rcases hq with hq | rfl
      · exact g q hq
      · obtain ⟨d, hd⟩ := t _ _ h1
        exact ⟨hp, _, hd, by simp⟩

/-- What holds in addition when the threads do not overlap. -/
structure Excl (reports : List (List ℝ)) (s : Shared) : Prop where
  any : Any reports s
  one : ∃ i, ∀ (j : Nat) (t : Thread), j ≠ i → s.threads[j]? = some t → t.pc = .idle
  len : s.threads.length = reports.length
  done : ∀ (i : Nat) (t : Thread), s.threads[i]? = some t → ∃ d, reports[i]? = some (d ++ t.todo) ∧ ∀ x ∈ d, x ≤ s.best
  write : ∀ (i : Nat) (t : Thread) (a : ℝ) (r : List ℝ), s.threads[i]? = some t → t.pc = .write → t.todo = a :: r → s.best < a
  call : ∀ (i : Nat) (t : Thread) (a : ℝ) (r : List ℝ), s.threads[i]? = some t → t.pc = .call → t.todo = a :: r → s.best = a ∧ ∀ p ∈ s.log, p.2 < a
  log : ∀ p ∈ s.log, p.2 ≤ s.best
  inc : (s.log.map Prod.snd).Pairwise (· < ·)
  last : s.best = -1 ∨ s.best ∈ s.log.map Prod.snd ∨ ∃ (i : Nat) (t : Thread) (r : List ℝ), s.threads[i]? = some t ∧ t.pc = .call ∧ t.todo = s.best :: r

theorem excl_start (reports : List (List ℝ)) : Excl reports (startRound reports []) := by
  have hi : ∀ (i : Nat) (t : Thread), (startRound reports []).threads[i]? = some t → t.pc = .idle ∧ reports[i]? = some t.todo := by
    intro i t h
    simp only [startRound, List.getElem?_map, Option.map_eq_some_iff] at h
    obtain ⟨r, h1, h2⟩ := h
    rw [← h2]
    exact ⟨rfl, h1⟩
  refine ⟨any_start reports, ⟨0, fun j t _ h => (hi j t h).1⟩, by simp [startRound], ?_, ?_, ?_, by simp [startRound], by simp [startRound], .inl rfl⟩
  · intro i t h
    exact ⟨[], (hi i t h).2, by simp⟩
  · intro i t a r h hp
    rw [(hi i t h).1] at hp
    cases hp
  · intro i t a r h hp
    rw [(hi i t h).1] at hp
    cases hp

theorem excl_step {cb : Bool} {reports : List (List ℝ)} {i : Nat} {s s' : Shared} (ha : Excl reports s)
    (ho : ∀ (j : Nat) (t : Thread), j ≠ i → s.threads[j]? = some t → t.pc = .idle) (h : Step cb i s s') : Excl reports s' ∧ s.best ≤ s'.best := by
  have hany := any_step i s s' ha.any h
  obtain ⟨any, one, len, dn, wr, cl, lg, inc, last⟩ := ha
  cases h with
  | none => exact ⟨⟨hany, one, len, dn, wr, cl, lg, inc, last⟩, le_refl _⟩
  | skip a r h1 h2 =>
    refine ⟨⟨hany, ⟨i, ?_⟩, by simpa using len, ?_, ?_, ?_, lg, inc, ?_⟩, le_refl _⟩
    · intro j t hj ht
      rcases get_set ht with ⟨e, _⟩ | ⟨_, ht⟩
      · exact absurd e.symm hj
      · exact ho j t hj ht
    · intro j u hj
      rcases get_set hj with ⟨rfl, rfl⟩ | ⟨_, hj⟩
      · obtain ⟨d, hd, hx⟩ := dn _ _ h1
        refine ⟨d ++ [a], by rw [hd]; simp, ?_⟩
        intro x hx'
        rw [List.mem_append, List.mem_singleton] at hx'
        rcases hx' with hx' | rfl
        · exact hx x hx'
        · exact h2
      · exact dn j u hj
    · intro j u x y hj hp hx
      rcases get_set hj with ⟨rfl, rfl⟩ | ⟨_, hj⟩
      · cases hp
      · exact wr j u x y hj hp hx
    · intro j u x y hj hp hx
      rcases get_set hj with ⟨rfl, rfl⟩ | ⟨_, hj⟩
      · cases hp
      · exact cl j u x y hj hp hx
    · rcases last with h | h | ⟨j, t, y, hj, hp, hy⟩
      · exact .inl h
      · exact .inr (.inl h)
      · by_cases hij : j = i
        · subst hij
          rw [h1] at hj
          injection hj with hj
          rw [← hj] at hp
          cases hp
        · rw [ho j t hij hj] at hp
          cases hp
  | enter a r h1 h2 =>
    refine ⟨⟨hany, ⟨i, ?_⟩, by simpa using len, ?_, ?_, ?_, lg, inc, ?_⟩, le_refl _⟩
    · intro j t hj ht
      rcases get_set ht with ⟨e, _⟩ | ⟨_, ht⟩
      · exact absurd e.symm hj
      · exact ho j t hj ht
    · intro j u hj
      rcases get_set hj with ⟨rfl, rfl⟩ | ⟨_, hj⟩
      · exact dn _ ⟨a :: r, .idle⟩ h1
      · exact dn j u hj
    · intro j u x y hj hp hx
      rcases get_set hj with ⟨rfl, rfl⟩ | ⟨_, hj⟩
      · injection hx with hx _
        rw [← hx]
        exact h2
      · exact wr j u x y hj hp hx
    · intro j u x y hj hp hx
      rcases get_set hj with ⟨rfl, rfl⟩ | ⟨_, hj⟩
      · cases hp
      · exact cl j u x y hj hp hx
    · rcases last with h | h | ⟨j, t, y, hj, hp, hy⟩
      · exact .inl h
      · exact .inr (.inl h)
      · by_cases hij : j = i
        · subst hij
          rw [h1] at hj
          injection hj with hj
          rw [← hj] at hp
          cases hp
        · rw [ho j t hij hj] at hp
          cases hp
  | write a r h1 =>
    have hlt := wr _ _ a r h1 rfl rfl
    have hil : i < s.threads.length := by
      by_contra hc
      rw [List.getElem?_eq_none (not_lt.1 hc)] at h1
      cases h1
    refine ⟨⟨hany, ⟨i, ?_⟩, by simpa using len, ?_, ?_, ?_, ?_, inc, ?_⟩, hlt.le⟩
    · intro j t hj ht
      rcases get_set ht with ⟨e, _⟩ | ⟨_, ht⟩
      · exact absurd e.symm hj
      · exact ho j t hj ht
    · intro j u hj
      have : ∃ d, reports[j]? = some (d ++ u.todo) ∧ ∀ x ∈ d, x ≤ s.best := by
        rcases get_set hj with ⟨rfl, rfl⟩ | ⟨_, hj⟩
        · exact dn _ ⟨a :: r, .write⟩ h1
        · exact dn j u hj
      obtain ⟨d, hd, hx⟩ := this
      exact ⟨d, hd, fun x hx' => (hx x hx').trans hlt.le⟩
    · intro j u x y hj hp hx
      rcases get_set hj with ⟨rfl, rfl⟩ | ⟨hne, hj⟩
      · cases hp
      · rw [ho j u (Ne.symm hne) hj] at hp
        cases hp
    · intro j u x y hj hp hx
      rcases get_set hj with ⟨rfl, rfl⟩ | ⟨hne, hj⟩
      · injection hx with hx _
        exact ⟨hx, fun p hp => by rw [← hx]; exact lt_of_le_of_lt (lg p hp) hlt⟩
      · rw [ho j u (Ne.symm hne) hj] at hp
        cases hp
    · intro p hp
      exact (lg p hp).trans hlt.le
    · refine .inr (.inr ⟨i, ⟨a :: r, .call⟩, r, ?_, rfl, rfl⟩)
      simp [List.getElem?_set, hil]
  | call a r h1 hc =>
    obtain ⟨hb, hl⟩ := cl _ _ a r h1 rfl rfl
    refine ⟨⟨hany, ⟨i, ?_⟩, by simpa using len, ?_, ?_, ?_, ?_, ?_, ?_⟩, le_refl _⟩
    · intro j t hj ht
      rcases get_set ht with ⟨e, _⟩ | ⟨_, ht⟩
      · exact absurd e.symm hj
      · exact ho j t hj ht
    · intro j u hj
      rcases get_set hj with ⟨rfl, rfl⟩ | ⟨_, hj⟩
      · obtain ⟨d, hd, hx⟩ := dn _ _ h1
        refine ⟨d ++ [a], by rw [hd]; simp, ?_⟩
        intro x hx'
        rw [List.mem_append, List.mem_singleton] at hx'
        rcases hx' with hx' | rfl
        · exact hx x hx'
        · exact hb.ge
      · exact dn j u hj
    · intro j u x y hj hp hx
      rcases get_set hj with ⟨rfl, rfl⟩ | ⟨_, hj⟩
      · cases hp
      · exact wr j u x y hj hp hx
    · intro j u x y hj hp hx
      rcases get_set hj with ⟨rfl, rfl⟩ | ⟨hne, hj⟩
      · cases hp
      · rw [ho j u (Ne.symm hne) hj] at hp
        cases hp
    · intro p hp
      rw [List.mem_append, List.mem_singleton] at hp
      rcases hp with hp | rfl
      · exact lg p hp
      · exact hb.ge
    · rw [List.map_append, List.pairwise_append]
      refine ⟨inc, by simp, ?_⟩
      intro x hx y hy
      rw [List.mem_map] at hx
      obtain ⟨p, hp, rfl⟩ := hx
      simp only [List.map_cons, List.map_nil, List.mem_singleton] at hy
      rw [hy]
      exact hl p hp
    · exact .inr (.inl (by simp [hb]))

theorem excl_run {cb : Bool} {reports : List (List ℝ)} : ∀ (is : List Nat) {s s' : Shared}, Excl reports s → Locked cb is s → run cb is s = .ok s' →
    Excl reports s' ∧ s.best ≤ s'.best
  | [], s, s', ha, _, h => by
    injection h with h
    rw [← h]
    exact ⟨ha, le_refl _⟩
  | i :: is, s, s', ha, hl, h => by
    rw [run] at h
    obtain ⟨s1, h1, h⟩ := ok_bind h
    obtain ⟨k1, k2⟩ := excl_step ha hl.1 (step_cases h1)
    obtain ⟨k3, k4⟩ := excl_run is k1 (hl.2 s1 h1) h
    exact ⟨k3, k2.trans k4⟩

theorem locked_prefix {cb : Bool} : ∀ (p q : List Nat) {s s1 : Shared}, Locked cb (p ++ q) s → Locked cb p s ∧ (run cb p s = .ok s1 → Locked cb q s1)
  | [], q, s, s1, h => ⟨trivial, fun h1 => by injection h1 with h1; exact h1 ▸ h⟩
  | i :: p, q, s, s1, h => by
    refine ⟨⟨h.1, fun s' hs => (locked_prefix (s1 := s1) p q (h.2 s' hs)).1⟩, fun h1 => ?_⟩
    rw [run] at h1
    obtain ⟨s2, h2, h1⟩ := ok_bind h1
    exact (locked_prefix p q (h.2 s2 h2)).2 h1

theorem maxOf_eq {l : List ℝ} {b : ℝ} (h1 : -1 ≤ b) (h2 : ∀ x ∈ l, x ≤ b) (h3 : b = -1 ∨ b ∈ l) : maxOf l = b := by
  have hle : ∀ (l : List ℝ) (c : ℝ), c ≤ b → (∀ x ∈ l, x ≤ b) → l.foldl max c ≤ b := by
    intro l
    induction l with
    | nil => intro c hc _; exact hc
    | cons a l ih =>
      intro c hc h
      rw [List.foldl_cons]
      exact ih _ (max_le hc (h a List.mem_cons_self)) (fun x hx => h x (List.mem_cons_of_mem _ hx))
  have hge : ∀ (l : List ℝ) (c : ℝ), c ≤ l.foldl max c ∧ ∀ x ∈ l, x ≤ l.foldl max c := by
    intro l
    induction l with
    | nil => intro c; exact ⟨le_refl _, by simp⟩
    | cons a l ih =>
      intro c
      rw [List.foldl_cons]
      refine ⟨(le_max_left _ _).trans (ih _).1, ?_⟩
      intro x hx
      rcases List.mem_cons.1 hx with rfl | hx
      · exact (le_max_right _ _).trans (ih _).1
      · exact (ih _).2 x hx
  apply le_antisymm (hle l (-1) h1 h2)
  rcases h3 with rfl | h3
  · exact (hge l (-1)).1
  · exact (hge l (-1)).2 b h3

/-- What a thread is still going to log when nobody else interferes. -/
noncomputable def Thread.future (t : Thread) (best : ℝ) : List ℝ :=
  match t.pc, t.todo with
  | .idle, l => recordsFrom best l
  | _, [] => []
  | _, a :: r => a :: recordsFrom a r

/-- One thread: the state and what is still to come. -/
def OneInv (r : List ℝ) (s : Shared) : Prop :=
  ∃ t, s.threads = [t] ∧ s.log.map Prod.snd ++ t.future s.best = recordsFrom (-1) r ∧ (∀ a l, t.pc = .call → t.todo = a :: l → s.best = a) ∧
    (t.todo = [] → t.pc = .idle) ∧ (∀ a l, t.pc = .write → t.todo = a :: l → s.best < a) ∧ t.todo.foldl max s.best = maxOf r

theorem one_step' {cb : Bool} {r : List ℝ} (i : Nat) (s s' : Shared) (ho : OneInv r s) (h : Step cb i s s') : OneInv r s' ∧ s.best ≤ s'.best := by
  obtain ⟨t, h1, h2, h3, h4, h5, h6⟩ := ho
  have key : ∀ u, s.threads[i]? = some u → i = 0 ∧ u = t := by
    intro u hu
    rw [h1] at hu
    match i, hu with
    | 0, hu => injection hu with hu; exact ⟨rfl, hu.symm⟩
    | _ + 1, hu => cases hu
  cases h with
  | none => exact ⟨⟨t, h1, h2, h3, h4, h5, h6⟩, le_refl _⟩
  | skip a l hi ha =>
    obtain ⟨rfl, rfl⟩ := key _ hi
    refine ⟨⟨⟨l, .idle⟩, by simp [h1], ?_, by simp, fun _ => rfl, by simp, ?_⟩, le_refl _⟩
    · rw [← h2]
      simp only [Thread.future, recordsFrom]
      rw [if_neg (not_lt.2 ha)]
    · rw [← h6, List.foldl_cons, max_eq_left ha]
  | enter a l hi ha =>
    obtain ⟨rfl, rfl⟩ := key _ hi
    refine ⟨⟨⟨a :: l, .write⟩, by simp [h1], ?_, by simp, by simp, ?_, h6⟩, le_refl _⟩
    · rw [← h2]
      simp only [Thread.future, recordsFrom]
      rw [if_pos ha]
    · intro b k _ hb
      injection hb with hb _
      exact hb ▸ ha
  | write a l hi =>
    obtain ⟨rfl, rfl⟩ := key _ hi
    have hlt := h5 a l rfl rfl
    refine ⟨⟨⟨a :: l, .call⟩, by simp [h1], ?_, ?_, by simp, by simp, ?_⟩, hlt.le⟩
    · rw [← h2]
      simp only [Thread.future]
    · intro b k _ hb
      injection hb with hb _
    · rw [← h6, List.foldl_cons, List.foldl_cons, max_self, max_eq_right hlt.le]
  | call a l hi hc =>
    obtain ⟨rfl, rfl⟩ := key _ hi
    have hb := h3 a l rfl rfl
    refine ⟨⟨⟨l, .idle⟩, by simp [h1], ?_, by simp, fun _ => rfl, by simp, ?_⟩, le_refl _⟩
    · rw [← h2]
      simp only [Thread.future, List.map_append, List.map_cons, List.map_nil, List.append_assoc, List.singleton_append, hb]
    · rw [← h6, List.foldl_cons, hb, max_self]

theorem one_step {cb : Bool} {r : List ℝ} (i : Nat) (s s' : Shared) (ho : OneInv r s) (h : Step cb i s s') : OneInv r s' := (one_step' i s s' ho h).1

theorem one_start (r : List ℝ) : OneInv r (startRound [r] []) := ⟨⟨r, .idle⟩, rfl, rfl, by simp, fun _ => rfl, by simp, rfl⟩

theorem one_mono {cb : Bool} {r : List ℝ} : ∀ (is : List Nat) {s s' : Shared}, OneInv r s → run cb is s = .ok s' → s.best ≤ s'.best
  | [], s, s', _, h => by
    injection h with h
    rw [h]
  | i :: is, s, s', ho, h => by
    rw [run] at h
    obtain ⟨s1, h1, h⟩ := ok_bind h
    obtain ⟨k1, k2⟩ := one_step' i s s1 ho (step_cases h1)
    exact k2.trans (one_mono is k1 h)

/-! ## Variations -/

theorem Frame.trans' {n : Nat} {w w' w'' : World} (h1 : Frame n w w') (h2 : Frame n w' w'') : Frame n w w'' :=
  ⟨h2.owned, fun m hm => (h2.nets m hm).trans (h1.nets m hm), fun m hm a ha => by
    rw [h2.layers m hm a (by rw [h1.nets m hm]; exact ha), h1.layers m hm a ha]⟩

theorem replace_eq {w : World} (ho : Owned w) {n i : Nat} {l : Layer} (hi : i < (w.nets n).layers.length) :
    ∃ w', (w.alloc l).replace n i w.heap.length = .ok w' ∧ Frame n w w' ∧ (w'.nets n).layers = (w.nets n).layers.set i w.heap.length ∧
      w'.heap[w.heap.length]? = some (some l) ∧
      ∀ a, a < w.heap.length → (w.nets n).layers[i]? ≠ some a → w'.heap[a]? = w.heap[a]? := by
  have hb : (w.nets n).layers[i]? = some (w.nets n).layers[i] := List.getElem?_eq_getElem hi
  generalize (w.nets n).layers[i] = b at hb
  have hbm : b ∈ (w.nets n).layers := List.mem_of_getElem? hb
  obtain ⟨k, hk⟩ := ho.live n b hbm
  have hlt := World.lt_of_live hk
  have hk' : (w.alloc l).heap[b]? = some (some k) := by
    simp only [World.alloc]
    rw [List.getElem?_append_left hlt, hk]
  have he : (w.alloc l).replace n i w.heap.length = .ok ({ (w.alloc l) with heap := (w.alloc l).heap.set b none }.setNet n
      { (w.nets n) with layers := (w.nets n).layers.set i w.heap.length }) := by
    unfold World.replace
    rw [World.alloc_nets, hb]
    dsimp only
    rw [World.free_eq hk', bind_ok']
    rfl
  refine ⟨_, he, frame_replace ho he, by simp, ?_, ?_⟩
  · show ((w.heap ++ [some l]).set b none)[w.heap.length]? = _
    rw [List.getElem?_set_ne (by omega)]
    simp
  · intro a ha hne
    show ((w.heap ++ [some l]).set b none)[a]? = _
    rw [List.getElem?_set_ne (by rintro rfl; exact hne hb), List.getElem?_append_left ha]

theorem varyLayer_none {e : Env} {d : Nat} {vs : List LayerVariation} {n i : Nat} {w : World} (h : choice vs i d = none) :
    varyLayer e d vs n i w = .ok w ∧ d % ((vs.filter (fun v => v.iLayer = (i : Int))).length + 1) = 0 := by
  unfold choice at h
  split at h
  · rename_i h0
    unfold varyLayer
    dsimp only
    rw [if_neg (by omega)]
    exact ⟨rfl, h0⟩
  · rename_i h0
    have : d % ((vs.filter (fun v => v.iLayer = (i : Int))).length + 1) < (vs.filter (fun v => v.iLayer = (i : Int))).length + 1 := Nat.mod_lt _ (by omega)
    rw [List.getElem?_eq_none_iff] at h
    omega

theorem varyLayer_some {e : Env} {d : Nat} {vs : List LayerVariation} {n i : Nat} {w : World} {v : LayerVariation} (h : choice vs i d = some v) :
    (v ∈ vs ∧ v.iLayer = (i : Int)) ∧ varyLayer e d vs n i w = (do
      let l ← Factory.create e v.sType v.a1 v.a2 v.a3 v.a4 v.a5
      (w.alloc l).replace n i w.heap.length) := by
  unfold choice at h
  split at h
  · cases h
  · rename_i h0
    have hm := List.mem_of_getElem? h
    rw [List.mem_filter] at hm
    refine ⟨⟨hm.1, by simpa using hm.2⟩, ?_⟩
    unfold varyLayer
    dsimp only
    rw [if_pos (by omega), h]

theorem vary_inv_step {e : Nat → Env} {d : Nat → Nat} {vs : List LayerVariation} {n : Nat} {w0 w w' : World} {k : Nat}
    (hk : k < (w0.nets n).layers.length)
    (hf : Frame n w0 w) (hlen : (w.nets n).layers.length = (w0.nets n).layers.length) (hlo : ∀ i < k, Varied e d vs n w0 w i)
    (hhi : ∀ i a, k ≤ i → (w0.nets n).layers[i]? = some a → (w.nets n).layers[i]? = some a ∧ w.heap[a]? = w0.heap[a]?)
    (h : varyLayer (e k) (d k) vs n k w = .ok w') :
    Frame n w0 w' ∧ (w'.nets n).layers.length = (w0.nets n).layers.length ∧ (∀ i < k + 1, Varied e d vs n w0 w' i) ∧
      ∀ i a, k + 1 ≤ i → (w0.nets n).layers[i]? = some a → (w'.nets n).layers[i]? = some a ∧ w'.heap[a]? = w0.heap[a]? := by
  have hk0 : (w0.nets n).layers[k]? = some (w0.nets n).layers[k] := List.getElem?_eq_getElem hk
  generalize (w0.nets n).layers[k] = b at hk0
  cases hc : choice vs k (d k) with
  | none =>
    rw [(varyLayer_none hc).1] at h
    injection h with h
    subst h
    refine ⟨hf, hlen, ?_, fun i a hi => hhi i a (by omega)⟩
    intro i hi
    rcases Nat.lt_succ_iff_lt_or_eq.1 hi with hi | rfl
    · exact hlo i hi
    · obtain ⟨h1, h2⟩ := hhi i b (le_refl _) hk0
      refine ⟨b, b, hk0, h1, ?_⟩
      rw [hc]
      exact ⟨rfl, h2⟩
  | some v =>
    rw [(varyLayer_some hc).2] at h
    obtain ⟨l, hl, h⟩ := ok_bind h
    obtain ⟨w1, r1, r2, r3, r4, r5⟩ := replace_eq hf.owned (l := l) (by omega : k < (w.nets n).layers.length)
    rw [h] at r1
    injection r1 with r1
    subst r1
    have hkw : (w.nets n).layers[k]? = some b := (hhi k b (le_refl _) hk0).1
    have hlive : ∀ a ∈ (w.nets n).layers, a < w.heap.length := fun a ha => by
      obtain ⟨x, hx⟩ := hf.owned.live n a ha
      exact World.lt_of_live hx
    have hinj : ∀ i a, i ≠ k → (w.nets n).layers[i]? = some a → a ≠ b := by
      intro i a hi ha hab
      subst hab
      have h1 : i < (w.nets n).layers.length := (List.getElem?_eq_some_iff.1 ha).1
      exact hi ((List.getElem?_inj h1 (hf.owned.nodup n)).1 (ha.trans hkw.symm))
    refine ⟨Frame.trans' hf r2, by rw [r3, List.length_set, hlen], ?_, ?_⟩
    · intro i hi
      rcases Nat.lt_succ_iff_lt_or_eq.1 hi with hi | rfl
      · obtain ⟨a, a', v1, v2, v3⟩ := hlo i hi
        have hne := hinj i a' (by omega) v2
        have hheap : w'.heap[a']? = w.heap[a']? := r5 a' (hlive a' (List.mem_of_getElem? v2)) (by rw [hkw]; intro h; injection h with h; exact hne h.symm)
        refine ⟨a, a', v1, ?_, ?_⟩
        · rw [r3, List.getElem?_set_ne (by omega)]
          exact v2
        · cases hci : choice vs i (d i) with
          | none =>
            rw [hci] at v3
            obtain ⟨rfl, v3⟩ := v3
            exact ⟨rfl, hheap.trans v3⟩
          | some u =>
            rw [hci] at v3
            obtain ⟨l', v3, v4⟩ := v3
            exact ⟨l', v3, hheap.trans v4⟩
      · refine ⟨b, w.heap.length, hk0, ?_, ?_⟩
        · rw [r3, List.getElem?_set_self (by omega)]
        · rw [hc]
          exact ⟨l, hl, r4⟩
    · intro i a hi ha
      obtain ⟨h1, h2⟩ := hhi i a (by omega) ha
      refine ⟨by rw [r3, List.getElem?_set_ne (by omega)]; exact h1, ?_⟩
      rw [r5 a (hlive a (List.mem_of_getElem? h1)) (by rw [hkw]; intro h; injection h with h; exact hinj i a (by omega) h1 h.symm), h2]

/-- After `k` rounds of the loop. -/
theorem vary_prefix {e : Nat → Env} {d : Nat → Nat} {vs : List LayerVariation} {n : Nat} {w0 : World} (ho : Owned w0) :
    ∀ (k : Nat) {w : World}, k ≤ (w0.nets n).layers.length → forN k (fun i w => varyLayer (e i) (d i) vs n i w) w0 = .ok w →
    Frame n w0 w ∧ (w.nets n).layers.length = (w0.nets n).layers.length ∧ (∀ i < k, Varied e d vs n w0 w i) ∧
      ∀ i a, k ≤ i → (w0.nets n).layers[i]? = some a → (w.nets n).layers[i]? = some a ∧ w.heap[a]? = w0.heap[a]?
  | 0, w, _, h => by
    rw [forN_zero] at h
    injection h with h
    subst h
    exact ⟨⟨ho, fun _ _ => rfl, fun _ _ _ _ => rfl⟩, rfl, fun i hi => by omega, fun i a _ ha => ⟨ha, rfl⟩⟩
  | k + 1, w, hk, h => by
    rw [forN_succ] at h
    obtain ⟨w1, h1, h⟩ := ok_bind h
    obtain ⟨p1, p2, p3, p4⟩ := vary_prefix ho k (by omega) h1
    exact vary_inv_step (by omega) p1 p2 p3 p4 h

end BeeDNN.Meta
