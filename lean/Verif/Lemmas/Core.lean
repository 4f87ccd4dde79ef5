import Verif.Model.Core
import Mathlib.Algebra.BigOperators.Group.Finset.Basic
import Mathlib.Algebra.BigOperators.Intervals
import Mathlib.Tactic.Ring
import Mathlib.Tactic.Linarith
import Mathlib.Tactic.SplitIfs

/-! Helper lemmas on loops and buffers. -/

namespace BeeDNN

variable {α : Type} {σ : Type}

@[simp] theorem bind_ok {β : Type} (a : α) (f : α → Out β) : Except.bind (.ok a : Out α) f = f a := rfl
@[simp] theorem bind_ok' {β : Type} (a : α) (f : α → Out β) : ((.ok a : Out α) >>= f) = f a := rfl
@[simp] theorem bind_error' {β : Type} (a : Fault) (f : α → Out β) :
    ((.error a : Out α) >>= f) = .error a := rfl
@[simp] theorem pure_ok (a : α) : (pure a : Out α) = .ok a := rfl

@[simp] theorem forN_zero (f : Nat → σ → Out σ) (s : σ) : forN 0 f s = .ok s := rfl
theorem forN_succ (n : Nat) (f : Nat → σ → Out σ) (s : σ) :
    forN (n + 1) f s = (forN n f s).bind (f n) := rfl

/-- Loop rule with an explicit family of intermediate states. -/
theorem forN_closed (n : Nat) (f : Nat → σ → Out σ) (S : Nat → σ)
    (h : ∀ i, i < n → f i (S i) = .ok (S (i + 1))) : forN n f (S 0) = .ok (S n) := by
  induction n with
  | zero => rfl
  | succ n ih =>
    rw [forN_succ, ih (fun i hi => h i (Nat.lt_succ_of_lt hi))]
    exact h n (Nat.lt_succ_self n)

/-- As `forN_closed`, with initial and final states given up to equality. -/
theorem forN_closed' {n : Nat} {f : Nat → σ → Out σ} {s t : σ} (S : Nat → σ)
    (h0 : s = S 0) (hn : t = S n)
    (h : ∀ i, i < n → f i (S i) = .ok (S (i + 1))) : forN n f s = .ok t := by
  subst h0; subst hn; exact forN_closed n f S h

/-- Loop rule with an invariant. -/
theorem forN_inv {n : Nat} {f : Nat → σ → Out σ} {s : σ} (P : Nat → σ → Prop) (h0 : P 0 s)
    (h : ∀ i, i < n → ∀ s, P i s → ∃ s', f i s = .ok s' ∧ P (i + 1) s') :
    ∃ s', forN n f s = .ok s' ∧ P n s' := by
  induction n with
  | zero => exact ⟨s, rfl, h0⟩
  | succ n ih =>
    obtain ⟨s1, h1, p1⟩ := ih (fun i hi => h i (Nat.lt_succ_of_lt hi))
    obtain ⟨s2, h2, p2⟩ := h n (Nat.lt_succ_self n) s1 p1
    exact ⟨s2, by rw [forN_succ, h1]; exact h2, p2⟩

theorem forN_congr {n : Nat} {f g : Nat → σ → Out σ} (s : σ)
    (h : ∀ i, i < n → ∀ s, f i s = g i s) : forN n f s = forN n g s := by
  induction n with
  | zero => rfl
  | succ n ih =>
    rw [forN_succ, forN_succ, ih (fun i hi => h i (Nat.lt_succ_of_lt hi))]
    cases forN n g s with
    | error e => rfl
    | ok a => exact h n (Nat.lt_succ_self n) a

/-- A loop that never meets a fault is a fold. -/
theorem forN_pure (n : Nat) (f : Nat → σ → σ) (s : σ) :
    forN n (fun i s => .ok (f i s)) s = .ok (Nat.rec s (fun i t => f i t) n) := by
  induction n with
  | zero => rfl
  | succ n ih => rw [forN_succ, ih]; rfl

theorem forN_const {n : Nat} {f : Nat → σ → Out σ} {s : σ} (h : ∀ i, i < n → f i s = .ok s) :
    forN n f s = .ok s := forN_closed n f (fun _ => s) h

/-- A loop faults as soon as an iteration reached in a known state faults. -/
theorem forN_error {n k : Nat} {f : Nat → σ → Out σ} {s t : σ} {e : Fault} (hk : k < n)
    (h1 : forN k f s = .ok t) (h2 : f k t = .error e) : forN n f s = .error e := by
  induction n with
  | zero => omega
  | succ n ih =>
    rcases Nat.lt_succ_iff_lt_or_eq.mp hk with h | h
    · rw [forN_succ, ih h]; rfl
    · subst h; rw [forN_succ, h1]; exact h2

@[simp] theorem check_true {c : Prop} [Decidable c] (h : c) : check c = .ok () := by
  simp [check, h]
theorem check_false {c : Prop} [Decidable c] (h : ¬ c) : check c = .error .assertFail := by
  simp [check, h]

@[simp] theorem tab_length (n : Nat) (d : Nat → α) : (tab n d).length = n := by simp [tab]

theorem tab_getElem? (n : Nat) (d : Nat → α) (i : Nat) :
    (tab n d)[i]? = if i < n then some (d i) else none := by
  by_cases h : i < n
  · simp [tab, h]
  · simp [tab, h, List.getElem?_eq_none]

@[simp] theorem tab_getElem (n : Nat) (d : Nat → α) (i : Nat) (h : i < (tab n d).length) :
    (tab n d)[i] = d i := by simp [tab]

theorem tab_congr {n : Nat} {d e : Nat → α} (h : ∀ i, i < n → d i = e i) : tab n d = tab n e := by
  unfold tab
  apply List.map_congr_left
  intro i hi
  exact h i (List.mem_range.mp hi)

theorem tab_inj {n : Nat} {d e : Nat → α} (h : tab n d = tab n e) : ∀ i, i < n → d i = e i := by
  intro i hi
  have := congrArg (fun l : List α => l[i]?) h
  simpa [tab_getElem?, hi] using this

theorem eq_tab_iff {l : List α} {n : Nat} {d : Nat → α} :
    l = tab n d ↔ l.length = n ∧ ∀ i, i < n → l[i]? = some (d i) := by
  constructor
  · rintro rfl
    refine ⟨by simp, fun i hi => by simp [tab_getElem?, hi]⟩
  · rintro ⟨h1, h2⟩
    apply List.ext_getElem?
    intro i
    rw [tab_getElem?]
    split
    · exact h2 i ‹_›
    · simp; omega

/-- Every list is a table of its entries. -/
theorem exists_tab [Inhabited α] (l : List α) : l = tab l.length (fun i => l.getD i default) := by
  rw [eq_tab_iff]
  refine ⟨rfl, fun i hi => ?_⟩
  simp [List.getD, hi]

@[simp] theorem tab_zero (d : Nat → α) : tab 0 d = [] := rfl

theorem tab_succ (n : Nat) (d : Nat → α) : tab (n + 1) d = tab n d ++ [d n] := by
  simp [tab, List.range_succ]

theorem rd_tab {n : Nat} {d : Nat → α} {i : Nat} (h : i < n) : rd (tab n d) i = .ok (d i) := by
  simp [rd, tab_getElem?, h]

theorem rd_tab_oob {n : Nat} {d : Nat → α} {i : Nat} (h : n ≤ i) :
    rd (tab n d) i = .error .outOfBounds := by
  simp [rd, tab_getElem?, Nat.not_lt.mpr h]

theorem rd_oob {l : List α} {i : Nat} (h : l.length ≤ i) : rd l i = .error .outOfBounds := by
  simp [rd, h]

theorem rd_of_lt {l : List α} {i : Nat} (h : i < l.length) : rd l i = .ok l[i] := by
  simp [rd, h]

theorem wr_of_lt {l : List α} {i : Nat} {x : α} (h : i < l.length) : wr l i x = .ok (l.set i x) := by
  simp [wr, h]

theorem wr_oob {l : List α} {i : Nat} {x : α} (h : l.length ≤ i) :
    wr l i x = .error .outOfBounds := by
  simp [wr, Nat.not_lt.mpr h]

theorem set_tab (n : Nat) (d : Nat → α) (i : Nat) (x : α) :
    (tab n d).set i x = tab n (fun j => if j = i then x else d j) := by
  rw [eq_tab_iff]
  refine ⟨by simp, fun j hj => ?_⟩
  rw [List.getElem?_set, tab_getElem?]
  by_cases h : i = j
  · subst h; simp [hj]
  · simp [h, hj, Ne.symm h]

theorem wr_tab {n : Nat} {d : Nat → α} {i : Nat} {x : α} (h : i < n) :
    wr (tab n d) i x = .ok (tab n (fun j => if j = i then x else d j)) := by
  rw [wr_of_lt (by simpa using h), set_tab]

/-- Loop writing cell `i` in iteration `i` from the *previous* buffer content at `i` only. -/
theorem forN_map {n N : Nat} {d e : Nat → α} {f : Nat → List α → Out (List α)} (hn : n ≤ N)
    (h : ∀ i, i < n → ∀ d' : Nat → α, (∀ j, i ≤ j → d' j = d j) →
      f i (tab N d') = .ok (tab N (fun j => if j = i then e i else d' j))) :
    forN n f (tab N d) = .ok (tab N (fun j => if j < n then e j else d j)) := by
  refine forN_closed' (fun i => tab N (fun j => if j < i then e j else d j)) ?_ rfl ?_
  · simp
  · intro i hi
    rw [h i hi _ (by intro j hj; simp [Nat.not_lt.mpr hj])]
    congr 1
    apply tab_congr
    intro j hj
    by_cases h1 : j = i
    · subst h1; simp
    · have : (j < i + 1) = (j < i) := by rw [eq_iff_iff]; omega
      simp [h1, this]

theorem accN_eq_sum [AddCommMonoid α] (n : Nat) (f : Nat → α) :
    accN n f = ∑ i ∈ Finset.range n, f i := by
  induction n with
  | zero => simp [accN]
  | succ n ih => simp [accN, ih, Finset.sum_range_succ]

theorem accN_congr [Zero α] [Add α] {n : Nat} {f g : Nat → α} (h : ∀ i, i < n → f i = g i) :
    accN n f = accN n g := by
  induction n with
  | zero => rfl
  | succ n ih => simp only [accN]; rw [ih (fun i hi => h i (by omega)), h n (by omega)]

end BeeDNN
