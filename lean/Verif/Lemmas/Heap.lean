import Verif.Spec.Heap
import Verif.Lemmas.Core

/-! Lemmas on the heap model. -/

namespace BeeDNN
variable {α : Type}

/-- A result that is either a good state or one of the two faults the caller is responsible for. -/
def NoFault {σ : Type} (P : σ → Prop) : Out σ → Prop
  | .ok s => P s
  | .error f => f = .assertFail ∨ f = .useAfterFree

theorem NoFault.bind {σ τ : Type} {P : σ → Prop} {Q : τ → Prop} {r : Out σ} {f : σ → Out τ}
    (h : NoFault P r) (hf : ∀ s, P s → NoFault Q (f s)) : NoFault Q (r >>= f) := by
  cases r with
  | ok s => exact hf s h
  | error e => exact h

theorem NoFault.mono {σ : Type} {P Q : σ → Prop} {r : Out σ} (h : NoFault P r) (hf : ∀ s, P s → Q s) :
    NoFault Q r := by
  cases r with
  | ok s => exact hf s h
  | error e => exact h

theorem NoFault.forN {σ : Type} {n : Nat} {f : Nat → σ → Out σ} {s : σ} {P : σ → Prop} (h0 : P s)
    (h : ∀ i, i < n → ∀ s, P s → NoFault P (f i s)) : NoFault P (forN n f s) := by
  induction n with
  | zero => exact h0
  | succ n ih =>
    rw [forN_succ]
    exact NoFault.bind (ih (fun i hi => h i (by omega))) (h n (by omega))

theorem NoFault.check {c : Prop} [Decidable c] : NoFault (fun _ => c) (check c) := by
  by_cases h : c
  · rw [check_true h]; exact h
  · rw [check_false h]; exact Or.inl rfl

namespace Heap

/-- Same blocks with the same sizes, possibly different contents. -/
def SameShape (h h' : Heap α) : Prop :=
  h'.length = h.length ∧
  (∀ (b : Nat) (buf : List α), h[b]? = some (some buf) →
    ∃ buf' : List α, h'[b]? = some (some buf') ∧ buf'.length = buf.length) ∧
  (∀ (b : Nat) (buf : List α), h'[b]? = some (some buf) →
    ∃ buf' : List α, h[b]? = some (some buf') ∧ buf'.length = buf.length)

theorem SameShape.refl (h : Heap α) : SameShape h h :=
  ⟨rfl, fun _ buf hb => ⟨buf, hb, rfl⟩, fun _ buf hb => ⟨buf, hb, rfl⟩⟩

theorem SameShape.trans {h1 h2 h3 : Heap α} (a : SameShape h1 h2) (b : SameShape h2 h3) :
    SameShape h1 h3 := by
  refine ⟨b.1.trans a.1, ?_, ?_⟩
  · intro k buf hk
    obtain ⟨b1, e1, l1⟩ := a.2.1 k buf hk
    obtain ⟨b2, e2, l2⟩ := b.2.1 k b1 e1
    exact ⟨b2, e2, l2.trans l1⟩
  · intro k buf hk
    obtain ⟨b1, e1, l1⟩ := b.2.2 k buf hk
    obtain ⟨b2, e2, l2⟩ := a.2.2 k b1 e1
    exact ⟨b2, e2, l2.trans l1⟩

theorem SameShape.symm {h h' : Heap α} (a : SameShape h h') : SameShape h' h := ⟨a.1.symm, a.2.2, a.2.1⟩

theorem getElem?_set (h : Heap α) (b : Nat) (x : Option (List α)) (c : Nat) :
    (h.set b x)[c]? = if b = c ∧ b < h.length then some x else h[c]? := by
  rw [List.getElem?_set]
  by_cases hb : b = c
  · subst hb
    by_cases hl : b < h.length
    · simp [hl]
    · simp [hl]
  · simp [hb]

theorem lt_of_getElem? {h : Heap α} {b : Nat} {x : Option (List α)} (hb : h[b]? = some x) :
    b < h.length := (List.getElem?_eq_some_iff.mp hb).1

theorem store_eq {h : Heap α} {b off i : Nat} {buf : List α} {x : α} (hb : h[b]? = some (some buf))
    (hi : off + i < buf.length) :
    h.store (some (b, off)) i x = .ok (h.set b (some (buf.set (off + i) x))) := by
  simp [store, hb, wr_of_lt hi, Except.map]

theorem load_eq {h : Heap α} {b off i : Nat} {buf : List α} (hb : h[b]? = some (some buf))
    (hi : off + i < buf.length) : h.load (some (b, off)) i = .ok (buf[off + i]) := by
  simp [load, hb, rd_of_lt hi]

theorem sameShape_store {h : Heap α} {b j : Nat} {buf : List α} {x : α}
    (hb : h[b]? = some (some buf)) : SameShape h (h.set b (some (buf.set j x))) := by
  have hlt := lt_of_getElem? hb
  refine ⟨by simp, ?_, ?_⟩
  · intro c buf' hc
    rw [getElem?_set]
    by_cases hbc : b = c
    · subst hbc
      rw [hb] at hc; cases hc
      exact ⟨_, by rw [if_pos ⟨rfl, hlt⟩], by simp⟩
    · exact ⟨buf', by rw [if_neg (by tauto)]; exact hc, rfl⟩
  · intro c buf' hc
    rw [getElem?_set] at hc
    by_cases hbc : b = c
    · subst hbc
      rw [if_pos ⟨rfl, hlt⟩] at hc; cases hc
      exact ⟨buf, hb, by simp⟩
    · rw [if_neg (by tauto)] at hc
      exact ⟨buf', hc, rfl⟩

/-- The bound the invariant gives for a pointer and a size. -/
def Inside (h : Heap α) (p : Ptr) (n : Nat) : Prop :=
  match p with
  | none => n = 0
  | some (b, off) => b < h.length ∧ ∀ buf, h[b]? = some (some buf) → off + n ≤ buf.length

theorem Inside.sameShape {h h' : Heap α} {p : Ptr} {n : Nat} (hi : Inside h p n)
    (hs : SameShape h h') : Inside h' p n := by
  unfold Inside at *
  cases p with
  | none => exact hi
  | some q =>
    obtain ⟨b, off⟩ := q
    refine ⟨by rw [hs.1]; exact hi.1, fun buf hb => ?_⟩
    obtain ⟨buf', hb', hl⟩ := hs.2.2 b buf hb
    have := hi.2 buf' hb'
    omega

theorem Inside.load {h : Heap α} {p : Ptr} {n i : Nat} (hi : Inside h p n) (hin : i < n) :
    NoFault (fun _ => True) (h.load p i) := by
  cases p with
  | none => simp [Inside] at hi; omega
  | some q =>
    obtain ⟨b, off⟩ := q
    rcases hb : h[b]? with _ | _ | buf
    · simp [Heap.load, hb, NoFault]
    · simp [Heap.load, hb, NoFault]
    · rw [load_eq hb (by have := hi.2 buf hb; omega)]; trivial

theorem Inside.store {h : Heap α} {p : Ptr} {n i : Nat} {x : α} (hi : Inside h p n) (hin : i < n) :
    NoFault (SameShape h) (h.store p i x) := by
  cases p with
  | none => simp [Inside] at hi; omega
  | some q =>
    obtain ⟨b, off⟩ := q
    rcases hb : h[b]? with _ | _ | buf
    · simp [Heap.store, hb, NoFault]
    · simp [Heap.store, hb, NoFault]
    · rw [store_eq hb (by have := hi.2 buf hb; omega)]; exact sameShape_store hb

end Heap

namespace Store
open Heap

theorem obj_append (h : Heap α) (objs : List (Option Obj)) (x : Option Obj) (k : Nat) :
    Store.obj ⟨h, objs ++ [x]⟩ k =
      if k = objs.length then x else (Store.mk h objs).obj k := by
  unfold Store.obj
  by_cases hk : k < objs.length
  · rw [List.getElem?_append_left hk, if_neg (by omega)]
  · by_cases hk' : k = objs.length
    · subst hk'; simp
    · rw [if_neg hk', List.getElem?_eq_none (by simp; omega), List.getElem?_eq_none (by simp; omega)]

theorem obj_set (h : Heap α) (objs : List (Option Obj)) (j : Nat) (x : Option Obj) (k : Nat)
    (hj : j < objs.length) :
    Store.obj ⟨h, objs.set j x⟩ k = if j = k then x else (Store.mk h objs).obj k := by
  unfold Store.obj
  simp only
  rw [List.getElem?_set]
  by_cases hjk : j = k
  · subst hjk; simp [hj]
  · simp [hjk]

theorem obj_lt {s : Store α} {k : Nat} {o : Obj} (h : s.obj k = some o) : k < s.objs.length := by
  unfold Store.obj at h
  by_contra hk
  rw [List.getElem?_eq_none (by omega)] at h
  simp at h

theorem obj_heap (h h' : Heap α) (objs : List (Option Obj)) (k : Nat) :
    (Store.mk h objs).obj k = (Store.mk h' objs).obj k := rfl

theorem Sound.inside' {s : Store α} (hs : s.Sound) {k : Nat} {o : Obj} (hk : s.obj k = some o) :
    Inside s.heap o.ptr o.size := by
  have := hs.inside k o hk
  unfold Inside
  exact this

theorem Sound.mk' {s : Store α}
    (h1 : ∀ k o, s.obj k = some o → Inside s.heap o.ptr o.size)
    (h2 : ∀ k o, s.obj k = some o → o.isView = false →
      o.ptr = none ∨ ∃ b buf, o.ptr = some (b, 0) ∧ s.heap[b]? = some (some buf) ∧ buf.length = o.size)
    (h3 : ∀ k l o o' b off off', s.obj k = some o → s.obj l = some o' →
      o.isView = false → o'.isView = false → o.ptr = some (b, off) → o'.ptr = some (b, off') → k = l)
    (h4 : ∀ b buf, s.heap[b]? = some (some buf) →
      ∃ k o, s.obj k = some o ∧ o.isView = false ∧ o.ptr = some (b, 0)) : s.Sound :=
  ⟨fun k o h => h1 k o h, h2, h3, h4⟩

theorem sound_init : (Store.init : Store α).Sound := by
  constructor <;> intros <;> simp_all [Store.init, Store.obj]

theorem Sound.sameShape {h h' : Heap α} {objs : List (Option Obj)} (hs : (Store.mk h objs).Sound)
    (hh : SameShape h h') : (Store.mk h' objs).Sound := by
  apply Sound.mk'
  · intro k o hk
    exact (hs.inside' (k := k) hk).sameShape hh
  · intro k o hk hv
    rcases hs.owns k o hk hv with h1 | ⟨b, buf, h1, h2, h3⟩
    · exact Or.inl h1
    · obtain ⟨buf', h4, h5⟩ := hh.2.1 b buf h2
      exact Or.inr ⟨b, buf', h1, h4, h5.trans h3⟩
  · intro k l o o' b off off' hk hl
    exact hs.exclusive k l o o' b off off' hk hl
  · intro b buf hb
    obtain ⟨buf', hb', _⟩ := hh.2.2 b buf hb
    exact hs.owned b buf' hb'

/-- Adding a view that stays inside. -/
theorem Sound.pushView {h : Heap α} {objs : List (Option Obj)} (hs : (Store.mk h objs).Sound) {o : Obj}
    (hv : o.isView = true) (hi : Inside h o.ptr o.size) : (Store.mk h (objs ++ [some o])).Sound := by
  apply Sound.mk'
  · intro k o' hk
    rw [obj_append] at hk
    split at hk
    · cases hk; exact hi
    · exact hs.inside' (k := k) hk
  · intro k o' hk hv'
    rw [obj_append] at hk
    split at hk
    · cases hk; simp [hv] at hv'
    · exact hs.owns k o' hk hv'
  · intro k l o1 o2 b off off' hk hl v1 v2 p1 p2
    rw [obj_append] at hk hl
    split at hk
    · cases hk; simp [hv] at v1
    · split at hl
      · cases hl; simp [hv] at v2
      · exact hs.exclusive k l o1 o2 b off off' hk hl v1 v2 p1 p2
  · intro b buf hb
    obtain ⟨k, o', hk, h1, h2⟩ := hs.owned b buf hb
    refine ⟨k, o', ?_, h1, h2⟩
    rw [obj_append, if_neg (Nat.ne_of_lt (obj_lt hk))]
    exact hk

theorem getElem?_snoc (h : Heap α) (x : Option (List α)) (b : Nat) :
    (h ++ [x])[b]? = if b = h.length then some x else h[b]? := by
  by_cases hb : b < h.length
  · rw [List.getElem?_append_left hb, if_neg (by omega)]
  · by_cases hb' : b = h.length
    · subst hb'; simp
    · rw [if_neg hb', List.getElem?_eq_none (by simp; omega), List.getElem?_eq_none (by omega)]

theorem Inside.snoc {h : Heap α} {p : Ptr} {n : Nat} (hi : Inside h p n) (x : Option (List α)) :
    Inside (h ++ [x]) p n := by
  cases p with
  | none => exact hi
  | some q =>
    obtain ⟨b, off⟩ := q
    refine ⟨by simp; have := hi.1; omega, fun buf hb => hi.2 buf ?_⟩
    rw [getElem?_snoc, if_neg (by have := hi.1; omega)] at hb
    exact hb

/-- Every pointer of a sound state refers to an existing block number. -/
theorem Sound.block_lt {s : Store α} (hs : s.Sound) {k : Nat} {o : Obj} {b off : Nat}
    (hk : s.obj k = some o) (hp : o.ptr = some (b, off)) : b < s.heap.length := by
  have := hs.inside' hk
  rw [hp] at this
  exact this.1

/-- Putting a new owner of a new block at object number `j` (either a fresh number, or that of an object
whose old storage is not an owned live block). -/
theorem Sound.newOwner {h : Heap α} {objs objs' : List (Option Obj)} (hs : (Store.mk h objs).Sound)
    {j : Nat} {r c : Nat} {g : Nat → α}
    (hobj : ∀ k, (Store.mk (h ++ [some (tab (r * c) g)]) objs').obj k =
      if k = j then some ⟨r, c, some (h.length, 0), false⟩ else (Store.mk h objs).obj k)
    (hold : ∀ o, (Store.mk h objs).obj j = some o → o.isView = false → o.ptr = none) :
    (Store.mk (h ++ [some (tab (r * c) g)]) objs').Sound := by
  apply Sound.mk'
  · intro k o hk
    rw [hobj] at hk
    split at hk
    · cases hk
      refine ⟨by simp, fun buf hb => ?_⟩
      simp at hb; subst hb
      simp [Obj.size]
    · exact Inside.snoc (hs.inside' (k := k) hk) _
  · intro k o hk hv
    rw [hobj] at hk
    split at hk
    · cases hk
      exact Or.inr ⟨h.length, tab (r * c) g, rfl, by simp, by simp [Obj.size]⟩
    · rcases hs.owns k o hk hv with h1 | ⟨b, buf, h1, h2, h3⟩
      · exact Or.inl h1
      · refine Or.inr ⟨b, buf, h1, ?_, h3⟩
        rw [getElem?_snoc, if_neg (by have := lt_of_getElem? h2; simp at this; omega)]
        exact h2
  · intro k l o1 o2 b off off' hk hl v1 v2 p1 p2
    rw [hobj] at hk hl
    split at hk
    · cases hk
      split at hl
      · omega
      · have := hs.block_lt (k := l) hl p2
        simp at p1 this
        omega
    · split at hl
      · cases hl
        have := hs.block_lt (k := k) hk p1
        simp at p2 this
        omega
      · exact hs.exclusive k l o1 o2 b off off' hk hl v1 v2 p1 p2
  · intro b buf hb
    rw [getElem?_snoc] at hb
    split at hb
    · rename_i hbl
      subst hbl
      exact ⟨j, _, by rw [hobj, if_pos rfl], rfl, rfl⟩
    · obtain ⟨k, o', hk, h1, h2⟩ := hs.owned b buf hb
      refine ⟨k, o', ?_, h1, h2⟩
      rw [hobj, if_neg ?_]
      · exact hk
      · rintro rfl
        rw [hold o' hk h1] at h2
        simp at h2

/-- Freeing the block of an owner, leaving the object empty-handed. -/
theorem Sound.freeOwner {h : Heap α} {objs objs' : List (Option Obj)} (hs : (Store.mk h objs).Sound)
    {j : Nat} {o : Obj} (hj : (Store.mk h objs).obj j = some o) (hv : o.isView = false)
    (x : Option Obj) (hx : ∀ o', x = some o' → o'.isView = false → o'.ptr = none)
    (hxi : ∀ o', x = some o' → o'.ptr = none ∧ o'.size = 0)
    (hobj : ∀ (h' : Heap α) k, (Store.mk h' objs').obj k = if k = j then x else (Store.mk h objs).obj k) :
    ∃ h', h.free o.ptr = .ok h' ∧ h'.length = h.length ∧ (Store.mk h' objs').Sound := by
  rcases hs.owns j o hj hv with hp | ⟨b, buf, hp, hb, hl⟩
  · refine ⟨h, by rw [hp]; rfl, rfl, ?_⟩
    apply Sound.mk'
    · intro k o' hk
      rw [hobj] at hk
      split at hk
      · obtain ⟨h1, h2⟩ := hxi o' hk
        rw [h1, h2]; rfl
      · exact hs.inside' (k := k) hk
    · intro k o' hk hv'
      rw [hobj] at hk
      split at hk
      · exact Or.inl (hx o' hk hv')
      · exact hs.owns k o' hk hv'
    · intro k l o1 o2 b off off' hk hl v1 v2 p1 p2
      rw [hobj] at hk hl
      split at hk
      · rw [hx o1 hk v1] at p1; simp at p1
      · split at hl
        · rw [hx o2 hl v2] at p2; simp at p2
        · exact hs.exclusive k l o1 o2 b off off' hk hl v1 v2 p1 p2
    · intro b buf hb
      obtain ⟨k, o', hk, h1, h2⟩ := hs.owned b buf hb
      refine ⟨k, o', ?_, h1, h2⟩
      rw [hobj, if_neg ?_]
      · exact hk
      · rintro rfl
        rw [hj] at hk; cases hk
        rw [hp] at h2; simp at h2
  · have hfree : h.free o.ptr = .ok (h.set b none) := by
      rw [hp]; simp only at hb; simp [free, hb]
    have hget : ∀ c buf', (h.set b none)[c]? = some (some buf') → c ≠ b ∧ h[c]? = some (some buf') := by
      intro c buf' hc
      rw [getElem?_set] at hc
      split at hc
      · simp at hc
      · rename_i hne
        refine ⟨?_, hc⟩
        rintro rfl
        exact hne ⟨rfl, lt_of_getElem? hc⟩
    refine ⟨_, hfree, by simp, ?_⟩
    apply Sound.mk'
    · intro k o' hk
      rw [hobj] at hk
      split at hk
      · obtain ⟨h1, h2⟩ := hxi o' hk
        rw [h1, h2]; rfl
      · have := hs.inside' (k := k) hk
        unfold Inside at this ⊢
        cases hq : o'.ptr with
        | none => rw [hq] at this; exact this
        | some q =>
          obtain ⟨c, off⟩ := q
          rw [hq] at this
          exact ⟨by simp; exact this.1, fun buf' hc => this.2 buf' (hget c buf' hc).2⟩
    · intro k o' hk hv'
      rw [hobj] at hk
      split at hk
      · exact Or.inl (hx o' hk hv')
      · rename_i hkj
        rcases hs.owns k o' hk hv' with h1 | ⟨c, buf', h1, h2, h3⟩
        · exact Or.inl h1
        · refine Or.inr ⟨c, buf', h1, ?_, h3⟩
          simp only
          rw [getElem?_set, if_neg ?_]
          · exact h2
          · rintro ⟨rfl, _⟩
            exact hkj (hs.exclusive k j o' o b 0 0 hk hj hv' hv h1 hp)
    · intro k l o1 o2 b off off' hk hl v1 v2 p1 p2
      rw [hobj] at hk hl
      split at hk
      · rw [hx o1 hk v1] at p1; simp at p1
      · split at hl
        · rw [hx o2 hl v2] at p2; simp at p2
        · exact hs.exclusive k l o1 o2 b off off' hk hl v1 v2 p1 p2
    · intro c buf' hc
      obtain ⟨hcb, hc'⟩ := hget c buf' hc
      obtain ⟨k, o', hk, h1, h2⟩ := hs.owned c buf' hc'
      refine ⟨k, o', ?_, h1, h2⟩
      rw [hobj, if_neg ?_]
      · exact hk
      · rintro rfl
        rw [hj] at hk; cases hk
        rw [hp] at h2; simp at h2
        exact hcb h2.symm

/-- Replacing an object by one with the same pointer, ownership and size. -/
theorem Sound.reshape {h : Heap α} {objs objs' : List (Option Obj)} (hs : (Store.mk h objs).Sound)
    {j : Nat} {o o' : Obj} (hj : (Store.mk h objs).obj j = some o)
    (h1 : o'.ptr = o.ptr) (h2 : o'.isView = o.isView) (h3 : o'.size = o.size)
    (hobj : ∀ k, (Store.mk h objs').obj k = if k = j then some o' else (Store.mk h objs).obj k) :
    (Store.mk h objs').Sound := by
  have key : ∀ k p, (Store.mk h objs').obj k = some p → ∃ q, (Store.mk h objs).obj k = some q ∧
      p.ptr = q.ptr ∧ p.isView = q.isView ∧ p.size = q.size := by
    intro k p hk
    rw [hobj] at hk
    split at hk
    · rename_i hkj; subst hkj; cases hk; exact ⟨o, hj, h1, h2, h3⟩
    · exact ⟨p, hk, rfl, rfl, rfl⟩
  apply Sound.mk'
  · intro k p hk
    obtain ⟨q, hq, e1, e2, e3⟩ := key k p hk
    rw [e1, e3]; exact hs.inside' (k := k) hq
  · intro k p hk hv
    obtain ⟨q, hq, e1, e2, e3⟩ := key k p hk
    rw [e1, e3]; exact hs.owns k q hq (e2 ▸ hv)
  · intro k l o1 o2 b off off' hk hl v1 v2 p1 p2
    obtain ⟨q, hq, e1, e2, e3⟩ := key k o1 hk
    obtain ⟨q', hq', e1', e2', e3'⟩ := key l o2 hl
    exact hs.exclusive k l q q' b off off' hq hq' (e2 ▸ v1) (e2' ▸ v2) (e1 ▸ p1) (e1' ▸ p2)
  · intro b buf hb
    obtain ⟨k, p, hk, e1, e2⟩ := hs.owned b buf hb
    by_cases hkj : k = j
    · subst hkj
      rw [hj] at hk; cases hk
      exact ⟨k, o', by rw [hobj, if_pos rfl], h2.trans e1, h1.trans e2⟩
    · exact ⟨k, p, by rw [hobj, if_neg hkj]; exact hk, e1, e2⟩

/-- The outcome of `resizeObj` in a sound state: it cannot fault. -/
theorem resizeObj_sound {g : Nat → α} {h : Heap α} {objs : List (Option Obj)}
    (hs : (Store.mk h objs).Sound) {k : Nat} {o : Obj} (hk : (Store.mk h objs).obj k = some o)
    (r c : Nat) : ∃ h' o', resizeObj g h o r c = .ok (h', o') ∧ o'.rows = r ∧ o'.cols = c ∧
      (Store.mk h' (objs.set k (some o'))).Sound := by
  have hlt : k < objs.length := obj_lt hk
  have hobj : ∀ (h' : Heap α) x j, (Store.mk h' (objs.set k x)).obj j =
      if j = k then x else (Store.mk h objs).obj j := by
    intro h' x j
    rw [obj_set _ _ _ _ _ hlt]
    by_cases hjk : k = j
    · simp [hjk]
    · rw [if_neg hjk, if_neg (fun e => hjk e.symm)]; rfl
  unfold resizeObj
  by_cases h1 : c = o.cols ∧ r = o.rows
  · rw [if_pos h1]
    refine ⟨h, o, rfl, h1.2.symm, h1.1.symm, ?_⟩
    exact hs.reshape hk rfl rfl rfl (hobj h (some o))
  · rw [if_neg h1]
    by_cases h2 : r * c = o.size
    · rw [if_pos h2]
      refine ⟨h, _, rfl, rfl, rfl, ?_⟩
      exact hs.reshape (o' := { o with rows := r, cols := c }) hk rfl rfl h2 (hobj h _)
    · rw [if_neg h2]
      cases hv : o.isView with
      | true =>
        simp only [if_true, bind_ok', Heap.alloc, pure_ok]
        refine ⟨_, _, rfl, rfl, rfl, ?_⟩
        apply hs.newOwner (j := k) (hobj _ _)
        intro o' ho' hv'
        rw [hk] at ho'; cases ho'
        rw [hv] at hv'; simp at hv'
      | false =>
        obtain ⟨h', hf, hl, hs'⟩ := hs.freeOwner (objs' := objs.set k (some ⟨0, 0, none, false⟩)) hk hv
          (some ⟨0, 0, none, false⟩) (by rintro o' ⟨⟩ _; rfl) (by rintro o' ⟨⟩; exact ⟨rfl, rfl⟩)
          (fun h' j => hobj h' _ j)
        simp only [Bool.false_eq_true, if_false, hf, bind_ok', Heap.alloc, pure_ok]
        refine ⟨_, _, rfl, rfl, rfl, ?_⟩
        apply hs'.newOwner (j := k)
        · intro j
          rw [hobj, hobj h']
          split <;> simp_all
        · intro o' ho' hv'
          rw [hobj h', if_pos rfl] at ho'
          cases ho'; rfl

theorem copyCells_safe {h : Heap α} {n : Nat} {dst src : Obj}
    (hd : Inside h dst.ptr dst.size) (hsrc : Inside h src.ptr src.size) :
    NoFault (SameShape h) (copyCells h n dst src) := by
  unfold copyCells
  apply NoFault.forN (SameShape.refl h)
  intro i _ h' hh
  apply NoFault.bind NoFault.check
  intro _ h1
  apply NoFault.bind ((hsrc.sameShape hh).load h1)
  intro x _
  apply NoFault.bind NoFault.check
  intro _ h2
  exact NoFault.mono ((hd.sameShape hh).store h2) (fun h'' hs => hh.trans hs)

theorem step_safe (g : Nat → α) (s : Store α) (hs : s.Sound) (op : Op α) :
    NoFault Sound (step g s op) := by
  obtain ⟨h, objs⟩ := s
  have hpush : ∀ (r c : Nat) k, (Store.mk (h ++ [some (tab (r * c) g)])
      (objs ++ [some ⟨r, c, some (h.length, 0), false⟩])).obj k =
        if k = objs.length then some ⟨r, c, some (h.length, 0), false⟩ else (Store.mk h objs).obj k := by
    intro r c k
    rw [obj_append]; rfl
  have hnone : ∀ o, (Store.mk h objs).obj objs.length = some o → o.isView = false → o.ptr = none := by
    intro o ho
    have := obj_lt ho
    simp at this
  cases op with
  | mkEmpty =>
    refine Sound.mk' ?_ ?_ ?_ ?_
    · intro k o hk
      rw [obj_append] at hk
      split at hk
      · cases hk; rfl
      · exact hs.inside' (k := k) hk
    · intro k o hk hv
      rw [obj_append] at hk
      split at hk
      · cases hk; exact Or.inl rfl
      · exact hs.owns k o hk hv
    · intro k l o1 o2 b off off' hk hl v1 v2 p1 p2
      rw [obj_append] at hk hl
      split at hk
      · cases hk; simp at p1
      · split at hl
        · cases hl; simp at p2
        · exact hs.exclusive k l o1 o2 b off off' hk hl v1 v2 p1 p2
    · intro b buf hb
      obtain ⟨k, o', hk, h1, h2⟩ := hs.owned b buf hb
      refine ⟨k, o', ?_, h1, h2⟩
      rw [obj_append, if_neg (Nat.ne_of_lt (obj_lt hk))]
      exact hk
  | mk r c =>
    exact hs.newOwner (hpush r c) hnone
  | copy k =>
    rcases hk : (Store.mk h objs).obj k with _ | a
    · simp only [step, hk]; exact hs
    · simp only [step, hk, Heap.alloc]
      have hs' := hs.newOwner (hpush a.rows a.cols) hnone
      apply NoFault.bind (copyCells_safe (dst := ⟨a.rows, a.cols, some (h.length, 0), false⟩) (src := a)
        (hs'.inside' (k := objs.length) (by rw [hpush, if_pos rfl]))
        (Inside.snoc (hs.inside' hk) _))
      intro h' hh
      exact hs'.sameShape hh
  | row k i =>
    rcases hk : (Store.mk h objs).obj k with _ | a
    · simp only [step, hk]; exact hs
    · simp only [step, hk]
      apply NoFault.bind NoFault.check
      intro _ hi
      apply hs.pushView rfl
      have := hs.inside' hk
      unfold Inside at *
      rcases hp : a.ptr with _ | ⟨b, off⟩
      · rw [hp] at this
        simp only [Option.map_none, Obj.size, Nat.one_mul]
        simp only [Obj.size] at this
        rcases Nat.mul_eq_zero.mp this with h1 | h1
        · omega
        · exact h1
      · rw [hp] at this
        simp only [Option.map_some, Obj.size, Nat.one_mul]
        refine ⟨this.1, fun buf hb => ?_⟩
        have h1 := this.2 buf hb
        simp only [Obj.size] at h1
        have h2 : (i + 1) * a.cols ≤ a.rows * a.cols := Nat.mul_le_mul_right _ hi
        rw [Nat.succ_mul] at h2
        omega
  | topRows k n =>
    rcases hk : (Store.mk h objs).obj k with _ | a
    · simp only [step, hk]; exact hs
    · simp only [step, hk]
      apply NoFault.bind NoFault.check
      intro _ hi
      apply hs.pushView rfl
      have := hs.inside' hk
      have h2 : n * a.cols ≤ a.rows * a.cols := Nat.mul_le_mul_right _ hi.le
      unfold Inside at *
      rcases hp : a.ptr with _ | ⟨b, off⟩
      · rw [hp] at this
        simp only [Obj.size] at this ⊢
        omega
      · rw [hp] at this
        simp only [Obj.size] at this ⊢
        refine ⟨this.1, fun buf hb => ?_⟩
        have h1 := this.2 buf hb
        omega
  | viewRow k i j =>
    rcases hk : (Store.mk h objs).obj k with _ | a
    · simp only [step, hk]; exact hs
    · simp only [step, hk]
      apply NoFault.bind NoFault.check
      intro _ hij
      apply NoFault.bind NoFault.check
      intro _ hj
      apply hs.pushView rfl
      have := hs.inside' hk
      have h2 : j * a.cols ≤ a.rows * a.cols := Nat.mul_le_mul_right _ hj
      have h3 : i * a.cols + (j - i) * a.cols = j * a.cols := by
        rw [← Nat.add_mul]; congr 1; omega
      unfold Inside at *
      rcases hp : a.ptr with _ | ⟨b, off⟩
      · rw [hp] at this
        simp only [Option.map_none, Obj.size] at this ⊢
        omega
      · rw [hp] at this
        simp only [Option.map_some, Obj.size] at this ⊢
        refine ⟨this.1, fun buf hb => ?_⟩
        have h1 := this.2 buf hb
        omega
  | viewResize k r c =>
    rcases hk : (Store.mk h objs).obj k with _ | a
    · simp only [step, hk]; exact hs
    · simp only [step, hk]
      apply NoFault.bind NoFault.check
      intro _ hi
      apply hs.pushView rfl
      have := hs.inside' hk
      simp only [Obj.size] at this hi ⊢
      rw [← hi]
      exact this
  | resize k r c =>
    rcases hk : (Store.mk h objs).obj k with _ | o
    · simp only [step, hk]; exact hs
    · simp only [step, hk]
      obtain ⟨h', o', he, _, _, hs'⟩ := resizeObj_sound (g := g) hs hk r c
      simp only [he, bind_ok', pure_ok]
      exact hs'
  | assign k l =>
    rcases hk : (Store.mk h objs).obj k with _ | o
    · simp only [step, hk]; exact hs
    · rcases hl : (Store.mk h objs).obj l with _ | b
      · simp only [step, hk, hl]; exact hs
      · simp only [step, hk, hl]
        obtain ⟨h', o', he, hr, hc, hs'⟩ := resizeObj_sound (g := g) hs hk b.rows b.cols
        simp only [he, bind_ok']
        have hlt : k < objs.length := obj_lt hk
        have hd : Inside h' o'.ptr o'.size := by
          refine hs'.inside' (k := k) ?_
          rw [obj_set _ _ _ _ _ hlt, if_pos rfl]
        have hb : Inside h' b.ptr b.size := by
          by_cases hkl : k = l
          · subst hkl
            rw [hk] at hl; cases hl
            have : resizeObj g h o o.rows o.cols = .ok (h, o) := by simp [resizeObj]
            rw [this] at he
            cases he
            exact hd
          · refine hs'.inside' (k := l) ?_
            rw [obj_set _ _ _ _ _ hlt, if_neg hkl]
            exact hl
        apply NoFault.bind (copyCells_safe hd hb)
        intro h'' hh
        exact hs'.sameShape hh
  | write k i x =>
    rcases hk : (Store.mk h objs).obj k with _ | o
    · simp only [step, hk]; exact hs
    · simp only [step, hk]
      apply NoFault.bind NoFault.check
      intro _ hi
      apply NoFault.bind ((hs.inside' hk).store hi)
      intro h' hh
      exact hs.sameShape hh
  | destroy k =>
    rcases hk : (Store.mk h objs).obj k with _ | o
    · simp only [step, hk]; exact hs
    · simp only [step, hk]
      have hlt : k < objs.length := obj_lt hk
      have hobj : ∀ (h' : Heap α) j, (Store.mk h' (objs.set k none)).obj j =
          if j = k then none else (Store.mk h objs).obj j := by
        intro h' j
        rw [obj_set _ _ _ _ _ hlt]
        by_cases hjk : k = j
        · simp [hjk]
        · rw [if_neg hjk, if_neg (fun e => hjk e.symm)]; rfl
      cases hv : o.isView with
      | true =>
        simp only [if_true, bind_ok', pure_ok]
        refine Sound.mk' ?_ ?_ ?_ ?_
        · intro j p hj
          rw [hobj] at hj
          split at hj
          · simp at hj
          · exact hs.inside' (k := j) hj
        · intro j p hj
          rw [hobj] at hj
          split at hj
          · simp at hj
          · exact hs.owns j p hj
        · intro j l o1 o2 b off off' hj hl
          rw [hobj] at hj hl
          split at hj
          · simp at hj
          · split at hl
            · simp at hl
            · exact hs.exclusive j l o1 o2 b off off' hj hl
        · intro b buf hb
          obtain ⟨j, p, hj, e1, e2⟩ := hs.owned b buf hb
          refine ⟨j, p, ?_, e1, e2⟩
          rw [hobj, if_neg ?_]
          · exact hj
          · rintro rfl
            rw [hk] at hj; cases hj
            rw [hv] at e1; simp at e1
      | false =>
        obtain ⟨h', hf, _, hs'⟩ := hs.freeOwner (objs' := objs.set k none) hk hv none
          (by rintro o' ⟨⟩) (by rintro o' ⟨⟩) hobj
        simp only [Bool.false_eq_true, if_false, hf, bind_ok', pure_ok]
        exact hs'

theorem run_safe (g : Nat → Nat → α) (ops : List (Op α)) (s : Store α) (hs : s.Sound) :
    NoFault Sound (run g ops s) := by
  induction ops generalizing s with
  | nil => exact hs
  | cons op ops ih => exact NoFault.bind (step_safe _ s hs op) (fun s' hs' => ih s' hs')

end Store
end BeeDNN
