import Verif.Lemmas.Heap

/-! What operations leave unchanged, exact effect of the copy loop, and absence of faults. -/

namespace BeeDNN
namespace Store
open Heap
variable {α : Type}

/-- The copy loop on storage that does not overlap. -/
theorem copyCells_eq {h : Heap α} {dst src : Obj} {b off b2 o2 n : Nat} {buf buf2 : List α}
    (hd : dst.ptr = some (b, off)) (hsrc : src.ptr = some (b2, o2))
    (hb : h[b]? = some (some buf)) (hb2 : h[b2]? = some (some buf2))
    (hl : off + n ≤ buf.length) (hl2 : o2 + n ≤ buf2.length)
    (hds : n ≤ dst.size) (hss : n ≤ src.size)
    (hdis : b2 ≠ b ∨ o2 + n ≤ off ∨ off + n ≤ o2 ∨ off = o2) :
    ∃ buf', copyCells h n dst src = .ok (h.set b (some buf')) ∧ buf'.length = buf.length ∧
      ∀ p, buf'[p]? = if off ≤ p ∧ p < off + n then buf2[o2 + (p - off)]? else buf[p]? := by
  have hbl := lt_of_getElem? hb
  have key := forN_inv (n := n) (f := fun i (h : Heap α) => (do
      check (i < src.size)
      let x ← h.load src.ptr i
      check (i < dst.size)
      h.store dst.ptr i x : Out (Heap α))) (s := h)
    (fun i h' => ∃ buf', h' = h.set b (some buf') ∧ buf'.length = buf.length ∧
      ∀ p, buf'[p]? = if off ≤ p ∧ p < off + i then buf2[o2 + (p - off)]? else buf[p]?)
    ⟨buf, by
      apply List.ext_getElem?
      intro c
      rw [Heap.getElem?_set]
      split
      · rename_i hc; rw [← hc.1, hb]
      · rfl, rfl, by intro p; rw [if_neg (by omega)]⟩
    (by
      rintro i hi h' ⟨buf', rfl, hlen, hp⟩
      have hget : (h.set b (some buf'))[b]? = some (some buf') := by
        rw [Heap.getElem?_set, if_pos ⟨rfl, hbl⟩]
      have hsrcv : Heap.load (h.set b (some buf')) src.ptr i = .ok (buf2[o2 + i]'(by omega)) := by
        rw [hsrc]
        by_cases hbb : b2 = b
        · subst hbb
          rw [hb] at hb2; cases hb2
          rw [load_eq hget (by omega)]
          congr 1
          have := hp (o2 + i)
          rw [List.getElem?_eq_getElem (by omega)] at this
          split at this
          · rename_i hc
            rcases hdis with h1 | h1 | h1 | h1
            · exact absurd rfl h1
            · omega
            · omega
            · subst h1; omega
          · rw [List.getElem?_eq_getElem (by omega)] at this
            exact Option.some.inj this
        · rw [load_eq (buf := buf2) (by rw [Heap.getElem?_set, if_neg (by omega)]; exact hb2) (by omega)]
      refine ⟨_, ?_, buf'.set (off + i) (buf2[o2 + i]'(by omega)), rfl, by simp [hlen], ?_⟩
      · rw [check_true (show i < src.size by omega)]
        simp only [bind_ok']
        rw [hsrcv]
        simp only [bind_ok']
        rw [check_true (show i < dst.size by omega), hd]
        simp only [bind_ok']
        rw [store_eq hget (by omega), List.set_set]
      · intro p
        rw [List.getElem?_set]
        by_cases hpi : off + i = p
        · subst hpi
          rw [if_pos rfl, if_pos (by omega), if_pos (by omega),
            List.getElem?_eq_getElem (by omega)]
          congr 2; omega
        · rw [if_neg hpi, hp p]
          by_cases hc : off ≤ p ∧ p < off + i
          · rw [if_pos hc, if_pos (by omega)]
          · rw [if_neg hc, if_neg (by omega)])
  obtain ⟨h', he, buf', rfl, hlen, hp⟩ := key
  exact ⟨buf', he, hlen, hp⟩

theorem store_cases {h h' : Heap α} {p : Ptr} {i : Nat} {x : α} (he : h.store p i x = .ok h') :
    ∃ b off buf, p = some (b, off) ∧ h[b]? = some (some buf) ∧ off + i < buf.length ∧
      h' = h.set b (some (buf.set (off + i) x)) := by
  rcases p with _ | ⟨c, off⟩
  · cases he
  · simp only [Heap.store] at he
    rcases hc : h[c]? with _ | _ | buf
    · rw [hc] at he; cases he
    · rw [hc] at he; cases he
    · rw [hc] at he
      simp only [wr] at he
      split at he
      · simp only [Except.map] at he
        cases he
        exact ⟨c, off, buf, rfl, hc, ‹_›, rfl⟩
      · simp [Except.map] at he

/-- The copy loop only writes to the block of its destination. -/
theorem copyCells_frame {h h' : Heap α} {n : Nat} {dst src : Obj}
    (he : copyCells h n dst src = .ok h') :
    h'.length = h.length ∧ ∀ b, ¬ dst.refers b → h'[b]? = h[b]? := by
  have key : ∀ m h'', copyCells h m dst src = .ok h'' →
      h''.length = h.length ∧ ∀ b, ¬ dst.refers b → h''[b]? = h[b]? := by
    intro m
    induction m with
    | zero => intro h'' e; cases e; exact ⟨rfl, fun _ _ => rfl⟩
    | succ m ih =>
      intro h'' e
      unfold copyCells at e ih
      rw [forN_succ] at e
      rcases hm : forN m (fun i (h : Heap α) => (do
          check (i < src.size)
          let x ← h.load src.ptr i
          check (i < dst.size)
          h.store dst.ptr i x : Out (Heap α))) h with er | h1
      · rw [hm] at e; cases e
      · rw [hm] at e
        obtain ⟨e0, e1⟩ := ih h1 hm
        simp only [bind_ok] at e
        by_cases c1 : m < src.size
        · rw [check_true c1] at e
          simp only [bind_ok'] at e
          rcases hx : Heap.load h1 src.ptr m with er | x
          · rw [hx] at e; cases e
          · rw [hx] at e
            simp only [bind_ok'] at e
            by_cases c2 : m < dst.size
            · rw [check_true c2] at e
              simp only [bind_ok'] at e
              obtain ⟨c, off, buf, hp, hc, _, rfl⟩ := store_cases e
              refine ⟨by simp [e0], fun b hb => ?_⟩
              rw [Heap.getElem?_set, if_neg, e1 b hb]
              rintro ⟨rfl, _⟩
              exact hb ⟨off, hp⟩
            · rw [check_false c2] at e; cases e
        · rw [check_false c1] at e; cases e
  exact key n h' he

/-- The three outcomes of `resize`. -/
theorem resizeObj_cases {g : Nat → α} {h h' : Heap α} {o o' : Obj} {r c : Nat}
    (he : resizeObj g h o r c = .ok (h', o')) :
    (r * c = o.size ∧ h' = h ∧ o' = { o with rows := r, cols := c }) ∨
    (r * c ≠ o.size ∧ o.isView = true ∧ h' = h ++ [some (tab (r * c) g)] ∧
      o' = ⟨r, c, some (h.length, 0), false⟩) ∨
    (r * c ≠ o.size ∧ o.isView = false ∧ ∃ h1, h.free o.ptr = .ok h1 ∧
      h' = h1 ++ [some (tab (r * c) g)] ∧ o' = ⟨r, c, some (h1.length, 0), false⟩) := by
  unfold resizeObj at he
  split at he
  · rename_i h1
    cases he
    left
    refine ⟨by rw [h1.1, h1.2]; rfl, rfl, ?_⟩
    rw [h1.1, h1.2]
  · split at he
    · rename_i h2
      cases he
      exact Or.inl ⟨h2, rfl, rfl⟩
    · rename_i h2
      cases hv : o.isView with
      | true =>
        rw [hv] at he
        simp only [if_true, bind_ok', pure_ok, Heap.alloc] at he
        cases he
        exact Or.inr (Or.inl ⟨h2, rfl, rfl, rfl⟩)
      | false =>
        rw [hv] at he
        simp only [Bool.false_eq_true, if_false] at he
        rcases hf : h.free o.ptr with er | h1
        · rw [hf] at he; cases he
        · rw [hf] at he
          simp only [bind_ok', pure_ok, Heap.alloc] at he
          cases he
          exact Or.inr (Or.inr ⟨h2, rfl, h1, rfl, rfl, rfl⟩)

theorem free_frame {h h' : Heap α} {p : Ptr} (hf : h.free p = .ok h') :
    h'.length = h.length ∧ (∀ b, (∀ off, p ≠ some (b, off)) → h'[b]? = h[b]?) ∧
    (∀ b off, p = some (b, off) → h'[b]? = some none) := by
  rcases p with _ | ⟨c, off⟩
  · cases hf
    exact ⟨rfl, fun _ _ => rfl, by rintro b off ⟨⟩⟩
  · simp only [Heap.free] at hf
    rcases hc : h[c]? with _ | _ | buf
    · rw [hc] at hf; cases hf
    · rw [hc] at hf; cases hf
    · rw [hc] at hf
      simp only at hf
      split at hf
      · cases hf
        refine ⟨by simp, ?_, ?_⟩
        · intro b hb
          rw [Heap.getElem?_set, if_neg]
          rintro ⟨rfl, _⟩
          exact hb off rfl
        · rintro b off' ⟨⟩
          rw [Heap.getElem?_set, if_pos ⟨rfl, lt_of_getElem? hc⟩]
      · cases hf

theorem resizeObj_frame {g : Nat → α} {h h' : Heap α} {o o' : Obj} {r c : Nat}
    (he : resizeObj g h o r c = .ok (h', o')) :
    h.length ≤ h'.length ∧ (∀ b, b < h.length → ¬ o.refers b → h'[b]? = h[b]?) ∧
    (∀ b, o'.refers b → o.refers b ∨ h.length ≤ b) := by
  rcases resizeObj_cases he with ⟨_, rfl, rfl⟩ | ⟨_, _, rfl, rfl⟩ | ⟨_, _, h1, hf, rfl, rfl⟩
  · exact ⟨Nat.le_refl _, fun _ _ _ => rfl, fun b hb => Or.inl hb⟩
  · refine ⟨by simp, fun b hb _ => ?_, ?_⟩
    · rw [getElem?_snoc, if_neg (by omega)]
    · rintro b ⟨off, hb⟩
      simp at hb
      right; omega
  · obtain ⟨hl, h2, _⟩ := free_frame hf
    refine ⟨by simp [hl], fun b hb hn => ?_, ?_⟩
    · rw [getElem?_snoc, if_neg (by omega), h2 b (fun off e => hn ⟨off, e⟩)]
    · rintro b ⟨off, hb⟩
      simp at hb
      right; omega

/-- What one operation can change: blocks of the object it targets; nothing else, and objects other
than its target stay as they are; new references go to new blocks, to blocks of the target, or to blocks
of the viewed object. -/
theorem step_frame {g : Nat → α} {s s' : Store α} {op : Op α} (he : step g s op = .ok s') :
    s.heap.length ≤ s'.heap.length ∧
    (∀ b, b < s.heap.length → (∀ k o, op.target = some k → s.obj k = some o → ¬ o.refers b) →
      s'.heap[b]? = s.heap[b]?) ∧
    (∀ j o, s.obj j = some o → op.target ≠ some j → s'.obj j = some o) ∧
    (∀ j o b, s'.obj j = some o → o.refers b → s.heap.length ≤ b ∨
      ∃ i p, s.obj i = some p ∧ p.refers b ∧
        (i = j ∨ op.viewed = some i)) := by
  obtain ⟨h, objs⟩ := s
  -- the four ways of changing the list of objects
  have push : ∀ (h' : Heap α) (x : Obj), h.length ≤ h'.length → (∀ b, b < h.length → h'[b]? = h[b]?) →
      (∀ b, x.refers b → h.length ≤ b ∨ ∃ i p, (Store.mk h objs).obj i = some p ∧ p.refers b ∧
        op.viewed = some i) →
      h.length ≤ h'.length ∧
      (∀ b, b < h.length → (∀ k o, op.target = some k → (Store.mk h objs).obj k = some o → ¬ o.refers b) →
        h'[b]? = h[b]?) ∧
      (∀ j o, (Store.mk h objs).obj j = some o → op.target ≠ some j →
        (Store.mk h' (objs ++ [some x])).obj j = some o) ∧
      (∀ j o b, (Store.mk h' (objs ++ [some x])).obj j = some o → o.refers b → h.length ≤ b ∨
        ∃ i p, (Store.mk h objs).obj i = some p ∧ p.refers b ∧ (i = j ∨ op.viewed = some i)) := by
    intro h' x h1 h2 h3
    refine ⟨h1, fun b hb _ => h2 b hb, ?_, ?_⟩
    · intro j o hj _
      rw [obj_append, if_neg (Nat.ne_of_lt (obj_lt hj))]; exact hj
    · intro j o b hj hb
      rw [obj_append] at hj
      split at hj
      · cases hj
        rcases h3 b hb with h4 | ⟨i, p, h4, h5, h6⟩
        · exact Or.inl h4
        · exact Or.inr ⟨i, p, h4, h5, Or.inr h6⟩
      · exact Or.inr ⟨j, o, hj, hb, Or.inl rfl⟩
  have same : h.length ≤ h.length ∧
      (∀ b, b < h.length → (∀ k o, op.target = some k → (Store.mk h objs).obj k = some o → ¬ o.refers b) →
        h[b]? = h[b]?) ∧
      (∀ j o, (Store.mk h objs).obj j = some o → op.target ≠ some j →
        (Store.mk h objs).obj j = some o) ∧
      (∀ j o b, (Store.mk h objs).obj j = some o → o.refers b → h.length ≤ b ∨
        ∃ i p, (Store.mk h objs).obj i = some p ∧ p.refers b ∧ (i = j ∨ op.viewed = some i)) :=
    ⟨Nat.le_refl _, fun _ _ _ => rfl, fun _ _ hj _ => hj, fun j o b hj hb =>
      Or.inr ⟨j, o, hj, hb, Or.inl rfl⟩⟩
  have upd : ∀ (h' : Heap α) (k : Nat) (o : Obj) (x : Option Obj), (Store.mk h objs).obj k = some o →
      op.target = some k → h.length ≤ h'.length →
      (∀ b, b < h.length → ¬ o.refers b → h'[b]? = h[b]?) →
      (∀ o' b, x = some o' → o'.refers b → o.refers b ∨ h.length ≤ b) →
      h.length ≤ h'.length ∧
      (∀ b, b < h.length → (∀ k o, op.target = some k → (Store.mk h objs).obj k = some o → ¬ o.refers b) →
        h'[b]? = h[b]?) ∧
      (∀ j o, (Store.mk h objs).obj j = some o → op.target ≠ some j →
        (Store.mk h' (objs.set k x)).obj j = some o) ∧
      (∀ j o b, (Store.mk h' (objs.set k x)).obj j = some o → o.refers b → h.length ≤ b ∨
        ∃ i p, (Store.mk h objs).obj i = some p ∧ p.refers b ∧ (i = j ∨ op.viewed = some i)) := by
    intro h' k o x hk ht h1 h2 h3
    have hlt : k < objs.length := obj_lt hk
    refine ⟨h1, fun b hb hn => h2 b hb (hn k o ht hk), ?_, ?_⟩
    · intro j p hj hne
      rw [obj_set _ _ _ _ _ hlt, if_neg (fun e => hne (by rw [ht, e]))]; exact hj
    · intro j p b hj hb
      rw [obj_set _ _ _ _ _ hlt] at hj
      split at hj
      · rename_i hkj; subst hkj
        rcases h3 p b hj hb with h4 | h4
        · exact Or.inr ⟨k, o, hk, h4, Or.inl rfl⟩
        · exact Or.inl h4
      · exact Or.inr ⟨j, p, hj, hb, Or.inl rfl⟩
  cases op with
  | mkEmpty =>
    cases he
    exact push h _ (Nat.le_refl _) (fun _ _ => rfl) (by rintro b ⟨off, hb⟩; simp at hb)
  | mk r c =>
    cases he
    refine push _ _ (by simp) (fun b hb => ?_) ?_
    · rw [getElem?_snoc, if_neg (Nat.ne_of_lt hb)]
    · rintro b ⟨off, hb⟩; simp at hb; left; omega
  | copy k =>
    rcases hk : (Store.mk h objs).obj k with _ | a
    · simp only [step, hk] at he; cases he; exact same
    · simp only [step, hk, Heap.alloc] at he
      rcases hc : copyCells (h ++ [some (tab (a.rows * a.cols) g)])
        (Obj.size ⟨a.rows, a.cols, some (h.length, 0), false⟩) ⟨a.rows, a.cols, some (h.length, 0), false⟩ a
        with er | h'
      · rw [hc] at he; cases he
      · rw [hc] at he; cases he
        obtain ⟨hlen, hf⟩ := copyCells_frame hc
        refine push _ _ (by rw [hlen]; simp) (fun b hb => ?_) ?_
        · rw [hf b (by rintro ⟨off, hb'⟩; simp at hb'; omega), getElem?_snoc, if_neg (by omega)]
        · rintro b ⟨off, hb⟩; simp at hb; left; omega
  | row k i =>
    rcases hk : (Store.mk h objs).obj k with _ | a
    · simp only [step, hk] at he; cases he; exact same
    · simp only [step, hk] at he
      by_cases c1 : i < a.rows
      · rw [check_true c1] at he; cases he
        refine push h _ (Nat.le_refl _) (fun _ _ => rfl) ?_
        rintro b ⟨off, hb⟩
        rcases hp : a.ptr with _ | ⟨c, off'⟩
        · rw [hp] at hb; simp at hb
        · rw [hp] at hb; simp at hb
          exact Or.inr ⟨k, a, hk, ⟨off', by rw [hp, hb.1]⟩, rfl⟩
      · rw [check_false c1] at he; cases he
  | topRows k n =>
    rcases hk : (Store.mk h objs).obj k with _ | a
    · simp only [step, hk] at he; cases he; exact same
    · simp only [step, hk] at he
      by_cases c1 : n < a.rows
      · rw [check_true c1] at he; cases he
        exact push h _ (Nat.le_refl _) (fun _ _ => rfl) (fun b hb => Or.inr ⟨k, a, hk, hb, rfl⟩)
      · rw [check_false c1] at he; cases he
  | viewRow k i j =>
    rcases hk : (Store.mk h objs).obj k with _ | a
    · simp only [step, hk] at he; cases he; exact same
    · simp only [step, hk] at he
      by_cases c1 : i < j
      · rw [check_true c1] at he
        by_cases c2 : j ≤ a.rows
        · rw [check_true c2] at he; cases he
          refine push h _ (Nat.le_refl _) (fun _ _ => rfl) ?_
          rintro b ⟨off, hb⟩
          rcases hp : a.ptr with _ | ⟨c, off'⟩
          · rw [hp] at hb; simp at hb
          · rw [hp] at hb; simp at hb
            exact Or.inr ⟨k, a, hk, ⟨off', by rw [hp, hb.1]⟩, rfl⟩
        · rw [check_false c2] at he; cases he
      · rw [check_false c1] at he; cases he
  | viewResize k r c =>
    rcases hk : (Store.mk h objs).obj k with _ | a
    · simp only [step, hk] at he; cases he; exact same
    · simp only [step, hk] at he
      by_cases c1 : a.size = r * c
      · rw [check_true c1] at he; cases he
        exact push h _ (Nat.le_refl _) (fun _ _ => rfl) (fun b hb => Or.inr ⟨k, a, hk, hb, rfl⟩)
      · rw [check_false c1] at he; cases he
  | resize k r c =>
    rcases hk : (Store.mk h objs).obj k with _ | o
    · simp only [step, hk] at he; cases he; exact same
    · simp only [step, hk] at he
      rcases hc : resizeObj g h o r c with er | ⟨h', o'⟩
      · rw [hc] at he; cases he
      · rw [hc] at he; cases he
        obtain ⟨h1, h2, h3⟩ := resizeObj_frame hc
        exact upd h' k o (some o') hk rfl h1 h2 (by rintro o'' b ⟨⟩ hb; exact h3 b hb)
  | assign k l =>
    rcases hk : (Store.mk h objs).obj k with _ | o
    · simp only [step, hk] at he; cases he; exact same
    · rcases hl : (Store.mk h objs).obj l with _ | b
      · simp only [step, hk, hl] at he; cases he; exact same
      · simp only [step, hk, hl] at he
        rcases hc : resizeObj g h o b.rows b.cols with er | ⟨h', o'⟩
        · rw [hc] at he; cases he
        · rw [hc] at he
          simp only [bind_ok'] at he
          rcases hd : copyCells h' o'.size o' b with er | h''
          · rw [hd] at he; cases he
          · rw [hd] at he; cases he
            obtain ⟨h1, h2, h3⟩ := resizeObj_frame hc
            obtain ⟨hlen, hf⟩ := copyCells_frame hd
            refine upd h'' k o (some o') hk rfl (by omega) ?_ (by rintro o'' b ⟨⟩ hb; exact h3 b hb)
            · intro b0 hb0 hn
              have : ¬ o'.refers b0 := fun hr => by
                rcases h3 b0 hr with h5 | h5
                · exact hn h5
                · omega
              rw [hf b0 this, h2 b0 hb0 hn]
  | write k i x =>
    rcases hk : (Store.mk h objs).obj k with _ | o
    · simp only [step, hk] at he; cases he; exact same
    · simp only [step, hk] at he
      by_cases c1 : i < o.size
      · rw [check_true c1] at he
        simp only [bind_ok'] at he
        rcases hst : Heap.store h o.ptr i x with er | h'
        · rw [hst] at he; cases he
        · rw [hst] at he; cases he
          obtain ⟨c, off, buf, hp, hc, _, rfl⟩ := store_cases hst
          refine ⟨by simp, ?_, fun _ _ hj _ => hj, fun j o b hj hb =>
            Or.inr ⟨j, o, hj, hb, Or.inl rfl⟩⟩
          intro b hb hn
          simp only
          rw [Heap.getElem?_set, if_neg]
          rintro ⟨rfl, _⟩
          exact hn k o rfl hk ⟨off, hp⟩
      · rw [check_false c1] at he; cases he
  | destroy k =>
    rcases hk : (Store.mk h objs).obj k with _ | o
    · simp only [step, hk] at he; cases he; exact same
    · simp only [step, hk] at he
      cases hv : o.isView with
      | true =>
        rw [hv] at he
        simp only [if_true, bind_ok', pure_ok] at he
        cases he
        exact upd h k o none hk rfl (Nat.le_refl _) (fun _ _ _ => rfl) (by rintro o' b ⟨⟩)
      | false =>
        rw [hv] at he
        simp only [Bool.false_eq_true, if_false] at he
        rcases hf : h.free o.ptr with er | h1
        · rw [hf] at he; cases he
        · rw [hf] at he
          simp only [bind_ok', pure_ok] at he
          cases he
          obtain ⟨e1, e2, _⟩ := free_frame hf
          exact upd h1 k o none hk rfl (by omega)
            (fun b _ hn => e2 b (fun off e => hn ⟨off, e⟩)) (by rintro o' b ⟨⟩)

end Store
end BeeDNN
