import Verif.Lemmas.HeapFrame

/-! Absence of faults under the preconditions of `Op.pre`. -/

namespace BeeDNN
namespace Store
open Heap
variable {α : Type}

theorem read_eq {s : Store α} {k : Nat} {o : Obj} (hk : s.obj k = some o) (i : Nat) :
    s.read k i = if i < o.size then s.heap.load o.ptr i else .error .assertFail := by
  unfold read
  rw [hk]
  simp only
  by_cases h : i < o.size
  · rw [check_true h, if_pos h]; rfl
  · rw [check_false h, if_neg h]; rfl

/-- `read_eq` with the size given up to equality. -/
theorem read_eq' {s : Store α} {k : Nat} {o : Obj} (hk : s.obj k = some o) {n : Nat} (hn : o.size = n)
    (i : Nat) : s.read k i = if i < n then s.heap.load o.ptr i else .error .assertFail := by
  subst hn; exact read_eq hk i

theorem read_congr {s s' : Store α} {k : Nat} {o : Obj} (hk : s.obj k = some o)
    (hk' : s'.obj k = some o) (hh : ∀ b, o.refers b → s'.heap[b]? = s.heap[b]?) (i : Nat) :
    s'.read k i = s.read k i := by
  rw [read_eq hk, read_eq hk']
  rcases hp : o.ptr with _ | ⟨b, off⟩
  · rfl
  · simp only [Heap.load]
    rw [hh b ⟨off, hp⟩]

/-- The cells `p[0..n-1]` are allocated. -/
def Acc (h : Heap α) (p : Ptr) (n : Nat) : Prop :=
  n = 0 ∨ ∃ b off buf, p = some (b, off) ∧ h[b]? = some (some buf) ∧ off + n ≤ buf.length

theorem Acc.sameShape {h h' : Heap α} {p : Ptr} {n : Nat} (ha : Acc h p n) (hs : SameShape h h') :
    Acc h' p n := by
  rcases ha with h0 | ⟨b, off, buf, h1, h2, h3⟩
  · exact Or.inl h0
  · obtain ⟨buf', h4, h5⟩ := hs.2.1 b buf h2
    exact Or.inr ⟨b, off, buf', h1, h4, by omega⟩

theorem Acc.load {h : Heap α} {p : Ptr} {n i : Nat} (ha : Acc h p n) (hi : i < n) :
    ∃ x, h.load p i = .ok x := by
  rcases ha with h0 | ⟨b, off, buf, rfl, h2, h3⟩
  · omega
  · exact ⟨_, load_eq h2 (by omega)⟩

theorem Acc.store {h : Heap α} {p : Ptr} {n i : Nat} {x : α} (ha : Acc h p n) (hi : i < n) :
    ∃ h', h.store p i x = .ok h' ∧ SameShape h h' := by
  rcases ha with h0 | ⟨b, off, buf, rfl, h2, h3⟩
  · omega
  · exact ⟨_, store_eq h2 (by omega), sameShape_store h2⟩

theorem acc_of_live {s : Store α} (hs : s.Sound) {k : Nat} {o : Obj} (hk : s.obj k = some o)
    (hl : s.Live o) : Acc s.heap o.ptr o.size := by
  rcases hl with h0 | ⟨b, off, buf, h1, h2⟩
  · exact Or.inl h0
  · have := hs.inside' hk
    rw [h1] at this
    exact Or.inr ⟨b, off, buf, h1, h2, this.2 buf h2⟩

theorem owner_live {s : Store α} (hs : s.Sound) {k : Nat} {o : Obj} (hk : s.obj k = some o)
    (hv : o.isView = false) : s.Live o := by
  rcases hs.owns k o hk hv with h1 | ⟨b, buf, h1, h2, h3⟩
  · have := hs.inside' hk
    rw [h1] at this
    exact Or.inl this
  · exact Or.inr ⟨b, 0, buf, h1, h2⟩

theorem copyCells_ok {h : Heap α} {n : Nat} {dst src : Obj}
    (hd : Acc h dst.ptr dst.size) (hsrc : Acc h src.ptr src.size) (h1 : n ≤ dst.size)
    (h2 : n ≤ src.size) : ∃ h', copyCells h n dst src = .ok h' := by
  unfold copyCells
  obtain ⟨h', he, _⟩ := forN_inv (n := n) (s := h) (f := fun i (h : Heap α) => (do
      check (i < src.size)
      let x ← h.load src.ptr i
      check (i < dst.size)
      h.store dst.ptr i x : Out (Heap α))) (fun _ h' => SameShape h h') (SameShape.refl h)
    (by
      intro i hi h' hh
      obtain ⟨x, hx⟩ := (hsrc.sameShape hh).load (show i < src.size by omega)
      obtain ⟨h'', hst, hh'⟩ := (hd.sameShape hh).store (x := x) (show i < dst.size by omega)
      refine ⟨h'', ?_, hh.trans hh'⟩
      rw [check_true (show i < src.size by omega)]
      simp only [bind_ok']
      rw [hx]
      simp only [bind_ok']
      rw [check_true (show i < dst.size by omega)]
      exact hst)
  exact ⟨h', he⟩

theorem step_ok (g : Nat → α) (s : Store α) (hs : s.Sound) (op : Op α) (hp : op.pre s) :
    ∃ s', step g s op = .ok s' ∧ s'.Sound := by
  have hsafe := step_safe g s hs op
  suffices h : ∃ s', step g s op = .ok s' by
    obtain ⟨s', he⟩ := h
    rw [he] at hsafe
    exact ⟨s', he, hsafe⟩
  obtain ⟨h, objs⟩ := s
  cases op with
  | mkEmpty => exact ⟨_, rfl⟩
  | mk r c => exact ⟨_, rfl⟩
  | copy k =>
    rcases hk : (Store.mk h objs).obj k with _ | a
    · exact ⟨_, by simp only [step, hk]; rfl⟩
    · simp only [step, hk, Heap.alloc]
      obtain ⟨h', he⟩ := copyCells_ok (h := h ++ [some (tab (a.rows * a.cols) g)])
        (n := Obj.size ⟨a.rows, a.cols, some (h.length, 0), false⟩)
        (dst := ⟨a.rows, a.cols, some (h.length, 0), false⟩) (src := a)
        (Or.inr ⟨h.length, 0, tab (a.rows * a.cols) g, rfl, by simp, by simp [Obj.size]⟩)
        (by
          rcases acc_of_live hs hk (hp a hk) with h0 | ⟨b, off, buf, h1, h2, h3⟩
          · exact Or.inl h0
          · refine Or.inr ⟨b, off, buf, h1, ?_, h3⟩
            rw [getElem?_snoc, if_neg (Nat.ne_of_lt (lt_of_getElem? h2))]; exact h2)
        (Nat.le_refl _) (Nat.le_refl _)
      rw [he]; exact ⟨_, rfl⟩
  | row k i =>
    rcases hk : (Store.mk h objs).obj k with _ | a
    · exact ⟨_, by simp only [step, hk]; rfl⟩
    · simp only [step, hk]; rw [check_true (hp a hk)]; exact ⟨_, rfl⟩
  | topRows k n =>
    rcases hk : (Store.mk h objs).obj k with _ | a
    · exact ⟨_, by simp only [step, hk]; rfl⟩
    · simp only [step, hk]; rw [check_true (hp a hk)]; exact ⟨_, rfl⟩
  | viewRow k i j =>
    rcases hk : (Store.mk h objs).obj k with _ | a
    · exact ⟨_, by simp only [step, hk]; rfl⟩
    · simp only [step, hk]; rw [check_true (hp a hk).1]; simp only [bind_ok']
      rw [check_true (hp a hk).2]; exact ⟨_, rfl⟩
  | viewResize k r c =>
    rcases hk : (Store.mk h objs).obj k with _ | a
    · exact ⟨_, by simp only [step, hk]; rfl⟩
    · simp only [step, hk]; rw [check_true (hp a hk)]; exact ⟨_, rfl⟩
  | resize k r c =>
    rcases hk : (Store.mk h objs).obj k with _ | o
    · exact ⟨_, by simp only [step, hk]; rfl⟩
    · simp only [step, hk]
      obtain ⟨h', o', he, _⟩ := resizeObj_sound (g := g) hs hk r c
      rw [he]; exact ⟨_, rfl⟩
  | assign k l =>
    rcases hk : (Store.mk h objs).obj k with _ | o
    · exact ⟨_, by simp only [step, hk]; rfl⟩
    · rcases hl : (Store.mk h objs).obj l with _ | b
      · exact ⟨_, by simp only [step, hk, hl]; rfl⟩
      · simp only [step, hk, hl]
        obtain ⟨h', o', he, hr, hc, hs'⟩ := resizeObj_sound (g := g) hs hk b.rows b.cols
        simp only [he, bind_ok']
        have hsz : o'.size = b.size := by simp [Obj.size, hr, hc]
        obtain ⟨p1, p2, p3⟩ := hp o b hk hl
        have hlt : k < objs.length := obj_lt hk
        have hk' : (Store.mk h' (objs.set k (some o'))).obj k = some o' := by
          rw [obj_set _ _ _ _ _ hlt, if_pos rfl]
        have hlen : (resizeObj g h o b.rows b.cols) = .ok (h', o') := he
        have hacc : Acc h' o'.ptr o'.size ∧ Acc h' b.ptr b.size := by
          have hb := acc_of_live hs hl p1
          rcases resizeObj_cases he with ⟨e1, rfl, rfl⟩ | ⟨e1, e2, rfl, rfl⟩ | ⟨e1, e2, h1, hf, rfl, rfl⟩
          · have := acc_of_live hs hk (p2 e1.symm)
            refine ⟨?_, hb⟩
            simp only [hsz]
            rw [show b.size = o.size from e1]
            exact this
          · constructor
            · exact Or.inr ⟨h.length, 0, tab (b.rows * b.cols) g, rfl, by simp, by simp [Obj.size]⟩
            · rcases hb with h0 | ⟨c, off, buf, q1, q2, q3⟩
              · exact Or.inl h0
              · refine Or.inr ⟨c, off, buf, q1, ?_, q3⟩
                rw [getElem?_snoc, if_neg (Nat.ne_of_lt (lt_of_getElem? q2))]; exact q2
          · obtain ⟨f1, f2, _⟩ := free_frame hf
            constructor
            · exact Or.inr ⟨h1.length, 0, tab (b.rows * b.cols) g, rfl, by simp, by simp [Obj.size]⟩
            · rcases hb with h0 | ⟨c, off, buf, q1, q2, q3⟩
              · exact Or.inl h0
              · by_cases hz : b.size = 0
                · exact Or.inl hz
                · refine Or.inr ⟨c, off, buf, q1, ?_, q3⟩
                  have hne : ¬ o.refers c := fun hr => p3 (fun e => e1 e.symm) hz e2 c hr ⟨off, q1⟩
                  have hcl := lt_of_getElem? q2
                  simp only at hcl
                  rw [getElem?_snoc, if_neg (by omega), f2 c (fun off' e => hne ⟨off', e⟩)]
                  exact q2
        obtain ⟨h'', he'⟩ := copyCells_ok (n := o'.size) hacc.1 hacc.2 (Nat.le_refl _) hsz.le
        rw [he']; exact ⟨_, rfl⟩
  | write k i x =>
    rcases hk : (Store.mk h objs).obj k with _ | o
    · exact ⟨_, by simp only [step, hk]; rfl⟩
    · simp only [step, hk]
      obtain ⟨p1, p2⟩ := hp o hk
      obtain ⟨h', he, _⟩ := (acc_of_live hs hk p2).store (x := x) p1
      rw [check_true p1]; simp only [bind_ok']
      simp only at he
      rw [he]; exact ⟨_, rfl⟩
  | destroy k =>
    rcases hk : (Store.mk h objs).obj k with _ | o
    · exact ⟨_, by simp only [step, hk]; rfl⟩
    · simp only [step, hk]
      cases hv : o.isView with
      | true => exact ⟨_, rfl⟩
      | false =>
        rcases hs.owns k o hk hv with h1 | ⟨b, buf, h1, h2, _⟩
        · rw [h1]; exact ⟨_, rfl⟩
        · rw [h1]; simp only at h2; simp [Heap.free, h2]

/-- Assignment between equal sizes from storage in another block: only the cells behind the target
change, and they become the cells of the source. -/
theorem assign_same (g : Nat → α) {s : Store α} (hs : s.Sound) {k l : Nat} {o b : Obj}
    {B off B2 off2 : Nat} (hk : s.obj k = some o) (hl : s.obj l = some b) (hsz : o.size = b.size)
    (hpo : o.ptr = some (B, off)) (hpb : b.ptr = some (B2, off2)) (hne : B2 ≠ B)
    (ho : s.Live o) (hb : s.Live b) (hpos : 0 < o.size) :
    ∃ s', step g s (.assign k l) = .ok s' ∧ s'.Sound ∧ s'.heap.length = s.heap.length ∧
      (∀ j, s'.obj j = if j = k then some ⟨b.rows, b.cols, o.ptr, o.isView⟩ else s.obj j) ∧
      (∀ c, c ≠ B → s'.heap[c]? = s.heap[c]?) ∧
      (∀ p, s'.heap.load (some (B, 0)) p =
        if off ≤ p ∧ p < off + o.size then s.heap.load b.ptr (p - off) else s.heap.load (some (B, 0)) p) := by
  obtain ⟨s', he, hs'⟩ := step_ok g s hs (.assign k l) (by
    intro o' b' ho' hb'
    rw [hk] at ho'; rw [hl] at hb'; cases ho'; cases hb'
    exact ⟨hb, fun _ => ho, fun h => absurd hsz h⟩)
  have he0 := he
  have hacco := acc_of_live hs hk ho
  have haccb := acc_of_live hs hl hb
  obtain ⟨h, objs⟩ := s
  have hlt : k < objs.length := obj_lt hk
  have hr : resizeObj g h o b.rows b.cols = .ok (h, ⟨b.rows, b.cols, o.ptr, o.isView⟩) := by
    unfold resizeObj
    rw [if_pos (show b.rows * b.cols = o.size from hsz.symm)]
    split
    · rename_i h1; rw [h1.1, h1.2]
    · rfl
  simp only [step, hk, hl, hr, bind_ok'] at he
  rcases hacco with h0 | ⟨B', off', buf, q1, q2, q3⟩
  · omega
  rcases haccb with h0 | ⟨B2', off2', buf2, r1, r2, r3⟩
  · omega
  rw [hpo] at q1; cases q1
  rw [hpb] at r1; cases r1
  simp only at q2 r2
  obtain ⟨buf', e1, e2, e3⟩ := copyCells_eq (h := h) (n := b.size)
    (dst := ⟨b.rows, b.cols, o.ptr, o.isView⟩) (src := b)
    (buf := buf) (buf2 := buf2) hpo hpb q2 r2 (by omega) r3 (Nat.le_refl _) (Nat.le_refl _) (Or.inl hne)
  have hszd : Obj.size ⟨b.rows, b.cols, o.ptr, o.isView⟩ = b.size := rfl
  rw [hszd, e1] at he
  simp only [bind_ok', pure_ok] at he
  cases he
  have hBl := lt_of_getElem? q2
  refine ⟨_, he0, hs', by simp, ?_, ?_, ?_⟩
  · intro j
    rw [obj_set _ _ _ _ _ hlt]
    by_cases hjk : k = j
    · rw [if_pos hjk, if_pos hjk.symm]
    · rw [if_neg hjk, if_neg (fun e => hjk e.symm)]; rfl
  · intro c hc
    simp only
    rw [Heap.getElem?_set, if_neg (fun e => hc e.1.symm)]
  · intro p
    simp only [Heap.load, hpb]
    rw [Heap.getElem?_set, if_pos ⟨rfl, hBl⟩]
    simp only [q2, r2, rd]
    rw [Nat.zero_add, e3 p, hsz]
    by_cases hc : off ≤ p ∧ p < off + b.size
    · rw [if_pos hc, if_pos hc]
    · rw [if_neg hc, if_neg hc]

/-- Assignment between different sizes: the target gets a new block with the cells of the source. -/
theorem assign_other (g : Nat → α) {s : Store α} (hs : s.Sound) {k l : Nat} {o b : Obj}
    (hk : s.obj k = some o) (hl : s.obj l = some b) (hsz : o.size ≠ b.size)
    (hp : (Op.assign k l : Op α).pre s) :
    ∃ s' B, step g s (.assign k l) = .ok s' ∧ s'.Sound ∧ s.heap.length ≤ B ∧
      (∀ j, s'.obj j = if j = k then some ⟨b.rows, b.cols, some (B, 0), false⟩ else s.obj j) ∧
      (∀ c, c < s.heap.length → (o.isView = false → ¬ o.refers c) → s'.heap[c]? = s.heap[c]?) ∧
      (∀ i, i < b.size → s'.heap.load (some (B, 0)) i = s.heap.load b.ptr i) := by
  obtain ⟨s', he, hs'⟩ := step_ok g s hs (.assign k l) hp
  have he0 := he
  obtain ⟨p1, _, p3⟩ := hp o b hk hl
  have haccb := acc_of_live hs hl p1
  obtain ⟨h, objs⟩ := s
  have hlt : k < objs.length := obj_lt hk
  simp only [step, hk, hl] at he
  rcases hc : resizeObj g h o b.rows b.cols with er | ⟨h', o'⟩
  · rw [hc] at he; cases he
  · rw [hc] at he
    simp only [bind_ok'] at he
    rcases hd : copyCells h' o'.size o' b with er | h''
    · rw [hd] at he; cases he
    · rw [hd] at he
      cases he
      -- the common part
      have main : ∀ h1 : Heap α, h1.length = h.length →
          (∀ c, c < h.length → (o.isView = false → ¬ o.refers c) → h1[c]? = h[c]?) →
          h' = h1 ++ [some (tab (b.rows * b.cols) g)] → o' = ⟨b.rows, b.cols, some (h1.length, 0), false⟩ →
          ∃ s'_1 B, step g ⟨h, objs⟩ (.assign k l) = .ok s'_1 ∧ s'_1.Sound ∧ h.length ≤ B ∧
            (∀ j, s'_1.obj j = if j = k then some ⟨b.rows, b.cols, some (B, 0), false⟩
              else (Store.mk h objs).obj j) ∧
            (∀ c, c < h.length → (o.isView = false → ¬ o.refers c) → s'_1.heap[c]? = h[c]?) ∧
            (∀ i, i < b.size → s'_1.heap.load (some (B, 0)) i = h.load b.ptr i) := by
        intro h1 hlen hfr e1 e2
        subst e1; subst e2
        refine ⟨_, h1.length, he0, hs', by omega, ?_, ?_, ?_⟩
        · intro j
          rw [obj_set _ _ _ _ _ hlt]
          by_cases hjk : k = j
          · rw [if_pos hjk, if_pos hjk.symm]
          · rw [if_neg hjk, if_neg (fun e => hjk e.symm)]; rfl
        · intro c hc1 hc2
          have := (copyCells_frame hd).2 c (by rintro ⟨off, e⟩; simp at e; omega)
          simp only
          rw [this, getElem?_snoc, if_neg (by omega), hfr c hc1 hc2]
        · intro i hi
          rcases haccb with h0 | ⟨B2, off2, buf2, r1, r2, r3⟩
          · omega
          · simp only at r2
            have hB2 := lt_of_getElem? r2
            have hget : (h1 ++ [some (tab (b.rows * b.cols) g)])[B2]? = some (some buf2) := by
              rw [getElem?_snoc, if_neg (by omega), hfr B2 hB2 ?_]
              · exact r2
              · intro hv hr
                exact p3 hsz (by omega) hv B2 hr ⟨off2, r1⟩
            obtain ⟨buf', f1, f2, f3⟩ := copyCells_eq
              (h := h1 ++ [some (tab (b.rows * b.cols) g)]) (n := b.size)
              (dst := ⟨b.rows, b.cols, some (h1.length, 0), false⟩) (src := b)
              (buf := tab (b.rows * b.cols) g) (buf2 := buf2) rfl r1 (by simp) hget (by simp [Obj.size])
              r3 (Nat.le_refl _) (Nat.le_refl _) (Or.inl (by omega))
            have hszd : Obj.size ⟨b.rows, b.cols, some (h1.length, 0), false⟩ = b.size := rfl
            rw [hszd, f1] at hd
            cases hd
            simp only [r1, Heap.load]
            rw [Heap.getElem?_set, if_pos ⟨rfl, by simp⟩]
            simp only [r2, rd]
            rw [f3, if_pos (by omega)]
            congr 1
            simp
      rcases resizeObj_cases hc with ⟨e1, _⟩ | ⟨_, e2, e3, e4⟩ | ⟨_, e2, h1, hf, e3, e4⟩
      · exact absurd e1.symm hsz
      · exact main h rfl (fun _ _ _ => rfl) e3 e4
      · obtain ⟨f1, f2, _⟩ := free_frame hf
        exact main h1 f1 (fun c _ hc2 => f2 c (fun off e => hc2 e2 ⟨off, e⟩)) e3 e4

end Store
end BeeDNN
