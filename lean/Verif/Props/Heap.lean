import Verif.Lemmas.HeapOk

/-!
# Ownership, views and aliasing (claims C05-C08)

States are `Store`s: a heap and the matrix objects.  `Sound` (Verif/Spec/Heap.lean) says what a good
memory state is; `Op.pre` says what the caller of one operation must respect.
-/

namespace BeeDNN
open Store
open Heap
variable {α : Type}

/-! ## C06 -/

/-- C06: every program, whatever its operations, keeps the memory state sound: no double free, no free
of something not owned, no out-of-bounds access, no null access.  The only faults it can meet are a failed
`assert` and the use of a view after its storage was released. -/
theorem C06_programs_sound (g : Nat → Nat → α) (ops : List (Op α)) :
    match run g ops Store.init with
    | .ok s => s.Sound
    | .error f => f = .assertFail ∨ f = .useAfterFree := by
  have := run_safe g ops Store.init sound_init
  cases h : run g ops (Store.init : Store α) with
  | ok s => rw [h] at this; exact this
  | error f => rw [h] at this; exact this

/-- A program all of whose operations meet their precondition in the state where they are executed. -/
def PreRun (g : Nat → Nat → α) : List (Op α) → Store α → Prop
  | [], _ => True
  | op :: ops, s => op.pre s ∧ ∀ s', step (g ops.length) s op = .ok s' → PreRun g ops s'

/-- C06: a program that respects the preconditions (indices in range, no released view used) meets no
fault at all. -/
theorem C06_no_fault (g : Nat → Nat → α) (ops : List (Op α)) (s : Store α) (hs : s.Sound)
    (hp : PreRun g ops s) : ∃ s', run g ops s = .ok s' ∧ s'.Sound := by
  induction ops generalizing s with
  | nil => exact ⟨s, rfl, hs⟩
  | cons op ops ih =>
    obtain ⟨s1, h1, hs1⟩ := step_ok (g ops.length) s hs op hp.1
    obtain ⟨s2, h2, hs2⟩ := ih s1 hs1 (hp.2 s1 h1)
    exact ⟨s2, by rw [run, h1]; exact h2, hs2⟩

/-- C06: nothing leaks.  Once all objects are destroyed no block is allocated. -/
theorem C06_no_leak (g : Nat → Nat → α) (ops : List (Op α)) (s : Store α)
    (hr : run g ops Store.init = .ok s) (hall : ∀ k, s.obj k = none) :
    ∀ (b : Nat) (buf : List α), s.heap[b]? ≠ some (some buf) := by
  intro b buf hb
  have h := C06_programs_sound g ops
  rw [hr] at h
  obtain ⟨k, o, hk, _⟩ := h.owned b buf hb
  rw [hall k] at hk
  cases hk

/-- C06: in a sound state destroying any object succeeds, in any order. -/
theorem C06_destroy_ok (g : Nat → Nat → α) (s : Store α) (hs : s.Sound) (ks : List Nat) :
    ∃ s', run g (ks.map Op.destroy) s = .ok s' ∧ s'.Sound := by
  apply C06_no_fault g _ s hs
  induction ks generalizing s with
  | nil => trivial
  | cons k ks ih =>
    refine ⟨trivial, fun s' h => ih s' ?_⟩
    have := step_safe (g (ks.map Op.destroy : List (Op α)).length) s hs (.destroy k)
    rw [h] at this
    exact this

example : ∃ s, run (fun _ _ => (7 : Nat)) [.mk 2 3, .row 0 1, .copy 1, .write 1 0 9, .assign 0 2,
    .destroy 2, .destroy 1, .destroy 0] Store.init = .ok s ∧ s.heap = [none, none, none] := by
  refine ⟨_, rfl, rfl⟩

/-! ## C05 -/

/-- C05: resizing to a shape of equal total size keeps pointer, ownership and memory. -/
theorem C05_resize_same_size (g : Nat → α) (s : Store α) (k r c : Nat) (o : Obj)
    (hk : s.obj k = some o) (h : r * c = o.size) :
    ∃ s', step g s (.resize k r c) = .ok s' ∧ s'.heap = s.heap ∧
      s'.obj k = some ⟨r, c, o.ptr, o.isView⟩ ∧ ∀ i, s'.read k i = s.read k i := by
  obtain ⟨hh, objs⟩ := s
  have hlt : k < objs.length := obj_lt hk
  have he : resizeObj g hh o r c = .ok (hh, ⟨r, c, o.ptr, o.isView⟩) := by
    unfold resizeObj
    rw [if_pos h]
    split
    · rename_i h1; rw [h1.1, h1.2]
    · rfl
  refine ⟨⟨hh, objs.set k (some ⟨r, c, o.ptr, o.isView⟩)⟩, by simp only [step, hk, he]; rfl, rfl, ?_, ?_⟩
  · rw [obj_set _ _ _ _ _ hlt, if_pos rfl]
  · intro i
    have h2 : (Store.mk hh (objs.set k (some ⟨r, c, o.ptr, o.isView⟩))).obj k =
        some ⟨r, c, o.ptr, o.isView⟩ := by rw [obj_set _ _ _ _ _ hlt, if_pos rfl]
    rw [read_eq' h2 h, read_eq hk]

/-- C05: resizing to a different total size gives the object a new block of the new size that nobody
else refers to; it is an owner afterwards.  If it was a view, all memory that existed stays as it was; if it
was an owner, exactly its old block is released. -/
theorem C05_resize_other_size (g : Nat → α) (s : Store α) (hs : s.Sound) (k r c : Nat) (o : Obj)
    (hk : s.obj k = some o) (h : r * c ≠ o.size) :
    ∃ s' b, step g s (.resize k r c) = .ok s' ∧ s'.Sound ∧
      s'.obj k = some ⟨r, c, some (b, 0), false⟩ ∧
      s'.heap[b]? = some (some (tab (r * c) g)) ∧
      (∀ j p, j ≠ k → s'.obj j = some p → ¬ p.refers b) ∧
      (∀ j, j ≠ k → s'.obj j = s.obj j) ∧
      (o.isView = true → ∀ d, d < s.heap.length → s'.heap[d]? = s.heap[d]?) ∧
      (o.isView = false → ∀ d, d < s.heap.length →
        s'.heap[d]? = if o.ptr = some (d, 0) then some none else s.heap[d]?) := by
  obtain ⟨s', he, hs'⟩ := step_ok g s hs (.resize k r c) trivial
  obtain ⟨hh, objs⟩ := s
  have hlt : k < objs.length := obj_lt hk
  simp only [step, hk] at he
  rcases hc : resizeObj g hh o r c with er | ⟨h', o'⟩
  · rw [hc] at he; cases he
  · rw [hc] at he; cases he
    have hobj : ∀ j, j ≠ k → (Store.mk h' (objs.set k (some o'))).obj j = (Store.mk hh objs).obj j := by
      intro j hj
      rw [obj_set _ _ _ _ _ hlt, if_neg (fun e => hj e.symm)]; rfl
    rcases resizeObj_cases hc with ⟨e1, _⟩ | ⟨_, e2, rfl, rfl⟩ | ⟨_, e2, h1, hf, rfl, rfl⟩
    · exact absurd e1 h
    · refine ⟨_, hh.length, by simp only [step, hk, hc]; rfl, hs', ?_, ?_, ?_, hobj, ?_, ?_⟩
      · rw [obj_set _ _ _ _ _ hlt, if_pos rfl]
      · simp
      · rintro j p hj hp ⟨off, hr⟩
        rw [hobj j hj] at hp
        have := hs.block_lt hp hr
        simp at this
      · intro _ d hd
        simp only at hd ⊢
        rw [getElem?_snoc, if_neg (by omega)]
      · intro h3; rw [e2] at h3; cases h3
    · obtain ⟨f1, f2, f3⟩ := free_frame hf
      refine ⟨_, h1.length, by simp only [step, hk, hc]; rfl, hs', ?_, ?_, ?_, hobj, ?_, ?_⟩
      · rw [obj_set _ _ _ _ _ hlt, if_pos rfl]
      · simp
      · rintro j p hj hp ⟨off, hr⟩
        rw [hobj j hj] at hp
        have := hs.block_lt hp hr
        simp at this
        omega
      · intro h3; rw [e2] at h3; cases h3
      · intro _ d hd
        simp only at hd ⊢
        rw [getElem?_snoc, if_neg (by omega)]
        rcases hs.owns k o hk e2 with h4 | ⟨b, buf, h4, _, _⟩
        · rw [if_neg (by rw [h4]; simp)]
          exact f2 d (by rw [h4]; simp)
        · by_cases hbd : b = d
          · subst hbd
            rw [if_pos h4]
            exact f3 b 0 h4
          · rw [if_neg (by rw [h4]; simp [hbd])]
            exact f2 d (by rw [h4]; simp [hbd])

example : ∃ s, run (fun _ _ => (7 : Nat)) [.mk 2 3, .write 0 4 5, .row 0 1, .resize 1 1 2, .write 1 1 8]
    Store.init = .ok s ∧ s.heap = [some [7, 7, 7, 7, 5, 7], some [7, 8]] ∧
    s.obj 1 = some ⟨1, 2, some (1, 0), false⟩ := ⟨_, rfl, rfl, rfl⟩

/-! ## C07 -/

/-- C07: an object that shares its storage with nobody (a fresh copy, see `C07_copy`) is
not affected by any later program that does not name it as target and does not create views of it. -/
theorem C07_isolated (g : Nat → Nat → α) (ops : List (Op α)) (j : Nat)
    (hops : ∀ op ∈ ops, op.target ≠ some j ∧ op.viewed ≠ some j)
    (s s' : Store α) (o : Obj) (hj : s.obj j = some o) (ha : s.Alone j)
    (hr : run g ops s = .ok s') :
    s'.obj j = some o ∧ s'.Alone j ∧ ∀ i, s'.read j i = s.read j i := by
  induction ops generalizing s with
  | nil => cases hr; exact ⟨hj, ha, fun _ => rfl⟩
  | cons op ops ih =>
    rw [run] at hr
    rcases h1 : step (g ops.length) s op with er | s1
    · rw [h1] at hr; cases hr
    · rw [h1] at hr
      obtain ⟨t1, t2⟩ := hops op (by simp)
      obtain ⟨f0, f1, f2, f3⟩ := step_frame h1
      have hj1 := f2 j o hj t1
      have hheap : ∀ b, o.refers b → s1.heap[b]? = s.heap[b]? := by
        intro b hb
        obtain ⟨hlt, hu⟩ := ha o b hj hb
        apply f1 b hlt
        intro k p hk hp hpb
        have := hu k p hp hpb
        subst this
        exact t1 hk
      have ha1 : s1.Alone j := by
        intro o' b ho' hb
        rw [hj1] at ho'; cases ho'
        obtain ⟨hlt, hu⟩ := ha o b hj hb
        refine ⟨by omega, ?_⟩
        intro i p hp hpb
        rcases f3 i p b hp hpb with h2 | ⟨i', p', h2, h3, h4⟩
        · omega
        · have := hu i' p' h2 h3
          subst this
          rcases h4 with h4 | h4
          · exact h4.symm
          · exact absurd h4 t2
      obtain ⟨r1, r2, r3⟩ := ih (fun op' h => hops op' (by simp [h])) s1 hj1 ha1 hr
      refine ⟨r1, r2, fun i => ?_⟩
      rw [r3 i, read_congr hj hj1 hheap]

/-- C07: conversely a program that only targets and views objects created from some point on never
changes what an older object shows, provided the newer objects do not refer to older storage. -/
theorem C07_older_objects (g : Nat → Nat → α) (ops : List (Op α)) (n H : Nat)
    (hops : ∀ op ∈ ops, (∀ k, op.target = some k → n ≤ k) ∧ (∀ k, op.viewed = some k → n ≤ k))
    (s s' : Store α) (hH : H ≤ s.heap.length)
    (hnew : ∀ i p b, n ≤ i → s.obj i = some p → p.refers b → H ≤ b)
    (hr : run g ops s = .ok s') (k : Nat) (o : Obj) (hk : s.obj k = some o) (hkn : k < n)
    (hold : ∀ b, o.refers b → b < H) :
    s'.obj k = some o ∧ ∀ i, s'.read k i = s.read k i := by
  induction ops generalizing s with
  | nil => cases hr; exact ⟨hk, fun _ => rfl⟩
  | cons op ops ih =>
    rw [run] at hr
    rcases h1 : step (g ops.length) s op with er | s1
    · rw [h1] at hr; cases hr
    · rw [h1] at hr
      obtain ⟨t1, t2⟩ := hops op (by simp)
      obtain ⟨f0, f1, f2, f3⟩ := step_frame h1
      have hk1 := f2 k o hk (fun e => by have := t1 k e; omega)
      have hheap : ∀ b, o.refers b → s1.heap[b]? = s.heap[b]? := by
        intro b hb
        have hb' := hold b hb
        apply f1 b (by omega)
        intro i p hi hp hpb
        have := hnew i p b (t1 i hi) hp hpb
        omega
      obtain ⟨r1, r2⟩ := ih (fun op' h => hops op' (by simp [h])) s1 (by omega)
        (by
          intro i p b hi hp hpb
          rcases f3 i p b hp hpb with h2 | ⟨i', p', h2, h3, h4⟩
          · omega
          · rcases h4 with h4 | h4
            · subst h4; exact hnew i' p' b hi h2 h3
            · exact hnew i' p' b (t2 i' h4) h2 h3) hr hk1
      exact ⟨r1, fun i => by rw [r2 i, read_congr hk hk1 hheap]⟩

/-- C07: a copy-constructed matrix has the shape and the cells of its source, in storage that
nothing else refers to. -/
theorem C07_copy (g : Nat → α) (s : Store α) (hs : s.Sound) (k : Nat) (a : Obj)
    (hk : s.obj k = some a) (hl : s.Live a) :
    ∃ s' o, step g s (.copy k) = .ok s' ∧ s'.Sound ∧ s'.obj s.objs.length = some o ∧
      o.rows = a.rows ∧ o.cols = a.cols ∧ o.isView = false ∧
      s'.Alone s.objs.length ∧
      (∀ j p, s.obj j = some p → s'.obj j = some p ∧ ∀ i, s'.read j i = s.read j i) ∧
      ∀ i, s'.read s.objs.length i = s.read k i := by
  obtain ⟨s', he, hs'⟩ := step_ok g s hs (.copy k) (by intro a' ha'; rw [hk] at ha'; cases ha'; exact hl)
  have hframe := step_frame he
  obtain ⟨h, objs⟩ := s
  have hacc := acc_of_live hs hk hl
  have he0 := he
  simp only [step, hk, Heap.alloc] at he
  rcases hc : copyCells (h ++ [some (tab (a.rows * a.cols) g)])
      (Obj.size ⟨a.rows, a.cols, some (h.length, 0), false⟩) ⟨a.rows, a.cols, some (h.length, 0), false⟩ a
      with er | h'
  · rw [hc] at he; cases he
  · rw [hc] at he; cases he
    have hnew : (Store.mk h' (objs ++ [some ⟨a.rows, a.cols, some (h.length, 0), false⟩])).obj
        objs.length = some ⟨a.rows, a.cols, some (h.length, 0), false⟩ := by
      rw [obj_append, if_pos rfl]
    refine ⟨_, ⟨a.rows, a.cols, some (h.length, 0), false⟩, he0, hs', hnew, rfl, rfl, rfl, ?_, ?_, ?_⟩
    · intro o b ho hb
      simp only at ho
      rw [hnew] at ho; cases ho
      obtain ⟨off, hb⟩ := hb
      simp at hb
      refine ⟨?_, ?_⟩
      · rw [← hb.1]
        have := hs'.block_lt (k := objs.length) hnew rfl
        exact this
      · rintro i p hp ⟨off', hpb⟩
        rw [obj_append] at hp
        split at hp
        · assumption
        · have := hs.block_lt (k := i) hp hpb
          simp at this
          omega
    · intro j p hj
      have hj' := hframe.2.2.1 j p hj (by simp [Op.target])
      refine ⟨hj', fun i => read_congr hj hj' (fun b hb => ?_) i⟩
      obtain ⟨off, hb⟩ := hb
      exact hframe.2.1 b (hs.block_lt hj hb) (by simp [Op.target])
    · intro i
      rw [read_eq' hnew (n := a.rows * a.cols) rfl, read_eq' hk (n := a.rows * a.cols) rfl]
      simp only [Obj.size] at hc
      by_cases hi : i < a.rows * a.cols
      · rw [if_pos hi, if_pos hi]
        rcases hacc with h0 | ⟨b, off, buf, q1, q2, q3⟩
        · simp only [Obj.size] at h0; omega
        · simp only at q2
          have hbl := lt_of_getElem? q2
          simp only [Obj.size] at q3
          obtain ⟨buf', e1, e2, e3⟩ := copyCells_eq
            (h := h ++ [some (tab (a.rows * a.cols) g)])
            (dst := ⟨a.rows, a.cols, some (h.length, 0), false⟩) (src := a)
            (n := a.rows * a.cols) (buf := tab (a.rows * a.cols) g) (buf2 := buf) rfl q1
            (by simp) (by rw [getElem?_snoc, if_neg (by omega)]; exact q2) (by simp)
            q3 (Nat.le_refl _) (Nat.le_refl _) (Or.inl (by omega))
          rw [e1] at hc
          cases hc
          rw [q1, load_eq q2 (by omega), load_eq (buf := buf')
            (by rw [Heap.getElem?_set, if_pos ⟨rfl, by simp⟩]) (by rw [e2]; simp; omega)]
          have := e3 (0 + i)
          rw [if_pos (by omega), List.getElem?_eq_getElem (by rw [e2]; simp; omega),
            List.getElem?_eq_getElem (by omega)] at this
          congr 1
          rw [Option.some.inj this]
          congr 1; omega
      · rw [if_neg hi, if_neg hi]

theorem load_off (h : Heap α) (B off i : Nat) :
    h.load (some (B, off)) i = h.load (some (B, 0)) (off + i) := by
  simp [Heap.load]

/-- C07: assigning to a row view writes through.  With `v = m.row(i)` and a source of the same width
in other storage, the row is overwritten and every other cell of `m` keeps its value. -/
theorem C07_row_assign (g : Nat → Nat → α) (s : Store α) (hs : s.Sound) (k l i : Nat) (m b : Obj)
    (hm : s.obj k = some m) (hb : s.obj l = some b) (hi : i < m.rows) (hr : b.rows = 1)
    (hc : b.cols = m.cols) (hlm : s.Live m) (hlb : s.Live b)
    (hdis : ∀ B, m.refers B → ¬ b.refers B) :
    ∃ s', run g [.row k i, .assign s.objs.length l] s = .ok s' ∧ s'.Sound ∧ s'.obj k = some m ∧
      ∀ r c, r < m.rows → c < m.cols →
        s'.read k (r * m.cols + c) = if r = i then s.read l c else s.read k (r * m.cols + c) := by
  obtain ⟨h, objs⟩ := s
  have hklt : k < objs.length := obj_lt hm
  have hllt : l < objs.length := obj_lt hb
  let v : Obj := ⟨1, m.cols, m.ptr.map (fun (b, off) => (b, off + i * m.cols)), true⟩
  have h1 : step (g 1) ⟨h, objs⟩ (.row k i) = .ok ⟨h, objs ++ [some v]⟩ := by
    simp only [step, hm]; rw [check_true hi]; rfl
  obtain ⟨s1, h1', hs1⟩ := step_ok (g 1) ⟨h, objs⟩ hs (.row k i)
    (by intro a ha; rw [hm] at ha; cases ha; exact hi)
  rw [h1] at h1'; cases h1'
  have hv : (Store.mk h (objs ++ [some v])).obj objs.length = some v := by
    rw [obj_append, if_pos rfl]
  have hb1 : (Store.mk h (objs ++ [some v])).obj l = some b := by
    rw [obj_append, if_neg (by omega)]; exact hb
  have hm1 : (Store.mk h (objs ++ [some v])).obj k = some m := by
    rw [obj_append, if_neg (by omega)]; exact hm
  have hrun : ∀ s', step (g 0) ⟨h, objs ++ [some v]⟩ (.assign objs.length l) = .ok s' →
      run g [.row k i, .assign objs.length l] ⟨h, objs⟩ = .ok s' := by
    intro s' e
    simp only [run, List.length_cons, List.length_nil]
    rw [h1]
    simp only [bind_ok]
    rw [e]; rfl
  by_cases hcz : m.cols = 0
  · obtain ⟨s', e, hs'⟩ := step_ok (g 0) _ hs1 (.assign objs.length l) (by
      intro o' b' ho' hb'
      rw [hv] at ho'; rw [hb1] at hb'; cases ho'; cases hb'
      exact ⟨hlb, fun _ => Or.inl (by simp [v, Obj.size, hcz]), by simp [v, Obj.size, hcz, hr, hc]⟩)
    refine ⟨s', hrun s' e, hs', ?_, by intro r c _ hc'; omega⟩
    exact (step_frame e).2.2.1 k m hm1 (by simp [Op.target]; omega)
  · have hpos : 0 < m.cols := Nat.pos_of_ne_zero hcz
    have hmsz : 0 < m.size := Nat.mul_pos (by omega) hpos
    rcases hlm with h0 | ⟨B, off, buf, hpm, hBm⟩
    · omega
    rcases hlb with h0 | ⟨B2, off2, buf2, hpb, hBb⟩
    · simp [Obj.size, hr, hc] at h0; omega
    have hpv : v.ptr = some (B, off + i * m.cols) := by simp [v, hpm]
    obtain ⟨s', e, hs', e1, e2, e3, e4⟩ := assign_same (g 0) hs1 (k := objs.length) (l := l) (o := v) (b := b)
      hv hb1 (by simp [v, Obj.size, hr, hc]) hpv hpb
      (fun e => hdis B ⟨off, hpm⟩ ⟨off2, by rw [hpb, e]⟩)
      (Or.inr ⟨B, _, buf, hpv, hBm⟩) (Or.inr ⟨B2, off2, buf2, hpb, hBb⟩) (by simp [v, Obj.size]; exact hpos)
    have hk' : s'.obj k = some m := by rw [e2, if_neg (by omega)]; exact hm1
    refine ⟨s', hrun s' e, hs', hk', ?_⟩
    intro r c hrr hcc
    have hidx : r * m.cols + c < m.size := by
      have : (r + 1) * m.cols ≤ m.rows * m.cols := Nat.mul_le_mul_right _ hrr
      rw [Nat.succ_mul] at this
      simp only [Obj.size]; omega
    rw [read_eq hk', if_pos hidx, hpm, load_off, e4]
    have hvs : v.size = m.cols := by simp [v, Obj.size]
    rw [hvs]
    by_cases hri : r = i
    · subst hri
      rw [if_pos (by omega), if_pos rfl, read_eq hb, if_pos (by simp [Obj.size, hr, hc]; exact hcc)]
      congr 1; omega
    · have hno : ¬ (off + i * m.cols ≤ off + (r * m.cols + c) ∧
          off + (r * m.cols + c) < off + i * m.cols + m.cols) := by
        intro ⟨g1, g2⟩
        rcases Nat.lt_or_gt_of_ne hri with hlt | hgt
        · have : (r + 1) * m.cols ≤ i * m.cols := Nat.mul_le_mul_right _ hlt
          rw [Nat.succ_mul] at this; omega
        · have : (i + 1) * m.cols ≤ r * m.cols := Nat.mul_le_mul_right _ hgt
          rw [Nat.succ_mul] at this; omega
      rw [if_neg hno, if_neg hri, read_eq hm, if_pos hidx, hpm]
      exact (load_off h B off _).symm

/-- C07: assignment to an owner from other storage gives it the shape and the cells of the
source, in storage the source does not refer to. -/
theorem C07_assign (g : Nat → α) (s : Store α) (hs : s.Sound) (k l : Nat) (o b : Obj)
    (hk : s.obj k = some o) (hl : s.obj l = some b) (hv : o.isView = false) (hlb : s.Live b)
    (hdis : ∀ B, o.refers B → ¬ b.refers B) :
    ∃ s' o', step g s (.assign k l) = .ok s' ∧ s'.Sound ∧ s'.obj k = some o' ∧
      o'.rows = b.rows ∧ o'.cols = b.cols ∧ o'.isView = false ∧
      (∀ B, o'.refers B → ¬ b.refers B) ∧
      (k ≠ l → s'.obj l = some b ∧ ∀ i, s'.read l i = s.read l i) ∧
      (∀ i, s'.read k i = s.read l i) := by
  have hlo := owner_live hs hk hv
  have hkl : k = l → b.ptr = none ∧ b.size = 0 := by
    intro e; subst e
    rw [hk] at hl; cases hl
    rcases hp : o.ptr with _ | ⟨B, off⟩
    · have := hs.inside' hk; rw [hp] at this; exact ⟨rfl, this⟩
    · exact absurd ⟨off, hp⟩ (hdis B ⟨off, hp⟩)
  by_cases hsz : o.size = b.size
  · by_cases hpos : 0 < o.size
    · rcases hlo with h0 | ⟨B, off, buf, hpo, hBo⟩
      · omega
      rcases hlb with h0 | ⟨B2, off2, buf2, hpb, hBb⟩
      · omega
      have hne : B2 ≠ B := fun e => hdis B ⟨off, hpo⟩ ⟨off2, by rw [hpb, e]⟩
      obtain ⟨s', e, hs', e1, e2, e3, e4⟩ := assign_same g hs hk hl hsz hpo hpb hne
        (Or.inr ⟨B, off, buf, hpo, hBo⟩) (Or.inr ⟨B2, off2, buf2, hpb, hBb⟩) hpos
      have hk' : s'.obj k = some ⟨b.rows, b.cols, o.ptr, o.isView⟩ := by rw [e2, if_pos rfl]
      refine ⟨s', _, e, hs', hk', rfl, rfl, hv, fun C hC => hdis C hC, ?_, ?_⟩
      · intro hkl'
        have hl' : s'.obj l = some b := by rw [e2, if_neg (fun e => hkl' e.symm)]; exact hl
        refine ⟨hl', fun i => read_congr hl hl' (fun C hC => e3 C ?_) i⟩
        rintro rfl
        exact hdis C ⟨off, hpo⟩ hC
      · intro i
        rw [read_eq hk', read_eq hl]
        have : Obj.size ⟨b.rows, b.cols, o.ptr, o.isView⟩ = b.size := rfl
        rw [this]
        by_cases hi : i < b.size
        · rw [if_pos hi, if_pos hi]
          simp only [hpo]
          rw [load_off, e4, if_pos (by omega)]
          congr 1; omega
        · rw [if_neg hi, if_neg hi]
    · -- empty matrices
      obtain ⟨s', e, hs'⟩ := step_ok g s hs (.assign k l) (by
        intro o' b' ho' hb'
        rw [hk] at ho'; rw [hl] at hb'; cases ho'; cases hb'
        exact ⟨hlb, fun _ => hlo, fun h => absurd hsz h⟩)
      have e0 := e
      obtain ⟨h, objs⟩ := s
      have hlt : k < objs.length := obj_lt hk
      have hr : resizeObj g h o b.rows b.cols = .ok (h, ⟨b.rows, b.cols, o.ptr, o.isView⟩) := by
        unfold resizeObj
        rw [if_pos (show b.rows * b.cols = o.size from hsz.symm)]
        split
        · rename_i h1; rw [h1.1, h1.2]
        · rfl
      have hz : Obj.size ⟨b.rows, b.cols, o.ptr, o.isView⟩ = 0 := by
        show b.rows * b.cols = 0
        have : b.size = 0 := by omega
        exact this
      simp only [step, hk, hl, hr, bind_ok', hz, copyCells, forN_zero, pure_ok] at e
      cases e
      have hk' : (Store.mk h (objs.set k (some ⟨b.rows, b.cols, o.ptr, o.isView⟩))).obj k =
          some ⟨b.rows, b.cols, o.ptr, o.isView⟩ := by rw [obj_set _ _ _ _ _ hlt, if_pos rfl]
      refine ⟨_, _, e0, hs', hk', rfl, rfl, hv, fun C hC => hdis C hC, ?_, ?_⟩
      · intro hkl'
        have hl' : (Store.mk h (objs.set k (some ⟨b.rows, b.cols, o.ptr, o.isView⟩))).obj l = some b := by
          rw [obj_set _ _ _ _ _ hlt, if_neg hkl']; exact hl
        exact ⟨hl', fun i => read_congr hl hl' (fun _ _ => rfl) i⟩
      · intro i
        rw [read_eq hk', read_eq hl, hz, if_neg (by omega), if_neg (by omega)]
  · have hp : (Op.assign k l : Op α).pre s := by
      intro o' b' ho' hb'
      rw [hk] at ho'; rw [hl] at hb'; cases ho'; cases hb'
      exact ⟨hlb, fun _ => hlo, fun _ _ _ B hB => hdis B hB⟩
    obtain ⟨s', B, e, hs', e1, e2, e3, e4⟩ := assign_other g hs hk hl hsz hp
    have hk' : s'.obj k = some ⟨b.rows, b.cols, some (B, 0), false⟩ := by rw [e2, if_pos rfl]
    refine ⟨s', _, e, hs', hk', rfl, rfl, rfl, ?_, ?_, ?_⟩
    · rintro C ⟨off, hC⟩ ⟨off2, hC2⟩
      have := hs.block_lt hl hC2
      simp at hC
      omega
    · intro hkl'
      have hl' : s'.obj l = some b := by rw [e2, if_neg (fun e => hkl' e.symm)]; exact hl
      refine ⟨hl', fun i => read_congr hl hl' (fun C hC => ?_) i⟩
      obtain ⟨off, hC'⟩ := hC
      exact e3 C (hs.block_lt hl hC') (fun _ hoC => hdis C hoC ⟨off, hC'⟩)
    · intro i
      rw [read_eq hk', read_eq hl]
      have : Obj.size ⟨b.rows, b.cols, some (B, 0), false⟩ = b.size := rfl
      rw [this]
      by_cases hi : i < b.size
      · rw [if_pos hi, if_pos hi]; exact e4 i hi
      · rw [if_neg hi, if_neg hi]

example : ∃ s, run (fun _ _ => (0 : Nat)) [.mk 2 2, .mk 1 2, .write 1 0 5, .write 1 1 6, .row 0 1,
    .assign 2 1, .write 1 0 9] Store.init = .ok s ∧ s.heap = [some [0, 0, 5, 6], some [9, 6]] :=
  ⟨_, rfl, rfl⟩

/-! ## C08 -/

/-- C08: a view works as long as the block behind it is allocated, and not longer. -/
theorem C08_view_valid_iff (s : Store α) (hs : s.Sound) (v : Nat) (o : Obj) (B off : Nat)
    (hv : s.obj v = some o) (hp : o.ptr = some (B, off)) (i : Nat) (hi : i < o.size) :
    ((∃ x, s.read v i = .ok x) ↔ ∃ buf, s.heap[B]? = some (some buf)) ∧
    (s.heap[B]? = some none → s.read v i = .error .useAfterFree) := by
  rw [read_eq hv, if_pos hi, hp]
  constructor
  · constructor
    · rintro ⟨x, hx⟩
      rcases hB : s.heap[B]? with _ | _ | buf
      · simp [Heap.load, hB] at hx
      · simp [Heap.load, hB] at hx
      · exact ⟨buf, rfl⟩
    · rintro ⟨buf, hB⟩
      have := hs.inside' hv
      rw [hp] at this
      have := this.2 buf hB
      exact ⟨_, load_eq hB (by omega)⟩
  · intro hB
    simp [Heap.load, hB]

/-- C08: once the owner is resized to another total size or destroyed, every read through any view of its
storage is undefined. -/
theorem C08_dangling (g : Nat → α) (s : Store α) (hs : s.Sound) (k v : Nat) (o w : Obj) (B off : Nat)
    (hk : s.obj k = some o) (hown : o.isView = false) (hpo : o.ptr = some (B, 0))
    (hv : s.obj v = some w) (hpw : w.ptr = some (B, off)) (hvk : v ≠ k) :
    (∀ r c, r * c ≠ o.size → ∃ s', step g s (.resize k r c) = .ok s' ∧
      ∀ i, i < w.size → s'.read v i = .error .useAfterFree) ∧
    (∃ s', step g s (.destroy k) = .ok s' ∧
      ∀ i, i < w.size → s'.read v i = .error .useAfterFree) := by
  have hB := hs.block_lt hk hpo
  constructor
  · intro r c hne
    obtain ⟨s', b, e, hs', _, _, _, e1, _, e2⟩ := C05_resize_other_size g s hs k r c o hk hne
    refine ⟨s', e, fun i hi => ?_⟩
    have hv' : s'.obj v = some w := by rw [e1 v hvk]; exact hv
    refine (C08_view_valid_iff s' hs' v w B off hv' hpw i hi).2 ?_
    rw [e2 hown B hB, if_pos hpo]
  · obtain ⟨s', e, hs'⟩ := step_ok g s hs (.destroy k) trivial
    have e0 := e
    obtain ⟨h, objs⟩ := s
    simp only [step, hk, hown, Bool.false_eq_true, if_false] at e
    rcases hf : h.free o.ptr with er | h1
    · rw [hf] at e; cases e
    · rw [hf] at e; cases e
      refine ⟨_, e0, fun i hi => ?_⟩
      refine (C08_view_valid_iff _ hs' v w B off ?_ hpw i hi).2 ((free_frame hf).2.2 B 0 hpo)
      rw [obj_set _ _ _ _ _ (obj_lt hk), if_neg (fun e => hvk e.symm)]; exact hv

/-- C08: assigning to an owner a non-empty view of its own storage with a different total size reads
released memory; `m = m.row(0)` for a matrix with several rows is the typical case. -/
theorem C08_self_view_assign (g : Nat → α) (s : Store α) (hs : s.Sound) (k v : Nat) (o w : Obj)
    (B off : Nat) (hk : s.obj k = some o) (hown : o.isView = false) (hpo : o.ptr = some (B, 0))
    (hv : s.obj v = some w) (hpw : w.ptr = some (B, off)) (hsz : w.size ≠ o.size) (hpos : 0 < w.size) :
    step g s (.assign k v) = .error .useAfterFree := by
  obtain ⟨h, objs⟩ := s
  obtain ⟨h', o', he, hr, hc, hs'⟩ := resizeObj_sound (g := g) hs hk w.rows w.cols
  simp only [step, hk, hv, he, bind_ok']
  have hB := hs.block_lt hk hpo
  simp only at hB
  have hfree : h'[B]? = some none := by
    rcases resizeObj_cases he with ⟨e1, _⟩ | ⟨_, e2, _⟩ | ⟨_, e2, h1, hf, rfl, rfl⟩
    · exact absurd e1 hsz
    · rw [hown] at e2; cases e2
    · obtain ⟨f1, f2, f3⟩ := free_frame hf
      rw [getElem?_snoc, if_neg (by omega)]
      exact f3 B 0 hpo
  have hsz' : o'.size = w.size := by simp [Obj.size, hr, hc]
  have : copyCells h' o'.size o' w = .error .useAfterFree := by
    unfold copyCells
    refine forN_error (k := 0) (t := h') (by omega) rfl ?_
    rw [check_true hpos]
    simp [Heap.load, hpw, hfree]
  rw [this]; rfl

/-- C08: `Matrix m(R,C); m = m.row(0);` with more than one row. -/
theorem C08_assign_own_row (g : Nat → Nat → α) (R C : Nat) (hR : 1 < R) (hC : 0 < C) :
    run g [.mk R C, .row 0 0, .assign 0 1] Store.init = .error .useAfterFree := by
  have hs : (Store.mk [some (tab (R * C) (g 2))] [some ⟨R, C, some (0, 0), false⟩,
      some ⟨1, C, some (0, 0), true⟩] : Store α).Sound := by
    have h := run_safe (fun n => if n = 1 then g 2 else g 1) [.mk R C, .row 0 0] Store.init sound_init
    have e : run (fun n => if n = 1 then g 2 else g 1) [.mk R C, .row 0 0] Store.init =
        .ok (Store.mk [some (tab (R * C) (g 2))] [some ⟨R, C, some (0, 0), false⟩,
          some ⟨1, C, some (0, 0), true⟩]) := by
      simp [run, step, Heap.alloc, Store.init, Store.obj, check_true (show 0 < R by omega)]
    rw [e] at h
    exact h
  have e1 : run g [.mk R C, .row 0 0, .assign 0 1] Store.init =
      (step (g 0) (Store.mk [some (tab (R * C) (g 2))] [some ⟨R, C, some (0, 0), false⟩,
        some ⟨1, C, some (0, 0), true⟩]) (.assign 0 1)).bind (run g []) := by
    simp [run, step, Heap.alloc, Store.init, Store.obj, check_true (show 0 < R by omega)]
  rw [e1, C08_self_view_assign (g 0) _ hs 0 1 _ _ 0 0 rfl rfl rfl rfl rfl]
  · rfl
  · simp only [Obj.size]
    intro e
    have : 2 * C ≤ R * C := Nat.mul_le_mul_right _ hR
    omega
  · simp [Obj.size]; exact hC

example : run (fun _ _ => (0 : Nat)) [.mk 2 3, .row 0 0, .destroy 0, .copy 1] Store.init =
    .error .useAfterFree := rfl

end BeeDNN
