import Verif.Lemmas.Net

/-! # What the operations on one network leave alone -/

namespace BeeDNN

/-- Layers outside of `as` are the same, live layers stay live. -/
structure Touch (as : List Nat) (w w' : World) : Prop where
  length : w'.heap.length = w.heap.length
  other : ∀ b, b ∉ as → w'.heap[b]? = w.heap[b]?
  live : ∀ (b : Nat) (l : Layer), w.heap[b]? = some (some l) → ∃ l', w'.heap[b]? = some (some l')

theorem Touch.refl (as : List Nat) (w : World) : Touch as w w := ⟨rfl, fun _ _ => rfl, fun _ l h => ⟨l, h⟩⟩

theorem Touch.trans {as : List Nat} {w w₁ w₂ : World} (h : Touch as w w₁) (h' : Touch as w₁ w₂) : Touch as w w₂ :=
  ⟨h'.length.trans h.length, fun b hb => (h'.other b hb).trans (h.other b hb), fun b l hl => by
    obtain ⟨l', hl'⟩ := h.live b l hl
    exact h'.live b l' hl'⟩

theorem Touch.mono {as bs : List Nat} {w w' : World} (h : Touch as w w') (hs : ∀ a ∈ as, a ∈ bs) : Touch bs w w' :=
  ⟨h.length, fun b hb => h.other b (fun h' => hb (hs b h')), h.live⟩

theorem touch_store {w : World} {a : Nat} {l : Layer} (l' : Layer) (h : w.heap[a]? = some (some l)) : Touch [a] w (w.store a l') := by
  refine ⟨List.length_set .., fun b hb => World.store_other l' (by simpa using hb), fun b k hk => ?_⟩
  by_cases hb : b = a
  · subst hb; exact ⟨l', World.store_same h⟩
  · exact ⟨k, (World.store_other l' hb).trans hk⟩

namespace World

theorem predictLoop_touch (e : Nat → Env) : ∀ (as : List Nat) (i : Nat) (w : World) (t o : Mat ℝ) {r : World × Mat ℝ × Mat ℝ},
    predictLoop e i as w t o = .ok r → Touch as w r.1 ∧ r.1.nets = w.nets
  | [], i, w, t, o, r, h => by
    injection h with h; subst h; exact ⟨Touch.refl _ _, rfl⟩
  | a :: as, i, w, t, o, r, h => by
    rw [predictLoop] at h
    obtain ⟨l, hl, h⟩ := ok_bind h
    obtain ⟨⟨l', o'⟩, -, h⟩ := ok_bind h
    obtain ⟨t', -, h⟩ := ok_bind h
    obtain ⟨h1, h2⟩ := predictLoop_touch e as _ _ _ _ h
    exact ⟨((touch_store l' (deref_inv hl)).mono (by simp)).trans (h1.mono (fun _ => List.mem_cons_of_mem _)), h2⟩

theorem setTrainAll_touch (b : Bool) : ∀ (as : List Nat) (w : World) {w' : World},
    setTrainAll b as w = .ok w' → Touch as w w' ∧ w'.nets = w.nets
  | [], w, r, h => by
    injection h with h; subst h; exact ⟨Touch.refl _ _, rfl⟩
  | a :: as, w, r, h => by
    rw [setTrainAll] at h
    obtain ⟨l, hl, h⟩ := ok_bind h
    obtain ⟨h1, h2⟩ := setTrainAll_touch b as _ h
    exact ⟨((touch_store _ (deref_inv hl)).mono (by simp)).trans (h1.mono (fun _ => List.mem_cons_of_mem _)), h2⟩

theorem initAll_touch (e : Nat → Env) : ∀ (as : List Nat) (i : Nat) (w : World) {w' : World},
    initAll e i as w = .ok w' → Touch as w w' ∧ w'.nets = w.nets
  | [], i, w, r, h => by
    injection h with h; subst h; exact ⟨Touch.refl _ _, rfl⟩
  | a :: as, i, w, r, h => by
    rw [initAll] at h
    obtain ⟨l, hl, h⟩ := ok_bind h
    obtain ⟨l', -, h⟩ := ok_bind h
    obtain ⟨h1, h2⟩ := initAll_touch e as _ _ h
    exact ⟨((touch_store _ (deref_inv hl)).mono (by simp)).trans (h1.mono (fun _ => List.mem_cons_of_mem _)), h2⟩

theorem cloneAll_inv (e : Nat → Env) (n : Nat) : ∀ (as : List Nat) (i : Nat) (w : World) {w' : World},
    cloneAll e n i as w = .ok w' →
      w'.nets n = { w.nets n with layers := (w.nets n).layers ++ List.range' w.heap.length as.length } ∧
      (∀ m, m ≠ n → w'.nets m = w.nets m) ∧ w'.heap.length = w.heap.length + as.length ∧
      (∀ b, b < w.heap.length → w'.heap[b]? = w.heap[b]?) ∧
      ∀ b ∈ List.range' w.heap.length as.length, ∃ l, w'.heap[b]? = some (some l)
  | [], i, w, w', h => by
    injection h with h; subst h
    exact ⟨by simp, fun _ _ => rfl, rfl, fun _ _ => rfl, by simp⟩
  | a :: as, i, w, w', h => by
    rw [cloneAll] at h
    obtain ⟨l, hl, h⟩ := ok_bind h
    obtain ⟨p, hp, h⟩ := ok_bind h
    have hlen : ((w.alloc p).add n w.heap.length).heap.length = w.heap.length + 1 := by simp [alloc]
    have hold : ∀ b, b < w.heap.length → ((w.alloc p).add n w.heap.length).heap[b]? = w.heap[b]? := fun b hb => by
      simp [alloc, List.getElem?_append_left hb]
    have hnew : ((w.alloc p).add n w.heap.length).heap[w.heap.length]? = some (some p) := by simp [alloc]
    obtain ⟨h2, h3, h4, h5, h6⟩ := cloneAll_inv e n as _ _ h
    rw [hlen] at h2 h4 h5 h6
    refine ⟨?_, ?_, ?_, ?_, ?_⟩
    · rw [h2]
      simp [add, List.range'_succ]
    · intro m hm
      rw [h3 m hm, add, setNet_other _ _ hm, alloc_nets]
    · rw [h4, List.length_cons]; omega
    · intro b hb
      rw [h5 b (by omega), hold b hb]
    · intro b hb
      rw [List.length_cons, List.range'_succ, List.mem_cons] at hb
      rcases hb with rfl | hb
      · exact ⟨p, by rw [h5 _ (by omega), hnew]⟩
      · exact h6 b hb

end World

/-- An operation on network `n` keeps ownership and leaves every other network and its layers unchanged. -/
structure Frame (n : Nat) (w w' : World) : Prop where
  owned : Owned w'
  nets : ∀ m, m ≠ n → w'.nets m = w.nets m
  layers : ∀ m, m ≠ n → ∀ a ∈ (w.nets m).layers, w'.heap[a]? = w.heap[a]?

theorem Owned.touch {w w' : World} (ho : Owned w) {as : List Nat} (ht : Touch as w w')
    (hn : ∀ m, (w'.nets m).layers = (w.nets m).layers) : Owned w' where
  live := fun n a ha => by
    rw [hn] at ha
    obtain ⟨l, hl⟩ := ho.live n a ha
    exact ht.live a l hl
  nodup := fun n => by rw [hn]; exact ho.nodup n
  disjoint := fun n m a h1 h2 => by
    rw [hn] at h1 h2
    exact ho.disjoint n m a h1 h2

theorem frame_touch {w w' : World} (ho : Owned w) {n : Nat} (ht : Touch (w.nets n).layers w w')
    (hn : ∀ m, (w'.nets m).layers = (w.nets m).layers) (hm : ∀ m, m ≠ n → w'.nets m = w.nets m) : Frame n w w' where
  owned := ho.touch ht hn
  nets := hm
  layers := fun m hmn a ha => ht.other a fun h => hmn (ho.disjoint m n a ha h)

theorem frame_add {w : World} (ho : Owned w) (n : Nat) (l : Layer) : Frame n w ((w.alloc l).add n w.heap.length) := by
  have hlt : ∀ m, ∀ a ∈ (w.nets m).layers, a < w.heap.length := fun m a ha => by
    obtain ⟨k, hk⟩ := ho.live m a ha
    exact World.lt_of_live hk
  have hold : ∀ b, b < w.heap.length → ((w.alloc l).add n w.heap.length).heap[b]? = w.heap[b]? := fun b hb => by
    simp [World.alloc, List.getElem?_append_left hb]
  have hnew : ((w.alloc l).add n w.heap.length).heap[w.heap.length]? = some (some l) := by simp [World.alloc]
  have hself : (((w.alloc l).add n w.heap.length).nets n).layers = (w.nets n).layers ++ [w.heap.length] := by simp [World.add]
  have hoth : ∀ m, m ≠ n → ((w.alloc l).add n w.heap.length).nets m = w.nets m := fun m hm => by
    rw [World.add, World.setNet_other _ _ hm, World.alloc_nets]
  have hmem : ∀ m a, a ∈ (((w.alloc l).add n w.heap.length).nets m).layers → a ∈ (w.nets m).layers ∨ (m = n ∧ a = w.heap.length) := by
    intro m a ha
    by_cases hm : m = n
    · subst hm
      rw [hself, List.mem_append, List.mem_singleton] at ha
      exact ha.imp id fun h => ⟨rfl, h⟩
    · rw [hoth m hm] at ha; exact .inl ha
  refine ⟨⟨?_, ?_, ?_⟩, hoth, fun m _ a ha => hold a (hlt m a ha)⟩
  · intro m a ha
    rcases hmem m a ha with ha | ⟨-, rfl⟩
    · obtain ⟨k, hk⟩ := ho.live m a ha
      exact ⟨k, (hold a (hlt m a ha)).trans hk⟩
    · exact ⟨l, hnew⟩
  · intro m
    by_cases hm : m = n
    · subst hm
      rw [hself]
      refine List.nodup_append.2 ⟨ho.nodup m, by simp, ?_⟩
      intro a ha b hb
      rw [List.mem_singleton] at hb
      have := hlt m a ha
      omega
    · rw [hoth m hm]; exact ho.nodup m
  · intro m k a h1 h2
    rcases hmem m a h1 with g1 | ⟨g1, g1'⟩ <;> rcases hmem k _ h2 with g2 | ⟨g2, g2'⟩
    · exact ho.disjoint m k a g1 g2
    · have := hlt m a g1; omega
    · have := hlt k _ g2; omega
    · rw [g1, g2]

theorem frame_clear {w w' : World} (ho : Owned w) {n : Nat} (h : w.clear n = .ok w') : Frame n w w' := by
  obtain ⟨w₁, h1, h2, h3, h4, h5, h6⟩ := World.clear_ok ho n
  rw [h1] at h
  injection h with h
  subst h
  have hl : ∀ m, m ≠ n → ∀ a ∈ (w.nets m).layers, w₁.heap[a]? = w.heap[a]? := fun m hm a ha =>
    h5 a fun h => hm (ho.disjoint m n a ha h)
  have hmem : ∀ m a, a ∈ (w₁.nets m).layers → m ≠ n ∧ a ∈ (w.nets m).layers := by
    intro m a ha
    by_cases hm : m = n
    · subst hm; rw [h2] at ha; simp at ha
    · rw [h3 m hm] at ha; exact ⟨hm, ha⟩
  refine ⟨⟨?_, ?_, ?_⟩, h3, hl⟩
  · intro m a ha
    obtain ⟨hm, ha⟩ := hmem m a ha
    obtain ⟨l, h⟩ := ho.live m a ha
    exact ⟨l, (hl m hm a ha).trans h⟩
  · intro m
    by_cases hm : m = n
    · subst hm; rw [h2]; exact List.nodup_nil
    · rw [h3 m hm]; exact ho.nodup m
  · intro m k a ha hb
    exact ho.disjoint m k a (hmem m a ha).2 (hmem k a hb).2

theorem frame_assign (e : Nat → Env) {w w' : World} (ho : Owned w) {n m : Nat} (h : w.assign e n m = .ok w') : Frame n w w' := by
  rw [World.assign] at h
  obtain ⟨w₁, h1, h⟩ := ok_bind h
  obtain ⟨w₂, h2, h⟩ := ok_bind h
  injection h with h
  have f1 := frame_clear ho h1
  obtain ⟨wc, c1, c2, c3, c4, c5, c6⟩ := World.clear_ok ho n
  rw [h1] at c1
  injection c1 with c1
  subst c1
  obtain ⟨d1, d2, d3, d4, d5⟩ := World.cloneAll_inv e n _ _ _ h2
  have hlt : ∀ k, ∀ a ∈ (w₁.nets k).layers, a < w₁.heap.length := fun k a ha => by
    obtain ⟨l, hl⟩ := f1.owned.live k a ha
    exact World.lt_of_live hl
  have hself : (w'.nets n).layers = List.range' w₁.heap.length (w₁.nets m).layers.length := by
    rw [← h, World.setNet_same, d1, c2]; simp
  have hoth : ∀ k, k ≠ n → w'.nets k = w₁.nets k := fun k hk => by rw [← h, World.setNet_other _ _ hk, d2 k hk]
  have hheap : w'.heap = w₂.heap := by rw [← h]; rfl
  have hmem : ∀ k a, a ∈ (w'.nets k).layers →
      (k ≠ n ∧ a ∈ (w₁.nets k).layers) ∨ (k = n ∧ a ∈ List.range' w₁.heap.length (w₁.nets m).layers.length) := by
    intro k a ha
    by_cases hk : k = n
    · subst hk; rw [hself] at ha; exact .inr ⟨rfl, ha⟩
    · rw [hoth k hk] at ha; exact .inl ⟨hk, ha⟩
  refine ⟨⟨?_, ?_, ?_⟩, fun k hk => (hoth k hk).trans (f1.nets k hk), fun k hk a ha => ?_⟩
  · intro k a ha
    rw [hheap]
    rcases hmem k a ha with ⟨-, ha⟩ | ⟨-, ha⟩
    · obtain ⟨l, hl⟩ := f1.owned.live k a ha
      exact ⟨l, (d4 a (hlt k a ha)).trans hl⟩
    · exact d5 a ha
  · intro k
    by_cases hk : k = n
    · subst hk; rw [hself]; exact List.nodup_range' ..
    · rw [hoth k hk]; exact f1.owned.nodup k
  · intro j k a ha hb
    rcases hmem j a ha with ⟨-, ha⟩ | ⟨rfl, ha⟩ <;> rcases hmem k a hb with ⟨-, hb⟩ | ⟨rfl, hb⟩
    · exact f1.owned.disjoint j k a ha hb
    · have := hlt j a ha
      rw [List.mem_range'_1] at hb
      omega
    · have := hlt k a hb
      rw [List.mem_range'_1] at ha
      omega
    · rfl
  · rw [hheap]
    have := f1.layers k hk a ha
    rw [← this]
    apply d4
    rw [c4]
    obtain ⟨l, hl⟩ := ho.live k a ha
    exact World.lt_of_live hl

theorem nodup_set {l : List Nat} {i b c : Nat} (hn : l.Nodup) (hi : l[i]? = some b) (hc : c ∉ l) :
    (l.set i c).Nodup ∧ b ∉ l.set i c := by
  obtain ⟨hlt, hb⟩ := List.getElem?_eq_some_iff.1 hi
  have e1 : l = l.take i ++ b :: l.drop (i + 1) := by
    rw [← hb, List.cons_getElem_drop_succ, List.take_append_drop]
  have e2 : l.set i c = l.take i ++ c :: l.drop (i + 1) := by
    rw [List.set_eq_take_append_cons_drop, if_pos hlt]
  rw [e2]
  rw [e1] at hn hc
  generalize l.take i = u at *
  generalize l.drop (i + 1) = v at *
  simp only [List.nodup_append, List.nodup_cons, List.mem_append, List.mem_cons, not_or] at hn hc ⊢
  refine ⟨⟨hn.1, ⟨hc.2.2, hn.2.1.2⟩, ?_⟩, ?_, ?_, hn.2.1.1⟩
  · rintro a ha x (rfl | hx)
    · rintro rfl; exact hc.1 ha
    · exact hn.2.2 a ha x (.inr hx)
  · intro hbu; exact hn.2.2 b hbu b (.inl rfl) rfl
  · exact fun h => hc.2.1 h.symm

theorem frame_replace {w w' : World} (ho : Owned w) {n i : Nat} {l : Layer}
    (h : (w.alloc l).replace n i w.heap.length = .ok w') : Frame n w w' := by
  unfold World.replace at h
  split at h
  · cases h
  · rename_i b hb
    rw [World.alloc_nets] at hb
    have hbm : b ∈ (w.nets n).layers := List.mem_of_getElem? hb
    obtain ⟨k, hk⟩ := ho.live n b hbm
    have hlt : ∀ m, ∀ a ∈ (w.nets m).layers, a < w.heap.length := fun m a ha => by
      obtain ⟨l, hl⟩ := ho.live m a ha
      exact World.lt_of_live hl
    have hk' : (w.alloc l).heap[b]? = some (some k) := by
      simp only [World.alloc]
      rw [List.getElem?_append_left (hlt n b hbm), hk]
    rw [World.free_eq hk', bind_ok', pure_ok] at h
    injection h with h
    have hheap : w'.heap = (w.heap ++ [some l]).set b none := by rw [← h]; rfl
    have hself : (w'.nets n).layers = (w.nets n).layers.set i w.heap.length := by rw [← h]; simp
    have hoth : ∀ m, m ≠ n → w'.nets m = w.nets m := fun m hm => by rw [← h, World.setNet_other _ _ hm]; rfl
    have hold : ∀ a, a ≠ b → a < w.heap.length → w'.heap[a]? = w.heap[a]? := fun a hab ha => by
      rw [hheap, List.getElem?_set_ne (Ne.symm hab), List.getElem?_append_left ha]
    have hnew : w'.heap[w.heap.length]? = some (some l) := by
      rw [hheap, List.getElem?_set_ne (by have := hlt n b hbm; omega)]; simp
    have hnb : ∀ m, m ≠ n → ∀ a ∈ (w.nets m).layers, a ≠ b := fun m hm a ha h => hm (ho.disjoint m n a ha (h ▸ hbm))
    obtain ⟨s1, s2⟩ := nodup_set (ho.nodup n) hb (c := w.heap.length) (fun h => by have := hlt n _ h; omega)
    have hmem : ∀ m a, a ∈ (w'.nets m).layers → (a ≠ b ∧ a ∈ (w.nets m).layers) ∨ (m = n ∧ a = w.heap.length) := by
      intro m a ha
      by_cases hm : m = n
      · subst hm
        rw [hself] at ha
        rcases List.mem_or_eq_of_mem_set ha with h' | h'
        · exact .inl ⟨fun h => s2 (h ▸ ha), h'⟩
        · exact .inr ⟨rfl, h'⟩
      · rw [hoth m hm] at ha; exact .inl ⟨hnb m hm a ha, ha⟩
    refine ⟨⟨?_, ?_, ?_⟩, hoth, fun m hm a ha => hold a (hnb m hm a ha) (hlt m a ha)⟩
    · intro m a ha
      rcases hmem m a ha with ⟨h1, h2⟩ | ⟨-, rfl⟩
      · obtain ⟨k, hk⟩ := ho.live m a h2
        exact ⟨k, (hold a h1 (hlt m a h2)).trans hk⟩
      · exact ⟨l, hnew⟩
    · intro m
      by_cases hm : m = n
      · subst hm; rw [hself]; exact s1
      · rw [hoth m hm]; exact ho.nodup m
    · intro m k a h1 h2
      rcases hmem m a h1 with ⟨-, g1⟩ | ⟨g1, g1'⟩ <;> rcases hmem k _ h2 with ⟨-, g2⟩ | ⟨g2, g2'⟩
      · exact ho.disjoint m k a g1 g2
      · have := hlt m a g1; omega
      · have := hlt k _ g2; omega
      · rw [g1, g2]

theorem frame_step (e : Nat → Env) {w w' : World} (ho : Owned w) {op : NetOp} (h : op.step e w = .ok w') :
    Frame op.target w w' := by
  cases op with
  | add n l =>
    injection h with h; subst h; exact frame_add ho n l
  | replace n i l => exact frame_replace ho h
  | assign n m => exact frame_assign e ho h
  | clear n => exact frame_clear ho h
  | predict n mIn mOut =>
    rw [NetOp.step] at h
    obtain ⟨⟨w₁, o⟩, h1, h⟩ := ok_bind h
    injection h with h
    rw [World.predict] at h1
    obtain ⟨⟨w₂, t, o'⟩, h2, h1⟩ := ok_bind h1
    injection h1 with h1
    injection h1 with h1 _
    obtain ⟨t1, t2⟩ := World.predictLoop_touch e _ _ _ _ _ h2
    rw [← h, ← h1]
    exact frame_touch ho t1 (fun m => by rw [t2]) (fun m _ => by rw [t2])
  | setTrain n b =>
    obtain ⟨t1, t2⟩ := World.setTrainAll_touch b _ _ h
    have hl : ∀ m, (w'.nets m).layers = (w.nets m).layers := fun m => by
      rw [t2]
      by_cases hm : m = n
      · subst hm; simp
      · rw [World.setNet_other _ _ hm]
    exact frame_touch ho (n := n) ⟨t1.length, t1.other, t1.live⟩ hl (fun m hm => by rw [t2, World.setNet_other _ _ hm])
  | init n =>
    obtain ⟨t1, t2⟩ := World.initAll_touch e _ _ _ h
    exact frame_touch ho (n := n) t1 (fun m => by rw [t2]) (fun m _ => by rw [t2])
  | poke n i l =>
    rw [NetOp.step] at h
    obtain ⟨a, h1, h⟩ := ok_bind h
    injection h with h
    subst h
    have ha : a ∈ (w.nets n).layers := by
      unfold World.layerAt at h1
      split at h1
      · rename_i hb
        injection h1 with h1
        subst h1
        exact List.mem_of_getElem? hb
      · cases h1
    obtain ⟨k, hk⟩ := ho.live n a ha
    exact frame_touch ho (n := n) ((touch_store l hk).mono (by simpa using ha)) (fun m => rfl) (fun m _ => rfl)

end BeeDNN
