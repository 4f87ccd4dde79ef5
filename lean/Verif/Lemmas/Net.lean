import Verif.Spec.Net
import Verif.Lemmas.LayerSame

/-! # Lemmas about networks -/

namespace BeeDNN

namespace World

theorem deref_eq {w : World} {a : Nat} {l : Layer} (h : w.heap[a]? = some (some l)) : w.deref a = .ok l := by
  rw [deref, h]

theorem deref_inv {w : World} {a : Nat} {l : Layer} (h : w.deref a = .ok l) : w.heap[a]? = some (some l) := by
  unfold deref at h
  split at h
  · rename_i h'; injection h with h; rw [h', h]
  · cases h
  · cases h

theorem lt_of_live {w : World} {a : Nat} {l : Layer} (h : w.heap[a]? = some (some l)) : a < w.heap.length :=
  (List.getElem?_eq_some_iff.1 h).1

theorem store_same {w : World} {a : Nat} {l l' : Layer} (h : w.heap[a]? = some (some l)) :
    (w.store a l').heap[a]? = some (some l') := by
  simp [store, lt_of_live h]

theorem store_other {w : World} {a b : Nat} (l' : Layer) (h : b ≠ a) : (w.store a l').heap[b]? = w.heap[b]? := by
  simp [store, List.getElem?_set_ne h.symm]

@[simp] theorem store_nets (w : World) (a : Nat) (l : Layer) : (w.store a l).nets = w.nets := rfl
@[simp] theorem setNet_heap (w : World) (n : Nat) (x : Net) : (w.setNet n x).heap = w.heap := rfl
@[simp] theorem setNet_same (w : World) (n : Nat) (x : Net) : (w.setNet n x).nets n = x := by simp [setNet]
theorem setNet_other (w : World) {n m : Nat} (x : Net) (h : m ≠ n) : (w.setNet n x).nets m = w.nets m := by simp [setNet, h]
@[simp] theorem alloc_nets (w : World) (l : Layer) : (w.alloc l).nets = w.nets := rfl
@[simp] theorem add_heap (w : World) (n a : Nat) : (w.add n a).heap = w.heap := rfl

theorem free_eq {w : World} {a : Nat} {l : Layer} (h : w.heap[a]? = some (some l)) :
    w.free a = .ok { w with heap := w.heap.set a none } := by
  rw [free, h]

/-- Freeing distinct live layers. -/
theorem freeAll_ok : ∀ (as : List Nat) (w : World), (∀ a ∈ as, ∃ l, w.heap[a]? = some (some l)) → as.Nodup →
    ∃ w', freeAll as w = .ok w' ∧ w'.nets = w.nets ∧ w'.heap.length = w.heap.length ∧
      (∀ b, b ∉ as → w'.heap[b]? = w.heap[b]?) ∧ ∀ b ∈ as, w'.heap[b]? = some none
  | [], w, _, _ => ⟨w, rfl, rfl, rfl, fun _ _ => rfl, fun _ h => absurd h List.not_mem_nil⟩
  | a :: as, w, hl, hn => by
    obtain ⟨l, h0⟩ := hl a (List.mem_cons_self)
    obtain ⟨hna, hn⟩ := List.nodup_cons.1 hn
    have hother : ∀ b, b ≠ a → ({ w with heap := w.heap.set a none } : World).heap[b]? = w.heap[b]? := fun b hb =>
      List.getElem?_set_ne hb.symm
    obtain ⟨w', h1, h2, h3, h4, h5⟩ := freeAll_ok as { w with heap := w.heap.set a none }
      (fun b hb => by
        obtain ⟨l, h⟩ := hl b (List.mem_cons_of_mem _ hb)
        exact ⟨l, (hother b (fun h => hna (h ▸ hb))).trans h⟩) hn
    refine ⟨w', ?_, h2, h3.trans (List.length_set ..), ?_, ?_⟩
    · rw [freeAll, free_eq h0, bind_ok', h1]
    · intro b hb
      rw [List.mem_cons, not_or] at hb
      rw [h4 b hb.2, hother b hb.1]
    · intro b hb
      rcases List.mem_cons.1 hb with rfl | hb
      · rw [h4 b hna]
        simp [lt_of_live h0]
      · exact h5 b hb

theorem clear_ok {w : World} (ho : Owned w) (n : Nat) :
    ∃ w', w.clear n = .ok w' ∧ w'.nets n = { w.nets n with layers := [], train := false } ∧
      (∀ m, m ≠ n → w'.nets m = w.nets m) ∧ w'.heap.length = w.heap.length ∧
      (∀ b, b ∉ (w.nets n).layers → w'.heap[b]? = w.heap[b]?) ∧ ∀ b ∈ (w.nets n).layers, w'.heap[b]? = some none := by
  obtain ⟨w', h1, h2, h3, h4, h5⟩ := freeAll_ok (w.nets n).layers w (ho.live n) (ho.nodup n)
  refine ⟨w'.setNet n { w'.nets n with layers := [], train := false }, ?_, ?_, ?_, h3, h4, h5⟩
  · rw [clear, h1, bind_ok', pure_ok]
  · rw [setNet_same, h2]
  · intro m hm; rw [setNet_other _ _ hm, h2]

/-- Cloning live valid layers. -/
theorem cloneAll_ok (e : Nat → Env) (n : Nat) : ∀ (as : List Nat) (i : Nat) (w : World),
    (∀ a ∈ as, ∃ l, w.heap[a]? = some (some l) ∧ l.Valid) →
    ∃ w', cloneAll e n i as w = .ok w' ∧
      w'.nets n = { w.nets n with layers := (w.nets n).layers ++ List.range' w.heap.length as.length } ∧
      (∀ m, m ≠ n → w'.nets m = w.nets m) ∧ w'.heap.length = w.heap.length + as.length ∧
      (∀ b, b < w.heap.length → w'.heap[b]? = w.heap[b]?) ∧
      List.Forall₂ (fun a b => ∃ l p, w.heap[a]? = some (some l) ∧ w'.heap[b]? = some (some p) ∧ l.CloneOk p) as
        (List.range' w.heap.length as.length)
  | [], i, w, _ => ⟨w, rfl, by simp, fun _ _ => rfl, rfl, fun _ _ => rfl, .nil⟩
  | a :: as, i, w, hl => by
    obtain ⟨l, h0, hv⟩ := hl a (List.mem_cons_self)
    obtain ⟨p, hp, hc⟩ := Layer.clone_ok (e i) hv
    have hlen : ((w.alloc p).add n w.heap.length).heap.length = w.heap.length + 1 := by simp [alloc]
    have hold : ∀ b, b < w.heap.length → ((w.alloc p).add n w.heap.length).heap[b]? = w.heap[b]? := fun b hb => by
      simp [alloc, List.getElem?_append_left hb]
    have hnew : ((w.alloc p).add n w.heap.length).heap[w.heap.length]? = some (some p) := by simp [alloc]
    obtain ⟨w', h1, h2, h3, h4, h5, h6⟩ := cloneAll_ok e n as (i + 1) ((w.alloc p).add n w.heap.length)
      (fun b hb => by
        obtain ⟨l, h, hv⟩ := hl b (List.mem_cons_of_mem _ hb)
        exact ⟨l, (hold b (lt_of_live h)).trans h, hv⟩)
    rw [hlen] at h2 h4 h5 h6
    refine ⟨w', ?_, ?_, ?_, ?_, ?_, ?_⟩
    · rw [cloneAll, deref_eq h0, bind_ok', hp, bind_ok', h1]
    · rw [h2]
      simp [add, List.range'_succ]
    · intro m hm
      rw [h3 m hm, add, setNet_other _ _ hm, alloc_nets]
    · rw [h4, List.length_cons]; omega
    · intro b hb
      rw [h5 b (by omega), hold b hb]
    · rw [List.length_cons, List.range'_succ]
      refine .cons ⟨l, p, h0, ?_, hc⟩ ?_
      · rw [h5 _ (by omega), hnew]
      · refine List.Forall₂.imp (fun a' b => ?_) ((List.forall₂_and_left _ _).2 ⟨fun a' ha' => ha', h6⟩)
        rintro ⟨ha', l', p', hl', hp', hc'⟩
        obtain ⟨l₂, h, -⟩ := hl a' (List.mem_cons_of_mem _ ha')
        refine ⟨l', p', ?_, hp', hc'⟩
        rw [← hold a' (lt_of_live h)]
        exact hl'

end World

theorem NetFn.congr {w w' : World} {as : List Nat} {C C' : Nat} {φ : Row → Row} (h : NetFn w as C C' φ)
    (hh : ∀ a ∈ as, w'.heap[a]? = w.heap[a]?) : NetFn w' as C C' φ := by
  induction h with
  | nil C => exact .nil C
  | cons a as l C C₁ C₂ φ ψ hl hφ hψ ih =>
    exact .cons a as l C C₁ C₂ φ ψ ((hh a List.mem_cons_self).trans hl) hφ (ih fun b hb => hh b (List.mem_cons_of_mem _ hb))

theorem NetFn.live {w : World} {as : List Nat} {C C' : Nat} {φ : Row → Row} (h : NetFn w as C C' φ) :
    ∀ a ∈ as, ∃ l, w.heap[a]? = some (some l) := by
  induction h with
  | nil C => exact fun _ h => absurd h List.not_mem_nil
  | cons a as l C C₁ C₂ φ ψ hl hφ hψ ih =>
    intro b hb
    rcases List.mem_cons.1 hb with rfl | hb
    · exact ⟨l, hl⟩
    · exact ih b hb

theorem NetFn.of_clones {w w' : World} {as bs : List Nat} {C C' : Nat} {φ : Row → Row} (h : NetFn w as C C' φ)
    (hh : List.Forall₂ (fun a b => ∃ l p, w.heap[a]? = some (some l) ∧ w'.heap[b]? = some (some p) ∧ l.CloneOk p) as bs) :
    NetFn w' bs C C' φ := by
  induction h generalizing bs with
  | nil C => cases hh; exact .nil C
  | cons a as l C C₁ C₂ φ ψ hl hφ hψ ih =>
    cases hh with
    | cons h1 h2 =>
      obtain ⟨l', p, hl', hp, hc⟩ := h1
      rw [hl] at hl'
      injection hl' with hl'
      injection hl' with hl'
      subst hl'
      exact .cons _ _ p C C₁ C₂ φ ψ hp (hφ.of_clone hc) (ih h2)

/-- The loop of `predict`. -/
theorem World.predictLoop_ok (e : Nat → Env) : ∀ (as : List Nat) (w : World) {C C' : Nat} {φ : Row → Row}
    (_ : NetFn w as C C' φ) (_ : as.Nodup) (_ : TestMode w as) (i N : Nat) (x : Nat → Row) {mOut : Mat ℝ} (_ : mOut.WF),
    ∃ w' t, predictLoop e i as w (Mat.ofFn N C x) mOut =
        .ok (w', t, if as = [] then mOut else Mat.ofFn N C' (fun s => φ (x s))) ∧
      NetFn w' as C C' φ ∧ TestMode w' as ∧ w'.nets = w.nets ∧ w'.heap.length = w.heap.length ∧
      ∀ b, b ∉ as → w'.heap[b]? = w.heap[b]?
  | [], w, C, C', φ, h, _, ht, i, N, x, mOut, ho => by
    cases h
    exact ⟨w, _, rfl, .nil _, ht, rfl, rfl, fun _ _ => rfl⟩
  | a :: as, w, C, C', φ, h, hn, ht, i, N, x, mOut, ho => by
    cases h with
    | cons _ _ l _ C₁ _ φ ψ hl hφ hψ =>
    obtain ⟨hna, hn⟩ := List.nodup_cons.1 hn
    have hne : ∀ b ∈ as, b ≠ a := fun b hb h => hna (h ▸ hb)
    obtain ⟨l', hf, hrow, ht'⟩ := Layer.forward_row hφ (ht a List.mem_cons_self l hl) (e i) N x ho
    have hrest : NetFn (w.store a l') as C₁ C' ψ := hψ.congr fun b hb => store_other l' (hne b hb)
    have hrt : TestMode (w.store a l') as := fun b hb k hk => by
      rw [store_other l' (hne b hb)] at hk
      exact ht b (List.mem_cons_of_mem _ hb) k hk
    obtain ⟨w', t, h1, h2, h3, h4, h5, h6⟩ := predictLoop_ok e as (w.store a l') hrest hn hrt (i + 1) N
      (fun s => φ (x s)) (Mat.ofFn_WF N C₁ (fun s => φ (x s)))
    have ha : w'.heap[a]? = some (some l') := (h6 a hna).trans (store_same hl)
    refine ⟨w', t, ?_, .cons a as l' C C₁ C' φ ψ ha hrow h2, ?_, h4, h5.trans (List.length_set ..), ?_⟩
    · rw [predictLoop, deref_eq hl, bind_ok', hf, bind_ok']
      simp only [Mat.assign_ofFn (e i).g (Mat.ofFn_WF N C x), bind_ok', h1, if_neg (List.cons_ne_nil a as)]
      split
      · rename_i h0
        subst h0
        cases hψ
        rfl
      · rfl
    · intro b hb k hk
      rcases List.mem_cons.1 hb with rfl | hb
      · rw [ha] at hk
        injection hk with hk
        injection hk with hk
        rw [← hk, ht']
      · exact h3 b hb k hk
    · intro b hb
      rw [List.mem_cons, not_or] at hb
      rw [h6 b hb.2, store_other l' hb.1]

end BeeDNN
