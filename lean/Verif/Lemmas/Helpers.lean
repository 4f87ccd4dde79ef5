import Verif.Spec.Helpers
import Verif.Lemmas.Core

/-! # Ownership of helper objects: lemmas -/

namespace BeeDNN
namespace Helpers

theorem Typed.live {s : Helpers} {o : Holder} (h : s.Typed o) : ∀ a ∈ o.ptrs, s.Live a := by
  intro a ha
  cases o with
  | gone => exact absurd ha List.not_mem_nil
  | trainer p =>
    obtain ⟨⟨b, n, h1, h2, -⟩, h3, h4⟩ := h
    simp only [Holder.ptrs, h1, Option.toList_some, List.cons_append, List.nil_append, List.mem_cons, List.mem_append, Option.mem_toList, Option.mem_def] at ha
    rcases ha with rfl | ha | ha
    · exact ⟨_, h2⟩
    · obtain ⟨k, hk⟩ := h3 a ha
      exact ⟨_, hk⟩
    · obtain ⟨k, hk⟩ := h4 a ha
      exact ⟨_, hk⟩
  | kmeans p =>
    obtain ⟨b, n, h1, h2, -⟩ := h
    simp only [Holder.ptrs, h1, Option.toList_some, List.mem_singleton] at ha
    exact ⟨_, ha ▸ h2⟩

theorem Live.lt {s : Helpers} {a : Nat} (h : s.Live a) : a < s.heap.length := by
  obtain ⟨h, hh⟩ := h
  exact (List.getElem?_eq_some_iff.mp hh).1

theorem Typed.congr {s s' : Helpers} {o : Holder} (h : s.Typed o) (hs : ∀ a ∈ o.ptrs, s'.heap[a]? = s.heap[a]?) : s'.Typed o := by
  cases o with
  | gone => trivial
  | trainer p =>
    obtain ⟨⟨b, n, h1, h2, h5⟩, h3, h4⟩ := h
    refine ⟨⟨b, n, h1, ?_, h5⟩, fun a ha => ?_, fun a ha => ?_⟩
    · rw [hs b (by simp [Holder.ptrs, h1])]; exact h2
    · rw [hs a (by simp [Holder.ptrs, ha])]; exact h3 a ha
    · rw [hs a (by simp [Holder.ptrs, ha])]; exact h4 a ha
  | kmeans p =>
    obtain ⟨b, n, h1, h2, h5⟩ := h
    exact ⟨b, n, h1, by rw [hs b (by simp [Holder.ptrs, h1])]; exact h2, h5⟩

/-- Only the trainer or model `i` changes, and at most the object `lk` is leaked. -/
structure Moves (i : Nat) (lk : Option Nat) (s s' : Helpers) : Prop where
  safe : s'.Safe
  others : ∀ j, j ≠ i → s'.objs j = s.objs j
  keep : ∀ j, j ≠ i → ∀ a ∈ (s.objs j).ptrs, s'.heap[a]? = s.heap[a]?
  lost : ∀ a, s'.Lost a ↔ s.Lost a ∨ lk = some a

theorem Moves.trans {i : Nat} {lk : Option Nat} {s s₁ s₂ : Helpers} (h : Moves i none s s₁) (h' : Moves i lk s₁ s₂) : Moves i lk s s₂ where
  safe := h'.safe
  others := fun j hj => (h'.others j hj).trans (h.others j hj)
  keep := fun j hj a ha => (h'.keep j hj a (by rw [h.others j hj]; exact ha)).trans (h.keep j hj a ha)
  lost := fun a => by rw [h'.lost, h.lost]; simp

theorem Moves.refl {i : Nat} {s : Helpers} (h : s.Safe) : Moves i none s s := ⟨h, fun _ _ => rfl, fun _ _ _ _ => rfl, by simp⟩

theorem moves_of {s : Helpers} (h : s.Safe) (i : Nat) (lk : Option Nat) (H : List (Option Helper)) (o : Holder)
    (same : ∀ a, a < s.heap.length → a ∉ (s.objs i).ptrs → H[a]? = s.heap[a]?)
    (old : ∀ a ∈ (s.objs i).ptrs, (a ∈ o.ptrs ∨ lk = some a) ∨ H[a]? = some none)
    (new : ∀ a h, s.heap.length ≤ a → H[a]? = some (some h) → a ∈ o.ptrs)
    (sub : ∀ a ∈ o.ptrs, a ∈ (s.objs i).ptrs ∨ s.heap.length ≤ a)
    (typed : Typed { heap := H } o) (nodup : o.ptrs.Nodup)
    (hlk : ∀ a, lk = some a → a ∈ (s.objs i).ptrs ∧ a ∉ o.ptrs ∧ H[a]? = s.heap[a]?) :
    Moves i lk s (put { s with heap := H } i o) := by
  have hi : (put { s with heap := H } i o).objs i = o := if_pos rfl
  have hj : ∀ j, j ≠ i → (put { s with heap := H } i o).objs j = s.objs j := fun j hj => if_neg hj
  have keep : ∀ j, j ≠ i → ∀ a ∈ (s.objs j).ptrs, H[a]? = s.heap[a]? := fun j hj a ha =>
    same a ((h.typed j).live a ha).lt fun hc => hj (h.disjoint j i a ha hc)
  have dis : ∀ j, j ≠ i → ∀ a ∈ (s.objs j).ptrs, a ∉ o.ptrs := fun j hj a ha hc => by
    rcases sub a hc with h1 | h1
    · exact hj (h.disjoint j i a ha h1)
    · have := ((h.typed j).live a ha).lt
      omega
  refine ⟨⟨fun j => ?_, fun j => ?_, fun j k a ha hk => ?_⟩, hj, keep, fun a => ⟨fun ⟨⟨x, hx⟩, hn⟩ => ?_, fun ha => ?_⟩⟩
  · by_cases e : j = i
    · rw [e, hi]; exact typed.congr fun _ _ => rfl
    · rw [hj j e]; exact (h.typed j).congr (keep j e)
  · by_cases e : j = i
    · rw [e, hi]; exact nodup
    · rw [hj j e]; exact h.nodup j
  · by_cases e : j = i <;> by_cases e' : k = i
    · rw [e, e']
    · rw [e, hi] at ha; rw [hj k e'] at hk; exact absurd ha (dis k e' a hk)
    · rw [e', hi] at hk; rw [hj j e] at ha; exact absurd hk (dis j e a ha)
    · rw [hj j e] at ha; rw [hj k e'] at hk; exact h.disjoint j k a ha hk
  · have hno : a ∉ o.ptrs := by have := hn i; rwa [hi] at this
    change H[a]? = some (some x) at hx
    by_cases hm : a ∈ (s.objs i).ptrs
    · rcases old a hm with (h1 | h1) | h1
      · exact absurd h1 hno
      · exact .inr h1
      · rw [h1] at hx; cases hx
    · by_cases hl : a < s.heap.length
      · refine .inl ⟨⟨x, by rw [← same a hl hm]; exact hx⟩, fun k => ?_⟩
        by_cases e : k = i
        · rw [e]; exact hm
        · have := hn k
          rwa [hj k e] at this
      · exact absurd (new a x (by omega) hx) hno
  · rcases ha with ⟨⟨x, hx⟩, hn⟩ | ha
    · have hl : a < s.heap.length := (List.getElem?_eq_some_iff.mp hx).1
      refine ⟨⟨x, (same a hl (hn i)).trans hx⟩, fun k => ?_⟩
      by_cases e : k = i
      · rw [e, hi]
        intro hc
        rcases sub a hc with h1 | h1
        · exact hn i h1
        · omega
      · rw [hj k e]; exact hn k
    · obtain ⟨h1, h2, h3⟩ := hlk a ha
      obtain ⟨x, hx⟩ := (h.typed i).live a h1
      refine ⟨⟨x, h3.trans hx⟩, fun k => ?_⟩
      by_cases e : k = i
      · rw [e, hi]; exact h2
      · rw [hj k e]; exact fun hc => e (h.disjoint k i a hc h1)

theorem free_ok {s : Helpers} {a : Nat} (h : s.Live a) : s.free (some a) = .ok { s with heap := s.heap.set a none } := by
  obtain ⟨x, hx⟩ := h
  simp only [free, hx]

theorem createLoss_ok (s : Helpers) {n : String} (h : n ∈ listLoss) :
    s.createLoss n = ({ s with heap := s.heap ++ [some (.loss n)] }, some s.heap.length) := by
  simp [createLoss, h, alloc]

theorem getElem?_snoc {α : Type} (l : List α) (x : α) (a : Nat) : (l ++ [x])[a]? = if a = l.length then some x else l[a]? := by
  split
  · rename_i h; rw [h]; simp
  · rename_i h
    rcases Nat.lt_or_gt_of_ne h with h | h
    · exact List.getElem?_append_left h
    · rw [List.getElem?_eq_none (by simp; omega), List.getElem?_eq_none (by omega)]

theorem getElem?_kill {α : Type} (l : List (Option α)) (b a : Nat) (hb : b < l.length) : (l.set b none)[a]? = if a = b then some none else l[a]? := by
  rw [List.getElem?_set]
  by_cases h : b = a
  · subst h; simp [hb]
  · rw [if_neg h, if_neg (fun e => h e.symm)]

theorem free_list {s : Helpers} {L : List Nat} (hn : L.Nodup) (hl : ∀ a ∈ L, s.Live a) :
    ∃ H, forN L.length (fun k s => s.free L[k]?) s = .ok { s with heap := H } ∧ H.length = s.heap.length ∧
      ∀ a, H[a]? = if a ∈ L then some none else s.heap[a]? := by
  obtain ⟨s', h1, h2, h3, h4⟩ := forN_inv (n := L.length) (f := fun k (s : Helpers) => s.free L[k]?) (s := s)
    (fun k r => r.objs = s.objs ∧ r.heap.length = s.heap.length ∧ ∀ a, r.heap[a]? = if a ∈ L.take k then some none else s.heap[a]?)
    ⟨rfl, rfl, by simp⟩ (fun k hk r ⟨r1, r2, r3⟩ => by
      have hlk : L[k]? = some L[k] := List.getElem?_eq_getElem hk
      have hnt : L[k] ∉ L.take k := fun hc => by
        obtain ⟨j, hj, e⟩ := List.mem_take_iff_getElem.mp hc
        have := (List.Nodup.getElem_inj_iff hn).mp e
        omega
      obtain ⟨x, hx⟩ := hl L[k] (List.getElem_mem hk)
      have hlive : r.Live L[k] := ⟨x, by rw [r3, if_neg hnt]; exact hx⟩
      refine ⟨{ r with heap := r.heap.set L[k] none }, by rw [hlk]; exact free_ok hlive, r1, by simp [r2], fun a => ?_⟩
      have hm : a ∈ L.take (k + 1) ↔ a ∈ L.take k ∨ a = L[k] := by
        rw [List.take_succ_eq_append_getElem hk, List.mem_append, List.mem_singleton]
      dsimp only
      rw [getElem?_kill _ _ _ hlive.lt, r3]
      by_cases e : a = L[k]
      · rw [if_pos e, if_pos (hm.mpr (.inr e))]
      · simp only [hm, e, or_false, if_false])
  refine ⟨s'.heap, ?_, h3, fun a => by rw [h4, List.take_length]⟩
  rw [h1]
  congr 1
  cases s'
  simp only at h2
  rw [h2]

theorem ptrs_trainer {s : Helpers} {p : TrainPtrs} (h : s.Typed (.trainer p)) : ∃ a n, p.loss = some a ∧ s.heap[a]? = some (some (.loss n)) ∧ n ∈ listLoss ∧
    (Holder.trainer p).ptrs = a :: (p.reg.toList ++ p.opts) := by
  obtain ⟨⟨b, n, h1, h2, h5⟩, h3, h4⟩ := h
  exact ⟨b, n, h1, h2, h5, by simp [Holder.ptrs, h1]⟩

theorem trainer_ok {s : Helpers} {i : Nat} {p : TrainPtrs} (h : s.objs i = .trainer p) : s.trainer i = .ok p := by simp [trainer, h]

theorem kmeans_ok {s : Helpers} {i : Nat} {p : Option Nat} (h : s.objs i = .kmeans p) : s.kmeans i = .ok p := by simp [kmeans, h]

@[simp] theorem put_same (s : Helpers) (i : Nat) (o : Holder) : (s.put i o).objs i = o := if_pos rfl

@[simp] theorem put_heap (s : Helpers) (i : Nat) (o : Holder) : (s.put i o).heap = s.heap := rfl

theorem clearOpts_moves {s : Helpers} (h : s.Safe) {i : Nat} {p : TrainPtrs} (hp : s.objs i = .trainer p) :
    ∃ s', s.clearOpts i = .ok s' ∧ Moves i none s s' ∧ s'.objs i = .trainer { p with opts := [] } ∧
      ∀ a, a ∉ p.opts → s'.heap[a]? = s.heap[a]? := by
  have ht := h.typed i
  have hn := h.nodup i
  rw [hp] at ht hn
  obtain ⟨a, n, h1, h2, h3, h4⟩ := ptrs_trainer ht
  rw [h4, List.nodup_cons, List.nodup_append] at hn
  obtain ⟨hn1, hn2, hn3, hn4⟩ := hn
  have hl : ∀ b ∈ p.opts, s.Live b := fun b hb => ht.live b (by rw [h4]; simp [hb])
  obtain ⟨H, e1, e2, e3⟩ := free_list hn3 hl
  have hpt : (Holder.trainer { p with opts := [] }).ptrs = a :: p.reg.toList := by simp [Holder.ptrs, h1]
  refine ⟨put { s with heap := H } i (.trainer { p with opts := [] }), by simp only [clearOpts, trainer_ok hp, bind_ok', e1, pure_ok], ?_, put_same ..,
    fun a ha => by show H[a]? = _; rw [e3, if_neg ha]⟩
  refine moves_of h i none H _ (fun b hb hb' => ?_) (fun b hb => ?_) (fun b x hb hx => ?_) (fun b hb => ?_) ?_ ?_ (fun b hb => by cases hb)
  · rw [hp, h4] at hb'
    rw [e3, if_neg (fun hc => hb' (by simp [hc]))]
  · rw [hp, h4] at hb
    rw [hpt]
    by_cases hc : b ∈ p.opts
    · exact .inr (by rw [e3, if_pos hc])
    · refine .inl (.inl ?_)
      simp only [List.mem_cons, List.mem_append] at hb ⊢
      tauto
  · have := (List.getElem?_eq_some_iff.mp hx).1
    omega
  · rw [hp, h4]
    rw [hpt] at hb
    refine .inl ?_
    simp only [List.mem_cons, List.mem_append] at hb ⊢
    tauto
  · have hb0 : ∀ b ∈ (Holder.trainer { p with opts := [] }).ptrs, H[b]? = s.heap[b]? := fun b hb => by
      rw [hpt] at hb
      rw [e3, if_neg]
      intro hc
      rcases List.mem_cons.mp hb with rfl | hb
      · exact hn1 (by simp [hc])
      · exact hn4 b hb b hc rfl
    have : s.Typed (.trainer { p with opts := [] }) := ⟨ht.1, ht.2.1, fun b hb => absurd hb List.not_mem_nil⟩
    exact this.congr hb0
  · rw [hpt, List.nodup_cons]
    exact ⟨fun hc => hn1 (by simp [hc]), hn2⟩

/-- The trainer's loss is replaced by a new one. -/
theorem setLoss_moves {s : Helpers} (h : s.Safe) {i : Nat} {p : TrainPtrs} (hp : s.objs i = .trainer p) {n : String} (hn : n ∈ listLoss) :
    ∃ s', s.setLoss i n = .ok s' ∧ Moves i none s s' ∧ s'.objs i = .trainer { p with loss := some s.heap.length } ∧
      s'.heap[s.heap.length]? = some (some (.loss n)) ∧ ∀ a, a < s.heap.length → p.loss ≠ some a → s'.heap[a]? = s.heap[a]? := by
  have ht := h.typed i
  have hd := h.nodup i
  rw [hp] at ht hd
  obtain ⟨a, m, h1, h2, h3, h4⟩ := ptrs_trainer ht
  have hla : s.Live a := ⟨_, h2⟩
  have hH : ∀ b, (s.heap.set a none ++ [some (Helper.loss n)])[b]? = if b = s.heap.length then some (some (.loss n)) else if b = a then some none else s.heap[b]? := by
    intro b
    rw [getElem?_snoc, List.length_set, getElem?_kill _ _ _ hla.lt]
  have hpt : (Holder.trainer { p with loss := some s.heap.length }).ptrs = s.heap.length :: (p.reg.toList ++ p.opts) := by simp [Holder.ptrs]
  have hlen : ∀ b ∈ p.reg.toList ++ p.opts, b < s.heap.length := fun b hb => (ht.live b (by rw [h4]; exact List.mem_cons_of_mem _ hb)).lt
  rw [h4, List.nodup_cons] at hd
  refine ⟨put { s with heap := s.heap.set a none ++ [some (.loss n)] } i (.trainer { p with loss := some s.heap.length }), ?_, ?_, put_same .., ?_, fun b hb hb' => ?_⟩
  · simp only [setLoss, trainer_ok hp, bind_ok', h1, free_ok hla, createLoss_ok _ hn, List.length_set, Option.isSome_some, check_true, pure_ok]
  · refine moves_of h i none _ _ (fun b hb hb' => ?_) (fun b hb => ?_) (fun b x hb hx => ?_) (fun b hb => ?_) ?_ ?_ (fun b hb => by cases hb)
    · rw [hp, h4] at hb'
      rw [hH, if_neg (by omega), if_neg (fun e => hb' (by simp [e]))]
    · rw [hp, h4] at hb
      rw [hpt]
      rcases List.mem_cons.mp hb with rfl | hb
      · exact .inr (by rw [hH, if_neg (by have := hla.lt; omega), if_pos rfl])
      · exact .inl (.inl (List.mem_cons_of_mem _ hb))
    · rw [hpt]
      by_cases e : b = s.heap.length
      · rw [e]; exact List.mem_cons_self
      · rw [hH, if_neg e, if_neg (by have := hla.lt; omega), List.getElem?_eq_none (by omega)] at hx
        cases hx
    · rw [hpt] at hb
      rw [hp, h4]
      rcases List.mem_cons.mp hb with rfl | hb
      · exact .inr le_rfl
      · exact .inl (List.mem_cons_of_mem _ hb)
    · have hs : ∀ b ∈ p.reg.toList ++ p.opts, (s.heap.set a none ++ [some (Helper.loss n)])[b]? = s.heap[b]? := fun b hb => by
        rw [hH, if_neg (by have := hlen b hb; omega), if_neg (fun e : b = a => hd.1 (e ▸ hb))]
      refine ⟨⟨s.heap.length, n, rfl, by rw [hH, if_pos rfl], hn⟩, fun b hb => ?_, fun b hb => ?_⟩
      · dsimp only at hb ⊢
        rw [hs b (by simp [hb])]; exact ht.2.1 b hb
      · dsimp only at hb ⊢
        rw [hs b (by simp [hb])]; exact ht.2.2 b hb
    · rw [hpt, List.nodup_cons]
      exact ⟨fun hc => by have := hlen _ hc; omega, hd.2⟩
  · show (s.heap.set a none ++ [some (Helper.loss n)])[s.heap.length]? = _
    rw [hH, if_pos rfl]
  · show (s.heap.set a none ++ [some (Helper.loss n)])[b]? = _
    rw [hH, if_neg (by omega), if_neg (fun e => hb' (by rw [h1, e]))]

/-- A new trainer. -/
theorem newTrainer_moves {s : Helpers} (h : s.Safe) {i : Nat} (hp : s.objs i = .gone) :
    ∃ s', s.newTrainer i = .ok s' ∧ Moves i none s s' ∧ s'.objs i = .trainer { loss := some s.heap.length } ∧
      s'.heap[s.heap.length]? = some (some (.loss "MeanSquaredError")) := by
  have hn : "MeanSquaredError" ∈ listLoss := by decide
  have hpt : (Holder.trainer { loss := some s.heap.length }).ptrs = [s.heap.length] := by simp [Holder.ptrs]
  refine ⟨put { s with heap := s.heap ++ [some (.loss "MeanSquaredError")] } i (.trainer { loss := some s.heap.length }), ?_, ?_, put_same .., ?_⟩
  · simp only [newTrainer, createLoss_ok _ hn]
  · refine moves_of h i none _ _ (fun b hb _ => ?_) (fun b hb => ?_) (fun b x hb hx => ?_) (fun b hb => ?_) ?_ ?_ (fun b hb => by cases hb)
    · rw [getElem?_snoc, if_neg (by omega)]
    · rw [hp] at hb; cases hb
    · rw [hpt, List.mem_singleton]
      by_contra e
      rw [getElem?_snoc, if_neg e, List.getElem?_eq_none (by omega)] at hx
      cases hx
    · rw [hpt, List.mem_singleton] at hb
      exact .inr hb.ge
    · exact ⟨⟨s.heap.length, _, rfl, by rw [getElem?_snoc, if_pos rfl], hn⟩, fun b hb => (by cases hb), fun b hb => by cases hb⟩
    · rw [hpt]; exact List.nodup_singleton _
  · show (s.heap ++ [some (Helper.loss "MeanSquaredError")])[s.heap.length]? = _
    rw [getElem?_snoc, if_pos rfl]

/-- A new KMeans model. -/
theorem newKMeans_moves {s : Helpers} (h : s.Safe) {i : Nat} (hp : s.objs i = .gone) :
    ∃ s', s.newKMeans i = .ok s' ∧ Moves i none s s' ∧ s'.objs i = .kmeans (some s.heap.length) ∧
      s'.heap[s.heap.length]? = some (some (.loss "MeanSquaredError")) := by
  have hn : "MeanSquaredError" ∈ listLoss := by decide
  have hpt : (Holder.kmeans (some s.heap.length)).ptrs = [s.heap.length] := by simp [Holder.ptrs]
  refine ⟨put { s with heap := s.heap ++ [some (.loss "MeanSquaredError")] } i (.kmeans (some s.heap.length)), ?_, ?_, put_same .., by simp⟩
  · simp only [newKMeans, createLoss_ok _ hn]
  · refine moves_of h i none _ _ (fun b hb _ => ?_) (fun b hb => ?_) (fun b x hb hx => ?_) (fun b hb => ?_) ?_ ?_ (fun b hb => by cases hb)
    · rw [getElem?_snoc, if_neg (by omega)]
    · rw [hp] at hb; cases hb
    · rw [hpt, List.mem_singleton]
      by_contra e
      rw [getElem?_snoc, if_neg e, List.getElem?_eq_none (by omega)] at hx
      cases hx
    · rw [hpt, List.mem_singleton] at hb
      exact .inr hb.ge
    · exact ⟨s.heap.length, _, rfl, by rw [getElem?_snoc, if_pos rfl], hn⟩
    · rw [hpt]; exact List.nodup_singleton _

/-- The trainer's regularizer is deleted, and possibly replaced by a new one. -/
theorem setReg_moves {s : Helpers} (h : s.Safe) {i : Nat} {p : TrainPtrs} (hp : s.objs i = .trainer p) {n : String} (hn : n = "" ∨ ∃ k, createRegularizer n = some k) :
    ∃ s' q, s.setReg i n = .ok s' ∧ Moves i none s s' ∧ s'.objs i = .trainer { p with reg := q } ∧
      (n = "" → q = none) ∧ (∀ k, n ≠ "" → createRegularizer n = some k → ∃ a, q = some a ∧ s'.heap[a]? = some (some (.reg k))) ∧
      ∀ a, a < s.heap.length → p.reg ≠ some a → s'.heap[a]? = s.heap[a]? := by
  have ht := h.typed i
  have hd := h.nodup i
  rw [hp] at ht hd
  obtain ⟨a, m, h1, h2, h3, h4⟩ := ptrs_trainer ht
  -- the old one is deleted
  obtain ⟨H, e1, e2, e3⟩ : ∃ H, s.free p.reg = .ok { s with heap := H } ∧ H.length = s.heap.length ∧
      ∀ b, H[b]? = if p.reg = some b then some none else s.heap[b]? := by
    cases hr : p.reg with
    | none => exact ⟨s.heap, rfl, rfl, fun b => by simp⟩
    | some r =>
      have hlr : s.Live r := ht.live r (by rw [h4]; simp [hr])
      refine ⟨_, free_ok hlr, by simp, fun b => ?_⟩
      rw [getElem?_kill _ _ _ hlr.lt]
      by_cases e : b = r
      · rw [if_pos e, if_pos (by rw [e])]
      · rw [if_neg e, if_neg (by simpa using fun e' : r = b => e e'.symm)]
  rw [h4, List.nodup_cons, List.nodup_append] at hd
  obtain ⟨d1, -, d3, d4⟩ := hd
  have hra : p.reg ≠ some a := fun e => d1 (by simp [e])
  have hro : ∀ b ∈ p.opts, p.reg ≠ some b := fun b hb e => d4 b (by simp [e]) b hb rfl
  have hal : a < s.heap.length := Live.lt (s := s) ⟨_, h2⟩
  have hol : ∀ b ∈ p.opts, b < s.heap.length := fun b hb => by
    obtain ⟨k, hk⟩ := ht.2.2 b hb
    exact Live.lt (s := s) ⟨_, hk⟩
  by_cases h0 : n = ""
  · have hpt : (Holder.trainer { p with reg := none }).ptrs = a :: p.opts := by simp [Holder.ptrs, h1]
    refine ⟨put { s with heap := H } i (.trainer { p with reg := none }), none, ?_, ?_, put_same .., fun _ => rfl, fun k hk => absurd h0 hk,
      fun b _ hb' => by show H[b]? = _; rw [e3, if_neg hb']⟩
    · simp only [setReg, trainer_ok hp, bind_ok', e1, h0, ne_eq, not_true_eq_false, if_false, pure_ok]
    · refine moves_of h i none H _ (fun b hb hb' => ?_) (fun b hb => ?_) (fun b x hb hx => ?_) (fun b hb => ?_) ?_ ?_ (fun b hb => by cases hb)
      · rw [hp, h4] at hb'
        rw [e3, if_neg (fun e => hb' (by simp [e]))]
      · rw [hp, h4] at hb
        rw [hpt]
        simp only [List.mem_cons, List.mem_append, Option.mem_toList, Option.mem_def] at hb ⊢
        rcases hb with hb | hb | hb
        · exact .inl (.inl (.inl hb))
        · exact .inr (by rw [e3, if_pos hb])
        · exact .inl (.inl (.inr hb))
      · have := (List.getElem?_eq_some_iff.mp hx).1
        omega
      · rw [hp, h4]
        rw [hpt] at hb
        simp only [List.mem_cons, List.mem_append] at hb ⊢
        tauto
      · refine ⟨⟨a, m, h1, by show H[a]? = _; rw [e3, if_neg hra]; exact h2, h3⟩, fun b hb => (by cases hb), fun b hb => ?_⟩
        show ∃ k, H[b]? = _
        rw [e3, if_neg (hro b hb)]; exact ht.2.2 b hb
      · rw [hpt, List.nodup_cons]
        exact ⟨fun hc => d1 (by simp [hc]), d3⟩
  · obtain ⟨k, hk⟩ := hn.resolve_left h0
    have hpt : (Holder.trainer { p with reg := some s.heap.length }).ptrs = a :: s.heap.length :: p.opts := by simp [Holder.ptrs, h1]
    have hH : ∀ b, (H ++ [some (Helper.reg k)])[b]? = if b = s.heap.length then some (some (.reg k)) else if p.reg = some b then some none else s.heap[b]? := by
      intro b
      rw [getElem?_snoc, e2, e3]
    refine ⟨put { s with heap := H ++ [some (.reg k)] } i (.trainer { p with reg := some s.heap.length }), some s.heap.length, ?_, ?_, put_same .., fun e => absurd e h0,
      fun k' _ hk' => ⟨_, rfl, ?_⟩, fun b hb hb' => ?_⟩
    · simp only [setReg, trainer_ok hp, bind_ok', e1, h0, ne_eq, not_false_eq_true, if_true, hk, alloc, e2, pure_ok]
    · refine moves_of h i none _ _ (fun b hb hb' => ?_) (fun b hb => ?_) (fun b x hb hx => ?_) (fun b hb => ?_) ?_ ?_ (fun b hb => by cases hb)
      · rw [hp, h4] at hb'
        rw [hH, if_neg (by omega), if_neg (fun e => hb' (by simp [e]))]
      · rw [hp, h4] at hb
        rw [hpt]
        have hbl := (ht.live b (by rw [h4]; exact hb)).lt
        simp only [List.mem_cons, List.mem_append, Option.mem_toList, Option.mem_def] at hb ⊢
        rcases hb with hb | hb | hb
        · exact .inl (.inl (.inl hb))
        · exact .inr (by rw [hH, if_neg (by omega), if_pos hb])
        · exact .inl (.inl (.inr (.inr hb)))
      · rw [hpt]
        by_cases e : b = s.heap.length
        · rw [e]; simp
        · rw [hH, if_neg e] at hx
          split at hx
          · cases hx
          · rw [List.getElem?_eq_none (by omega)] at hx; cases hx
      · rw [hp, h4]
        rw [hpt] at hb
        simp only [List.mem_cons, List.mem_append] at hb ⊢
        rcases hb with hb | hb | hb
        · exact .inl (.inl hb)
        · exact .inr hb.ge
        · exact .inl (.inr (.inr hb))
      · refine ⟨⟨a, m, h1, by show (H ++ [some (Helper.reg k)])[a]? = _; rw [hH, if_neg (by omega), if_neg hra]; exact h2, h3⟩, fun b hb => ⟨k, ?_⟩, fun b hb => ?_⟩
        · show (H ++ [some (Helper.reg k)])[b]? = _
          rw [hH, if_pos (Option.some.inj hb).symm]
        · show ∃ k', (H ++ [some (Helper.reg k)])[b]? = _
          rw [hH, if_neg (by have := hol b hb; omega), if_neg (hro b hb)]; exact ht.2.2 b hb
      · rw [hpt, List.nodup_cons, List.nodup_cons]
        refine ⟨fun hc => ?_, fun hc => ?_, d3⟩
        · rcases List.mem_cons.mp hc with e | hc
          · omega
          · exact d1 (by simp [hc])
        · have := hol _ hc; omega
    · show (H ++ [some (Helper.reg k)])[s.heap.length]? = _
      rw [hH, if_pos rfl, ← Option.some.inj (hk.symm.trans hk')]
    · show (H ++ [some (Helper.reg k)])[b]? = _
      rw [hH, if_neg (by omega), if_neg hb']

/-- The name of the next optimizers is stored. -/
theorem putName_moves {s : Helpers} (h : s.Safe) {i : Nat} {p : TrainPtrs} (hp : s.objs i = .trainer p) (n : String) :
    Moves i none s (s.put i (.trainer { p with optName := n })) := by
  have ht := h.typed i
  have hd := h.nodup i
  rw [hp] at ht hd
  have e : (Holder.trainer { p with optName := n }).ptrs = (s.objs i).ptrs := by rw [hp]; rfl
  refine moves_of h i none s.heap _ (fun _ _ _ => rfl) (fun b hb => .inl (.inl (by rw [e]; exact hb))) (fun b x hb hx => ?_) (fun b hb => .inl (by rwa [e] at hb))
    ht ?_ (fun b hb => by cases hb)
  · rw [List.getElem?_eq_none hb] at hx; cases hx
  · exact hd

/-- An optimizer is added. -/
theorem pushOpt_moves {s : Helpers} (h : s.Safe) {i : Nat} {p : TrainPtrs} (hp : s.objs i = .trainer p) (k : OptKind) :
    ∃ s', s.pushOpt i k = .ok s' ∧ Moves i none s s' ∧ s'.objs i = .trainer { p with opts := p.opts ++ [s.heap.length] } ∧
      s'.heap[s.heap.length]? = some (some (.opt k)) ∧ ∀ a, a < s.heap.length → s'.heap[a]? = s.heap[a]? := by
  have ht := h.typed i
  have hd := h.nodup i
  rw [hp] at ht hd
  obtain ⟨a, m, h1, h2, h3, h4⟩ := ptrs_trainer ht
  have hpt : (Holder.trainer { p with opts := p.opts ++ [s.heap.length] }).ptrs = (s.objs i).ptrs ++ [s.heap.length] := by
    rw [hp]; simp [Holder.ptrs]
  have hlt : ∀ b ∈ (s.objs i).ptrs, b < s.heap.length := fun b hb => ((h.typed i).live b hb).lt
  refine ⟨put { s with heap := s.heap ++ [some (.opt k)] } i (.trainer { p with opts := p.opts ++ [s.heap.length] }), ?_, ?_, put_same .., ?_, ?_⟩
  · simp only [pushOpt, trainer_ok hp, bind_ok', alloc, pure_ok]
  · refine moves_of h i none _ _ (fun b hb _ => ?_) (fun b hb => .inl (.inl ?_)) (fun b x hb hx => ?_) (fun b hb => ?_) ?_ ?_ (fun b hb => by cases hb)
    · rw [getElem?_snoc, if_neg (by omega)]
    · rw [hpt]; simp [hb]
    · rw [hpt]
      by_cases e : b = s.heap.length
      · rw [e]; simp
      · rw [getElem?_snoc, if_neg e, List.getElem?_eq_none hb] at hx; cases hx
    · rw [hpt, List.mem_append, List.mem_singleton] at hb
      exact hb.imp_right fun e => e.ge
    · have hs : ∀ b, b < s.heap.length → (s.heap ++ [some (Helper.opt k)])[b]? = s.heap[b]? := fun b hb => by rw [getElem?_snoc, if_neg (by omega)]
      have ht' : Typed { heap := s.heap ++ [some (.opt k)] } (.trainer p) := ht.congr fun b hb => hs b (hlt b (by rw [hp]; exact hb))
      refine ⟨ht'.1, ht'.2.1, fun b hb => ?_⟩
      rcases List.mem_append.mp hb with hb | hb
      · exact ht'.2.2 b hb
      · rw [List.mem_singleton] at hb
        exact ⟨k, by show (s.heap ++ [some (Helper.opt k)])[b]? = _; rw [getElem?_snoc, if_pos hb]⟩
    · rw [hpt, List.nodup_append]
      refine ⟨h.nodup i, List.nodup_singleton _, fun x hx y hy e => ?_⟩
      rw [List.mem_singleton] at hy
      have := hlt x hx
      omega
  · show (s.heap ++ [some (Helper.opt k)])[s.heap.length]? = _
    rw [getElem?_snoc, if_pos rfl]
  · intro b hb
    show (s.heap ++ [some (Helper.opt k)])[b]? = _
    rw [getElem?_snoc, if_neg (by omega)]

/-- The destructor of a trainer leaves only its regularizer behind. -/
theorem delTrainer_moves {s : Helpers} (h : s.Safe) {i : Nat} {p : TrainPtrs} (hp : s.objs i = .trainer p) :
    ∃ s', s.delTrainer i = .ok s' ∧ Moves i p.reg s s' ∧ s'.objs i = .gone := by
  obtain ⟨s₁, e1, e2, e3, -⟩ := clearOpts_moves h hp
  have ht := e2.safe.typed i
  have hd := e2.safe.nodup i
  rw [e3] at ht hd
  obtain ⟨a, m, h1, h2, h3, h4⟩ := ptrs_trainer ht
  dsimp only at h1 h4
  rw [List.append_nil] at h4
  have hla : s₁.Live a := ⟨_, h2⟩
  rw [h4, List.nodup_cons] at hd
  refine ⟨put { s₁ with heap := s₁.heap.set a none } i .gone, ?_, e2.trans ?_, put_same ..⟩
  · simp only [delTrainer, e1, bind_ok', trainer_ok e3, h1, free_ok hla, pure_ok]
  · refine moves_of e2.safe i p.reg _ _ (fun b hb hb' => ?_) (fun b hb => ?_) (fun b x hb hx => ?_) (fun b hb => ?_) trivial List.nodup_nil (fun b hb => ⟨?_, ?_, ?_⟩)
    · rw [e3, h4] at hb'
      rw [getElem?_kill _ _ _ hla.lt, if_neg (fun e => hb' (by simp [e]))]
    · rw [e3, h4] at hb
      rcases List.mem_cons.mp hb with rfl | hb
      · exact .inr (by rw [getElem?_kill _ _ _ hla.lt, if_pos rfl])
      · exact .inl (.inr (by simpa using hb))
    · have := (List.getElem?_eq_some_iff.mp hx).1
      rw [List.length_set] at this
      omega
    · cases hb
    · rw [e3, h4, hb]; simp
    · exact List.not_mem_nil
    · rw [getElem?_kill _ _ _ hla.lt, if_neg]
      rintro rfl
      exact hd.1 (by simp [hb])

theorem delKMeans_moves {s : Helpers} (h : s.Safe) {i : Nat} {p : Option Nat} (hp : s.objs i = .kmeans p) :
    ∃ s', s.delKMeans i = .ok s' ∧ Moves i none s s' ∧ s'.objs i = .gone := by
  have ht := h.typed i
  rw [hp] at ht
  obtain ⟨a, n, rfl, h2, -⟩ := ht
  have hla : s.Live a := ⟨_, h2⟩
  have hpt : (s.objs i).ptrs = [a] := by rw [hp]; rfl
  refine ⟨put { s with heap := s.heap.set a none } i .gone, ?_, ?_, put_same ..⟩
  · simp only [delKMeans, kmeans_ok hp, bind_ok', free_ok hla, pure_ok]
  · refine moves_of h i none _ _ (fun b hb hb' => ?_) (fun b hb => .inr ?_) (fun b x hb hx => ?_) (fun b hb => by cases hb) trivial List.nodup_nil (fun b hb => by cases hb)
    · rw [hpt] at hb'
      rw [getElem?_kill _ _ _ hla.lt, if_neg (fun e => hb' (by simp [e]))]
    · rw [hpt, List.mem_singleton] at hb
      rw [getElem?_kill _ _ _ hla.lt, if_pos hb]
    · have := (List.getElem?_eq_some_iff.mp hx).1
      rw [List.length_set] at this
      omega

theorem kmLoss_moves {s : Helpers} (h : s.Safe) {i : Nat} {p : Option Nat} (hp : s.objs i = .kmeans p) {n : String} (hn : n ∈ listLoss) :
    ∃ s', s.kmLoss i n = .ok s' ∧ Moves i none s s' ∧ s'.objs i = .kmeans (some s.heap.length) ∧ s'.heap[s.heap.length]? = some (some (.loss n)) := by
  have ht := h.typed i
  rw [hp] at ht
  obtain ⟨a, m, rfl, h2, -⟩ := ht
  have hla : s.Live a := ⟨_, h2⟩
  have hpt : (s.objs i).ptrs = [a] := by rw [hp]; rfl
  have hpt' : (Holder.kmeans (some s.heap.length)).ptrs = [s.heap.length] := rfl
  have hH : ∀ b, (s.heap.set a none ++ [some (Helper.loss n)])[b]? = if b = s.heap.length then some (some (.loss n)) else if b = a then some none else s.heap[b]? := by
    intro b
    rw [getElem?_snoc, List.length_set, getElem?_kill _ _ _ hla.lt]
  have hal := hla.lt
  refine ⟨put { s with heap := s.heap.set a none ++ [some (.loss n)] } i (.kmeans (some s.heap.length)), ?_, ?_, put_same .., ?_⟩
  · simp only [kmLoss, kmeans_ok hp, bind_ok', free_ok hla, createLoss_ok _ hn, List.length_set, Option.isSome_some, check_true, pure_ok]
  · refine moves_of h i none _ _ (fun b hb hb' => ?_) (fun b hb => .inr ?_) (fun b x hb hx => ?_) (fun b hb => ?_) ?_ ?_ (fun b hb => by cases hb)
    · rw [hpt] at hb'
      rw [hH, if_neg (by omega), if_neg (fun e => hb' (by simp [e]))]
    · rw [hpt, List.mem_singleton] at hb
      rw [hH, if_neg (by omega), if_pos hb]
    · rw [hpt', List.mem_singleton]
      by_contra e
      rw [hH, if_neg e, if_neg (by omega), List.getElem?_eq_none hb] at hx
      cases hx
    · rw [hpt', List.mem_singleton] at hb
      exact .inr hb.ge
    · exact ⟨s.heap.length, n, rfl, by rw [hH, if_pos rfl], hn⟩
    · exact List.nodup_singleton _
  · show (s.heap.set a none ++ [some (Helper.loss n)])[s.heap.length]? = _
    rw [hH, if_pos rfl]

theorem lossName_ok {s : Helpers} {a : Nat} {n : String} (h : s.heap[a]? = some (some (.loss n))) : s.lossName (some a) = .ok n := by
  simp [lossName, deref, h]

/-- Assignment of KMeans models leaks the old loss. -/
theorem kmAssign_moves {s : Helpers} (h : s.Safe) {i j : Nat} {p q : Option Nat} (hp : s.objs i = .kmeans p) (hq : s.objs j = .kmeans q) :
    ∃ s' n, s.kmAssign i j = .ok s' ∧ Moves i p s s' ∧ s'.objs i = .kmeans (some s.heap.length) ∧ s'.heap[s.heap.length]? = some (some (.loss n)) ∧
      s.lossName q = .ok n := by
  have ht := h.typed i
  rw [hp] at ht
  obtain ⟨a, m, rfl, h2, -⟩ := ht
  have hu := h.typed j
  rw [hq] at hu
  obtain ⟨b, n, rfl, h3, hn⟩ := hu
  have hla : s.Live a := ⟨_, h2⟩
  have hal := hla.lt
  have hpt : (s.objs i).ptrs = [a] := by rw [hp]; rfl
  have hpt' : (Holder.kmeans (some s.heap.length)).ptrs = [s.heap.length] := rfl
  refine ⟨put { s with heap := s.heap ++ [some (.loss n)] } i (.kmeans (some s.heap.length)), n, ?_, ?_, put_same .., ?_, lossName_ok h3⟩
  · simp only [kmAssign, kmeans_ok hp, kmeans_ok hq, bind_ok', lossName_ok h3, createLoss_ok _ hn, pure_ok]
  · refine moves_of h i (some a) _ _ (fun b hb hb' => ?_) (fun b hb => .inl (.inr ?_)) (fun b x hb hx => ?_) (fun b hb => ?_) ?_ ?_ (fun b hb => ⟨?_, ?_, ?_⟩)
    · rw [getElem?_snoc, if_neg (by omega)]
    · rw [hpt, List.mem_singleton] at hb
      rw [hb]
    · rw [hpt', List.mem_singleton]
      by_contra e
      rw [getElem?_snoc, if_neg e, List.getElem?_eq_none hb] at hx
      cases hx
    · rw [hpt', List.mem_singleton] at hb
      exact .inr hb.ge
    · exact ⟨s.heap.length, n, rfl, by rw [getElem?_snoc, if_pos rfl], hn⟩
    · exact List.nodup_singleton _
    · rw [hpt, Option.some.inj hb]; simp
    · rw [hpt', List.mem_singleton, ← Option.some.inj hb]; omega
    · rw [getElem?_snoc, if_neg (by rw [← Option.some.inj hb]; omega)]
  · show (s.heap ++ [some (Helper.loss n)])[s.heap.length]? = _
    rw [getElem?_snoc, if_pos rfl]

/-! ### What the user sees -/

theorem Shows.congr {s s' : Helpers} {o : Holder} {v : HelperView} (h : s.Shows o v) (hs : ∀ a ∈ o.ptrs, s'.heap[a]? = s.heap[a]?) : s'.Shows o v := by
  cases o <;> cases v
  case gone.gone => trivial
  case trainer.trainer p l r o n =>
    obtain ⟨⟨a, h1, h2⟩, h3, h4, h5⟩ := h
    refine ⟨⟨a, h1, by rw [hs a (by simp [Holder.ptrs, h1])]; exact h2⟩, ?_, ?_, h5⟩
    · cases r with
      | none => exact h3
      | some k =>
        obtain ⟨b, h6, h7⟩ := h3
        exact ⟨b, h6, by rw [hs b (by simp [Holder.ptrs, h6])]; exact h7⟩
    · rw [← h4]
      exact List.map_congr_left fun b hb => hs b (by simp [Holder.ptrs, hb])
  case kmeans.kmeans p l =>
    obtain ⟨a, h1, h2⟩ := h
    exact ⟨a, h1, by rw [hs a (by simp [Holder.ptrs, h1])]; exact h2⟩
  all_goals exact h.elim

theorem Moves.shows {i : Nat} {lk : Option Nat} {s s' : Helpers} (h : Moves i lk s s') {j : Nat} (hj : j ≠ i) {v : HelperView} (hv : s.Shows (s.objs j) v) :
    s'.Shows (s'.objs j) v := by
  rw [h.others j hj]
  exact hv.congr (h.keep j hj)

theorem trainer_of_shows {s : Helpers} {p : TrainPtrs} {v : HelperView} (h : s.Shows (.trainer p) v) : ∃ l r o n, v = .trainer l r o n := by
  cases v with
  | trainer l r o n => exact ⟨_, _, _, _, rfl⟩
  | gone => exact h.elim
  | kmeans _ => exact h.elim

theorem kmeans_of_shows {s : Helpers} {p : Option Nat} {v : HelperView} (h : s.Shows (.kmeans p) v) : ∃ l, v = .kmeans l := by
  cases v with
  | kmeans l => exact ⟨_, rfl⟩
  | gone => exact h.elim
  | trainer _ _ _ _ => exact h.elim

theorem trainer_at {s : Helpers} {o : Holder} {v : HelperView} (h : s.Shows o v) (hv : v.IsTrainer) : ∃ p l r k n, o = .trainer p ∧ v = .trainer l r k n := by
  cases v with
  | trainer l r k n =>
    cases o with
    | trainer p => exact ⟨p, l, r, k, n, rfl, rfl⟩
    | gone => exact h.elim
    | kmeans _ => exact h.elim
  | gone => exact hv.elim
  | kmeans _ => exact hv.elim

theorem kmeans_at {s : Helpers} {o : Holder} {v : HelperView} (h : s.Shows o v) (hv : v.IsKMeans) : ∃ p l, o = .kmeans p ∧ v = .kmeans l := by
  cases v with
  | kmeans l =>
    cases o with
    | kmeans p => exact ⟨p, l, rfl, rfl⟩
    | gone => exact h.elim
    | trainer _ => exact h.elim
  | gone => exact hv.elim
  | trainer _ _ _ _ => exact hv.elim

theorem gone_at {s : Helpers} {o : Holder} (h : s.Shows o .gone) : o = .gone := by
  cases o with
  | gone => rfl
  | trainer _ => exact h.elim
  | kmeans _ => exact h.elim

/-- The pointers of a trainer are different. -/
theorem Safe.apart {s : Helpers} (h : s.Safe) {i : Nat} {p : TrainPtrs} (hp : s.objs i = .trainer p) :
    (∀ a, p.loss = some a → p.reg ≠ some a ∧ a ∉ p.opts ∧ a < s.heap.length) ∧ (∀ a, p.reg = some a → p.loss ≠ some a ∧ a ∉ p.opts ∧ a < s.heap.length) ∧
      (∀ a ∈ p.opts, p.loss ≠ some a ∧ p.reg ≠ some a ∧ a < s.heap.length) := by
  have ht := h.typed i
  have hd := h.nodup i
  rw [hp] at ht hd
  obtain ⟨b, m, h1, h2, h3, h4⟩ := ptrs_trainer ht
  have hl : ∀ a ∈ (Holder.trainer p).ptrs, a < s.heap.length := fun a ha => (ht.live a ha).lt
  rw [h4, List.nodup_cons, List.nodup_append] at hd
  rw [h4] at hl
  obtain ⟨d1, d2, d3, d4⟩ := hd
  refine ⟨fun a ha => ?_, fun a ha => ?_, fun a ha => ?_⟩
  · cases h1.symm.trans ha
    exact ⟨fun e => d1 (by simp [e]), fun e => d1 (by simp [e]), hl _ (by simp)⟩
  · exact ⟨fun e => d1 (by cases h1.symm.trans e; simp [ha]), fun e => d4 a (by simp [ha]) a e rfl, hl _ (by simp [ha])⟩
  · exact ⟨fun e => d1 (by cases h1.symm.trans e; simp [ha]), fun e => d4 a (by simp [e]) a ha rfl, hl _ (by simp [ha])⟩

theorem clearOpts_step {s : Helpers} (h : s.Safe) {i : Nat} {l : String} {r : Option RegKind} {o : List OptKind} {n : String}
    (hv : s.Shows (s.objs i) (.trainer l r o n)) {p : TrainPtrs} (hp : s.objs i = .trainer p) :
    ∃ s', s.clearOpts i = .ok s' ∧ Moves i none s s' ∧ s'.objs i = .trainer { p with opts := [] } ∧ s'.Shows (s'.objs i) (.trainer l r [] n) := by
  obtain ⟨s', e1, e2, e3, e4⟩ := clearOpts_moves h hp
  refine ⟨s', e1, e2, e3, ?_⟩
  obtain ⟨a1, a2, a3⟩ := h.apart hp
  rw [hp] at hv
  rw [e3]
  obtain ⟨⟨a, h1, h2⟩, h3, h4, h5⟩ := hv
  refine ⟨⟨a, h1, by rw [e4 a (a1 a h1).2.1]; exact h2⟩, ?_, rfl, h5⟩
  cases r with
  | none => exact h3
  | some k =>
    obtain ⟨b, h6, h7⟩ := h3
    exact ⟨b, h6, by rw [e4 b (a2 b h6).2.1]; exact h7⟩

theorem setLoss_step {s : Helpers} (h : s.Safe) {i : Nat} {l : String} {r : Option RegKind} {o : List OptKind} {n : String}
    (hv : s.Shows (s.objs i) (.trainer l r o n)) {p : TrainPtrs} (hp : s.objs i = .trainer p) {m : String} (hm : m ∈ listLoss) :
    ∃ s' q, s.setLoss i m = .ok s' ∧ Moves i none s s' ∧ s'.objs i = .trainer q ∧ s'.Shows (s'.objs i) (.trainer m r o n) := by
  obtain ⟨s', e1, e2, e3, e4, e5⟩ := setLoss_moves h hp hm
  refine ⟨s', _, e1, e2, e3, ?_⟩
  obtain ⟨a1, a2, a3⟩ := h.apart hp
  rw [hp] at hv
  rw [e3]
  obtain ⟨⟨a, h1, h2⟩, h3, h4, h5⟩ := hv
  refine ⟨⟨_, rfl, e4⟩, ?_, ?_, h5⟩
  · cases r with
    | none => exact h3
    | some k =>
      obtain ⟨b, h6, h7⟩ := h3
      exact ⟨b, h6, by rw [e5 b (a2 b h6).2.2 (a2 b h6).1]; exact h7⟩
  · rw [← h4]
    exact List.map_congr_left fun b hb => e5 b (a3 b hb).2.2 (a3 b hb).1

theorem setReg_step {s : Helpers} (h : s.Safe) {i : Nat} {l : String} {r : Option RegKind} {o : List OptKind} {n : String}
    (hv : s.Shows (s.objs i) (.trainer l r o n)) {p : TrainPtrs} (hp : s.objs i = .trainer p) {m : String} (hm : m = "" ∨ ∃ k, createRegularizer m = some k) :
    ∃ s' q, s.setReg i m = .ok s' ∧ Moves i none s s' ∧ s'.objs i = .trainer q ∧ s'.Shows (s'.objs i) (.trainer l (createRegularizer m) o n) := by
  obtain ⟨s', q, e1, e2, e3, e4, e5, e6⟩ := setReg_moves h hp hm
  refine ⟨s', _, e1, e2, e3, ?_⟩
  obtain ⟨a1, a2, a3⟩ := h.apart hp
  rw [hp] at hv
  rw [e3]
  obtain ⟨⟨a, h1, h2⟩, h3, h4, h5⟩ := hv
  refine ⟨⟨a, h1, by rw [e6 a (a1 a h1).2.2 (a1 a h1).1]; exact h2⟩, ?_, ?_, h5⟩
  · by_cases h0 : m = ""
    · have : createRegularizer m = none := by rw [h0]; rfl
      rw [this]
      exact e4 h0
    · obtain ⟨k, hk⟩ := hm.resolve_left h0
      rw [hk]
      exact e5 k h0 hk
  · rw [← h4]
    exact List.map_congr_left fun b hb => e6 b (a3 b hb).2.2 (a3 b hb).2.1

theorem pushOpt_step {s : Helpers} (h : s.Safe) {i : Nat} {l : String} {r : Option RegKind} {o : List OptKind} {n : String}
    (hv : s.Shows (s.objs i) (.trainer l r o n)) {p : TrainPtrs} (hp : s.objs i = .trainer p) (k : OptKind) :
    ∃ s' q, s.pushOpt i k = .ok s' ∧ Moves i none s s' ∧ s'.objs i = .trainer q ∧ s'.Shows (s'.objs i) (.trainer l r (o ++ [k]) n) := by
  obtain ⟨s', e1, e2, e3, e4, e5⟩ := pushOpt_moves h hp k
  refine ⟨s', _, e1, e2, e3, ?_⟩
  obtain ⟨a1, a2, a3⟩ := h.apart hp
  rw [hp] at hv
  rw [e3]
  obtain ⟨⟨a, h1, h2⟩, h3, h4, h5⟩ := hv
  refine ⟨⟨a, h1, by rw [e5 a (a1 a h1).2.2]; exact h2⟩, ?_, ?_, h5⟩
  · cases r with
    | none => exact h3
    | some k =>
      obtain ⟨b, h6, h7⟩ := h3
      exact ⟨b, h6, by rw [e5 b (a2 b h6).2.2]; exact h7⟩
  · dsimp only
    rw [List.map_append, List.map_append, ← h4]
    congr 1
    · exact List.map_congr_left fun b hb => e5 b (a3 b hb).2.2
    · simp [e4]

theorem putName_step {s : Helpers} (h : s.Safe) {i : Nat} {l : String} {r : Option RegKind} {o : List OptKind} {n : String}
    (hv : s.Shows (s.objs i) (.trainer l r o n)) {p : TrainPtrs} (hp : s.objs i = .trainer p) (m : String) :
    Moves i none s (s.put i (.trainer { p with optName := m })) ∧
      (s.put i (.trainer { p with optName := m })).Shows ((s.put i (.trainer { p with optName := m })).objs i) (.trainer l r o m) := by
  refine ⟨putName_moves h hp m, ?_⟩
  rw [put_same]
  rw [hp] at hv
  obtain ⟨h1, h3, h4, -⟩ := hv
  exact ⟨h1, h3, h4, rfl⟩

theorem setOptimizer_step {s : Helpers} (h : s.Safe) {i : Nat} {l : String} {r : Option RegKind} {o : List OptKind} {n : String}
    (hv : s.Shows (s.objs i) (.trainer l r o n)) {p : TrainPtrs} (hp : s.objs i = .trainer p) (m : String) :
    ∃ s', s.setOptimizer i m = .ok s' ∧ Moves i none s s' ∧ s'.Shows (s'.objs i) (.trainer l r [] m) := by
  obtain ⟨h1, h2⟩ := putName_step h hv hp m
  obtain ⟨s', e1, e2, -, e4⟩ := clearOpts_step h1.safe h2 (put_same ..)
  exact ⟨s', by simp only [setOptimizer, trainer_ok hp, bind_ok', e1, pure_ok], h1.trans e2, e4⟩

theorem setNet_step {s : Helpers} (h : s.Safe) {i : Nat} {l : String} {r : Option RegKind} {o : List OptKind} {n : String}
    (hv : s.Shows (s.objs i) (.trainer l r o n)) {p : TrainPtrs} (hp : s.objs i = .trainer p) {k : Nat} (hk : k = 0 ∨ ∃ x, createOptimizer n = some x) :
    ∃ s', s.setNet i k = .ok s' ∧ Moves i none s s' ∧ s'.Shows (s'.objs i) (.trainer l r (List.replicate k ((createOptimizer n).getD .sgd)) n) := by
  obtain ⟨s₁, e1, e2, e3, e4⟩ := clearOpts_step h hv hp
  obtain ⟨s', f1, f2, p', f3, f4⟩ := forN_inv (n := k) (s := s₁)
    (f := fun _ (s : Helpers) => do
      let p ← s.trainer i
      match createOptimizer p.optName with
      | some o => s.pushOpt i o
      | none => .error .nullDeref)
    (fun k t => Moves i none s t ∧ ∃ p, t.objs i = .trainer p ∧ t.Shows (t.objs i) (.trainer l r (List.replicate k ((createOptimizer n).getD .sgd)) n))
    ⟨e2, _, e3, e4⟩ (fun j hj t ⟨t1, p, t2, t3⟩ => by
      obtain ⟨x, hx⟩ := hk.resolve_left (by omega)
      have hn : p.optName = n := by rw [t2] at t3; exact t3.2.2.2
      obtain ⟨t', q, g1, g2, g3, g4⟩ := pushOpt_step t1.safe t3 t2 x
      refine ⟨t', by simp only [trainer_ok t2, bind_ok', hn, hx, g1], t1.trans g2, q, g3, ?_⟩
      rw [List.replicate_succ']
      rw [hx, Option.getD_some] at g4 ⊢
      exact g4)
  exact ⟨s', by simp only [setNet, e1, bind_ok']; exact f1, f2, f4⟩

theorem Shows.lossName {s : Helpers} {p : TrainPtrs} {l : String} {r : Option RegKind} {o : List OptKind} {n : String}
    (h : s.Shows (.trainer p) (.trainer l r o n)) : s.lossName p.loss = .ok l := by
  obtain ⟨⟨a, h1, h2⟩, -⟩ := h
  rw [h1]; exact lossName_ok h2

theorem Shows.regName {s : Helpers} {p : TrainPtrs} {l : String} {r : Option RegKind} {o : List OptKind} {n : String}
    (h : s.Shows (.trainer p) (.trainer l r o n)) : s.regName p.reg = .ok ((r.map RegKind.name).getD "") := by
  obtain ⟨-, h3, -⟩ := h
  cases r with
  | none => dsimp only at h3; rw [h3]; rfl
  | some k =>
    obtain ⟨b, h6, h7⟩ := h3
    rw [h6]
    simp [Helpers.regName, deref, h7]

theorem Shows.loss_mem {s : Helpers} (h : s.Safe) {i : Nat} {l : String} {r : Option RegKind} {o : List OptKind} {n : String}
    (hv : s.Shows (s.objs i) (.trainer l r o n)) : l ∈ listLoss := by
  have ht := h.typed i
  cases ho : s.objs i with
  | gone => rw [ho] at hv; exact hv.elim
  | kmeans _ => rw [ho] at hv; exact hv.elim
  | trainer p =>
    rw [ho] at hv ht
    obtain ⟨⟨a, h1, h2⟩, -⟩ := hv
    obtain ⟨⟨b, m, h3, h4, h5⟩, -⟩ := ht
    cases h1.symm.trans h3
    rw [h2] at h4
    cases h4
    exact h5

theorem assign_step {s : Helpers} (h : s.Safe) {i j : Nat} {lᵢ l : String} {rᵢ r : Option RegKind} {oᵢ o : List OptKind} {nᵢ n : String}
    (hvi : s.Shows (s.objs i) (.trainer lᵢ rᵢ oᵢ nᵢ)) {p : TrainPtrs} (hp : s.objs i = .trainer p)
    (hv : s.Shows (s.objs j) (.trainer l r o n)) {q : TrainPtrs} (hq : s.objs j = .trainer q) :
    ∃ s', s.assign i j = .ok s' ∧ Moves i none s s' ∧
      s'.Shows (s'.objs i) (.trainer l r (if i = j then [] else o.map fun k => if k = .irpropm then .rpropm else k) n) := by
  -- the optimizers of `i` are deleted
  obtain ⟨s₁, a1, a2, a3, a4⟩ := clearOpts_step h hvi hp
  obtain ⟨q₁, b1, b2⟩ : ∃ q₁, s₁.objs j = .trainer q₁ ∧ s₁.Shows (s₁.objs j) (.trainer l r (if i = j then [] else o) n) := by
    by_cases e : i = j
    · subst e
      refine ⟨_, a3, ?_⟩
      obtain ⟨s₁', a1', a2', a3', a4'⟩ := clearOpts_step h hv hq
      cases a1.symm.trans a1'
      simpa using a4'
    · rw [if_neg e]
      exact ⟨q, by rw [a2.others j (Ne.symm e), hq], a2.shows (Ne.symm e) hv⟩
  -- the loss
  have hl : l ∈ listLoss := Shows.loss_mem h hv
  obtain ⟨s₂, p₂, c1, c2, c3, c4⟩ := setLoss_step a2.safe a4 a3 hl
  obtain ⟨q₂, d1, d2⟩ : ∃ q₂, s₂.objs j = .trainer q₂ ∧ s₂.Shows (s₂.objs j) (.trainer l r (if i = j then [] else o) n) := by
    by_cases e : i = j
    · subst e
      refine ⟨_, c3, ?_⟩
      obtain ⟨s₁', _, a1', a2', a3', a4'⟩ := setLoss_step a2.safe b2 b1 hl
      cases c1.symm.trans a1'
      exact a4'
    · exact ⟨q₁, by rw [c2.others j (Ne.symm e), b1], c2.shows (Ne.symm e) b2⟩
  -- the regularizer
  obtain ⟨m, hm, hm1, hm2⟩ : ∃ m, m = ((r.map RegKind.name).getD "") ∧ (m = "" ∨ ∃ k, createRegularizer m = some k) ∧ createRegularizer m = r := by
    cases r with
    | none => exact ⟨_, rfl, .inl rfl, rfl⟩
    | some k => cases k <;> exact ⟨_, rfl, .inr ⟨_, rfl⟩, rfl⟩
  obtain ⟨s₃, p₃, f1, f2, f3, f4⟩ := setReg_step c2.safe c4 c3 hm1
  obtain ⟨q₃, g1, g2⟩ : ∃ q₃, s₃.objs j = .trainer q₃ ∧ s₃.Shows (s₃.objs j) (.trainer l r (if i = j then [] else o) n) := by
    by_cases e : i = j
    · subst e
      refine ⟨_, f3, ?_⟩
      obtain ⟨s₁', _, a1', a2', a3', a4'⟩ := setReg_step c2.safe d2 d1 hm1
      cases f1.symm.trans a1'
      rw [hm2] at a4'
      exact a4'
    · exact ⟨q₂, by rw [f2.others j (Ne.symm e), d1], f2.shows (Ne.symm e) d2⟩
  rw [hm2] at f4
  -- the name of the optimizer
  have hn : q₃.optName = n := by rw [g1] at g2; exact g2.2.2.2
  obtain ⟨k1, k2⟩ := putName_step f2.safe f4 f3 n
  have hM : Moves i none s (s₃.put i (.trainer { p₃ with optName := n })) := ((a2.trans c2).trans f2).trans k1
  have hrun : ∀ s', forN q₃.opts.length (fun k s => do
      match ← s.deref q₃.opts[k]? with
      | .opt o => s.pushOpt i (if o = .irpropm then .rpropm else o)
      | _ => .error .useAfterFree) (s₃.put i (.trainer { p₃ with optName := n })) = .ok s' → s.assign i j = .ok s' := by
    intro s' hs'
    rw [← hs']
    rw [b1] at b2
    rw [d1] at d2
    have e2 := Shows.regName d2
    rw [← hm] at e2
    simp only [assign, a1, bind_ok', trainer_ok b1, Shows.lossName b2, c1, trainer_ok d1, e2, f1, trainer_ok g1, trainer_ok f3, hn]
    rfl
  by_cases e : i = j
  · rw [if_pos e]
    have hq0 : q₃.opts = [] := by
      rw [g1, if_pos e] at g2
      simpa using g2.2.2.1
    exact ⟨_, hrun _ (by rw [hq0]; rfl), hM, k2⟩
  · rw [if_neg e] at g2 ⊢
    have hj : ∀ t, Moves i none (s₃.put i (.trainer { p₃ with optName := n })) t → ∀ k (hk : k < q₃.opts.length), ∃ x, o[k]? = some x ∧ t.deref q₃.opts[k]? = .ok (.opt x) := by
      intro t ht k hk
      have hlen : q₃.opts.length = o.length := by
        rw [g1] at g2
        simpa using congrArg List.length g2.2.2.1
      have hko : k < o.length := by omega
      refine ⟨o[k], List.getElem?_eq_getElem hko, ?_⟩
      have hg : s₃.heap[q₃.opts[k]]? = some (some (.opt o[k])) := by
        rw [g1] at g2
        have := congrArg (fun L => L[k]?) g2.2.2.1
        simpa [List.getElem?_map, List.getElem?_eq_getElem hk, List.getElem?_eq_getElem hko] using this
      have hput : (s₃.put i (.trainer { p₃ with optName := n })).objs j = .trainer q₃ := by rw [k1.others j (Ne.symm e), g1]
      have hk' : t.heap[q₃.opts[k]]? = some (some (.opt o[k])) := by
        rw [ht.keep j (Ne.symm e) _ (by rw [hput]; simp [Holder.ptrs])]
        exact hg
      rw [List.getElem?_eq_getElem hk]
      simp only [deref, hk']
    have hlen : q₃.opts.length = o.length := by
      rw [g1] at g2
      simpa using congrArg List.length g2.2.2.1
    obtain ⟨s', w1, w2, p', w3, w4⟩ := forN_inv (n := q₃.opts.length) (s := s₃.put i (.trainer { p₃ with optName := n }))
      (f := fun k (s : Helpers) => do
        match ← s.deref q₃.opts[k]? with
        | .opt o => s.pushOpt i (if o = .irpropm then .rpropm else o)
        | _ => .error .useAfterFree)
      (fun k t => Moves i none (s₃.put i (.trainer { p₃ with optName := n })) t ∧ ∃ p, t.objs i = .trainer p ∧
        t.Shows (t.objs i) (.trainer l r ((o.take k).map fun k => if k = .irpropm then .rpropm else k) n))
      ⟨Moves.refl k1.safe, _, put_same .., by rw [List.take_zero]; exact k2⟩ (fun k hk t ⟨t1, p, t2, t3⟩ => by
        obtain ⟨x, hx, hd⟩ := hj t t1 k hk
        obtain ⟨t', q', y1, y2, y3, y4⟩ := pushOpt_step t1.safe t3 t2 (if x = .irpropm then .rpropm else x)
        refine ⟨t', by simp only [hd, bind_ok', y1], t1.trans y2, q', y3, ?_⟩
        have hko : k < o.length := by omega
        rw [List.getElem?_eq_getElem hko] at hx
        rw [List.take_succ_eq_append_getElem hko, List.map_append, Option.some.inj hx]
        exact y4)
    rw [hlen, List.take_length] at w4
    exact ⟨s', hrun s' w1, hM.trans w2, w4⟩

end Helpers
end BeeDNN
