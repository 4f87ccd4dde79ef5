import Verif.Lemmas.Helpers
import Verif.Props.Optimizer
import Verif.Props.Regularizer

/-! # C111: who owns the loss, the regularizer and the optimizers -/

namespace BeeDNN
open Helpers

/-- C111: every state in which all pointers are right is one a user can see. -/
theorem C111_view {s : Helpers} (h : s.Safe) (i : Nat) : ∃ v, s.Shows (s.objs i) v := by
  have ht := h.typed i
  cases ho : s.objs i with
  | gone => exact ⟨.gone, trivial⟩
  | kmeans p =>
    rw [ho] at ht
    obtain ⟨a, n, h1, h2, -⟩ := ht
    exact ⟨.kmeans n, a, h1, h2⟩
  | trainer p =>
    rw [ho] at ht
    obtain ⟨⟨a, n, h1, h2, -⟩, h3, h4⟩ := ht
    have h5 : ∀ L : List Nat, (∀ a ∈ L, ∃ k, s.heap[a]? = some (some (.opt k))) → ∃ o : List OptKind, L.map (fun a => s.heap[a]?) = o.map fun k => some (some (.opt k)) := by
      intro L
      induction L with
      | nil => exact fun _ => ⟨[], rfl⟩
      | cons b L ih =>
        intro hL
        obtain ⟨o, hoo⟩ := ih fun c hc => hL c (List.mem_cons_of_mem _ hc)
        obtain ⟨k, hk⟩ := hL b List.mem_cons_self
        exact ⟨k :: o, by rw [List.map_cons, List.map_cons, hoo, hk]⟩
    obtain ⟨o, hoo⟩ := h5 p.opts h4
    cases hr : p.reg with
    | none => exact ⟨.trainer n none o p.optName, ⟨a, h1, h2⟩, hr, hoo, rfl⟩
    | some b =>
      obtain ⟨k, hk⟩ := h3 b hr
      exact ⟨.trainer n (some k) o p.optName, ⟨a, h1, h2⟩, ⟨b, hr, hk⟩, hoo, rfl⟩

/-- C111: in every state in which all pointers are right, every operation that is allowed ends without a fault; all pointers are
right afterwards; the operation changes what the user sees of one trainer or model and nothing of any other; and the only object
that gets lost is the one that `leaked` names. -/
theorem C111_step {s : Helpers} (h : s.Safe) {v : Nat → HelperView} (hv : ∀ i, s.Shows (s.objs i) (v i)) (op : HelperOp) (ha : op.Allowed v) :
    ∃ s', op.run s = .ok s' ∧ s'.Safe ∧ (∀ i, s'.Shows (s'.objs i) (op.apply v i)) ∧ ∀ a, s'.Lost a ↔ s.Lost a ∨ op.leaked s = some a := by
  have fin : ∀ {i : Nat} {lk : Option Nat} {s' : Helpers} {w : HelperView}, Moves i lk s s' → s'.Shows (s'.objs i) w → op.run s = .ok s' →
      op.effect v = (i, w) → op.leaked s = lk →
      ∃ s', op.run s = .ok s' ∧ s'.Safe ∧ (∀ i, s'.Shows (s'.objs i) (op.apply v i)) ∧ ∀ a, s'.Lost a ↔ s.Lost a ∨ op.leaked s = some a := by
    intro i lk s' w hm hs hr he hl
    refine ⟨s', hr, hm.safe, fun j => ?_, fun a => by rw [hl]; exact hm.lost a⟩
    unfold HelperOp.apply
    rw [he]
    dsimp only
    split
    · next e => rw [e]; exact hs
    · next e => exact hm.shows e (hv j)
  cases op with
  | newTrainer i =>
    obtain ⟨s', h1, h2, h3, h4⟩ := newTrainer_moves h (i := i) (gone_at (by have := hv i; rwa [show v i = .gone from ha] at this))
    exact fin h2 (w := .trainer "MeanSquaredError" none [] "Adam") (by rw [h3]; exact ⟨⟨_, rfl, h4⟩, rfl, rfl, rfl⟩) h1 rfl rfl
  | delTrainer i =>
    obtain ⟨p, l, r, o, n, hp, e⟩ := trainer_at (hv i) ha
    obtain ⟨s', h1, h2, h3⟩ := delTrainer_moves h hp
    exact fin h2 (w := .gone) (by rw [h3]; trivial) h1 rfl (by simp [HelperOp.leaked, hp])
  | setLoss i n =>
    obtain ⟨p, l, r, o, m, hp, e⟩ := trainer_at (hv i) ha.1
    obtain ⟨s', q, h1, h2, h3, h4⟩ := setLoss_step h (e ▸ hv i) hp ha.2
    exact fin h2 h4 h1 (by simp [HelperOp.effect, e]) rfl
  | setReg i n =>
    obtain ⟨p, l, r, o, m, hp, e⟩ := trainer_at (hv i) ha.1
    obtain ⟨s', q, h1, h2, h3, h4⟩ := setReg_step h (e ▸ hv i) hp (ha.2.imp_right fun hn => Option.isSome_iff_exists.mp ((C62_regularizer.1 n).2 hn))
    exact fin h2 h4 h1 (by simp [HelperOp.effect, e]) rfl
  | setOptimizer i n =>
    obtain ⟨p, l, r, o, m, hp, e⟩ := trainer_at (hv i) ha
    obtain ⟨s', h1, h2, h4⟩ := setOptimizer_step h (e ▸ hv i) hp n
    exact fin h2 h4 h1 (by simp [HelperOp.effect, e]) rfl
  | setNet i k =>
    obtain ⟨l, r, o, m, e, hk⟩ := ha
    obtain ⟨p, l', r', o', m', hp, e'⟩ := trainer_at (hv i) (by rw [e]; trivial)
    obtain ⟨s', h1, h2, h4⟩ := setNet_step h (e ▸ hv i) hp (k := k) (hk.imp_right fun hn => Option.isSome_iff_exists.mp ((C62_optimizer.1 m).2 hn))
    exact fin h2 h4 h1 (by simp [HelperOp.effect, e]) rfl
  | assign i j =>
    obtain ⟨p, l, r, o, m, hp, e⟩ := trainer_at (hv i) ha.1
    obtain ⟨q, l', r', o', m', hq, e'⟩ := trainer_at (hv j) ha.2
    obtain ⟨s', h1, h2, h4⟩ := assign_step h (e ▸ hv i) hp (e' ▸ hv j) hq
    exact fin h2 h4 h1 (by simp [HelperOp.effect, e']) rfl
  | newKMeans i =>
    obtain ⟨s', h1, h2, h3, h4⟩ := newKMeans_moves h (i := i) (gone_at (by have := hv i; rwa [show v i = .gone from ha] at this))
    exact fin h2 (w := .kmeans "MeanSquaredError") (by rw [h3]; exact ⟨_, rfl, h4⟩) h1 rfl rfl
  | delKMeans i =>
    obtain ⟨p, l, hp, e⟩ := kmeans_at (hv i) ha
    obtain ⟨s', h1, h2, h3⟩ := delKMeans_moves h hp
    exact fin h2 (w := .gone) (by rw [h3]; trivial) h1 rfl rfl
  | kmLoss i n =>
    obtain ⟨p, l, hp, e⟩ := kmeans_at (hv i) ha.1
    obtain ⟨s', h1, h2, h3, h4⟩ := kmLoss_moves h hp ha.2
    exact fin h2 (w := .kmeans n) (by rw [h3]; exact ⟨_, rfl, h4⟩) h1 rfl rfl
  | kmAssign i j =>
    obtain ⟨p, l, hp, e⟩ := kmeans_at (hv i) ha.1
    obtain ⟨q, l', hq, e'⟩ := kmeans_at (hv j) ha.2
    obtain ⟨s', n, h1, h2, h3, h4, h5⟩ := kmAssign_moves h hp hq
    have hvj := hv j
    rw [hq, e'] at hvj
    obtain ⟨b, hb1, hb2⟩ := hvj
    rw [hb1, lossName_ok hb2] at h5
    cases h5
    exact fin h2 (w := .kmeans l') (by rw [h3]; exact ⟨_, rfl, h4⟩) h1 (by simp [HelperOp.effect, e']) (by simp [HelperOp.leaked, hp])

/-- At the start of a program all pointers are right: there are none. -/
theorem safe_start : Safe {} := ⟨fun _ => trivial, fun _ => List.nodup_nil, fun _ _ _ h => absurd h List.not_mem_nil⟩

/-- C111: no program that uses trainers and KMeans models only between their construction and their destruction, with names
that exist, uses or deletes an object that does not exist any more, however long it is and in whatever order it sets losses,
regularizers and optimizers, trains and assigns; and the user sees what they would see if nothing were shared. -/
theorem C111_no_fault {s : Helpers} (h : s.Safe) {v : Nat → HelperView} (hv : ∀ i, s.Shows (s.objs i) (v i)) (ops : List HelperOp) (ha : Legal v ops) :
    ∃ s', runHelpers s ops = .ok s' ∧ s'.Safe ∧ ∀ i, s'.Shows (s'.objs i) (ops.foldl HelperOp.apply v i) := by
  induction ops generalizing s v with
  | nil => exact ⟨s, rfl, h, hv⟩
  | cons op ops ih =>
    obtain ⟨s', h1, h2, h3, -⟩ := C111_step h hv op ha.1
    obtain ⟨s'', h4, h5, h6⟩ := ih h2 h3 ha.2
    exact ⟨s'', by simp only [runHelpers, h1, bind_ok', h4], h5, h6⟩

/-- C111: an object that was lost is never used and never deleted. -/
theorem C111_lost_forever {s : Helpers} (h : s.Safe) {v : Nat → HelperView} (hv : ∀ i, s.Shows (s.objs i) (v i)) (ops : List HelperOp) (ha : Legal v ops)
    {s' : Helpers} (hs : runHelpers s ops = .ok s') {a : Nat} (hl : s.Lost a) : s'.Lost a := by
  induction ops generalizing s v with
  | nil => cases hs; exact hl
  | cons op ops ih =>
    obtain ⟨t, h1, h2, h3, h4⟩ := C111_step h hv op ha.1
    simp only [runHelpers, h1, bind_ok'] at hs
    exact ih h2 h3 ha.2 hs ((h4 a).mpr (.inl hl))

/-- C111, the part that holds: without a regularizer and without assignment of KMeans models, nothing is lost, and when the last
trainer or model is destroyed no object is left.  In general it does not hold: `C111_regularizer_leak`, `C111_kmeans_leak`. -/
theorem C111_no_leak_partial (ops : List HelperOp) (ha : Legal (fun _ => .gone) ops) (hr : ∀ i n, HelperOp.setReg i n ∈ ops → n = "")
    (hk : ∀ i j, HelperOp.kmAssign i j ∉ ops) {s' : Helpers} (hs : runHelpers {} ops = .ok s') :
    (∀ a, ¬ s'.Lost a) ∧ ((∀ i, s'.objs i = .gone) → ∀ a, ¬ s'.Live a) := by
  suffices H : ∀ a, ¬ s'.Lost a from ⟨H, fun hg a hl => H a ⟨hl, fun i => by rw [hg i]; exact List.not_mem_nil⟩⟩
  have key : ∀ (ops : List HelperOp) (s : Helpers) (v : Nat → HelperView), s.Safe → (∀ i, s.Shows (s.objs i) (v i)) →
      (∀ i l r o n, v i = .trainer l r o n → r = none) → (∀ a, ¬ s.Lost a) → Legal v ops → (∀ i n, HelperOp.setReg i n ∈ ops → n = "") →
      (∀ i j, HelperOp.kmAssign i j ∉ ops) → ∀ s', runHelpers s ops = .ok s' → ∀ a, ¬ s'.Lost a := by
    intro ops
    induction ops with
    | nil => intro s v h hv hn hl _ _ _ s' hs; cases hs; exact hl
    | cons op ops ih =>
      intro s v h hv hn hl hg hr hk s' hs
      obtain ⟨t, h1, h2, h3, h4⟩ := C111_step h hv op hg.1
      simp only [runHelpers, h1, bind_ok'] at hs
      refine ih t _ h2 h3 (fun i l r o n e => ?_) (fun a hc => ?_) hg.2 (fun i n hm => hr i n (List.mem_cons_of_mem _ hm))
        (fun i j hm => hk i j (List.mem_cons_of_mem _ hm)) s' hs
      · unfold HelperOp.apply at e
        split at e
        · cases op with
          | newTrainer k => cases e; rfl
          | setLoss k m =>
            simp only [HelperOp.effect] at e
            split at e
            · next e' => cases e; exact hn _ _ _ _ _ e'
            · next x e' => exact hn _ _ _ _ _ e
          | setReg k m =>
            simp only [HelperOp.effect] at e
            split at e
            · cases e; rw [hr k m List.mem_cons_self]; rfl
            · exact hn _ _ _ _ _ e
          | setOptimizer k m =>
            simp only [HelperOp.effect] at e
            split at e
            · next e' => cases e; exact hn _ _ _ _ _ e'
            · exact hn _ _ _ _ _ e
          | setNet k m =>
            simp only [HelperOp.effect] at e
            split at e
            · next e' => cases e; exact hn _ _ _ _ _ e'
            · exact hn _ _ _ _ _ e
          | assign k m =>
            simp only [HelperOp.effect] at e
            split at e
            · next e' => cases e; exact hn _ _ _ _ _ e'
            · exact hn _ _ _ _ _ e
          | kmAssign k m => exact absurd List.mem_cons_self (hk k m)
          | _ => cases e
        · exact hn i l r o n e
      · rcases (h4 a).mp hc with hc | hc
        · exact hl a hc
        · cases op with
          | delTrainer k =>
            obtain ⟨p, l, r, o, n, hp, e⟩ := trainer_at (hv k) hg.1
            simp only [HelperOp.leaked, hp] at hc
            have hvk := hv k
            rw [hp, e, hn k l r o n e] at hvk
            rw [hvk.2.1] at hc
            cases hc
          | kmAssign k m => exact absurd List.mem_cons_self (hk k m)
          | _ => cases hc
  exact key ops {} (fun _ => .gone) safe_start (fun _ => trivial) (fun _ _ _ _ _ e => by cases e) (fun a ⟨⟨x, hx⟩, _⟩ => by cases hx) ha hr hk s' hs

/-- C111: the destructor of a trainer does not delete the regularizer: whatever else the program does, a trainer that has a
regularizer when it is destroyed leaves it behind. -/
theorem C111_regularizer_leak {s : Helpers} (h : s.Safe) {i : Nat} {p : TrainPtrs} {a : Nat} (hp : s.objs i = .trainer p) (hr : p.reg = some a) :
    ∃ s', s.delTrainer i = .ok s' ∧ s'.Lost a := by
  obtain ⟨s', h1, h2, -⟩ := delTrainer_moves h hp
  exact ⟨s', h1, (h2.lost a).mpr (.inr hr)⟩

/-- C111: assignment to a KMeans model leaves its old loss behind. -/
theorem C111_kmeans_leak {s : Helpers} (h : s.Safe) {i j : Nat} {p q : Option Nat} (hp : s.objs i = .kmeans p) (hq : s.objs j = .kmeans q) :
    ∃ s' a, s.kmAssign i j = .ok s' ∧ p = some a ∧ s'.Lost a := by
  obtain ⟨s', n, h1, h2, -⟩ := kmAssign_moves h hp hq
  have ht := h.typed i
  rw [hp] at ht
  obtain ⟨a, m, rfl, -⟩ := ht
  exact ⟨s', a, h1, rfl, (h2.lost a).mpr (.inr rfl)⟩

/-- C111: `NetTrain` has no copy constructor of its own: a copy shares all helper objects with the original, and the second of the
two to be destroyed deletes them a second time. -/
theorem C111_copy_double_free {s : Helpers} (h : s.Safe) {i j : Nat} {q : TrainPtrs} (hi : s.objs i = .gone) (hq : s.objs j = .trainer q) :
    ∃ s₁ s₂, s.copyTrainer i j = .ok s₁ ∧ s₁.delTrainer i = .ok s₂ ∧ s₂.delTrainer j = .error .doubleFree := by
  have hij : j ≠ i := fun e => by rw [e, hi] at hq; cases hq
  have ht := h.typed j
  have hd := h.nodup j
  rw [hq] at ht hd
  obtain ⟨a, n, h1, h2, h3, h4⟩ := ptrs_trainer ht
  rw [h4, List.nodup_cons, List.nodup_append] at hd
  obtain ⟨d1, -, d3, -⟩ := hd
  have hl : ∀ b ∈ q.opts, (s.put i (.trainer q)).Live b := fun b hb => ht.live b (by rw [h4]; simp [hb])
  obtain ⟨H, e1, e2, e3⟩ := free_list d3 hl
  have hla : H[a]? = some (some (.loss n)) := by rw [e3, if_neg (fun hc => d1 (by simp [hc]))]; exact h2
  have hal : a < H.length := (List.getElem?_eq_some_iff.mp hla).1
  refine ⟨s.put i (.trainer q), put (put { s.put i (.trainer q) with heap := H.set a none } i (.trainer { q with opts := [] })) i .gone, ?_, ?_, ?_⟩
  · simp only [copyTrainer, trainer_ok hq, bind_ok', pure_ok]
  · simp only [delTrainer, clearOpts, trainer_ok (put_same s i (.trainer q)), bind_ok', e1, pure_ok]
    rw [trainer_ok (put_same _ _ _)]
    simp only [bind_ok', h1, free, put_heap, hla]
    rfl
  · generalize hs : put (put { s.put i (.trainer q) with heap := H.set a none } i (.trainer { q with opts := [] })) i .gone = r
    have hr : r.objs j = .trainer q := by rw [← hs]; simp [put, hij, hq]
    have hrh : r.heap = H.set a none := by rw [← hs]; rfl
    have dead : ∀ b, r.heap[b]? = some none → r.free (some b) = .error .doubleFree := fun b hb => by simp only [free, hb]
    cases ho : q.opts with
    | nil =>
      have hfa : free (r.put j (.trainer { q with opts := [] })) (some a) = .error .doubleFree := by
        simp [free, hrh, hal]
      simp only [delTrainer, clearOpts, trainer_ok hr, bind_ok', ho, List.length_nil, forN_zero, pure_ok, trainer_ok (put_same r j _)]
      rw [← h1] at hfa
      rw [hfa]
      rfl
    | cons b L =>
      have hb : r.heap[b]? = some none := by
        rw [hrh, getElem?_kill _ _ _ hal]
        split
        · rfl
        · rw [e3, if_pos (by rw [ho]; simp)]
      have : forN q.opts.length (fun k (s : Helpers) => s.free q.opts[k]?) r = .error .doubleFree :=
        forN_error (k := 0) (by rw [ho]; simp) rfl (by rw [ho]; exact dead b hb)
      simp only [delTrainer, clearOpts, trainer_ok hr, bind_ok', this]
      rfl

/-- Two trainers, one assigned to the other after a training with five parameter matrices and trained again, then both destroyed. -/
def helperProgram : List HelperOp :=
  [.newTrainer 0, .setLoss 0 "Huber", .setOptimizer 0 "iRPROP-", .setNet 0 5, .newTrainer 1, .setLoss 1 "LogCosh",
    .assign 1 0, .setNet 1 3, .assign 1 1, .delTrainer 0, .delTrainer 1]

theorem helperProgram_legal : Legal (fun _ => .gone) helperProgram := by
  simp [helperProgram, Legal, HelperOp.Allowed, HelperOp.apply, HelperOp.effect, HelperView.IsTrainer, listLoss, optimizerNames]

/-- It runs, and leaves nothing behind. -/
example : ∃ s', runHelpers {} helperProgram = .ok s' ∧ ∀ a, ¬ s'.Live a := by
  obtain ⟨s', h1, h2, h3⟩ := C111_no_fault safe_start (v := fun _ => .gone) (fun _ => trivial) helperProgram helperProgram_legal
  refine ⟨s', h1, (C111_no_leak_partial helperProgram helperProgram_legal (fun i n h => ?_) (fun i j h => ?_) h1).2 fun i => ?_⟩
  · simp [helperProgram] at h
  · simp [helperProgram] at h
  · refine gone_at (s := s') ?_
    have := h3 i
    by_cases e1 : i = 1
    · simpa [helperProgram, HelperOp.apply, HelperOp.effect, e1] using this
    by_cases e0 : i = 0
    · simpa [helperProgram, HelperOp.apply, HelperOp.effect, e0] using this
    simpa [helperProgram, HelperOp.apply, HelperOp.effect, e0, e1] using this

/-- A trainer with a regularizer that is set twice and then destroyed leaves the second one behind. -/
example : ∃ s' a, runHelpers {} [.newTrainer 0, .setReg 0 "L1", .setReg 0 "L2", .delTrainer 0] = .ok s' ∧ s'.Lost a := by
  obtain ⟨s', h1, h2, h3⟩ := C111_no_fault safe_start (v := fun _ => .gone) (fun _ => trivial) [.newTrainer 0, .setReg 0 "L1", .setReg 0 "L2"]
    (by simp [Legal, HelperOp.Allowed, HelperOp.apply, HelperOp.effect, HelperView.IsTrainer, regularizerNames])
  have h4 := h3 0
  have e : List.foldl HelperOp.apply (fun _ => HelperView.gone) [.newTrainer 0, .setReg 0 "L1", .setReg 0 "L2"] 0 =
      .trainer "MeanSquaredError" (some .l2) [] "Adam" := rfl
  rw [e] at h4
  obtain ⟨p, l, r, o, n, hp, -⟩ := trainer_at h4 trivial
  rw [hp] at h4
  obtain ⟨-, ⟨a, ha, -⟩, -⟩ := h4
  obtain ⟨s'', h5, h6⟩ := C111_regularizer_leak h2 hp ha
  refine ⟨s'', a, ?_, h6⟩
  obtain ⟨s₁, k1, h1⟩ := ok_bind h1
  obtain ⟨s₂, k2, h1⟩ := ok_bind h1
  obtain ⟨s₃, k3, h1⟩ := ok_bind h1
  cases h1
  simp only [HelperOp.run] at k1 k2 k3
  simp only [runHelpers, HelperOp.run, k1, bind_ok', k2, k3, h5]

/-- A trainer, a copy of it and a KMeans model that is assigned to. -/
example : ∃ s : Helpers, s.Safe ∧ s.objs 1 = .gone ∧ (∃ q, s.objs 0 = .trainer q) ∧ (∃ q, s.objs 2 = .kmeans q) ∧ ∃ q, s.objs 3 = .kmeans q := by
  obtain ⟨s', h1, h2, h3⟩ := C111_no_fault safe_start (v := fun _ => .gone) (fun _ => trivial) [.newTrainer 0, .newKMeans 2, .newKMeans 3]
    (by simp [Legal, HelperOp.Allowed, HelperOp.apply, HelperOp.effect])
  refine ⟨s', h2, gone_at (s := s') (h3 1), ?_, ?_, ?_⟩
  · obtain ⟨p, -, -, -, -, hp, -⟩ := trainer_at (h3 0) trivial
    exact ⟨p, hp⟩
  · obtain ⟨p, -, hp, -⟩ := kmeans_at (h3 2) trivial
    exact ⟨p, hp⟩
  · obtain ⟨p, -, hp, -⟩ := kmeans_at (h3 3) trivial
    exact ⟨p, hp⟩

end BeeDNN
