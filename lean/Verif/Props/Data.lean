import Verif.Spec.Data
import Verif.Props.Linear
import Verif.Props.KMeansTwin

/-! # Who owns the data of trainers: C117 -/

namespace BeeDNN
open DataState

variable {ω τ κ : Type}

theorem DataState.owned_trainer (s : DataState ω τ Nat) (i : Nat) : s.owned.trainer i = (s.trainer i).map (DataHolder.owned s.deref) := by
  have : s.owned.trainers i = (s.trainers i).map (DataHolder.owned s.deref) := rfl
  unfold DataState.trainer
  rw [this]
  cases s.trainers i <;> rfl

theorem DataState.owned_put (s : DataState ω τ Nat) (i : Nat) (h : Option (DataHolder τ Nat)) : (s.put i h).owned = s.owned.put i (h.map (DataHolder.owned s.deref)) := by
  unfold DataState.owned DataState.put
  congr 1
  funext j
  dsimp only
  split <;> rfl

theorem keep_eq {mats : Nat → Option (Mat ℝ)} {a : Nat} : byCopy.keep mats a = (byAddress.keep mats a).map fun a => (mats a).getD ⟨0, 0, []⟩ := by
  unfold byCopy byAddress
  dsimp only
  cases h : mats a with
  | none => rfl
  | some m => simp [Except.map, h]

theorem keep_some {mats : Nat → Option (Mat ℝ)} {a b : Nat} (h : byAddress.keep mats a = .ok b) : b = a ∧ (mats a).isSome := by
  unfold byAddress at h
  dsimp only at h
  cases ha : mats a with
  | none => rw [ha] at h; cases h
  | some m => rw [ha] at h; cases h; exact ⟨rfl, rfl⟩

theorem read_eq {mats : Nat → Option (Mat ℝ)} {a : Nat} (h : (mats a).isSome) : byAddress.read mats a = .ok ((mats a).getD ⟨0, 0, []⟩) := by
  unfold byAddress
  dsimp only
  cases ha : mats a with
  | none => rw [ha] at h; cases h
  | some m => rfl

theorem readPair_eq {s : DataState ω τ Nat} {p : Option (Pair Nat)} (h : ∀ q, p = some q → (s.mats q.1).isSome ∧ (s.mats q.2).isSome) :
    readPair byCopy s.owned.mats (p.map fun p => (s.deref p.1, s.deref p.2)) = readPair byAddress s.mats p := by
  cases p with
  | none => rfl
  | some q =>
    obtain ⟨h1, h2⟩ := h q rfl
    show _ = (do let x ← byAddress.read s.mats q.1; let y ← byAddress.read s.mats q.2; return some (x, y))
    rw [read_eq h1, read_eq h2]
    rfl

/-- Sound states have readable data. -/
theorem DataState.Sound.pairs {s : DataState ω τ Nat} (hs : s.Sound) {i : Nat} {h : DataHolder τ Nat} (hi : s.trainers i = some h) :
    (∀ q, h.train = some q → (s.mats q.1).isSome ∧ (s.mats q.2).isSome) ∧ ∀ q, h.valid = some q → (s.mats q.1).isSome ∧ (s.mats q.2).isSome :=
  ⟨fun q hq => ⟨hs _ ⟨i, h, hi, .inl ⟨q, hq, .inl rfl⟩⟩, hs _ ⟨i, h, hi, .inl ⟨q, hq, .inr rfl⟩⟩⟩,
    fun q hq => ⟨hs _ ⟨i, h, hi, .inr ⟨q, hq, .inl rfl⟩⟩, hs _ ⟨i, h, hi, .inr ⟨q, hq, .inr rfl⟩⟩⟩⟩

theorem trainer_some {δ : Type} {s : DataState ω τ δ} {i : Nat} {h : DataHolder τ δ} (hh : s.trainer i = .ok h) : s.trainers i = some h := by
  unfold DataState.trainer at hh
  cases ha : s.trainers i with
  | none => rw [ha] at hh; cases hh
  | some m => rw [ha] at hh; cases hh; rfl

theorem Sound.put {s : DataState ω τ Nat} (hs : s.Sound) {i : Nat} {h : Option (DataHolder τ Nat)} (hh : ∀ q, h = some q → ∀ a, q.Holds a → (s.mats a).isSome) : (s.put i h).Sound := by
  rintro a ⟨j, q, hj, hq⟩
  dsimp only [DataState.put] at hj
  split at hj
  · exact hh q hj a hq
  · exact hs a ⟨j, q, hj, hq⟩

/-- Contents of other matrices may change. -/
theorem owned_mats {s : DataState ω τ Nat} {f : Nat → Option (Mat ℝ)} (hf : ∀ a, s.Held a → f a = s.mats a) : ({ s with mats := f } : DataState ω τ Nat).owned = { s.owned with mats := f } := by
  have : ({ s with mats := f } : DataState ω τ Nat).owned.trainers = s.owned.trainers := by
    funext i
    show (s.trainers i).map _ = (s.trainers i).map _
    cases hi : s.trainers i with
    | none => rfl
    | some h =>
      have e : ∀ a, h.Holds a → (f a).getD ⟨0, 0, []⟩ = s.deref a := fun a ha => by rw [hf a ⟨i, h, hi, ha⟩]; rfl
      show some _ = some _
      congr 1
      unfold DataHolder.owned DataState.deref at *
      congr 1
      · cases ht : h.train with
        | none => rfl
        | some p => exact congrArg some (Prod.ext (e _ (.inl ⟨p, ht, .inl rfl⟩)) (e _ (.inl ⟨p, ht, .inr rfl⟩)))
      · cases ht : h.valid with
        | none => rfl
        | some p => exact congrArg some (Prod.ext (e _ (.inr ⟨p, ht, .inl rfl⟩)) (e _ (.inr ⟨p, ht, .inr rfl⟩)))
  show (⟨f, s.world, _⟩ : DataState ω τ (Mat ℝ)) = ⟨f, s.world, _⟩
  congr 1

theorem step_owned (C : TrainerClass ω τ κ) {s : DataState ω τ Nat} (hs : s.Sound) (o : DataOp ω τ κ) (ho : ∀ a, o.Spoils a → ¬ s.Held a) :
    (s.step byAddress C o).map DataState.owned = s.owned.step byCopy C o ∧ ∀ s', s.step byAddress C o = .ok s' → s'.Sound := by
  cases o with
  | write a m =>
    have hf : ∀ b, s.Held b → (fun b => if b = a then some m else s.mats b) b = s.mats b := fun b hb => if_neg fun h : b = a => ho a rfl (h ▸ hb)
    refine ⟨congrArg Except.ok (owned_mats hf), fun s' h => ?_⟩
    cases h
    intro b hb
    show ((fun b => if b = a then some m else s.mats b) b).isSome = true
    rw [hf b hb]
    exact hs b hb
  | destroy a =>
    have hf : ∀ b, s.Held b → (fun b => if b = a then none else s.mats b) b = s.mats b := fun b hb => if_neg fun h : b = a => ho a rfl (h ▸ hb)
    have hm : s.owned.mats a = s.mats a := rfl
    unfold DataState.step
    dsimp only
    rw [hm]
    cases s.mats a with
    | none => exact ⟨rfl, fun s' h => by cases h⟩
    | some m =>
      refine ⟨congrArg Except.ok (owned_mats hf), fun s' h => ?_⟩
      cases h
      intro b hb
      show ((fun b => if b = a then none else s.mats b) b).isSome = true
      rw [hf b hb]
      exact hs b hb
  | new i t =>
    refine ⟨congrArg Except.ok (s.owned_put i _), fun s' h => ?_⟩
    cases h
    refine Sound.put hs fun q hq a ha => ?_
    cases hq
    rcases ha with ⟨p, hp, -⟩ | ⟨p, hp, -⟩ <;> cases hp
  | del i =>
    unfold DataState.step
    dsimp only
    rw [s.owned_trainer]
    cases s.trainer i with
    | error f => exact ⟨rfl, fun s' h => by cases h⟩
    | ok q =>
      refine ⟨congrArg Except.ok (s.owned_put i _), fun s' h => ?_⟩
      cases h
      exact Sound.put hs fun q hq => by cases hq
  | setTrain i a b =>
    unfold DataState.step
    dsimp only
    rw [s.owned_trainer, show s.owned.mats = s.mats from rfl, keep_eq, keep_eq]
    cases hi : s.trainer i with
    | error f => exact ⟨rfl, fun s' h => by cases h⟩
    | ok q =>
      show _ = (((byAddress.keep s.mats a).map _).bind _) ∧ _
      cases ha : byAddress.keep s.mats a with
      | error f => exact ⟨rfl, fun s' h => by cases h⟩
      | ok x =>
        cases hb : byAddress.keep s.mats b with
        | error f => exact ⟨rfl, fun s' h => by cases h⟩
        | ok y =>
          refine ⟨congrArg Except.ok (s.owned_put i _), fun s' h => ?_⟩
          cases h
          obtain ⟨rfl, ha⟩ := keep_some ha
          obtain ⟨rfl, hb⟩ := keep_some hb
          refine Sound.put hs fun r hr c hc => ?_
          cases hr
          rcases hc with ⟨p, hp, hc⟩ | hc
          · cases hp
            rcases hc with rfl | rfl
            · exact ha
            · exact hb
          · exact hs c ⟨i, q, trainer_some hi, .inr hc⟩
  | setValid i a b =>
    unfold DataState.step
    dsimp only
    rw [s.owned_trainer, show s.owned.mats = s.mats from rfl, keep_eq, keep_eq]
    cases hi : s.trainer i with
    | error f => exact ⟨rfl, fun s' h => by cases h⟩
    | ok q =>
      show _ = (((byAddress.keep s.mats a).map _).bind _) ∧ _
      cases ha : byAddress.keep s.mats a with
      | error f => exact ⟨rfl, fun s' h => by cases h⟩
      | ok x =>
        cases hb : byAddress.keep s.mats b with
        | error f => exact ⟨rfl, fun s' h => by cases h⟩
        | ok y =>
          refine ⟨congrArg Except.ok (s.owned_put i _), fun s' h => ?_⟩
          cases h
          obtain ⟨rfl, ha⟩ := keep_some ha
          obtain ⟨rfl, hb⟩ := keep_some hb
          refine Sound.put hs fun r hr c hc => ?_
          cases hr
          rcases hc with hc | ⟨p, hp, hc⟩
          · exact hs c ⟨i, q, trainer_some hi, .inl hc⟩
          · cases hp
            rcases hc with rfl | rfl
            · exact ha
            · exact hb
  | set i f =>
    unfold DataState.step
    dsimp only
    rw [s.owned_trainer]
    cases hi : s.trainer i with
    | error f => exact ⟨rfl, fun s' h => by cases h⟩
    | ok q =>
      show Except.map _ ((f q.obj).bind _) = (f q.obj).bind _ ∧ ∀ s', (f q.obj).bind _ = .ok s' → _
      cases f q.obj with
      | error f => exact ⟨rfl, fun s' h => by cases h⟩
      | ok t =>
        refine ⟨congrArg Except.ok (s.owned_put i _), fun s' h => ?_⟩
        cases h
        refine Sound.put hs fun r hr c hc => ?_
        cases hr
        exact hs c ⟨i, q, trainer_some hi, hc⟩
  | assign i j =>
    unfold DataState.step
    dsimp only
    rw [s.owned_trainer, s.owned_trainer]
    cases hi : s.trainer i with
    | error f => exact ⟨rfl, fun s' h => by cases h⟩
    | ok p =>
      cases hj : s.trainer j with
      | error f => exact ⟨rfl, fun s' h => by cases h⟩
      | ok q =>
        show Except.map _ ((C.assign p.obj q.obj).bind _) = (C.assign p.obj q.obj).bind _ ∧ ∀ s', (C.assign p.obj q.obj).bind _ = .ok s' → _
        cases C.assign p.obj q.obj with
        | error f => exact ⟨rfl, fun s' h => by cases h⟩
        | ok t =>
          refine ⟨congrArg Except.ok (s.owned_put i _), fun s' h => ?_⟩
          cases h
          refine Sound.put hs fun r hr c hc => ?_
          cases hr
          exact hs c ⟨j, q, trainer_some hj, hc⟩
  | world f =>
    show Except.map _ ((f s.world).bind _) = (f s.world).bind _ ∧ ∀ s', (f s.world).bind _ = .ok s' → _
    cases f s.world with
    | error f => exact ⟨rfl, fun s' h => by cases h⟩
    | ok w =>
      refine ⟨rfl, fun s' h => ?_⟩
      cases h
      exact hs
  | fit i k =>
    unfold DataState.step
    dsimp only
    rw [s.owned_trainer]
    cases hi : s.trainer i with
    | error f => exact ⟨rfl, fun s' h => by cases h⟩
    | ok q =>
      obtain ⟨p1, p2⟩ := hs.pairs (trainer_some hi)
      have fin : ∀ (r : Out (ω × τ)), Except.map DataState.owned (r.bind fun r => .ok (DataState.put { s with world := r.1 } i (some { q with obj := r.2 }))) =
          (r.bind fun r => .ok (DataState.put { s.owned with world := r.1 } i (some { q.owned s.deref with obj := r.2 }))) ∧
          ∀ s', (r.bind fun r => .ok (DataState.put { s with world := r.1 } i (some { q with obj := r.2 }))) = .ok s' → s'.Sound := by
        intro r
        cases r with
        | error f => exact ⟨rfl, fun s' h => by cases h⟩
        | ok r =>
          refine ⟨congrArg Except.ok (DataState.owned_put { s with world := r.1 } i _), fun s' h => ?_⟩
          cases h
          refine Sound.put (s := { s with world := r.1 }) hs fun r hr c hc => ?_
          cases hr
          exact hs c ⟨i, q, trainer_some hi, hc⟩
      show Except.map _ (if C.reads k s.world q.obj then (readPair byAddress s.mats q.train).bind fun tr => (readPair byAddress s.mats q.valid).bind fun va => (C.fit k s.world q.obj tr va).bind _
          else (C.fit k s.world q.obj none none).bind _) =
        (if C.reads k s.world q.obj then (readPair byCopy s.owned.mats (q.train.map fun p => (s.deref p.1, s.deref p.2))).bind fun tr =>
            (readPair byCopy s.owned.mats (q.valid.map fun p => (s.deref p.1, s.deref p.2))).bind fun va => (C.fit k s.world q.obj tr va).bind _
          else (C.fit k s.world q.obj none none).bind _) ∧
        ∀ s', (if C.reads k s.world q.obj then (readPair byAddress s.mats q.train).bind fun tr => (readPair byAddress s.mats q.valid).bind fun va => (C.fit k s.world q.obj tr va).bind _
          else (C.fit k s.world q.obj none none).bind _) = .ok s' → _
      rw [readPair_eq p1, readPair_eq p2]
      split
      · cases readPair byAddress s.mats q.train with
        | error f => exact ⟨rfl, fun s' h => by cases h⟩
        | ok tr =>
          cases readPair byAddress s.mats q.valid with
          | error f => exact ⟨rfl, fun s' h => by cases h⟩
          | ok va => exact fin _
      · exact fin _

/-- C117: as long as the program leaves the matrices alone that a trainer keeps, all its trainings go as if `set_train_data` and `set_validation_data` had copied the data: same results, same errors. -/
theorem C117_as_copied (C : TrainerClass ω τ κ) {s : DataState ω τ Nat} (hs : s.Sound) {os : List (DataOp ω τ κ)} (ho : s.Careful C os) :
    (s.run byAddress C os).map DataState.owned = s.owned.run byCopy C os := by
  induction os generalizing s with
  | nil => rfl
  | cons o os ih =>
    obtain ⟨h1, h2⟩ := ho
    obtain ⟨a1, a2⟩ := step_owned C hs o h1
    show Except.map _ ((s.step byAddress C o).bind fun s => s.run byAddress C os) = (s.owned.step byCopy C o).bind fun s => s.run byCopy C os
    rw [← a1]
    cases hst : s.step byAddress C o with
    | error f => rfl
    | ok s' => exact ih (a2 s' hst) (h2 s' hst)

/-- What is held after a step was held before or is given by it. -/
theorem held_step (C : TrainerClass ω τ κ) {s s' : DataState ω τ Nat} {o : DataOp ω τ κ} (h : s.step byAddress C o = .ok s') {a : Nat} (ha : s'.Held a) : s.Held a ∨ o.Gives a := by
  have putc : ∀ {w : ω} {i : Nat} {q : Option (DataHolder τ Nat)}, (DataState.put { s with world := w } i q).Held a → (∃ q', q = some q' ∧ q'.Holds a) ∨ s.Held a := by
    rintro w i q ⟨j, q', hj, hq⟩
    dsimp only [DataState.put] at hj
    split at hj
    · exact .inl ⟨q', hj, hq⟩
    · exact .inr ⟨j, q', hj, hq⟩
  cases o with
  | write b m => cases h; exact .inl ha
  | destroy b =>
    unfold DataState.step at h
    dsimp only at h
    cases hb : s.mats b with
    | none => rw [hb] at h; cases h
    | some m => rw [hb] at h; cases h; exact .inl ha
  | new i t =>
    cases h
    rcases putc ha with ⟨q, hq, hh⟩ | h
    · cases hq
      rcases hh with ⟨p, hp, -⟩ | ⟨p, hp, -⟩ <;> cases hp
    · exact .inl h
  | del i =>
    unfold DataState.step at h
    dsimp only at h
    obtain ⟨q, -, h⟩ := ok_bind h
    cases h
    rcases putc ha with ⟨q, hq, hh⟩ | h
    · cases hq
    · exact .inl h
  | setTrain i b c =>
    unfold DataState.step at h
    dsimp only at h
    obtain ⟨q, hq, h⟩ := ok_bind h
    obtain ⟨x, hx, h⟩ := ok_bind h
    obtain ⟨y, hy, h⟩ := ok_bind h
    cases h
    obtain ⟨rfl, -⟩ := keep_some hx
    obtain ⟨rfl, -⟩ := keep_some hy
    rcases putc ha with ⟨r, hr, hh⟩ | h
    · cases hr
      rcases hh with ⟨p, hp, hh⟩ | hh
      · cases hp
        exact .inr hh
      · exact .inl ⟨i, q, trainer_some hq, .inr hh⟩
    · exact .inl h
  | setValid i b c =>
    unfold DataState.step at h
    dsimp only at h
    obtain ⟨q, hq, h⟩ := ok_bind h
    obtain ⟨x, hx, h⟩ := ok_bind h
    obtain ⟨y, hy, h⟩ := ok_bind h
    cases h
    obtain ⟨rfl, -⟩ := keep_some hx
    obtain ⟨rfl, -⟩ := keep_some hy
    rcases putc ha with ⟨r, hr, hh⟩ | h
    · cases hr
      rcases hh with hh | ⟨p, hp, hh⟩
      · exact .inl ⟨i, q, trainer_some hq, .inl hh⟩
      · cases hp
        exact .inr hh
    · exact .inl h
  | set i f =>
    unfold DataState.step at h
    dsimp only at h
    obtain ⟨q, hq, h⟩ := ok_bind h
    obtain ⟨t, -, h⟩ := ok_bind h
    cases h
    rcases putc ha with ⟨r, hr, hh⟩ | h
    · cases hr
      exact .inl ⟨i, q, trainer_some hq, hh⟩
    · exact .inl h
  | assign i j =>
    unfold DataState.step at h
    dsimp only at h
    obtain ⟨p, -, h⟩ := ok_bind h
    obtain ⟨q, hq, h⟩ := ok_bind h
    obtain ⟨t, -, h⟩ := ok_bind h
    cases h
    rcases putc ha with ⟨r, hr, hh⟩ | h
    · cases hr
      exact .inl ⟨j, q, trainer_some hq, hh⟩
    · exact .inl h
  | world f =>
    unfold DataState.step at h
    dsimp only at h
    obtain ⟨w, -, h⟩ := ok_bind h
    cases h
    exact .inl ha
  | fit i k =>
    unfold DataState.step at h
    dsimp only at h
    obtain ⟨q, hq, h⟩ := ok_bind h
    have fin : ∀ r : ω × τ, (DataState.put { s with world := r.1 } i (some { q with obj := r.2 })).Held a → s.Held a := fun r hr => by
      rcases putc hr with ⟨r, hr, hh⟩ | h
      · cases hr
        exact ⟨i, q, trainer_some hq, hh⟩
      · exact h
    split at h
    · obtain ⟨tr, -, h⟩ := ok_bind h
      obtain ⟨va, -, h⟩ := ok_bind h
      obtain ⟨r, -, h⟩ := ok_bind h
      cases h
      exact .inl (fin r ha)
    · obtain ⟨r, -, h⟩ := ok_bind h
      cases h
      exact .inl (fin r ha)

/-- C117, as a rule for programs: if no matrix is changed or destroyed after it was given to a trainer, all trainings go as if the data had been copied. -/
theorem C117_rule (C : TrainerClass ω τ κ) {s : DataState ω τ Nat} (hs : ∀ i, s.trainers i = none) {os : List (DataOp ω τ κ)}
    (ho : ∀ (i j : Nat) (o p : DataOp ω τ κ) (a : Nat), os[i]? = some o → os[j]? = some p → i < j → o.Gives a → ¬ p.Spoils a) :
    (s.run byAddress C os).map DataState.owned = s.owned.run byCopy C os := by
  have hn : ∀ a, ¬ s.Held a := fun a ⟨i, h, hi, _⟩ => by rw [hs i] at hi; cases hi
  refine C117_as_copied C (fun a ha => absurd ha (hn a)) ?_
  suffices H : ∀ (os : List (DataOp ω τ κ)) (s : DataState ω τ Nat), (∀ (i j : Nat) (o p : DataOp ω τ κ) (a : Nat), os[i]? = some o → os[j]? = some p → i < j → o.Gives a → ¬ p.Spoils a) →
      (∀ (i : Nat) p a, os[i]? = some p → s.Held a → ¬ p.Spoils a) → s.Careful C os from H os s ho fun _ _ a _ h => absurd h (hn a)
  clear ho hn hs s os
  intro os
  induction os with
  | nil => exact fun _ _ _ => trivial
  | cons o os ih =>
    intro s h1 h2
    refine ⟨fun a ha hh => h2 0 o a rfl hh ha, fun s' hst => ih s' (fun i j p q a hi hj hij => h1 (i + 1) (j + 1) p q a hi hj (by omega)) fun i p a hi hh => ?_⟩
    rcases held_step C hst hh with h | h
    · exact h2 (i + 1) p a hi h
    · exact h1 0 (i + 1) o p a rfl hi (by omega) h

/-- C117: the condition is needed.  `fit` after one of the matrices was destroyed reads memory that is gone. -/
theorem C117_dangling (C : TrainerClass ω τ κ) {s : DataState ω τ Nat} {i a : Nat} {h : DataHolder τ Nat} (hi : s.trainers i = some h) (ha : h.Holds a) (hs : s.Sound) {k : κ}
    (hr : C.reads k s.world h.obj = true) : s.run byAddress C [.destroy a, .fit i k] = .error .useAfterFree := by
  have hm := hs a ⟨i, h, hi, ha⟩
  obtain ⟨m, hm⟩ := Option.isSome_iff_exists.1 hm
  have h1 : s.step byAddress C (.destroy a : DataOp ω τ κ) = .ok { s with mats := fun b => if b = a then none else s.mats b } := by
    unfold DataState.step
    dsimp only
    rw [hm]
  show (s.step byAddress C (.destroy a)).bind (fun s => (s.step byAddress C (.fit i k)).bind fun s => .ok s) = _
  rw [h1]
  have h2 : ∀ f : Nat → Option (Mat ℝ), ({ s with mats := f } : DataState ω τ Nat).trainer i = .ok h := fun f => by
    unfold DataState.trainer
    dsimp only
    rw [hi]
  have hread : ∀ p : Pair Nat, a = p.1 ∨ a = p.2 → readPair byAddress (fun b => if b = a then none else s.mats b) (some p) = .error .useAfterFree := by
    intro p hp
    have hb : ∀ b, byAddress.read (fun b => if b = a then none else s.mats b) b = .error .useAfterFree ∨ ∃ m, b ≠ a ∧ byAddress.read (fun b => if b = a then none else s.mats b) b = .ok m := by
      intro b
      unfold byAddress
      dsimp only
      by_cases hb : b = a
      · rw [if_pos hb]; exact .inl rfl
      · rw [if_neg hb]
        cases s.mats b with
        | none => exact .inl rfl
        | some m => exact .inr ⟨m, hb, rfl⟩
    show (byAddress.read _ p.1).bind (fun x => (byAddress.read _ p.2).bind fun y => .ok (some (x, y))) = _
    rcases hb p.1 with h | ⟨m, h3, h⟩
    · rw [h]; rfl
    · rw [h]
      rcases hb p.2 with h' | ⟨m, h4, -⟩
      · show (byAddress.read _ p.2).bind _ = _
        rw [h']; rfl
      · rcases hp with rfl | rfl
        · exact absurd rfl h3
        · exact absurd rfl h4
  have hgen : ∀ p, readPair byAddress (fun b => if b = a then none else s.mats b) p = .error .useAfterFree ∨
      ∃ q, readPair byAddress (fun b => if b = a then none else s.mats b) p = .ok q ∧ ∀ p', p = some p' → ¬ (a = p'.1 ∨ a = p'.2) := by
    intro p
    cases p with
    | none => exact .inr ⟨none, rfl, fun p' h => by cases h⟩
    | some p =>
      by_cases hp : a = p.1 ∨ a = p.2
      · exact .inl (hread p hp)
      · have hb : ∀ b, byAddress.read (fun b => if b = a then none else s.mats b) b = .error .useAfterFree ∨ ∃ m, byAddress.read (fun b => if b = a then none else s.mats b) b = .ok m := by
          intro b
          unfold byAddress
          dsimp only
          by_cases hb : b = a
          · rw [if_pos hb]; exact .inl rfl
          · rw [if_neg hb]
            cases s.mats b with
            | none => exact .inl rfl
            | some m => exact .inr ⟨m, rfl⟩
        show (byAddress.read _ p.1).bind (fun x => (byAddress.read _ p.2).bind fun y => .ok (some (x, y))) = _ ∨ ∃ q, (byAddress.read _ p.1).bind (fun x => (byAddress.read _ p.2).bind fun y => .ok (some (x, y))) = _ ∧ _
        rcases hb p.1 with h | ⟨x, h⟩
        · exact .inl (by rw [h]; rfl)
        · rcases hb p.2 with h' | ⟨y, h'⟩
          · exact .inl (by rw [h, Except.bind, h']; rfl)
          · exact .inr ⟨some (x, y), by rw [h, Except.bind, h']; rfl, fun p' h => by cases h; exact hp⟩
  have h3 : ({ s with mats := fun b => if b = a then none else s.mats b } : DataState ω τ Nat).step byAddress C (.fit i k) = .error .useAfterFree := by
    unfold DataState.step
    dsimp only
    rw [h2]
    show (if C.reads k s.world h.obj = true then (readPair byAddress _ h.train).bind (fun tr => (readPair byAddress _ h.valid).bind fun va => (C.fit k s.world h.obj tr va).bind _) else _) = _
    rw [if_pos hr]
    rcases hgen h.train with e | ⟨q, e, hq⟩
    · rw [e]; rfl
    · rw [e]
      show (readPair byAddress _ h.valid).bind _ = _
      rcases hgen h.valid with e' | ⟨q', e', hq'⟩
      · rw [e']; rfl
      · rcases ha with ⟨p, hp, ha⟩ | ⟨p, hp, ha⟩
        · exact absurd ha (hq p hp)
        · exact absurd ha (hq' p hp)
  show (DataState.step byAddress C _ (.fit i k)).bind _ = _
  rw [h3]
  rfl

/-- C117: a matrix that was changed after it was given is trained on as it is now. -/
theorem C117_current (C : TrainerClass ω τ κ) {s : DataState ω τ Nat} {i a b : Nat} {h : DataHolder τ Nat} (hi : s.trainers i = some h) (ht : h.train = some (a, b)) (hv : h.valid = none) {x y : Mat ℝ}
    (hx : s.mats a = some x) (hy : s.mats b = some y) {k : κ} (hr : C.reads k s.world h.obj = true) :
    (s.step byAddress C (.fit i k)).map (fun s' => s'.world) = (C.fit k s.world h.obj (some (x, y)) none).map (fun r => r.1) := by
  have h2 : s.trainer i = .ok h := by
    unfold DataState.trainer
    rw [hi]
  have h3 : readPair byAddress s.mats (some (a, b)) = .ok (some (x, y)) := by
    show (byAddress.read _ a).bind (fun x => (byAddress.read _ b).bind fun y => .ok (some (x, y))) = _
    rw [read_eq (by rw [hx]; rfl), read_eq (by rw [hy]; rfl), hx, hy]
    rfl
  unfold DataState.step
  dsimp only
  rw [h2]
  show Except.map _ (if C.reads k s.world h.obj = true then (readPair byAddress _ h.train).bind (fun tr => (readPair byAddress _ h.valid).bind fun va => (C.fit k s.world h.obj tr va).bind _) else _) = _
  rw [if_pos hr, ht, hv, h3]
  show Except.map _ ((C.fit k s.world h.obj (some (x, y)) none).bind _) = _
  cases C.fit k s.world h.obj (some (x, y)) none with
  | error f => rfl
  | ok r => rfl

/-- C117: `fit` trains on the data given last, training data as training data and validation data as validation data. -/
theorem C117_given (C : TrainerClass ω τ κ) {s : DataState ω τ Nat} {i a b c d : Nat} {h : DataHolder τ Nat} (hi : s.trainers i = some h) {x y u v : Mat ℝ}
    (hx : s.mats a = some x) (hy : s.mats b = some y) (hu : s.mats c = some u) (hv : s.mats d = some v) {k : κ} (hr : C.reads k s.world h.obj = true) :
    (s.run byAddress C [.setTrain i a b, .setValid i c d, .fit i k]).map (fun s' => s'.world) = (C.fit k s.world h.obj (some (x, y)) (some (u, v))).map (fun r => r.1) := by
  have hk : ∀ {e : Nat} {z : Mat ℝ}, s.mats e = some z → byAddress.keep s.mats e = .ok e ∧ byAddress.read s.mats e = .ok z := fun h => by
    unfold byAddress
    dsimp only
    rw [h]
    exact ⟨rfl, rfl⟩
  have h1 : s.step byAddress C (.setTrain i a b : DataOp ω τ κ) = .ok (s.put i (some { h with train := some (a, b) })) := by
    unfold DataState.step DataState.trainer
    dsimp only
    rw [hi, (hk hx).1, (hk hy).1]
    rfl
  have h2 : (s.put i (some { h with train := some (a, b) })).step byAddress C (.setValid i c d : DataOp ω τ κ) =
      .ok ((s.put i (some { h with train := some (a, b) })).put i (some { h with train := some (a, b), valid := some (c, d) })) := by
    unfold DataState.step DataState.trainer
    dsimp only [DataState.put]
    rw [if_pos rfl, (hk hu).1, (hk hv).1]
    rfl
  show Except.map _ ((s.step byAddress C (.setTrain i a b)).bind fun s => (s.step byAddress C (.setValid i c d)).bind fun s => (s.step byAddress C (.fit i k)).bind fun s => .ok s) = _
  rw [h1, Except.bind, h2, Except.bind]
  unfold DataState.step DataState.trainer
  dsimp only [DataState.put]
  rw [if_pos rfl]
  show Except.map _ ((if C.reads k s.world h.obj = true then (readPair byAddress s.mats (some (a, b))).bind (fun tr => (readPair byAddress s.mats (some (c, d))).bind fun va =>
    (C.fit k s.world h.obj tr va).bind _) else _).bind _) = _
  have e1 : readPair byAddress s.mats (some (a, b)) = .ok (some (x, y)) := by
    show (byAddress.read _ a).bind (fun x => (byAddress.read _ b).bind fun y => .ok (some (x, y))) = _
    rw [(hk hx).2, (hk hy).2]
    rfl
  have e2 : readPair byAddress s.mats (some (c, d)) = .ok (some (u, v)) := by
    show (byAddress.read _ c).bind (fun x => (byAddress.read _ d).bind fun y => .ok (some (x, y))) = _
    rw [(hk hu).2, (hk hv).2]
    rfl
  rw [if_pos hr, e1, e2]
  show Except.map _ (((C.fit k s.world h.obj (some (x, y)) (some (u, v))).bind _).bind _) = _
  cases C.fit k s.world h.obj (some (x, y)) (some (u, v)) with
  | error f => rfl
  | ok r => rfl

/-- C117: a trainer that was assigned another trains on the data of this; the other trainers keep theirs. -/
theorem C117_assigned (C : TrainerClass ω τ κ) {s s' : DataState ω τ Nat} {i j : Nat} (h : s.step byAddress C (.assign i j : DataOp ω τ κ) = .ok s') :
    (∃ p q t, s.trainers i = some p ∧ s.trainers j = some q ∧ C.assign p.obj q.obj = .ok t ∧ s'.trainers i = some { obj := t, train := q.train, valid := q.valid }) ∧
      (∀ k, k ≠ i → s'.trainers k = s.trainers k) ∧ s'.mats = s.mats ∧ s'.world = s.world := by
  unfold DataState.step at h
  dsimp only at h
  obtain ⟨p, hp, h⟩ := ok_bind h
  obtain ⟨q, hq, h⟩ := ok_bind h
  obtain ⟨t, ht, h⟩ := ok_bind h
  cases h
  exact ⟨⟨p, q, t, trainer_some hp, trainer_some hq, ht, if_pos rfl⟩, fun k hk => if_neg hk, rfl, rfl⟩

theorem readPair_copy (mats : Nat → Option (Mat ℝ)) (p : Option (Pair (Mat ℝ))) : readPair byCopy mats p = .ok p := by
  cases p <;> rfl

/-- With copies the same program trains. -/
theorem copy_trains (C : TrainerClass ω τ κ) {s : DataState ω τ (Mat ℝ)} {i a : Nat} {h : DataHolder τ (Mat ℝ)} (hi : s.trainers i = some h) {m : Mat ℝ} (ha : s.mats a = some m) {k : κ}
    (hr : C.reads k s.world h.obj = true) {r : ω × τ} (hf : C.fit k s.world h.obj h.train h.valid = .ok r) : ∃ s', s.run byCopy C [.destroy a, .fit i k] = .ok s' ∧ s'.world = r.1 := by
  have h1 : s.step byCopy C (.destroy a : DataOp ω τ κ) = .ok { s with mats := fun b => if b = a then none else s.mats b } := by
    unfold DataState.step
    dsimp only
    rw [ha]
  have h2 : ∀ f : Nat → Option (Mat ℝ), ({ s with mats := f } : DataState ω τ (Mat ℝ)).trainer i = .ok h := fun f => by
    unfold DataState.trainer
    dsimp only
    rw [hi]
  refine ⟨DataState.put { mats := fun b => if b = a then none else s.mats b, world := r.1, trainers := s.trainers } i (some { h with obj := r.2 }), ?_, rfl⟩
  show (s.step byCopy C (.destroy a)).bind (fun s => (s.step byCopy C (.fit i k)).bind fun s => .ok s) = _
  rw [h1]
  show (DataState.step byCopy C { s with mats := fun b => if b = a then none else s.mats b } (.fit i k)).bind _ = _
  unfold DataState.step
  dsimp only
  rw [h2]
  show (if C.reads k s.world h.obj = true then (readPair byCopy _ h.train).bind (fun tr => (readPair byCopy _ h.valid).bind fun va => (C.fit k s.world h.obj tr va).bind _) else _).bind _ = _
  rw [if_pos hr, readPair_copy, readPair_copy]
  show ((C.fit k s.world h.obj h.train h.valid).bind _).bind _ = _
  rw [hf]
  rfl

/-! ## Programs -/

/-- A program with a network to train: two matrices, a trainer that gets them, a copy of the trainer by `operator=`, and a training by the copy; then the matrices are destroyed. -/
noncomputable def lineProgram (e : Trainer.FitEnv) : List (DataOp World Trainer (Trainer.FitEnv × Nat × Nat)) :=
  [.write 0 (Mat.ofFn 3 1 (fun i _ => (i : ℝ))), .write 1 (Mat.ofFn 3 1 (fun i _ => 2 * (i : ℝ) + 1)), .new 0 { lineTrainer 3 false with train := none }, .setTrain 0 0 1,
    .new 1 {}, .assign 1 0, .fit 1 (e, 0, 1)]

/-- Before: no trainers. -/
noncomputable def lineStart {δ : Type} : DataState World Trainer δ := { mats := fun _ => none, world := lineWorld, trainers := fun _ => none }

/-- It keeps to the rule, also with the matrices destroyed at the end. -/
example (e : Trainer.FitEnv) (g : Nat → ℝ) (ab : ℝ → ℝ) (eps : ℝ) :=
  C117_rule (netTrainClass g ab eps) (s := lineStart) (fun _ => rfl) (os := lineProgram e) (by
    intro i j o p a hi hj hij hg hs
    have hi' : i = 3 := by
      match i with
      | 0 | 1 | 2 | 4 | 5 | 6 => cases hi; exact absurd hg (fun h => h)
      | 3 => rfl
      | i + 7 => simp [lineProgram] at hi
    subst hi'
    match j with
    | 0 | 1 | 2 | 3 => omega
    | 4 | 5 | 6 => cases hj; exact hs
    | j + 7 => simp [lineProgram] at hj)

/-- A trainer with its data, and a network of one layer. -/
noncomputable def heldState (δ : Type) (x y : δ) : DataState World Trainer δ where
  mats a := if a = 0 then some (Mat.ofFn 3 1 (fun i _ => (i : ℝ))) else if a = 1 then some (Mat.ofFn 3 1 (fun i _ => 2 * (i : ℝ) + 1)) else none
  world := lineWorld
  trainers i := if i = 0 then some { obj := { lineTrainer 3 false with train := none }, train := some (x, y) } else none

theorem heldState_sound : (heldState Nat 0 1).Sound := by
  rintro a ⟨i, h, hi, ha⟩
  dsimp only [heldState] at hi
  split at hi
  · cases hi
    rcases ha with ⟨p, hp, ha⟩ | ⟨p, hp, -⟩
    · cases hp
      rcases ha with rfl | rfl <;> rfl
    · cases hp
  · cases hi

theorem netTrain_fit {g : Nat → ℝ} {ab : ℝ → ℝ} {eps : ℝ} {e : Trainer.FitEnv} {w : World} {n b : Nat} {t : Trainer} {tr va : Option (Pair (Mat ℝ))}
    {r : World × Trainer × List (List (Option Layer))} (h : Trainer.fit ab eps e w { t with train := tr, valid := va } n b = .ok r) :
    (netTrainClass g ab eps).fit (e, n, b) w t tr va = .ok (r.1, { r.2.1 with train := none, valid := none }) := by
  show ((Trainer.fit ab eps e w { t with train := tr, valid := va } n b).bind fun r => .ok (r.1, { r.2.1 with train := none, valid := none })) = _
  rw [h]
  rfl

/-- C117, a case of `C117_dangling`: destroying the truths before the training is undefined behaviour, while a trainer with copies would have trained. -/
theorem C117_destroyed_wrong {eps : ℝ} (g : Nat → ℝ) (e : Trainer.FitEnv) :
    (heldState Nat 0 1).run byAddress (netTrainClass g (fun x => |x|) eps) [.destroy 1, .fit 0 (e, 0, 1)] = .error .useAfterFree ∧
      ∃ s', (heldState Nat 0 1).owned.run byCopy (netTrainClass g (fun x => |x|) eps) [.destroy 1, .fit 0 (e, 0, 1)] = .ok s' := by
  refine ⟨C117_dangling _ (h := { obj := { lineTrainer 3 false with train := none }, train := some (0, 1) }) rfl (.inl ⟨(0, 1), rfl, .inr rfl⟩) heldState_sound rfl, ?_⟩
  obtain ⟨w', t', seen, m', h1, -⟩ := C92_fit_runs (lineTrainer_setup 3 (by decide) false) (k := .sgd) rfl eps e
  have : (netTrainClass g (fun x => |x|) eps).fit (e, 0, 1) lineWorld { lineTrainer 3 false with train := none }
      (some (Mat.ofFn 3 1 (fun i _ => (i : ℝ)), Mat.ofFn 3 1 (fun i _ => 2 * (i : ℝ) + 1))) none = .ok (w', { t' with train := none, valid := none }) := by
    have he : { lineTrainer 3 false with train := some (Mat.ofFn 3 1 (fun i _ => (i : ℝ)), Mat.ofFn 3 1 (fun i _ => 2 * (i : ℝ) + 1)), valid := none } = lineTrainer 3 false := rfl
    rw [← he] at h1
    exact netTrain_fit (t := { lineTrainer 3 false with train := none }) h1
  obtain ⟨s', hs', -⟩ := copy_trains (netTrainClass g (fun x => |x|) eps) (s := (heldState Nat 0 1).owned) (i := 0) (a := 1)
    (h := { obj := { lineTrainer 3 false with train := none }, train := some (Mat.ofFn 3 1 (fun i _ => (i : ℝ)), Mat.ofFn 3 1 (fun i _ => 2 * (i : ℝ) + 1)) }) rfl rfl (k := (e, 0, 1)) rfl this
  exact ⟨s', hs'⟩

example {eps : ℝ} (g : Nat → ℝ) (e : Trainer.FitEnv) := C117_current (netTrainClass g (fun x => |x|) eps) (s := heldState Nat 0 1) (i := 0)
  (h := { obj := { lineTrainer 3 false with train := none }, train := some (0, 1) }) rfl rfl rfl rfl rfl (k := (e, 0, 1)) rfl

example {eps : ℝ} (g : Nat → ℝ) (e : Trainer.FitEnv) := C117_given (netTrainClass g (fun x => |x|) eps) (s := heldState Nat 0 1) (i := 0) (a := 1) (b := 0) (c := 0) (d := 1)
  (h := { obj := { lineTrainer 3 false with train := none }, train := some (0, 1) }) rfl rfl rfl rfl rfl (k := (e, 0, 1)) rfl

/-- `KMeansTrain` is such a class. -/
example {s : DataState (Option KMeans) KMeansTrain Nat} (hs : s.Sound) {os} (ho : s.Careful kmTrainClass os) := C117_as_copied kmTrainClass hs ho

end BeeDNN
