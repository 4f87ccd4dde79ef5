import Verif.Lemmas.TrainBatch

/-! # Epochs: what training changes and what it keeps -/

namespace BeeDNN
open HasWF

/-- Like `Evolve`, but the network may switch between train mode and test mode. -/
structure Stage (n : Nat) (w w' : World) : Prop where
  nets : ∀ m, m ≠ n → w'.nets m = w.nets m
  layers : (w'.nets n).layers = (w.nets n).layers
  classif : (w'.nets n).classif = (w.nets n).classif
  touch : Touch (w.nets n).layers w w'
  keep : ∀ (a : Nat) (l' : Layer), w'.heap[a]? = some (some l') → ∃ l : Layer, w.heap[a]? = some (some l) ∧ l'.kind = l.kind ∧
    (l.Valid → l'.Valid)

theorem Evolve.stage {n : Nat} {w w' : World} (h : Evolve (w.nets n).layers w w') : Stage n w w' :=
  ⟨fun m _ => by rw [h.nets], by rw [h.nets], by rw [h.nets], h.touch, fun a l hl => by
    obtain ⟨l₀, h1, h2, -, h3⟩ := h.keep a l hl
    exact ⟨l₀, h1, h2, h3⟩⟩

theorem Stage.refl (n : Nat) (w : World) : Stage n w w := (Evolve.refl _ w).stage

theorem Stage.trans {n : Nat} {w w₁ w₂ : World} (h : Stage n w w₁) (h' : Stage n w₁ w₂) : Stage n w w₂ where
  nets := fun m hm => (h'.nets m hm).trans (h.nets m hm)
  layers := h'.layers.trans h.layers
  classif := h'.classif.trans h.classif
  touch := h.touch.trans (h.layers ▸ h'.touch)
  keep := fun a l hl => by
    obtain ⟨l₁, k1, k2, k3⟩ := h'.keep a l hl
    obtain ⟨l₂, k4, k5, k6⟩ := h.keep a l₁ k1
    exact ⟨l₂, k4, k2.trans k5, fun hv => k3 (k6 hv)⟩

theorem Stage.frame {n : Nat} {w w' : World} (ho : Owned w) (h : Stage n w w') : Frame n w w' :=
  frame_touch ho h.touch (fun m => by
    by_cases hm : m = n
    · subst hm; exact h.layers
    · rw [h.nets m hm]) h.nets

theorem AllValid.stage {n : Nat} {bs : List Nat} {w w' : World} (h : AllValid w bs) (he : Stage n w w') : AllValid w' bs := by
  intro a ha l hl
  obtain ⟨l₀, h0, -, hv⟩ := he.keep a l hl
  exact hv (h a ha l₀ h0)

theorem Trainer.PtrOk.stage {b : Bool} {n : Nat} {w w' : World} {as ps : List Nat} (h : Trainer.PtrOk b w as ps) (he : Stage n w w') :
    Trainer.PtrOk b w' as ps := by
  intro a ha
  obtain ⟨h1, h2⟩ := h a ha
  refine ⟨by rw [he.touch.length]; exact h1, fun l hl => ?_⟩
  obtain ⟨l₀, k1, k2, -⟩ := he.keep a l hl
  rw [k2]; exact h2 l₀ k1

theorem Trainer.Ptrs.stage {t : Trainer} {n : Nat} {w w' : World} {as : List Nat} (h : t.Ptrs w as) (he : Stage n w w') : t.Ptrs w' as :=
  ⟨h.weights.stage he, h.biases.stage he, h.gradW, h.gradB⟩

theorem forall₂_imp_mem {α β : Type} {R S : α → β → Prop} {as : List α} {bs : List β} (h : List.Forall₂ R as bs)
    (hi : ∀ a ∈ as, ∀ b, R a b → S a b) : List.Forall₂ S as bs := by
  induction h with
  | nil => exact .nil
  | cons h1 _ ih =>
    exact .cons (hi _ List.mem_cons_self _ h1) (ih fun a ha => hi a (List.mem_cons_of_mem _ ha))

namespace World

theorem predictLoop_inv (e : Nat → Env) : ∀ (as : List Nat) (i : Nat) (w : World) (t o : Mat ℝ) {r : World × Mat ℝ × Mat ℝ}
    (_ : AllValid w as) (_ : t.WF) (_ : o.WF) (_ : predictLoop e i as w t o = .ok r), Evolve as w r.1 ∧ r.2.1.WF ∧ r.2.2.WF
  | [], i, w, t, o, r, _, ht, ho, h => by
    injection h with h; subst h; exact ⟨Evolve.refl _ _, ht, ho⟩
  | a :: as, i, w, t, o, r, hv, ht, ho, h => by
    rw [predictLoop] at h
    obtain ⟨l, hl, h⟩ := ok_bind h
    obtain ⟨⟨l', o'⟩, hf, h⟩ := ok_bind h
    obtain ⟨t', ht', h⟩ := ok_bind h
    have hl := deref_inv hl
    obtain ⟨k1, k2⟩ := Layer.forward_safe (e i) (hv a List.mem_cons_self l hl) ht ho _ hf
    have e1 : Evolve (a :: as) w (w.store a l') := evolve_store hl List.mem_cons_self k1.kind k1.train fun _ => k1.valid
    obtain ⟨c1, c2, c3⟩ := predictLoop_inv e as (i + 1) (w.store a l') t' o'
      (fun b hb => (hv.evolve e1) b (List.mem_cons_of_mem _ hb)) (Mat.assign_safe ht _ ht') k2 h
    exact ⟨e1.trans (c1.mono fun b hb => List.mem_cons_of_mem _ hb), c2, c3⟩

theorem predict_inv {e : Nat → Env} {w w' : World} {n : Nat} {x o o' : Mat ℝ} (hv : AllValid w (w.nets n).layers) (hx : x.WF)
    (ho : o.WF) (h : w.predict e n x o = .ok (w', o')) : Evolve (w.nets n).layers w w' ∧ o'.WF := by
  obtain ⟨⟨w₁, t, o₁⟩, h1, h⟩ := ok_bind h
  injection h with h
  injection h with e1 e2
  subst e1 e2
  obtain ⟨k1, -, k3⟩ := predictLoop_inv e _ 0 w x o hv hx ho h1
  exact ⟨k1, k3⟩

theorem setTrain_valid {l : Layer} (b : Bool) (hv : l.Valid) : (l.setTrain b).Valid :=
  ⟨hv.weight, hv.gradWeight, hv.bias, hv.gradBias, hv.maxIndex, hv.mask, hv.im2colT, hv.tempImg, hv.whh, hv.wxh, hv.bh, hv.h,
    hv.saved, hv.noWeight, hv.noBias, hv.noRec, hv.made⟩

theorem setFirst_valid {l : Layer} (b : Bool) (hv : l.Valid) : (l.setFirst b).Valid :=
  ⟨hv.weight, hv.gradWeight, hv.bias, hv.gradBias, hv.maxIndex, hv.mask, hv.im2colT, hv.tempImg, hv.whh, hv.wxh, hv.bh, hv.h,
    hv.saved, hv.noWeight, hv.noBias, hv.noRec, hv.made⟩

/-- Storing a layer of network `n`. -/
theorem stage_store {n : Nat} {w : World} {a : Nat} {l l' : Layer} (h : w.heap[a]? = some (some l)) (ha : a ∈ (w.nets n).layers)
    (hk : l'.kind = l.kind) (hv : l.Valid → l'.Valid) : Stage n w (w.store a l') := by
  refine ⟨fun _ _ => rfl, rfl, rfl, (touch_store l' h).mono (by simpa using ha), fun b k hb => ?_⟩
  by_cases hba : b = a
  · subst hba
    rw [World.store_same h] at hb
    injection hb with hb
    injection hb with hb
    subst hb
    exact ⟨l, h, hk, hv⟩
  · rw [World.store_other l' hba] at hb
    exact ⟨k, hb, rfl, id⟩

theorem setTrainAll_inv (b : Bool) (n : Nat) : ∀ (as : List Nat) (w : World) {w' : World} (_ : ∀ a ∈ as, a ∈ (w.nets n).layers)
    (_ : setTrainAll b as w = .ok w'), Stage n w w' ∧ w'.nets = w.nets
  | [], w, r, _, h => by
    injection h with h; subst h; exact ⟨Stage.refl _ _, rfl⟩
  | a :: as, w, r, hs, h => by
    rw [setTrainAll] at h
    obtain ⟨l, hl, h⟩ := ok_bind h
    obtain ⟨k1, k2⟩ := setTrainAll_inv b n as (w.store a (l.setTrain b)) (fun c hc => hs c (List.mem_cons_of_mem _ hc)) h
    exact ⟨(stage_store (l' := l.setTrain b) (deref_inv hl) (hs a List.mem_cons_self) rfl (setTrain_valid b)).trans k1, k2⟩

theorem setTrain_inv {w w' : World} {n : Nat} {b : Bool} (h : w.setTrain n b = .ok w') : Stage n w w' := by
  unfold World.setTrain at h
  have hl : ((w.setNet n { w.nets n with train := b }).nets n).layers = (w.nets n).layers := by simp
  obtain ⟨h1, -⟩ := setTrainAll_inv b n _ _ (fun a ha => by rw [hl]; exact ha) h
  have h0 : Stage n w (w.setNet n { w.nets n with train := b }) :=
    ⟨fun m hm => setNet_other _ _ hm, hl, by simp, ⟨rfl, fun _ _ => rfl, fun _ l hl => ⟨l, hl⟩⟩, fun a l hl => ⟨l, hl, rfl, id⟩⟩
  exact h0.trans h1

/-- What an assignment of a network of well-formed layers to another network does. -/
theorem assign_inv {e : Nat → Env} {w w' : World} {n m : Nat} (ho : Owned w) (hnm : n ≠ m) (hv : AllValid w (w.nets m).layers)
    (h : w.assign e n m = .ok w') :
    Frame n w w' ∧ (w'.nets n).classif = (w.nets m).classif ∧ w.heap.length ≤ w'.heap.length ∧
      (∀ a, a < w.heap.length → a ∉ (w.nets n).layers → w'.heap[a]? = w.heap[a]?) ∧
      (∀ a ∈ (w.nets n).layers, w'.heap[a]? = some none) ∧
      List.Forall₂ (fun a b => ∃ l p : Layer, w.heap[a]? = some (some l) ∧ w'.heap[b]? = some (some p) ∧ l.CloneOk p)
        (w.nets m).layers (w'.nets n).layers := by
  have hf := frame_assign e ho h
  obtain ⟨w₁, h1, h2, h3, h4, h5, h6⟩ := clear_ok ho n
  have hml : (w₁.nets m).layers = (w.nets m).layers := by rw [h3 m hnm.symm]
  have hlive : ∀ a ∈ (w₁.nets m).layers, ∃ l, w₁.heap[a]? = some (some l) ∧ l.Valid := by
    intro a ha
    rw [hml] at ha
    obtain ⟨l, hl⟩ := ho.live m a ha
    have hna : a ∉ (w.nets n).layers := fun h => hnm (ho.disjoint n m a h ha)
    exact ⟨l, (h5 a hna).trans hl, hv a ha l hl⟩
  obtain ⟨w₂, d0, d1, d2, d3, d4, d5⟩ := cloneAll_ok e n (w₁.nets m).layers 0 w₁ hlive
  rw [assign, h1, bind_ok', d0, bind_ok', pure_ok] at h
  injection h with h
  have hlt : ∀ a ∈ (w.nets n).layers, a < w₁.heap.length := fun a ha => by
    obtain ⟨l, hl⟩ := ho.live n a ha
    rw [h4]; exact lt_of_live hl
  refine ⟨hf, ?_, ?_, ?_, ?_, ?_⟩ <;> subst h
  · rw [setNet_same]; rw [d2 m hnm.symm, h3 m hnm.symm]
  · show w.heap.length ≤ w₂.heap.length; omega
  · intro a ha hna
    exact (d4 a (by omega)).trans (h5 a hna)
  · intro a ha
    exact (d4 a (hlt a ha)).trans (h6 a ha)
  · rw [setNet_same]
    show List.Forall₂ _ (w.nets m).layers (w₂.nets n).layers
    rw [d1, h2]
    dsimp only
    rw [List.nil_append, ← hml]
    refine forall₂_imp_mem d5 fun a ha b ⟨l, p, k1, k2, k3⟩ => ⟨l, p, ?_, k2, k3⟩
    rw [hml] at ha
    rw [← h5 a fun h => hnm (ho.disjoint n m a h ha)]
    exact k1

end World

end BeeDNN

namespace BeeDNN
open HasWF

namespace Trainer

theorem BatchKeep.refl (t : Trainer) : BatchKeep t t := ⟨rfl, rfl, rfl, OptsSame.refl _⟩

theorem BatchKeep.trans {t t₁ t₂ : Trainer} (h : BatchKeep t t₁) (h' : BatchKeep t₁ t₂) : BatchKeep t t₂ := by
  refine ⟨?_, h'.inOut.trans h.inOut, h'.gradient.trans h.gradient, h.opts.trans h'.opts⟩
  have := h'.same
  rw [← h.same] at this
  exact this

theorem BatchKeep.net {t t' : Trainer} (h : BatchKeep t t') : t'.net = t.net := by rw [← h.same]
theorem BatchKeep.pWeights {t t' : Trainer} (h : BatchKeep t t') : t'.pWeights = t.pWeights := by rw [← h.same]

theorem BatchKeep.ptrs {t t' : Trainer} (h : BatchKeep t t') {w : World} {as : List Nat} (hp : t.Ptrs w as) : t'.Ptrs w as := by
  rw [← h.same]; exact ⟨hp.weights, hp.biases, hp.gradW, hp.gradB⟩

theorem trainEpoch_inv {ab : ℝ → ℝ} {eps : ℝ} {e : Nat → Nat → Nat → Env} {w w' : World} {t t' : Trainer} {x y : Mat ℝ} {n : Nat}
    (hn : t.net = some n) (hv : AllValid w (w.nets n).layers) (ht : t.Ok) (hp : t.Ptrs w (w.nets n).layers)
    (h : trainEpoch ab eps e x y w t = .ok (w', t')) :
    Evolve (w.nets n).layers w w' ∧ t'.Ok ∧ BatchKeep t t' := by
  unfold trainEpoch batchLoop at h
  obtain ⟨⟨k, i, w₁, t₁⟩, h1, h⟩ := ok_bind h
  injection h with h
  injection h with e1 e2
  subst e1 e2
  refine (whileF_inv (P := fun s : Nat × Nat × World × Trainer => Evolve (w.nets n).layers w s.2.2.1 ∧ s.2.2.2.Ok ∧ BatchKeep t s.2.2.2)
    ?_ ⟨Evolve.refl _ _, ht, BatchKeep.refl t⟩ h1).1
  rintro ⟨k, i, w₁, t₁⟩ ⟨k', i', w₂, t₂⟩ ⟨a1, a2, a3⟩ - h
  dsimp only at h a1 a2 a3 ⊢
  obtain ⟨x', -, h⟩ := ok_bind h
  obtain ⟨y', -, h⟩ := ok_bind h
  obtain ⟨⟨w₃, t₃⟩, hb, h'⟩ := ok_bind h
  injection h' with h'
  injection h' with _ h'
  injection h' with _ h'
  injection h' with e1 e2
  subst e1 e2
  have hl : (w₁.nets n).layers = (w.nets n).layers := by rw [a1.nets]
  obtain ⟨b1, b2, b3⟩ := trainBatch_inv (a3.net.trans hn) (hl ▸ hv.evolve a1) a2 (hl ▸ a3.ptrs (hp.evolve a1)) hb
  rw [hl] at b1
  exact ⟨a1.trans b1, b2, a3.trans b3⟩

theorem computeLossAccuracy_inv {ab : ℝ → ℝ} {eps : ℝ} {e : Nat → Nat → Env} {w w' : World} {t : Trainer} {x y : Mat ℝ} {n : Nat}
    {acc : Bool} {l a : ℝ} (hn : t.net = some n) (hv : AllValid w (w.nets n).layers)
    (h : computeLossAccuracy ab eps e w t x y acc = .ok (w', l, a)) : Evolve (w.nets n).layers w w' := by
  unfold computeLossAccuracy at h
  rw [hn] at h
  dsimp only at h
  split at h
  · injection h with h
    injection h with e1 _
    subst e1
    exact Evolve.refl _ _
  · obtain ⟨r, h1, h⟩ := ok_bind h
    injection h with h
    injection h with e1 _
    subst e1
    refine (whileF_inv (P := fun s : EvalSt => Evolve (w.nets n).layers w s.w ∧ s.mOut.WF ∧ s.mSamples.WF)
      ?_ ⟨Evolve.refl _ _, Mat.WF_empty, Mat.WF_empty⟩ h1).1.1
    rintro s s' ⟨a1, a2, a3⟩ - h
    obtain ⟨x', -, h⟩ := ok_bind h
    obtain ⟨x₁, hx₁, h⟩ := ok_bind h
    obtain ⟨y', -, h⟩ := ok_bind h
    obtain ⟨y₁, -, h⟩ := ok_bind h
    obtain ⟨⟨w₁, o⟩, hp, h⟩ := ok_bind h
    obtain ⟨m, -, h⟩ := ok_bind h
    obtain ⟨v, -, h⟩ := ok_bind h
    obtain ⟨g, -, h⟩ := ok_bind h
    injection h with h
    subst h
    have hl : (s.w.nets n).layers = (w.nets n).layers := by rw [a1.nets]
    have hx := Mat.assign_safe a3 _ hx₁
    obtain ⟨b1, b2⟩ := World.predict_inv (hl ▸ hv.evolve a1) hx a2 hp
    rw [hl] at b1
    exact ⟨a1.trans b1, b2, hx⟩

/-! ## set_net -/

theorem resizeVec_length (l : List (Mat ℝ)) (k : Nat) : (resizeVec l k).length = k := by
  unfold resizeVec; simp

theorem resizeVec_WF {l : List (Mat ℝ)} (k : Nat) (h : ∀ m ∈ l, m.WF) : ∀ m ∈ resizeVec l k, m.WF := by
  intro m hm
  have := List.mem_of_mem_take hm
  rcases List.mem_append.1 this with h1 | h1
  · exact h m h1
  · rw [(List.mem_replicate.1 h1).2]; exact Mat.WF_empty

/-- Which layers have weights (`b = false`) or biases. -/
def has (b : Bool) (w : World) (a : Nat) : Bool := match w.heap[a]? with
  | some (some l) => if b then l.hasBiases else l.hasWeights
  | _ => false

theorem collect_eq : ∀ (as : List Nat) (w : World) (t : Trainer) (_ : ∀ a ∈ as, ∃ l, w.heap[a]? = some (some l)),
    collect as w t = .ok { t with
      pWeights := t.pWeights ++ as.filter (has false w), pGradWeights := t.pGradWeights ++ as.filter (has false w)
      pBiases := t.pBiases ++ as.filter (has true w), pGradBiases := t.pGradBiases ++ as.filter (has true w) }
  | [], w, t, _ => by simp [collect]
  | a :: as, w, t, hl => by
    obtain ⟨l, h0⟩ := hl a List.mem_cons_self
    rw [collect, World.deref_eq h0, bind_ok']
    dsimp only
    rw [collect_eq as w _ fun b hb => hl b (List.mem_cons_of_mem _ hb)]
    have e1 : has false w a = l.hasWeights := by simp [has, h0]
    have e2 : has true w a = l.hasBiases := by simp [has, h0]
    rw [List.filter_cons, List.filter_cons, e1, e2]
    cases l.hasWeights <;> cases l.hasBiases <;> simp

/-- The new optimizers. -/
theorem makeOpts_inv {g : Nat → ℝ} {t : Trainer} : ∀ {k : Nat} {os : List (Opt ℝ)} (_ : makeOpts g t k = .ok os),
    k = 0 ∧ os = [] ∨ ∃ o, createOptimizer t.optName = some o ∧ os = List.replicate k ((Opt.new o).setParams g t.lr t.decay t.mom)
  | 0, os, h => by injection h with h; exact .inl ⟨rfl, h.symm⟩
  | k + 1, os, h => by
    rw [makeOpts] at h
    obtain ⟨os', h1, h⟩ := ok_bind h
    have ih := makeOpts_inv h1
    split at h
    · rename_i o ho
      injection h with h
      subst h
      refine .inr ⟨o, ho, ?_⟩
      rcases ih with ⟨rfl, rfl⟩ | ⟨o', ho', rfl⟩
      · rfl
      · rw [ho] at ho'
        injection ho' with ho'
        subst ho'
        exact (List.replicate_succ' ..).symm
    · cases h

theorem markFirst_inv {w w' : World} {n : Nat} (h : markFirst w (w.nets n).layers = .ok w') : Evolve (w.nets n).layers w w' := by
  cases hl : (w.nets n).layers with
  | nil => rw [hl] at h; injection h with h; subst h; exact Evolve.refl _ _
  | cons a as =>
    rw [hl] at h
    obtain ⟨l, h1, h⟩ := ok_bind h
    injection h with h
    subst h
    exact evolve_store (World.deref_inv h1) List.mem_cons_self rfl rfl (World.setFirst_valid true)

end Trainer
end BeeDNN

namespace BeeDNN
open HasWF

theorem Opt.init_lr (g : Nat → ℝ) (o : Opt ℝ) : (Opt.init g o).lr = orDefault o.lr (Opt.defaultLr o.kind) := by
  unfold Opt.init
  dsimp only
  split <;> rfl

theorem Opt.init_lr_pos (g : Nat → ℝ) (o : Opt ℝ) (h : 0 < o.lr) : (Opt.init g o).lr = o.lr := by
  rw [Opt.init_lr]
  unfold orDefault
  split
  · rw [if_neg (by intro h'; rw [h'] at h; norm_num at h)]
  · rfl

theorem Opt.new_WF (k : OptKind) : (Opt.new k : Opt ℝ).WF := by
  cases k <;> exact ⟨Mat.WF_empty, Mat.WF_empty, Mat.WF_empty⟩

namespace Trainer

/-- The state of the program between two epochs. -/
structure Inv (n b : Nat) (w : World) (t : Trainer) : Prop where
  owned : Owned w
  validN : AllValid w (w.nets n).layers
  validB : AllValid w (w.nets b).layers
  ok : t.Ok
  ptrs : t.Ptrs w (w.nets n).layers
  net : t.net = some n

/-- `Inv` depends on these fields of the trainer only. -/
theorem Inv.congr {n b : Nat} {w : World} {t t' : Trainer} (h : Inv n b w t) (h1 : t'.inOut = t.inOut) (h2 : t'.gradient = t.gradient)
    (h3 : ∀ o ∈ t'.opts, o.WF) (h4 : t'.pWeights = t.pWeights) (h5 : t'.pGradWeights = t.pGradWeights) (h6 : t'.pBiases = t.pBiases)
    (h7 : t'.pGradBiases = t.pGradBiases) (h8 : t'.net = t.net) : Inv n b w t' :=
  ⟨h.owned, h.validN, h.validB, ⟨h1 ▸ h.ok.inOut, h2 ▸ h.ok.gradient, h3⟩,
    ⟨h4 ▸ h.ptrs.weights, h6 ▸ h.ptrs.biases, by rw [h4, h5, h.ptrs.gradW], by rw [h6, h7, h.ptrs.gradB]⟩, h8.trans h.net⟩

theorem Inv.stage {n b : Nat} {w w' : World} {t : Trainer} (hb : b ≠ n) (h : Inv n b w t) (hs : Stage n w w') : Inv n b w' t where
  owned := (hs.frame h.owned).owned
  validN := by rw [hs.layers]; exact h.validN.stage hs
  validB := by rw [hs.nets b hb]; exact h.validB.stage hs
  ok := h.ok
  ptrs := by rw [hs.layers]; exact h.ptrs.stage hs
  net := h.net

theorem Inv.stageB {n b : Nat} {w w' : World} {t : Trainer} (h : Inv n b w t) (hs : Stage b w w') (hb : b ≠ n) : Inv n b w' t where
  owned := (hs.frame h.owned).owned
  validN := by rw [hs.nets n hb.symm]; exact h.validN.stage hs
  validB := by rw [hs.layers]; exact h.validB.stage hs
  ok := h.ok
  ptrs := by rw [hs.nets n hb.symm]; exact h.ptrs.stage hs
  net := h.net

/-- The layers of a copy. -/
theorem validOf_clones {w w' : World} {as bs : List Nat}
    (h : List.Forall₂ (fun a b => ∃ l p : Layer, w.heap[a]? = some (some l) ∧ w'.heap[b]? = some (some p) ∧ l.CloneOk p) as bs) :
    AllValid w' bs := by
  intro b hb l hl
  induction h with
  | nil => exact absurd hb List.not_mem_nil
  | cons h1 _ ih =>
    rcases List.mem_cons.1 hb with rfl | hb
    · obtain ⟨l₀, p, -, k1, k2⟩ := h1
      rw [hl] at k1
      injection k1 with k1
      injection k1 with k1
      rw [k1]; exact k2.valid
    · exact ih hb

/-- `bestNet = *_pNet`. -/
theorem Inv.keepBest {e : Nat → Env} {n b : Nat} {w w' : World} {t : Trainer} (h : Inv n b w t) (hb : b ≠ n)
    (ha : w.assign e b n = .ok w') : Inv n b w' t := by
  obtain ⟨a1, a2, a3, a4, a5, a6⟩ := World.assign_inv h.owned hb h.validN ha
  have hnl := a1.nets n hb.symm
  refine ⟨a1.owned, ?_, validOf_clones a6, h.ok, ?_, h.net⟩
  · intro a ha' l hl
    rw [hnl] at ha'
    rw [a1.layers n hb.symm a ha'] at hl
    exact h.validN a ha' l hl
  · have key : ∀ {c ps}, PtrOk c w (w.nets n).layers ps → PtrOk c w' (w'.nets n).layers ps := by
      intro c ps hp a ha'
      obtain ⟨k1, k2⟩ := hp a ha'
      refine ⟨by omega, fun l hl => ?_⟩
      rw [hnl]
      by_cases hm : a ∈ (w.nets b).layers
      · rw [a5 a hm] at hl; cases hl
      · rw [a4 a k1 hm] at hl; exact k2 l hl
    exact ⟨key h.ptrs.weights, key h.ptrs.biases, h.ptrs.gradW, h.ptrs.gradB⟩

/-- `*_pNet = bestNet`: the pointers of the trainer dangle. -/
theorem Inv.restore {e : Nat → Env} {n b : Nat} {w w' : World} {t : Trainer} (h : Inv n b w t) (hb : b ≠ n)
    (ha : w.assign e n b = .ok w') : Inv n b w' t ∧ ∀ a ∈ t.pWeights ++ t.pBiases, ∀ l, w'.heap[a]? ≠ some (some l) := by
  obtain ⟨a1, a2, a3, a4, a5, a6⟩ := World.assign_inv h.owned hb.symm h.validB ha
  have hbl := a1.nets b hb
  have dead : ∀ {c ps}, PtrOk c w (w.nets n).layers ps → ∀ a ∈ ps, ∀ l, w'.heap[a]? ≠ some (some l) := by
    intro c ps hp a ha' l hl
    obtain ⟨k1, k2⟩ := hp a ha'
    by_cases hm : a ∈ (w.nets n).layers
    · rw [a5 a hm] at hl; cases hl
    · rw [a4 a k1 hm] at hl
      exact hm (k2 l hl).1
  refine ⟨⟨a1.owned, validOf_clones a6, ?_, h.ok, ?_, h.net⟩, ?_⟩
  · intro a ha' l hl
    rw [hbl] at ha'
    rw [a1.layers b hb a ha'] at hl
    exact h.validB a ha' l hl
  · have key : ∀ {c ps}, PtrOk c w (w.nets n).layers ps → PtrOk c w' (w'.nets n).layers ps := by
      intro c ps hp a ha'
      exact ⟨by have := (hp a ha').1; omega, fun l hl => absurd hl (dead hp a ha' l)⟩
    exact ⟨key h.ptrs.weights, key h.ptrs.biases, h.ptrs.gradW, h.ptrs.gradB⟩
  · intro a ha'
    rcases List.mem_append.1 ha' with h' | h'
    · exact dead h.ptrs.weights a h'
    · exact dead h.ptrs.biases a h'

/-- What an epoch of training leaves alone in the trainer. -/
structure EpochKeep (t t' : Trainer) : Prop where
  same : { t with inOut := t'.inOut, gradient := t'.gradient, opts := t'.opts, onlineLoss := t'.onlineLoss
                  onlineGood := t'.onlineGood, curTrainLoss := t'.curTrainLoss, trainLoss := t'.trainLoss
                  curTrainAcc := t'.curTrainAcc, trainAcc := t'.trainAcc } = t'
  opts : OptsSame t.opts t'.opts

theorem epochTrain_inv {ab : ℝ → ℝ} {eps : ℝ} {e : FitEnv} {n b : Nat} {x y : Mat ℝ} {k : Nat} {w w' : World} {t t' : Trainer}
    (hb : b ≠ n) (hi : Inv n b w t) (h : epochTrain ab eps e n x y k w t = .ok (w', t')) :
    Stage n w w' ∧ Inv n b w' t' ∧ EpochKeep t t' ∧ t'.trainLoss = t.trainLoss ++ [t'.curTrainLoss] ∧
      ((w.nets n).classif = true → t'.trainAcc = t.trainAcc ++ [t'.curTrainAcc]) ∧
      ((w.nets n).classif = false → t'.trainAcc = t.trainAcc ∧ t'.curTrainAcc = t.curTrainAcc) := by
  unfold epochTrain at h
  obtain ⟨⟨x', y'⟩, -, h⟩ := ok_bind h
  obtain ⟨w₁, h1, h⟩ := ok_bind h
  obtain ⟨⟨w₂, t₂⟩, h2, h⟩ := ok_bind h
  obtain ⟨w₃, h3, h⟩ := ok_bind h
  dsimp only at h
  have s1 := World.setTrain_inv h1
  have i1 : Inv n b w₁ { t with onlineLoss := 0, onlineGood := 0 } :=
    (hi.stage hb s1).congr rfl rfl hi.ok.opts rfl rfl rfl rfl rfl
  obtain ⟨c1, c2, c3⟩ := trainEpoch_inv i1.net i1.validN i1.ok i1.ptrs h2
  have i2 : Inv n b w₂ t₂ := by
    have := i1.stage hb c1.stage
    exact ⟨this.owned, this.validN, this.validB, c2, c3.ptrs this.ptrs, c3.net.trans this.net⟩
  have s3 := World.setTrain_inv h3
  have st := (s1.trans c1.stage).trans s3
  have i3 := i2.stage hb s3
  have same : { t with inOut := t₂.inOut, gradient := t₂.gradient, opts := t₂.opts, onlineLoss := t₂.onlineLoss
                       onlineGood := t₂.onlineGood } = t₂ := c3.same
  split at h
  · rename_i hc
    injection h with h
    injection h with e1 e2
    subst e1 e2
    refine ⟨st, i3.congr rfl rfl i3.ok.opts rfl rfl rfl rfl rfl, ⟨?_, c3.opts⟩, ?_, fun _ => ?_, fun h => ?_⟩
    · rw [← same]
    · rw [← same]
    · rw [← same]
    · rw [st.classif, h] at hc; cases hc
  · rename_i hc
    injection h with h
    injection h with e1 e2
    subst e1 e2
    refine ⟨st, i3.congr rfl rfl i3.ok.opts rfl rfl rfl rfl rfl, ⟨?_, c3.opts⟩, ?_, fun h => ?_, fun _ => ?_⟩
    · rw [← same]
    · rw [← same]
    · rw [st.classif, h] at hc; exact absurd rfl hc
    · rw [← same]; exact ⟨rfl, rfl⟩

end Trainer
end BeeDNN
