import Verif.Lemmas.TrainEpoch

/-! # Whole trainings -/

namespace BeeDNN
open HasWF

theorem SameLayers.trans {p q r : List (Option Layer)} (h : SameLayers p q) (h' : SameLayers q r) : SameLayers p r := by
  unfold SameLayers at *
  induction h generalizing r with
  | nil => cases h'; exact .nil
  | cons h1 _ ih =>
    cases h' with
    | cons k1 k2 =>
      refine .cons ?_ (ih k2)
      obtain ⟨l, l', rfl, rfl, s⟩ := h1
      obtain ⟨l₁, l₂, e1, rfl, s'⟩ := k1
      injection e1 with e1
      subst e1
      exact ⟨l, l₂, rfl, rfl, s'.kind.trans s.kind, s'.weight.trans s.weight, s'.bias.trans s.bias, s'.whh.trans s.whh,
        s'.wxh.trans s.wxh, s'.bh.trans s.bh⟩

theorem SameLayers.of_clones {w w' : World} {as bs : List Nat}
    (h : List.Forall₂ (fun a b => ∃ l p : Layer, w.heap[a]? = some (some l) ∧ w'.heap[b]? = some (some p) ∧ l.CloneOk p) as bs) :
    SameLayers (as.map fun a => (w.heap[a]?).join) (bs.map fun a => (w'.heap[a]?).join) := by
  unfold SameLayers
  induction h with
  | nil => exact .nil
  | cons h1 _ ih =>
    obtain ⟨l, p, k1, k2, k3⟩ := h1
    exact .cons ⟨l, p, by dsimp only; rw [k1]; rfl, by dsimp only; rw [k2]; rfl, k3.same⟩ ih

namespace Trainer

theorem layersOf_frame {n m : Nat} {w w' : World} (hf : Frame n w w') (hm : m ≠ n) : layersOf w' m = layersOf w m := by
  unfold layersOf
  rw [hf.nets m hm]
  exact List.map_congr_left fun a ha => by rw [hf.layers m hm a ha]

theorem Stage.layersOf {n m : Nat} {w w' : World} (ho : Owned w) (hs : Stage n w w') (hm : m ≠ n) : layersOf w' m = layersOf w m :=
  layersOf_frame (hs.frame ho) hm

/-- What training and evaluating leave alone in the trainer. -/
structure MidKeep (t t' : Trainer) : Prop where
  same : { t with inOut := t'.inOut, gradient := t'.gradient, opts := t'.opts, onlineLoss := t'.onlineLoss
                  onlineGood := t'.onlineGood, curTrainLoss := t'.curTrainLoss, trainLoss := t'.trainLoss
                  curTrainAcc := t'.curTrainAcc, trainAcc := t'.trainAcc, curValLoss := t'.curValLoss
                  curValAcc := t'.curValAcc, valLoss := t'.valLoss, valAcc := t'.valAcc } = t'
  opts : OptsSame t.opts t'.opts
  trainLoss : t'.trainLoss = t.trainLoss ++ [t'.curTrainLoss]

/-- An evaluation looks at these members of the trainer only. -/
theorem computeLossAccuracy_congr {ab : ℝ → ℝ} {eps : ℝ} {e : Nat → Nat → Env} {w : World} {t t' : Trainer} {x y : Mat ℝ} {acc : Bool}
    (h1 : t'.net = t.net) (h2 : t'.valBatch = t.valBatch) (h3 : t'.loss = t.loss) (h4 : t'.lossWeight = t.lossWeight) :
    computeLossAccuracy ab eps e w t' x y acc = computeLossAccuracy ab eps e w t x y acc := by
  unfold computeLossAccuracy lossCompute
  rw [h1, h2, h3, h4]

theorem evalValid_inv {ab : ℝ → ℝ} {eps : ℝ} {e : FitEnv} {n b k : Nat} {w w' : World} {t t' : Trainer} {l a : ℝ}
    (hb : b ≠ n) (hi : Inv n b w t) (h : evalValid ab eps e k w t = .ok (w', t', l, a)) :
    Evolve (w.nets n).layers w w' ∧ Inv n b w' t' ∧
      { t with curValLoss := t'.curValLoss, curValAcc := t'.curValAcc, valLoss := t'.valLoss, valAcc := t'.valAcc } = t' ∧
      (t.valid = none → t'.valLoss = t.valLoss ∧ t'.valAcc = t.valAcc ∧ l = t.curTrainLoss ∧ a = t.curTrainAcc) ∧
      (t.valid.isSome → t'.valLoss = t.valLoss ++ [l] ∧ t'.valAcc = t.valAcc ++ [a]) ∧
      (∀ x y, t.valid = some (x, y) → ∃ w₀, computeLossAccuracy ab eps (e.eval (k + 1)) w₀ t x y true = .ok (w', l, a)) := by
  unfold evalValid at h
  split at h
  · rename_i hv
    injection h with h
    injection h with e1 h
    injection h with e2 h
    injection h with e3 e4
    subst e1 e2
    exact ⟨Evolve.refl _ _, hi, rfl, fun _ => ⟨rfl, rfl, e3.symm, e4.symm⟩, fun h => (by rw [hv] at h; cases h),
      fun _ _ h => by rw [hv] at h; cases h⟩
  · rename_i x y hv
    obtain ⟨⟨w₁, l₁, a₁⟩, h1, h⟩ := ok_bind h
    injection h with h
    injection h with e1 h
    injection h with e2 h
    injection h with e3 e4
    subst e1 e2 e3 e4
    have c := computeLossAccuracy_inv hi.net hi.validN h1
    exact ⟨c, (hi.stage hb c.stage).congr rfl rfl hi.ok.opts rfl rfl rfl rfl rfl, rfl, fun h => (by rw [hv] at h; cases h),
      fun _ => ⟨rfl, rfl⟩, fun x' y' h => ⟨w, by rw [hv] at h; injection h with h; injection h with e1 e2; subst e1 e2; exact h1⟩⟩

/-- One epoch, up to the decision which network is best. -/
theorem epochStep_inv {ab : ℝ → ℝ} {eps : ℝ} {e : FitEnv} {n b : Nat} {x y : Mat ℝ} {k : Nat} {s s' : FitSt} (hb : b ≠ n)
    (hi : Inv n b s.w s.t) (h : epochStep ab eps e n b x y k s = .ok s') :
    ∃ w₁ t₁ l a s₂, Stage n s.w w₁ ∧ Inv n b w₁ t₁ ∧ MidKeep s.t t₁ ∧
      (s.t.valid.isSome → t₁.valLoss = s.t.valLoss ++ [l] ∧ t₁.valAcc = s.t.valAcc ++ [a]) ∧
      (s.t.valid = none → t₁.valLoss = s.t.valLoss ∧ t₁.valAcc = s.t.valAcc ∧ l = t₁.curTrainLoss ∧ a = t₁.curTrainAcc) ∧
      ((s.w.nets n).classif = true → t₁.trainAcc = s.t.trainAcc ++ [t₁.curTrainAcc]) ∧
      ((s.w.nets n).classif = false → t₁.trainAcc = s.t.trainAcc) ∧
      (∀ x y, s.t.valid = some (x, y) → ∃ w₀, computeLossAccuracy ab eps (e.eval (k + 1)) w₀ t₁ x y true = .ok (w₁, l, a)) ∧
      bestStep e k n b { s with w := w₁, t := t₁, seen := s.seen ++ [layersOf w₁ n] } l a = .ok s₂ ∧ s' = reboostStep e.g s₂ := by
  unfold epochStep at h
  obtain ⟨⟨w₀, t₀⟩, h1, h⟩ := ok_bind h
  obtain ⟨⟨w₁, t₁, l, a⟩, h2, h⟩ := ok_bind h
  dsimp only at h
  obtain ⟨s₂, h3, h⟩ := ok_bind h
  injection h with h
  obtain ⟨a1, a2, a3, a4, a5, a6⟩ := epochTrain_inv hb hi h1
  obtain ⟨b1, b2, b3, b4, b5, b6⟩ := evalValid_inv hb a2 h2
  have hval : t₀.valid = s.t.valid := by rw [← a3.same]
  have hvl : t₀.valLoss = s.t.valLoss := by rw [← a3.same]
  have hva : t₀.valAcc = s.t.valAcc := by rw [← a3.same]
  have e1 : t₁.trainLoss = t₀.trainLoss := by rw [← b3]
  have e2 : t₁.curTrainLoss = t₀.curTrainLoss := by rw [← b3]
  have e3 : t₁.trainAcc = t₀.trainAcc := by rw [← b3]
  have e4 : t₁.curTrainAcc = t₀.curTrainAcc := by rw [← b3]
  have e5 : t₁.opts = t₀.opts := by rw [← b3]
  refine ⟨w₁, t₁, l, a, s₂, a1.trans b1.stage, b2, ⟨?_, e5 ▸ a3.opts, by rw [e1, e2, a4]⟩, ?_, ?_, ?_, ?_, ?_, h3, h.symm⟩
  · have := b3
    rw [← a3.same] at this
    rw [← this]
  · intro hs
    rw [← hvl, ← hva]
    exact b5 (hval ▸ hs)
  · intro hn
    rw [← hvl, ← hva, e2, e4]
    exact b4 (hval.trans hn)
  · intro hc; rw [e3, e4]; exact a5 hc
  · intro hc; rw [e3]; exact (a6 hc).1
  · intro x' y' hxy
    obtain ⟨w₂, hw⟩ := b6 x' y' (hval.trans hxy)
    refine ⟨w₂, ?_⟩
    rw [← hw]
    exact computeLossAccuracy_congr (by rw [← b3]) (by rw [← b3]) (by rw [← b3]) (by rw [← b3])

/-- The decision which network is best. -/
theorem keepStep_inv {e : Nat → Env} {n b : Nat} {s s' : FitSt} {l a : ℝ} (h : keepStep e n b s l a = .ok s') :
    (((s.w.nets n).classif = true ∧ s.maxAcc < a ∧ ∃ w, s.w.assign e b n = .ok w ∧
        s' = { s with w := w, maxAcc := a, t := { s.t with curPatience := 0 } }) ∨
      ((s.w.nets n).classif = false ∧ l < s.minLoss ∧ ∃ w, s.w.assign e b n = .ok w ∧
        s' = { s with w := w, minLoss := l, t := { s.t with curPatience := 0 } })) ∨
      ((s.w.nets n).classif = true ∧ a ≤ s.maxAcc ∨ (s.w.nets n).classif = false ∧ s.minLoss ≤ l) ∧
        s' = { s with t := { s.t with curPatience := s.t.curPatience + 1 } } := by
  unfold keepStep at h
  split at h
  · rename_i hc
    split at h
    · rename_i hm
      obtain ⟨w, hw, h⟩ := ok_bind h
      injection h with h
      exact .inl (.inl ⟨hc, hm, w, hw, h.symm⟩)
    · rename_i hm
      injection h with h
      exact .inr ⟨.inl ⟨hc, not_lt.1 hm⟩, h.symm⟩
  · rename_i hc
    split at h
    · rename_i hm
      obtain ⟨w, hw, h⟩ := ok_bind h
      injection h with h
      exact .inl (.inr ⟨by simpa using hc, hm, w, hw, h.symm⟩)
    · rename_i hm
      injection h with h
      exact .inr ⟨.inr ⟨by simpa using hc, not_lt.1 hm⟩, h.symm⟩

theorem patienceStep_inv {e : Nat → Env} {g : Nat → ℝ} {n b : Nat} {s s' : FitSt} (h : patienceStep e g n b s = .ok s') :
    (s.t.curPatience > s.t.patience ∧ s.t.patience ≠ -1 ∧ ∃ w, s.w.assign e n b = .ok w ∧
        s' = { s with w := w, t := { s.t with curPatience := 0 }.setLearningRate g (s.t.getLearningRate / 2) }) ∨
      (¬(s.t.curPatience > s.t.patience ∧ s.t.patience ≠ -1) ∧ s' = s) := by
  unfold patienceStep at h
  split at h
  · rename_i hc
    dsimp only at h
    obtain ⟨w, hw, h⟩ := ok_bind h
    injection h with h
    exact .inl ⟨hc.1, hc.2, w, hw, h.symm⟩
  · rename_i hc
    injection h with h
    exact .inr ⟨hc, h.symm⟩

theorem setLearningRate_WF {g : Nat → ℝ} {t : Trainer} {x : ℝ} (h : ∀ o ∈ t.opts, o.WF) : ∀ o ∈ (t.setLearningRate g x).opts, o.WF := by
  intro o ho
  obtain ⟨o', h1, rfl⟩ := List.mem_map.1 ho
  exact Opt.init_WF g (h o' h1)

theorem reboost_WF {g : Nat → ℝ} {s : FitSt} (h : ∀ o ∈ s.t.opts, o.WF) : ∀ o ∈ (reboostStep g s).t.opts, o.WF := by
  unfold reboostStep
  split
  · split
    · exact h
    · intro o ho
      obtain ⟨o', h1, rfl⟩ := List.mem_map.1 ho
      exact Opt.init_WF g (h o' h1)
  · exact h

/-- The rest of an epoch: only `bestNet`, the network, the learning rate, the optimizers and the counters change. -/
structure TailKeep (n b : Nat) (s s' : FitSt) : Prop where
  same : { s.t with curPatience := s'.t.curPatience, lr := s'.t.lr, opts := s'.t.opts } = s'.t
  seen : s'.seen = s.seen
  nets : ∀ m, m ≠ n → m ≠ b → s'.w.nets m = s.w.nets m
  layers : ∀ m, m ≠ n → m ≠ b → ∀ a ∈ (s.w.nets m).layers, s'.w.heap[a]? = s.w.heap[a]?
  inv : Inv n b s'.w s'.t

theorem keepStep_tail {e : Nat → Env} {n b : Nat} {s s' : FitSt} {l a : ℝ} (hb : b ≠ n) (hi : Inv n b s.w s.t)
    (h : keepStep e n b s l a = .ok s') : TailKeep n b s s' := by
  rcases keepStep_inv h with (⟨-, -, w, hw, rfl⟩ | ⟨-, -, w, hw, rfl⟩) | ⟨-, rfl⟩
  · obtain ⟨f, -⟩ := World.assign_inv hi.owned hb hi.validN hw
    exact ⟨rfl, rfl, fun m _ hm => f.nets m hm, fun m _ hm => f.layers m hm,
      (hi.keepBest hb hw).congr rfl rfl hi.ok.opts rfl rfl rfl rfl rfl⟩
  · obtain ⟨f, -⟩ := World.assign_inv hi.owned hb hi.validN hw
    exact ⟨rfl, rfl, fun m _ hm => f.nets m hm, fun m _ hm => f.layers m hm,
      (hi.keepBest hb hw).congr rfl rfl hi.ok.opts rfl rfl rfl rfl rfl⟩
  · exact ⟨rfl, rfl, fun _ _ _ => rfl, fun _ _ _ _ _ => rfl, hi.congr rfl rfl hi.ok.opts rfl rfl rfl rfl rfl⟩

theorem patienceStep_tail {e : Nat → Env} {g : Nat → ℝ} {n b : Nat} {s s' : FitSt} (hb : b ≠ n) (hi : Inv n b s.w s.t)
    (h : patienceStep e g n b s = .ok s') : TailKeep n b s s' := by
  rcases patienceStep_inv h with ⟨-, -, w, hw, rfl⟩ | ⟨-, rfl⟩
  · obtain ⟨f, -⟩ := World.assign_inv hi.owned hb.symm hi.validB hw
    exact ⟨rfl, rfl, fun m hm _ => f.nets m hm, fun m hm _ => f.layers m hm,
      (hi.restore hb hw).1.congr rfl rfl (setLearningRate_WF hi.ok.opts) rfl rfl rfl rfl rfl⟩
  · exact ⟨rfl, rfl, fun _ _ _ => rfl, fun _ _ _ _ _ => rfl, hi⟩

theorem TailKeep.refl {n b : Nat} {s : FitSt} (hi : Inv n b s.w s.t) : TailKeep n b s s :=
  ⟨rfl, rfl, fun _ _ _ => rfl, fun _ _ _ _ _ => rfl, hi⟩

theorem TailKeep.trans {n b : Nat} {s s₁ s₂ : FitSt} (h : TailKeep n b s s₁) (h' : TailKeep n b s₁ s₂) : TailKeep n b s s₂ where
  same := by
    have := h'.same
    rw [← h.same] at this
    exact this
  seen := h'.seen.trans h.seen
  nets := fun m h1 h2 => (h'.nets m h1 h2).trans (h.nets m h1 h2)
  layers := fun m h1 h2 a ha => (h'.layers m h1 h2 a (by rw [h.nets m h1 h2]; exact ha)).trans (h.layers m h1 h2 a ha)
  inv := h'.inv

theorem bestStep_tail {e : FitEnv} {k n b : Nat} {s s' : FitSt} {l a : ℝ} (hb : b ≠ n) (hi : Inv n b s.w s.t)
    (h : bestStep e k n b s l a = .ok s') : TailKeep n b s s' := by
  unfold bestStep at h
  split at h
  · obtain ⟨s₁, h1, h⟩ := ok_bind h
    have t1 := keepStep_tail hb hi h1
    exact t1.trans (patienceStep_tail hb t1.inv h)
  · injection h with h; subst h; exact TailKeep.refl hi

theorem reboostStep_tail {g : Nat → ℝ} {n b : Nat} {s : FitSt} (hi : Inv n b s.w s.t) : TailKeep n b s (reboostStep g s) := by
  have ho := reboost_WF (g := g) hi.ok.opts
  unfold reboostStep at *
  split
  · split
    · exact ⟨rfl, rfl, fun _ _ _ => rfl, fun _ _ _ _ _ => rfl, hi⟩
    · refine ⟨rfl, rfl, fun _ _ _ => rfl, fun _ _ _ _ _ => rfl, hi.congr rfl rfl ?_ rfl rfl rfl rfl rfl⟩
      simp_all
  · exact TailKeep.refl hi

end Trainer
end BeeDNN

namespace BeeDNN
open HasWF

theorem forN_ok_idx {σ : Type} {f : Nat → σ → Out σ} {P : Nat → σ → Prop}
    (hstep : ∀ i s t, P i s → f i s = .ok t → P (i + 1) t) :
    ∀ {n : Nat} {s t : σ}, P 0 s → forN n f s = .ok t → P n t := by
  intro n
  induction n with
  | zero => intro s t h0 h; rw [forN_zero] at h; exact Except.ok.inj h ▸ h0
  | succ n ih =>
    intro s t h0 h
    rw [forN_succ] at h
    obtain ⟨u, h1, h2⟩ := ok_bind h
    exact hstep n u t (ih h0 h1) h2

namespace Trainer

/-- `set_net` -/
theorem setNet_inv {g : Nat → ℝ} {w w' : World} {t t' : Trainer} {n b : Nat} (hb : b ≠ n) (ho : Owned w)
    (hv : AllValid w (w.nets n).layers) (hvb : AllValid w (w.nets b).layers) (hi : ∀ m ∈ t.inOut, m.WF) (hg : ∀ m ∈ t.gradient, m.WF)
    (h : setNet g w t n = .ok (w', t')) :
    Evolve (w.nets n).layers w w' ∧ markFirst w (w.nets n).layers = .ok w' ∧ Inv n b w' t' ∧ t'.nbLayers = (w.nets n).layers.length ∧
      { t with net := t'.net, nbLayers := t'.nbLayers, gradient := t'.gradient, inOut := t'.inOut, opts := t'.opts,
               pWeights := t'.pWeights, pGradWeights := t'.pGradWeights, pBiases := t'.pBiases, pGradBiases := t'.pGradBiases } = t' ∧
      t'.inOut.length = (w.nets n).layers.length + 1 ∧ t'.gradient.length = (w.nets n).layers.length + 1 ∧
      t'.pWeights = (w.nets n).layers.filter (has false w') ∧ t'.pBiases = (w.nets n).layers.filter (has true w') ∧
      (t'.pWeights.length + t'.pBiases.length = 0 ∧ t'.opts = [] ∨ ∃ o, createOptimizer t.optName = some o ∧
        t'.opts = List.replicate (t'.pWeights.length + t'.pBiases.length) ((Opt.new o).setParams g t.lr t.decay t.mom)) := by
  unfold setNet at h
  dsimp only at h
  obtain ⟨w₁, h1, h⟩ := ok_bind h
  have hev := markFirst_inv h1
  have hlive : ∀ a ∈ (w.nets n).layers, ∃ l, w₁.heap[a]? = some (some l) := fun a ha => by
    obtain ⟨l, hl⟩ := ho.live n a ha
    exact hev.touch.live a l hl
  rw [collect_eq _ _ _ hlive, bind_ok'] at h
  simp only [List.nil_append] at h
  obtain ⟨os, h2, h⟩ := ok_bind h
  injection h with h
  injection h with e1 e2
  subst e1 e2
  have hn1 : (w₁.nets n).layers = (w.nets n).layers := by rw [hev.nets]
  have hv1 := hv.evolve hev
  have hp : ∀ c, PtrOk c w₁ (w₁.nets n).layers ((w.nets n).layers.filter (has c w₁)) := by
    intro c a ha
    obtain ⟨ha, hh⟩ := List.mem_filter.1 ha
    obtain ⟨l, hl⟩ := hlive a ha
    refine ⟨World.lt_of_live hl, fun l' hl' => ⟨by rw [hn1]; exact ha, ?_⟩⟩
    have hlv := hv1 a ha l' hl'
    simp only [has, hl'] at hh
    unfold uses
    cases c
    · simp only [Bool.false_eq_true, if_false] at hh ⊢
      by_contra hc
      simp [Layer.hasWeights, hlv.noWeight (by simpa using hc), Mat.size] at hh
    · simp only [if_true] at hh ⊢
      by_contra hc
      simp [Layer.hasBiases, hlv.noBias (by simpa using hc), Mat.size] at hh
  have hos : ∀ o ∈ os, o.WF := by
    rcases makeOpts_inv h2 with ⟨-, rfl⟩ | ⟨o, -, rfl⟩
    · exact fun o ho => absurd ho List.not_mem_nil
    · intro o' ho'
      rw [(List.mem_replicate.1 ho').2]
      exact Opt.init_WF g (Opt.new_WF o)
  refine ⟨hev, h1, ⟨(hev.stage.frame ho).owned, by rw [hn1]; exact hv1, by rw [hev.nets]; exact hvb.evolve hev,
    ⟨resizeVec_WF _ hi, resizeVec_WF _ hg, hos⟩, ⟨hp false, hp true, rfl, rfl⟩, rfl⟩, rfl, rfl, resizeVec_length .., resizeVec_length ..,
    rfl, rfl, ?_⟩
  rcases makeOpts_inv h2 with ⟨e1, e2⟩ | ⟨o, e1, e2⟩
  · exact .inl ⟨e1, e2⟩
  · exact .inr ⟨o, e1, e2⟩

/-- What `fit` leaves alone in the trainer. -/
def Settings (t t' : Trainer) : Prop :=
  { t with inOut := t'.inOut, gradient := t'.gradient, opts := t'.opts, onlineLoss := t'.onlineLoss
           onlineGood := t'.onlineGood, curTrainLoss := t'.curTrainLoss, trainLoss := t'.trainLoss
           curTrainAcc := t'.curTrainAcc, trainAcc := t'.trainAcc, curValLoss := t'.curValLoss
           curValAcc := t'.curValAcc, valLoss := t'.valLoss, valAcc := t'.valAcc
           curPatience := t'.curPatience, lr := t'.lr } = t'

theorem Settings.trans {t t₁ t₂ : Trainer} (h : Settings t t₁) (h' : Settings t₁ t₂) : Settings t t₂ := by
  unfold Settings at *
  rw [← h] at h'
  exact h'

theorem MidKeep.settings {t t' : Trainer} (h : MidKeep t t') (hc : t'.curPatience = t.curPatience) (hl : t'.lr = t.lr) : Settings t t' := by
  have := h.same
  unfold Settings
  rw [hc, hl]
  exact this

theorem MidKeep.curPatience {t t' : Trainer} (h : MidKeep t t') : t'.curPatience = t.curPatience := by rw [← h.same]
theorem MidKeep.lr {t t' : Trainer} (h : MidKeep t t') : t'.lr = t.lr := by rw [← h.same]

theorem TailKeep.settings {n b : Nat} {s s' : FitSt} (h : TailKeep n b s s') : Settings s.t s'.t := by
  have := h.same
  have e1 : s'.t.inOut = s.t.inOut := by rw [← this]
  have e2 : s'.t.gradient = s.t.gradient := by rw [← this]
  have e3 : s'.t.onlineLoss = s.t.onlineLoss := by rw [← this]
  have e4 : s'.t.onlineGood = s.t.onlineGood := by rw [← this]
  have e5 : s'.t.curTrainLoss = s.t.curTrainLoss := by rw [← this]
  have e6 : s'.t.trainLoss = s.t.trainLoss := by rw [← this]
  have e7 : s'.t.curTrainAcc = s.t.curTrainAcc := by rw [← this]
  have e8 : s'.t.trainAcc = s.t.trainAcc := by rw [← this]
  have e9 : s'.t.curValLoss = s.t.curValLoss := by rw [← this]
  have e10 : s'.t.curValAcc = s.t.curValAcc := by rw [← this]
  have e11 : s'.t.valLoss = s.t.valLoss := by rw [← this]
  have e12 : s'.t.valAcc = s.t.valAcc := by rw [← this]
  unfold Settings
  rw [e1, e2, e3, e4, e5, e6, e7, e8, e9, e10, e11, e12]
  exact this

/-- What holds after `k` epochs that began in state `s₀`. -/
structure LoopInv (ab : ℝ → ℝ) (eps : ℝ) (e : FitEnv) (n b : Nat) (s₀ : FitSt) (k : Nat) (s : FitSt) : Prop where
  inv : Inv n b s.w s.t
  settings : Settings s₀.t s.t
  seen : s.seen.length = k
  trainLoss : s.t.trainLoss.length = k
  valLoss : s.t.valLoss.length = if s.t.valid.isSome then k else 0
  valAcc : s.t.valAcc.length = if s.t.valid.isSome then k else 0
  nets : ∀ m, m ≠ n → m ≠ b → s.w.nets m = s₀.w.nets m
  layers : ∀ m, m ≠ n → m ≠ b → ∀ a ∈ (s₀.w.nets m).layers, s.w.heap[a]? = s₀.w.heap[a]?
  evals : ∀ x y, s.t.valid = some (x, y) → ∀ i, i < k → ∃ w₀ w₁ l a, computeLossAccuracy ab eps (e.eval (i + 1)) w₀ s.t x y true = .ok (w₁, l, a) ∧
    s.t.valLoss[i]? = some l ∧ s.t.valAcc[i]? = some a ∧ s.seen[i]? = some (layersOf w₁ n)

theorem LoopInv.start {ab : ℝ → ℝ} {eps : ℝ} {e : FitEnv} {n b : Nat} {s : FitSt} (hi : Inv n b s.w s.t) (h1 : s.seen = []) (h2 : s.t.trainLoss = [])
    (h3 : s.t.valLoss = []) (h4 : s.t.valAcc = []) : LoopInv ab eps e n b s 0 s :=
  ⟨hi, rfl, by rw [h1]; rfl, by rw [h2]; rfl, by rw [h3]; split <;> rfl, by rw [h4]; split <;> rfl, fun _ _ _ => rfl, fun _ _ _ _ _ => rfl,
    fun _ _ _ i hi => absurd hi (by omega)⟩

theorem LoopInv.step {ab : ℝ → ℝ} {eps : ℝ} {e : FitEnv} {n b : Nat} {x y : Mat ℝ} {k : Nat} {s₀ s s' : FitSt} (hb : b ≠ n)
    (hs : LoopInv ab eps e n b s₀ k s) (h : epochStep ab eps e n b x y k s = .ok s') : LoopInv ab eps e n b s₀ (k + 1) s' := by
  obtain ⟨w₁, t₁, l, a, s₂, k1, k2, k3, k4, k5, -, -, k6, k7, k8⟩ := epochStep_inv hb hs.inv h
  have t2 : TailKeep n b _ s₂ := bestStep_tail hb k2 k7
  have t3 : TailKeep n b s₂ s' := k8 ▸ reboostStep_tail t2.inv
  have tt := t2.trans t3
  have st : Settings t₁ s'.t := tt.settings
  have ss := (k3.settings k3.curPatience k3.lr).trans st
  have hval : s'.t.valid = s.t.valid := by rw [← ss]
  have f1 := k1.frame hs.inv.owned
  have hvl : s'.t.valLoss = t₁.valLoss := by have := tt.same; rw [← this]
  have hva : s'.t.valAcc = t₁.valAcc := by have := tt.same; rw [← this]
  have htl : s'.t.trainLoss = t₁.trainLoss := by have := tt.same; rw [← this]
  have hseen : s'.seen = s.seen ++ [layersOf w₁ n] := tt.seen
  refine ⟨tt.inv, hs.settings.trans ss, ?_, ?_, ?_, ?_, fun m h1 h2 => ?_, fun m h1 h2 a ha => ?_, ?_⟩
  · rw [hseen, List.length_append, hs.seen]; rfl
  · rw [htl, k3.trainLoss, List.length_append, hs.trainLoss]; rfl
  · have := hs.valLoss
    rw [hvl, hval]
    cases hc : s.t.valid with
    | none => rw [(k5 hc).1, this, hc]; rfl
    | some v =>
      have hc' : s.t.valid.isSome = true := by rw [hc]; rfl
      rw [(k4 hc').1, List.length_append, this, if_pos hc']; rfl
  · have := hs.valAcc
    rw [hva, hval]
    cases hc : s.t.valid with
    | none => rw [(k5 hc).2.1, this, hc]; rfl
    | some v =>
      have hc' : s.t.valid.isSome = true := by rw [hc]; rfl
      rw [(k4 hc').2, List.length_append, this, if_pos hc']; rfl
  · exact (tt.nets m h1 h2).trans ((f1.nets m h1).trans (hs.nets m h1 h2))
  · have ha' : a ∈ (s.w.nets m).layers := by rw [hs.nets m h1 h2]; exact ha
    have ha'' : a ∈ (w₁.nets m).layers := by rw [f1.nets m h1]; exact ha'
    exact (tt.layers m h1 h2 a ha'').trans ((f1.layers m h1 a ha').trans (hs.layers m h1 h2 a ha))
  · intro x' y' hxy i hi
    rw [hval] at hxy
    have hc' : s.t.valid.isSome = true := by rw [hxy]; rfl
    have hcg : ∀ (q : Trainer) (e' : Nat → Nat → Env) w₀, Settings q s'.t →
        computeLossAccuracy ab eps e' w₀ s'.t x' y' true = computeLossAccuracy ab eps e' w₀ q x' y' true := fun q e' w₀ hq =>
      computeLossAccuracy_congr (by rw [← hq]) (by rw [← hq]) (by rw [← hq]) (by rw [← hq])
    rw [hvl, hva, (k4 hc').1, (k4 hc').2, hseen]
    have hL := hs.valLoss
    have hA := hs.valAcc
    rw [if_pos hc'] at hL hA
    by_cases hik : i < k
    · obtain ⟨w₀, w₂, l', a', c1, c2, c3, c4⟩ := hs.evals x' y' hxy i hik
      refine ⟨w₀, w₂, l', a', ?_, ?_, ?_, ?_⟩
      · rw [hcg s.t _ _ ss, c1]
      · rw [List.getElem?_append_left (by rw [hL]; exact hik)]; exact c2
      · rw [List.getElem?_append_left (by rw [hA]; exact hik)]; exact c3
      · rw [List.getElem?_append_left (by rw [hs.seen]; exact hik)]; exact c4
    · have hik : i = k := by omega
      subst hik
      obtain ⟨w₀, c1⟩ := k6 x' y' hxy
      refine ⟨w₀, w₁, l, a, ?_, ?_, ?_, ?_⟩
      · rw [hcg t₁ _ _ st, c1]
      · rw [List.getElem?_append_right (by rw [hL]), hL, Nat.sub_self]; rfl
      · rw [List.getElem?_append_right (by rw [hA]), hA, Nat.sub_self]; rfl
      · rw [List.getElem?_append_right (by rw [hs.seen]), hs.seen, Nat.sub_self]; rfl

/-- What holds before the first epoch. -/
theorem start_inv {ab : ℝ → ℝ} {eps : ℝ} {e : FitEnv} {n b : Nat} {x y : Mat ℝ} {w : World} {t : Trainer} {s : FitSt} (hb : b ≠ n)
    (hi : Inv n b w t) (h : Trainer.start ab eps e n b x y w t = .ok s) :
    ∃ (cw : Mat ℝ) (w₀ : World), classWeights e.g e.div0 (w.nets n).classif t.balancing t.train = .ok cw ∧
      s.t = { t with
        lossWeight := cw, trainLoss := [], valLoss := [], trainAcc := [], valAcc := [], curTrainLoss := 1e10, curTrainAcc := 0
        curValLoss := 1e10, curValAcc := 0, curPatience := 0, batchAdj := adjustBatch t.batchSize x.rows
        opts := t.opts.map (Opt.init e.g) } ∧
      s.seen = [] ∧ s.iReboost = 0 ∧ Inv n b s.w s.t ∧ Evolve (w.nets n).layers w w₀ ∧
      (∀ m, m ≠ b → s.w.nets m = w₀.nets m) ∧ (∀ m, m ≠ b → ∀ a ∈ (w₀.nets m).layers, s.w.heap[a]? = w₀.heap[a]?) ∧
      (t.keepBest = true → computeLossAccuracy ab eps (e.eval 0) w s.t (t.valid.getD (x, y)).1 (t.valid.getD (x, y)).2 true =
          .ok (w₀, s.minLoss, s.maxAcc) ∧ SameLayers (layersOf w₀ n) (layersOf s.w b) ∧
          (s.w.nets b).classif = (w₀.nets n).classif) ∧
      (t.keepBest = false → s.w = w ∧ w₀ = w ∧ s.minLoss = 1e10 ∧ s.maxAcc = 0) := by
  unfold Trainer.start at h
  obtain ⟨cw, h1, h⟩ := ok_bind h
  dsimp only at h
  have hopts : ∀ o ∈ t.opts.map (Opt.init e.g), o.WF := by
    intro o ho
    obtain ⟨o', h1, rfl⟩ := List.mem_map.1 ho
    exact Opt.init_WF e.g (hi.ok.opts o' h1)
  generalize ht : ({ t with
        lossWeight := cw, trainLoss := [], valLoss := [], trainAcc := [], valAcc := [], curTrainLoss := 1e10, curTrainAcc := 0
        curValLoss := 1e10, curValAcc := 0, curPatience := 0, batchAdj := adjustBatch t.batchSize x.rows
        opts := t.opts.map (Opt.init e.g) } : Trainer) = t₁ at h
  have hkb : t₁.keepBest = t.keepBest := by rw [← ht]
  have hvd : t₁.valid = t.valid := by rw [← ht]
  have hnet : t₁.net = t.net := by rw [← ht]
  have hcg : ∀ {w'}, Inv n b w' t → Inv n b w' t₁ := fun hi' =>
    hi'.congr (by rw [← ht]) (by rw [← ht]) (by rw [← ht]; exact hopts) (by rw [← ht]) (by rw [← ht]) (by rw [← ht]) (by rw [← ht]) hnet
  obtain ⟨⟨w₁, l, a⟩, h2, h⟩ := ok_bind h
  injection h with h
  subst h
  dsimp only
  unfold initialBest at h2
  rw [hkb, hvd] at h2
  split at h2
  · rename_i hk
    obtain ⟨⟨w₀, l', a'⟩, h3, h2⟩ := ok_bind h2
    dsimp only at h2
    obtain ⟨w₂, h4, h2⟩ := ok_bind h2
    injection h2 with h2
    injection h2 with e1 h2
    injection h2 with e2 e3
    subst e1 e2 e3
    have c : Evolve (w.nets n).layers w w₀ := computeLossAccuracy_inv (hnet.trans hi.net) hi.validN h3
    have i0 := hi.stage hb c.stage
    obtain ⟨a1, a2, a3, a4, a5, a6⟩ := World.assign_inv i0.owned hb i0.validN h4
    exact ⟨cw, w₀, h1, ht.symm, rfl, rfl, hcg (i0.keepBest hb h4), c, a1.nets, a1.layers,
      fun _ => ⟨h3, SameLayers.of_clones a6, a2⟩, fun h => by rw [h] at hk; cases hk⟩
  · rename_i hk
    injection h2 with h2
    injection h2 with e1 h2
    injection h2 with e2 e3
    subst e1 e2 e3
    exact ⟨cw, w, h1, ht.symm, rfl, rfl, hcg hi, Evolve.refl _ _, fun _ _ => rfl, fun _ _ _ _ => rfl,
      fun h => absurd h hk, fun _ => ⟨rfl, rfl, rfl, rfl⟩⟩

end Trainer
end BeeDNN

namespace BeeDNN
open HasWF

theorem isFirstMax_snoc_old {S : List ℝ} {x : ℝ} {k : Nat} (h : IsFirstMax S.length (fun i => S.getD i 0) k) (hx : x ≤ S.getD k 0) :
    IsFirstMax (S ++ [x]).length (fun i => (S ++ [x]).getD i 0) k := by
  obtain ⟨h1, h2, h3⟩ := h
  have e : ∀ i, i < S.length → (S ++ [x]).getD i 0 = S.getD i 0 := fun i hi => by simp [List.getD, List.getElem?_append_left hi]
  have e' : (S ++ [x]).getD S.length 0 = x := by simp [List.getD]
  refine ⟨by simp; omega, fun j hj => ?_, fun j hj => ?_⟩
  · dsimp only at h2 ⊢
    rw [e k h1]
    rw [List.length_append, List.length_singleton] at hj
    by_cases hj' : j < S.length
    · rw [e j hj']; exact h2 j hj'
    · have : j = S.length := by omega
      subst this
      rw [e']; exact hx
  · dsimp only at h3 ⊢
    rw [e k h1, e j (by omega)]; exact h3 j hj

theorem isFirstMax_snoc_new {S : List ℝ} {x : ℝ} {k : Nat} (h : IsFirstMax S.length (fun i => S.getD i 0) k) (hx : S.getD k 0 < x) :
    IsFirstMax (S ++ [x]).length (fun i => (S ++ [x]).getD i 0) S.length := by
  obtain ⟨h1, h2, h3⟩ := h
  have e : ∀ i, i < S.length → (S ++ [x]).getD i 0 = S.getD i 0 := fun i hi => by simp [List.getD, List.getElem?_append_left hi]
  have e' : (S ++ [x]).getD S.length 0 = x := by simp [List.getD]
  have hl : ∀ j, j < S.length → S.getD j 0 < x := fun j hj => lt_of_le_of_lt (h2 j hj) hx
  refine ⟨by simp, fun j hj => ?_, fun j hj => ?_⟩
  · dsimp only
    rw [e']
    rw [List.length_append, List.length_singleton] at hj
    by_cases hj' : j < S.length
    · rw [e j hj']; exact (hl j hj').le
    · have : j = S.length := by omega
      subst this
      rw [e']
  · dsimp only
    rw [e', e j hj]; exact hl j hj

namespace Trainer

/-- A loss counts negatively. -/
def scoreOf (c : Bool) (l a : ℝ) : ℝ := if c then a else -l
/-- Scores of the epochs. -/
def scoreList (c : Bool) (t : Trainer) : List ℝ := if c then t.accList else t.lossList.map (fun x => -x)

/-- The state of `bestNet`: it is the first of the best networks among `P`, which have the scores `S`. -/
structure BestInv (c : Bool) (n b : Nat) (S : List ℝ) (P : List (List (Option Layer))) (s : FitSt) : Prop where
  len : P.length = S.length
  best : ∃ k, IsFirstMax S.length (fun i => S.getD i 0) k ∧ scoreOf c s.minLoss s.maxAcc = S.getD k 0 ∧
    SameLayers (P.getD k []) (layersOf s.w b)
  classif : (s.w.nets n).classif = c
  classifB : (s.w.nets b).classif = c

theorem keepStep_score {e : Nat → Env} {n b : Nat} {s s' : FitSt} {l a : ℝ} {c : Bool} (hc : (s.w.nets n).classif = c)
    (h : keepStep e n b s l a = .ok s') :
    (scoreOf c s.minLoss s.maxAcc < scoreOf c l a ∧ ∃ w, s.w.assign e b n = .ok w ∧ s'.w = w ∧ scoreOf c s'.minLoss s'.maxAcc = scoreOf c l a ∧
      s'.t = { s.t with curPatience := 0 } ∧ s'.iReboost = s.iReboost) ∨
      scoreOf c l a ≤ scoreOf c s.minLoss s.maxAcc ∧ s' = { s with t := { s.t with curPatience := s.t.curPatience + 1 } } := by
  unfold scoreOf
  rcases keepStep_inv h with (⟨k1, k2, w, hw, rfl⟩ | ⟨k1, k2, w, hw, rfl⟩) | ⟨k1, rfl⟩
  · rw [hc] at k1; subst k1
    exact .inl ⟨k2, w, hw, rfl, rfl, rfl, rfl⟩
  · rw [hc] at k1; subst k1
    exact .inl ⟨by simpa using k2, w, hw, rfl, rfl, rfl, rfl⟩
  · refine .inr ⟨?_, rfl⟩
    rcases k1 with ⟨k1, k2⟩ | ⟨k1, k2⟩
    · rw [hc] at k1; subst k1; simpa using k2
    · rw [hc] at k1; subst k1; simpa using k2

theorem BestInv.keep {e : Nat → Env} {c : Bool} {n b : Nat} {S : List ℝ} {P : List (List (Option Layer))} {s s' : FitSt} {l a : ℝ} (hb : b ≠ n)
    (hi : Inv n b s.w s.t) (h : BestInv c n b S P s) (hs : keepStep e n b s l a = .ok s') :
    BestInv c n b (S ++ [scoreOf c l a]) (P ++ [layersOf s.w n]) s' := by
  obtain ⟨k, k1, k2, k3⟩ := h.best
  have hlen : (P ++ [layersOf s.w n]).length = (S ++ [scoreOf c l a]).length := by simp [h.len]
  rcases keepStep_score h.classif hs with ⟨c1, w, hw, c2, c3, c4, -⟩ | ⟨c1, rfl⟩
  · obtain ⟨a1, a2, a3, a4, a5, a6⟩ := World.assign_inv hi.owned hb hi.validN hw
    subst c2
    refine ⟨hlen, ⟨S.length, isFirstMax_snoc_new k1 (k2 ▸ c1), ?_, ?_⟩, ?_, ?_⟩
    · rw [c3]; simp [List.getD]
    · rw [← h.len]
      have : (P ++ [layersOf s.w n]).getD P.length [] = layersOf s.w n := by simp [List.getD]
      rw [this]
      exact SameLayers.of_clones a6
    · rw [a1.nets n hb.symm]; exact h.classif
    · rw [a2]; exact h.classif
  · refine ⟨hlen, ⟨k, isFirstMax_snoc_old k1 (k2 ▸ c1), ?_, ?_⟩, h.classif, h.classifB⟩
    · have : k < S.length := k1.1
      rw [show (S ++ [scoreOf c l a]).getD k 0 = S.getD k 0 by simp [List.getD, List.getElem?_append_left this]]
      exact k2
    · have : k < P.length := by rw [h.len]; exact k1.1
      rw [show (P ++ [layersOf s.w n]).getD k [] = P.getD k [] by simp [List.getD, List.getElem?_append_left this]]
      exact k3

theorem BestInv.patience {e : Nat → Env} {g : Nat → ℝ} {c : Bool} {n b : Nat} {S : List ℝ} {P : List (List (Option Layer))} {s s' : FitSt} (hb : b ≠ n)
    (hi : Inv n b s.w s.t) (h : BestInv c n b S P s) (hs : patienceStep e g n b s = .ok s') : BestInv c n b S P s' := by
  rcases patienceStep_inv hs with ⟨-, -, w, hw, rfl⟩ | ⟨-, rfl⟩
  · obtain ⟨a1, a2, a3, a4, a5, a6⟩ := World.assign_inv hi.owned hb.symm hi.validB hw
    obtain ⟨k, k1, k2, k3⟩ := h.best
    refine ⟨h.len, ⟨k, k1, k2, ?_⟩, ?_, ?_⟩
    · show SameLayers _ (layersOf w b)
      rw [layersOf_frame a1 hb]; exact k3
    · exact a2.trans h.classifB
    · show (w.nets b).classif = c
      rw [a1.nets b hb]; exact h.classifB
  · exact h

theorem BestInv.reboost {g : Nat → ℝ} {c : Bool} {n b : Nat} {S : List ℝ} {P : List (List (Option Layer))} {s : FitSt}
    (h : BestInv c n b S P s) : BestInv c n b S P (reboostStep g s) := by
  have : (reboostStep g s).w = s.w ∧ (reboostStep g s).minLoss = s.minLoss ∧ (reboostStep g s).maxAcc = s.maxAcc := by
    unfold reboostStep; split
    · split <;> exact ⟨rfl, rfl, rfl⟩
    · exact ⟨rfl, rfl, rfl⟩
  obtain ⟨e1, e2, e3⟩ := this
  exact ⟨h.len, by rw [e1, e2, e3]; exact h.best, by rw [e1]; exact h.classif, by rw [e1]; exact h.classifB⟩

/-- One epoch. -/
theorem BestInv.step {ab : ℝ → ℝ} {eps : ℝ} {e : FitEnv} {c : Bool} {n b : Nat} {x y : Mat ℝ} {k : Nat} {r₀ : ℝ} {p₀ : List (Option Layer)} {s s' : FitSt}
    (hb : b ≠ n) (hk : s.t.keepBest = true) (hi : Inv n b s.w s.t) (h : BestInv c n b (r₀ :: scoreList c s.t) (p₀ :: s.seen) s)
    (hs : epochStep ab eps e n b x y k s = .ok s') : BestInv c n b (r₀ :: scoreList c s'.t) (p₀ :: s'.seen) s' := by
  obtain ⟨w₁, t₁, l, a, s₂, k1, k2, k3, k4, k5, k5', k5'', k6, k7, k8⟩ := epochStep_inv hb hi hs
  have t2 : TailKeep n b _ s₂ := bestStep_tail hb k2 k7
  have t3 : TailKeep n b s₂ s' := k8 ▸ reboostStep_tail t2.inv
  have tt := t2.trans t3
  have hval : t₁.valid = s.t.valid := by rw [← k3.same]
  have hl : scoreList c s'.t = scoreList c s.t ++ [scoreOf c l a] := by
    have e0 : scoreList c s'.t = scoreList c t₁ := by
      unfold scoreList accList lossList
      rw [← tt.same]
    rw [e0]
    have hcl := h.classif
    unfold scoreList accList lossList scoreOf
    rw [hval]
    cases hc : s.t.valid with
    | none =>
      obtain ⟨-, -, e1, e2⟩ := k5 hc
      cases c
      · simp [k3.trainLoss, e1]
      · simp [k5' hcl, e2]
    | some v =>
      obtain ⟨e1, e2⟩ := k4 (by rw [hc]; rfl)
      cases c
      · simp [e1]
      · simp [e2]
  have hkb : t₁.keepBest = true := by rw [← hk, ← k3.same]
  have h1 : BestInv c n b (r₀ :: scoreList c s.t) (p₀ :: s.seen) { s with w := w₁, t := t₁, seen := s.seen ++ [layersOf w₁ n] } := by
    obtain ⟨j, j1, j2, j3⟩ := h.best
    refine ⟨h.len, ⟨j, j1, j2, ?_⟩, ?_, ?_⟩
    · show SameLayers _ (layersOf w₁ b)
      rw [Stage.layersOf hi.owned k1 hb]; exact j3
    · exact k1.classif.trans h.classif
    · show (w₁.nets b).classif = c
      rw [k1.nets b hb]; exact h.classifB
  unfold bestStep at k7
  rw [if_pos (.inl hkb)] at k7
  obtain ⟨s₃, h3, h4⟩ := ok_bind k7
  have h5 := BestInv.keep hb k2 h1 h3
  have h6 := BestInv.patience hb (keepStep_tail hb k2 h3).inv h5 h4
  rw [k8] at hl ⊢
  rw [hl]
  have hseen : (reboostStep e.g s₂).seen = s.seen ++ [layersOf w₁ n] := by rw [← k8]; exact tt.seen
  rw [hseen]
  exact BestInv.reboost h6

/-- The parts of `fit`. -/
theorem fit_split {ab : ℝ → ℝ} {eps : ℝ} {e : FitEnv} {w w' : World} {t t' : Trainer} {n b : Nat} {seen : List (List (Option Layer))}
    (h : fit ab eps e w t n b = .ok (w', t', seen)) (hL : (w.nets n).layers ≠ []) (hb : b ≠ n) (ho : Owned w)
    (hv : AllValid w (w.nets n).layers) (hvb : (w.nets b).layers = []) (hi : ∀ m ∈ t.inOut, m.WF) (hg : ∀ m ∈ t.gradient, m.WF) :
    ∃ w₁ t₁ x y s₀ s, setNet e.g w t n = .ok (w₁, t₁) ∧ t.train = some (x, y) ∧ Trainer.start ab eps e n b x y w₁ t₁ = .ok s₀ ∧
      forN t.epochs.toNat (epochStep ab eps e n b x y) s₀ = .ok s ∧ finish e n b s = .ok ⟨w', t', s.minLoss, s.maxAcc, s.iReboost, seen⟩ ∧
      s.t = t' ∧ s.seen = seen ∧ Inv n b w₁ t₁ ∧ LoopInv ab eps e n b s₀ t.epochs.toNat s := by
  unfold fit at h
  obtain ⟨⟨w₁, t₁⟩, h1, h⟩ := ok_bind h
  dsimp only at h
  have hvb' : AllValid w (w.nets b).layers := by rw [hvb]; exact fun a ha => absurd ha List.not_mem_nil
  obtain ⟨a1, -, a2, a3, a4, -⟩ := setNet_inv hb ho hv hvb' hi hg h1
  rw [if_neg (by rw [a3]; simpa using hL)] at h
  have htr : t₁.train = t.train := by rw [← a4]
  have hep : t₁.epochs = t.epochs := by rw [← a4]
  split at h
  · cases h
  · rename_i x y hxy
    obtain ⟨s₀, h2, h⟩ := ok_bind h
    obtain ⟨s, h3, h⟩ := ok_bind h
    obtain ⟨s₂, h4, h⟩ := ok_bind h
    injection h with h
    injection h with e1 h
    injection h with e2 e3
    subst e1 e2 e3
    rw [hep] at h3
    obtain ⟨cw, w₀, -, b2, b3, b4, b5, -⟩ := start_inv hb a2 h2
    have hl := forN_ok_idx (P := LoopInv ab eps e n b s₀) (fun i r r' hr hr' => hr.step hb hr')
      (LoopInv.start b5 b3 (by rw [b2]) (by rw [b2]) (by rw [b2])) h3
    have h4' := h4
    unfold finish at h4'
    obtain ⟨wa, -, h4'⟩ := ok_bind h4'
    obtain ⟨wb, -, h4'⟩ := ok_bind h4'
    injection h4' with h4'
    have e1 : s.t = s₂.t := by rw [← h4']
    have e2 : s.seen = s₂.seen := by rw [← h4']
    refine ⟨w₁, t₁, x, y, s₀, s, h1, htr ▸ hxy, h2, h3, ?_, e1, e2, a2, hl⟩
    rw [h4, ← h4']

end Trainer
end BeeDNN

namespace BeeDNN
open HasWF
namespace Trainer

/-- The end of `fit`. -/
theorem finish_inv {e : FitEnv} {n b : Nat} {s s' : FitSt} (hb : b ≠ n) (hi : Inv n b s.w s.t) (h : finish e n b s = .ok s') :
    s'.t = s.t ∧ s'.seen = s.seen ∧ Owned s'.w ∧ (s'.w.nets b).layers = [] ∧ (∀ m, m ≠ n → m ≠ b → s'.w.nets m = s.w.nets m) ∧
      (∀ m, m ≠ n → m ≠ b → ∀ a ∈ (s.w.nets m).layers, s'.w.heap[a]? = s.w.heap[a]?) ∧
      AllValid s'.w (s'.w.nets n).layers ∧
      (s.t.keepBest = true → SameLayers (layersOf s.w b) (layersOf s'.w n) ∧ TestMode s'.w (s'.w.nets n).layers ∧
        (s'.w.nets n).classif = (s.w.nets b).classif) ∧
      (s.t.keepBest = false → s'.w.nets n = s.w.nets n ∧ ∀ a ∈ (s.w.nets n).layers, s'.w.heap[a]? = s.w.heap[a]?) := by
  unfold finish at h
  obtain ⟨w₁, h1, h⟩ := ok_bind h
  obtain ⟨w₂, h2, h⟩ := ok_bind h
  injection h with h
  subst h
  dsimp only
  unfold restoreBest at h1
  split at h1
  · rename_i hk
    obtain ⟨a1, a2, a3, a4, a5, a6⟩ := World.assign_inv hi.owned hb.symm hi.validB h1
    have f := frame_clear a1.owned h2
    obtain ⟨wc, c1, c2, -⟩ := World.clear_ok a1.owned b
    rw [c1] at h2
    injection h2 with h2
    subst h2
    have hnl := f.nets n hb.symm
    refine ⟨rfl, rfl, f.owned, by rw [c2], fun m h1 h2 => (f.nets m h2).trans (a1.nets m h1), fun m h1 h2 a ha => ?_, ?_, fun _ => ⟨?_, ?_, ?_⟩,
      fun h => by rw [h] at hk; cases hk⟩
    · exact (f.layers m h2 a (by rw [a1.nets m h1]; exact ha)).trans (a1.layers m h1 a ha)
    · intro a ha l hl
      rw [hnl] at ha
      rw [f.layers n hb.symm a ha] at hl
      exact validOf_clones a6 a ha l hl
    · rw [layersOf_frame f hb.symm]
      exact SameLayers.of_clones a6
    · intro a ha l hl
      rw [hnl] at ha
      rw [f.layers n hb.symm a ha] at hl
      clear hnl c1 c2 f
      generalize (w₁.nets n).layers = bs at *
      generalize (s.w.nets b).layers = as at *
      clear a5 a4 a1 a2
      induction a6 with
      | nil => exact absurd ha List.not_mem_nil
      | cons k1 _ ih =>
        rcases List.mem_cons.1 ha with rfl | ha
        · obtain ⟨l₀, p, -, k2, k3⟩ := k1
          rw [hl] at k2
          injection k2 with k2
          injection k2 with k2
          rw [k2]; exact k3.train
        · exact ih ha
    · rw [hnl]; exact a2
  · rename_i hk
    injection h1 with h1
    subst h1
    have f := frame_clear hi.owned h2
    obtain ⟨wc, c1, c2, -⟩ := World.clear_ok hi.owned b
    rw [c1] at h2
    injection h2 with h2
    subst h2
    refine ⟨rfl, rfl, f.owned, by rw [c2], fun m _ h2 => f.nets m h2, fun m _ h2 a ha => f.layers m h2 a ha, ?_, fun h => absurd h hk,
      fun _ => ⟨f.nets n hb.symm, f.layers n hb.symm⟩⟩
    intro a ha l hl
    rw [f.nets n hb.symm] at ha
    rw [f.layers n hb.symm a ha] at hl
    exact hi.validN a ha l hl

/-- Marking the first layer changes no parameter. -/
theorem markFirst_same {w w' : World} {n : Nat} (ho : Owned w) (h : markFirst w (w.nets n).layers = .ok w') :
    SameLayers (layersOf w n) (layersOf w' n) := by
  have hev := markFirst_inv h
  have key : ∀ a ∈ (w.nets n).layers, ∃ l l' : Layer, w.heap[a]? = some (some l) ∧ w'.heap[a]? = some (some l') ∧ l.SameParams l' := by
    intro a ha
    obtain ⟨l, hl⟩ := ho.live n a ha
    cases hls : (w.nets n).layers with
    | nil => rw [hls] at ha; exact absurd ha List.not_mem_nil
    | cons c cs =>
      rw [hls] at h
      obtain ⟨k, h1, h⟩ := ok_bind h
      injection h with h
      subst h
      have h1 := World.deref_inv h1
      by_cases hac : a = c
      · subst hac
        rw [hl] at h1
        injection h1 with h1
        injection h1 with h1
        subst h1
        exact ⟨l, l.setFirst true, hl, World.store_same hl, rfl, rfl, rfl, rfl, rfl, rfl⟩
      · exact ⟨l, l, hl, (World.store_other _ hac).trans hl, rfl, rfl, rfl, rfl, rfl, rfl⟩
  unfold SameLayers layersOf
  rw [hev.nets]
  generalize (w.nets n).layers = as at key
  induction as with
  | nil => exact .nil
  | cons a as ih =>
    obtain ⟨l, l', k1, k2, k3⟩ := key a List.mem_cons_self
    exact .cons ⟨l, l', by dsimp only; rw [k1]; rfl, by dsimp only; rw [k2]; rfl, k3⟩ (ih fun c hc => key c (List.mem_cons_of_mem _ hc))

/-- Classification mode and the number of accuracies. -/
structure ClassInv (c : Bool) (n b : Nat) (k : Nat) (s : FitSt) : Prop where
  classif : (s.w.nets n).classif = c
  classifB : s.t.keepBest = true → (s.w.nets b).classif = c
  acc : s.t.trainAcc.length = if c then k else 0

theorem ClassInv.step {ab : ℝ → ℝ} {eps : ℝ} {e : FitEnv} {c : Bool} {n b : Nat} {x y : Mat ℝ} {k : Nat} {s s' : FitSt} (hb : b ≠ n)
    (hk : s.t.keepBest = true ∨ s.t.patience = -1) (hi : Inv n b s.w s.t) (h : ClassInv c n b k s)
    (hs : epochStep ab eps e n b x y k s = .ok s') : ClassInv c n b (k + 1) s' := by
  obtain ⟨w₁, t₁, l, a, s₂, k1, k2, k3, k4, k5, k5', k5'', k6, k7, k8⟩ := epochStep_inv hb hi hs
  have t2 : TailKeep n b _ s₂ := bestStep_tail hb k2 k7
  have t3 : TailKeep n b s₂ s' := k8 ▸ reboostStep_tail t2.inv
  have tt := t2.trans t3
  have hkb : s'.t.keepBest = s.t.keepBest := by
    have e1 : s'.t.keepBest = t₁.keepBest := by rw [← tt.same]
    rw [e1, ← k3.same]
  have hkb1 : t₁.keepBest = s.t.keepBest := by rw [← k3.same]
  have hpa1 : t₁.patience = s.t.patience := by rw [← k3.same]
  have c1 : (w₁.nets n).classif = c := k1.classif.trans h.classif
  have c2 : s.t.keepBest = true → (w₁.nets b).classif = c := fun hk => by rw [k1.nets b hb]; exact h.classifB hk
  have hw : s'.w = s₂.w := by
    rw [k8]; unfold reboostStep; split
    · split <;> rfl
    · rfl
  have hbest : (s₂.w.nets n).classif = c ∧ (s.t.keepBest = true → (s₂.w.nets b).classif = c) := by
    unfold bestStep at k7
    split at k7
    · rename_i hcond
      obtain ⟨s₃, h3, h4⟩ := ok_bind k7
      have i3 := (keepStep_tail hb k2 h3).inv
      have hp3 : s₃.t.patience = t₁.patience := by rw [← (keepStep_tail hb k2 h3).same]
      have d : (s₃.w.nets n).classif = c ∧ (s.t.keepBest = true → (s₃.w.nets b).classif = c) := by
        rcases keepStep_score c1 h3 with ⟨-, w, hw, rfl, -, -⟩ | ⟨-, rfl⟩
        · obtain ⟨a1, a2, -⟩ := World.assign_inv k2.owned hb k2.validN hw
          exact ⟨by rw [a1.nets n hb.symm]; exact c1, fun _ => a2.trans c1⟩
        · exact ⟨c1, c2⟩
      rcases patienceStep_inv h4 with ⟨-, p2, w, hw', rfl⟩ | ⟨-, rfl⟩
      · have hkt : s.t.keepBest = true := by
          rcases hk with hk | hk
          · exact hk
          · exact absurd (hp3.trans (hpa1.trans hk)) p2
        obtain ⟨a1, a2, -⟩ := World.assign_inv i3.owned hb.symm i3.validB hw'
        exact ⟨a2.trans (d.2 hkt), fun hk => by
          show (w.nets b).classif = c
          rw [a1.nets b hb]; exact d.2 hk⟩
      · exact d
    · injection k7 with k7
      subst k7
      exact ⟨c1, c2⟩
  refine ⟨hw ▸ hbest.1, fun hk => hw ▸ hbest.2 (hkb ▸ hk), ?_⟩
  have hta : s'.t.trainAcc = t₁.trainAcc := by rw [← tt.same]
  have hacc := h.acc
  rw [hta]
  cases c
  · rw [k5'' h.classif]; simpa using hacc
  · rw [k5' h.classif, List.length_append, hacc]; rfl

end Trainer
end BeeDNN
