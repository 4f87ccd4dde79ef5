import Verif.Lemmas.TrainLive
import Verif.Lemmas.MlpStale
import Verif.Props.TrainSchedule
import Verif.Props.ClassWeight

/-! # Which layers training reaches (C52)

The trainer keeps pointers to the weights and biases of the network it trains.  When the patience runs out, the network is
replaced by a copy of the best one, which deletes its layers; the pointers are not collected again. -/

namespace BeeDNN
open Trainer

/-- C52: in a run of `fit` that ends without fault, at the beginning of every epoch every parameter the trainer points to is in
a live layer of the network as it is then. -/
theorem C52_current {ab : ℝ → ℝ} {eps : ℝ} {e : FitEnv} {w w' : World} {t t' : Trainer} {n b : Nat} {seen : List (List (Option Layer))}
    (h : Fitted ab eps e w t n b w' t' seen) (x y : Mat ℝ) (hxy : t.train = some (x, y)) (hx : 0 < x.rows) :
    ∃ w₁ t₁ s₀, setNet e.g w t n = .ok (w₁, t₁) ∧ Trainer.start ab eps e n b x y w₁ t₁ = .ok s₀ ∧
      ∀ k, k < t.epochs.toNat → ∃ s, forN k (epochStep ab eps e n b x y) s₀ = .ok s ∧ s.t.pWeights = t₁.pWeights ∧ s.t.pBiases = t₁.pBiases ∧
        ∀ a ∈ s.t.pWeights ++ s.t.pBiases, a ∈ (s.w.nets n).layers ∧ ∃ l, s.w.heap[a]? = some (some l) := by
  obtain ⟨w₁, t₁, x', y', s₀, s, h1, h2, h3, h4, h5, h6, h7, h8, h9⟩ :=
    fit_split h.run h.layers h.slot h.owned h.valid h.fresh h.inOut h.gradient
  rw [hxy] at h2
  injection h2 with h2
  injection h2 with q1 q2
  subst q1 q2
  have hb := h.slot
  obtain ⟨cw, w₀, b1, b2, b3, b4, b5, -⟩ := start_inv hb h8 h3
  refine ⟨w₁, t₁, s₀, h1, h3, fun k hk => ?_⟩
  obtain ⟨r, r', r1, r2⟩ := forN_take h4 hk
  have li : LoopInv ab eps e n b s₀ k r := forN_ok_idx (P := fun i r => LoopInv ab eps e n b s₀ i r) (fun i r r' hr hr' => hr.step hb hr')
    (LoopInv.start b5 b3 (by rw [b2]) (by rw [b2]) (by rw [b2])) r1
  have hl := epochStep_live hb li.inv hx r2
  have hs := li.settings
  refine ⟨r, r1, by rw [← hs, b2], by rw [← hs, b2], fun a ha => ?_⟩
  obtain ⟨l, ha'⟩ := hl a ha
  refine ⟨?_, l, ha'⟩
  rcases List.mem_append.1 ha with ha | ha
  · exact ((li.inv.ptrs.weights a ha).2 l ha').1
  · exact ((li.inv.ptrs.biases a ha).2 l ha').1

/-- C52 with patience −1: throughout every run the network keeps the layer objects it has, so the pointers stay right. -/
theorem C52_same_layers {ab : ℝ → ℝ} {eps : ℝ} {e : FitEnv} {w w₁ : World} {t t₁ : Trainer} {n b : Nat} (hb : b ≠ n) (ho : Owned w)
    (hv : AllValid w (w.nets n).layers) (hvb : (w.nets b).layers = []) (hi : ∀ m ∈ t.inOut, m.WF) (hg : ∀ m ∈ t.gradient, m.WF)
    (hp : t.patience = -1) (h1 : setNet e.g w t n = .ok (w₁, t₁)) (x y : Mat ℝ) {s₀ s : FitSt} (h2 : Trainer.start ab eps e n b x y w₁ t₁ = .ok s₀)
    {k : Nat} (h3 : forN k (epochStep ab eps e n b x y) s₀ = .ok s) :
    (s.w.nets n).layers = (w.nets n).layers ∧ ∀ a ∈ s.t.pWeights ++ s.t.pBiases, a ∈ (w.nets n).layers := by
  have hvb' : AllValid w (w.nets b).layers := by rw [hvb]; exact fun a ha => absurd ha List.not_mem_nil
  obtain ⟨a1, am, a2, a3, a4, -, -, a5, a6, -⟩ := setNet_inv hb ho hv hvb' hi hg h1
  obtain ⟨cw, w₀, b1, b2, b3, b4, b5, b6, b7, -⟩ := start_inv hb a2 h2
  have hpt : t₁.patience = t.patience := by rw [← a4]
  have key := forN_ok_idx (P := fun i r => LoopInv ab eps e n b s₀ i r ∧ (r.w.nets n).layers = (w.nets n).layers)
    (fun i r r' hr hr' => by
      refine ⟨hr.1.step hb hr', ?_⟩
      rcases epochStep_restart hb hr.1.inv hr' with ⟨c1, -⟩ | ⟨c1, -⟩
      · have := hr.1.settings
        rw [← this, b2] at c1
        exact absurd (hpt.trans hp) c1
      · exact c1.trans hr.2)
    ⟨LoopInv.start b5 b3 (by rw [b2]) (by rw [b2]) (by rw [b2]), by rw [b7 n hb.symm, b6.nets, a1.nets]⟩ h3
  refine ⟨key.2, fun a ha => ?_⟩
  have hs := key.1.settings
  rw [← hs, b2] at ha
  dsimp only at ha
  rw [a5, a6] at ha
  rcases List.mem_append.1 ha with ha | ha
  · exact (List.mem_filter.1 ha).1
  · exact (List.mem_filter.1 ha).1

/-- C52 violated: if the patience runs out before the last epoch, then `fit` of a network with parameters is not free of
faults.  Conversely: if it ends, then the schedule of C57 has no halving before the last epoch. -/
theorem C52_restart_wrong {ab : ℝ → ℝ} {eps : ℝ} {e : FitEnv} {w w' w₁ : World} {t t' t₁ : Trainer} {n b : Nat} {seen : List (List (Option Layer))}
    (h : Fitted ab eps e w t n b w' t' seen) (hk : t.keepBest = true) (x y : Mat ℝ) (hxy : t.train = some (x, y)) (hx : 0 < x.rows)
    (h1 : setNet e.g w t n = .ok (w₁, t₁)) (hpos : 0 < t₁.getLearningRate) (hpar : t₁.pWeights ++ t₁.pBiases ≠ []) (p : Nat) (hp : t.patience = p) :
    ∃ w₀ l₀ a₀, computeLossAccuracy ab eps (e.eval 0) w₁ { t₁ with lossWeight := t'.lossWeight } (t.valid.getD (x, y)).1 (t.valid.getD (x, y)).2 true =
        .ok (w₀, l₀, a₀) ∧
      ∀ k, k < t.epochs.toNat → (schedule p (fun i =>
        (if (w.nets n).classif then a₀ :: t'.accList else -l₀ :: t'.lossList.map (fun x => -x)).getD i 0) k).2 = 0 := by
  obtain ⟨w₁', t₁', x', y', s₀, s, h1', h2, h3, h4, h5, h6, h7, h8, h9⟩ :=
    fit_split h.run h.layers h.slot h.owned h.valid h.fresh h.inOut h.gradient
  rw [h1] at h1'
  injection h1' with h1'
  injection h1' with q1 q2
  subst q1 q2
  rw [hxy] at h2
  injection h2 with h2
  injection h2 with q1 q2
  subst q1 q2
  have hb := h.slot
  have hvb' : AllValid w (w.nets b).layers := by rw [h.fresh]; exact fun a ha => absurd ha List.not_mem_nil
  obtain ⟨a1, am, a2, a3, a4, -⟩ := setNet_inv hb h.owned h.valid hvb' h.inOut h.gradient h1
  obtain ⟨cw, w₀, b1, b2, b3, b4, b5, b6, b7, b8, b9, -⟩ := start_inv hb a2 h3
  have hrate := setNet_rate hb h.owned h.valid hvb' h.inOut h.gradient h1
  have hkb : t₁.keepBest = true := by rw [← hk, ← a4]
  have hvd : t₁.valid = t.valid := by rw [← a4]
  have hpt : t₁.patience = t.patience := by rw [← a4]
  obtain ⟨b9, b10, b11⟩ := b9 hkb
  rw [hvd] at b9
  have hcl0 : (w₀.nets n).classif = (w.nets n).classif := by rw [b6.nets, a1.nets]
  refine ⟨w₀, s₀.minLoss, s₀.maxAcc, ?_, fun k hk' => ?_⟩
  · rw [← b9]
    have ss := h9.settings
    rw [h6] at ss
    exact computeLossAccuracy_congr (by rw [b2]) (by rw [b2]) (by rw [b2]) (by rw [← ss])
  · have hk0 : s₀.t.keepBest = true := by rw [b2]; exact hkb
    have init : BestInv (w.nets n).classif n b [scoreOf (w.nets n).classif s₀.minLoss s₀.maxAcc] [layersOf w₀ n] s₀ := by
      refine ⟨rfl, ⟨0, ⟨by simp, fun j hj => ?_, fun j hj => absurd hj (by omega)⟩, rfl, b10⟩, ?_, ?_⟩
      · have : j = 0 := by simpa using hj
        rw [this]
      · rw [b7 n hb.symm]; exact hcl0
      · exact b11.trans hcl0
    have hl0 : scoreList (w.nets n).classif s₀.t = [] := by
      unfold scoreList accList lossList
      rw [b2]
      cases (w.nets n).classif <;> simp
    have hr0 : s₀.t.Rate t₁.getLearningRate := Rate.init hpos hrate e.g (by rw [b2]) (by rw [b2])
    have init' : SchedInv t₁.getLearningRate [scoreOf (w.nets n).classif s₀.minLoss s₀.maxAcc] 0 s₀ :=
      ⟨rfl, fun _ => hr0, fun p _ => ⟨by rw [b2]; rfl, by simpa [schedule] using hr0⟩⟩
    have notdead : ∀ i (r r' : FitSt), LoopInv ab eps e n b s₀ i r → epochStep ab eps e n b x y i r = .ok r' → ¬ r.t.Dead r.w := by
      intro i r r' hr hr' hd
      obtain ⟨a, ha⟩ := List.exists_mem_of_ne_nil _ hpar
      have hs := hr.settings
      have ha' : a ∈ r.t.pWeights ++ r.t.pBiases := by rw [← hs, b2]; exact ha
      obtain ⟨l, hl⟩ := epochStep_live hb hr.inv hx hr' a ha'
      rw [hd a ha'] at hl
      injection hl with hl
      cases hl
    have stepP : ∀ i (r r' : FitSt), (LoopInv ab eps e n b s₀ i r ∧
        BestInv (w.nets n).classif n b (scoreOf (w.nets n).classif s₀.minLoss s₀.maxAcc :: scoreList (w.nets n).classif r.t) (layersOf w₀ n :: r.seen) r ∧
        SchedInv t₁.getLearningRate (scoreOf (w.nets n).classif s₀.minLoss s₀.maxAcc :: scoreList (w.nets n).classif r.t) i r ∧
        (r.t.Dead r.w ∨ r.t.Rate t₁.getLearningRate)) → epochStep ab eps e n b x y i r = .ok r' →
        (LoopInv ab eps e n b s₀ (i + 1) r' ∧
        BestInv (w.nets n).classif n b (scoreOf (w.nets n).classif s₀.minLoss s₀.maxAcc :: scoreList (w.nets n).classif r'.t) (layersOf w₀ n :: r'.seen) r' ∧
        SchedInv t₁.getLearningRate (scoreOf (w.nets n).classif s₀.minLoss s₀.maxAcc :: scoreList (w.nets n).classif r'.t) (i + 1) r' ∧
        (r'.t.Dead r'.w ∨ r'.t.Rate t₁.getLearningRate)) := by
      intro i r r' hr hr'
      have hkr : r.t.keepBest = true := by have := hr.1.settings; rw [← this]; exact hk0
      refine ⟨hr.1.step hb hr', BestInv.step hb hkr hr.1.inv hr.2.1 hr', SchedInv.step hpos hb hkr hr.1.inv hr.2.1 hr.2.2.1 hr', ?_⟩
      have hrr := hr.2.2.2.resolve_left (notdead i r r' hr.1 hr')
      rcases epochStep_restart hb hr.1.inv hr' with ⟨-, c1, -⟩ | ⟨-, c1⟩
      · exact .inl c1
      · exact .inr (c1 _ hpos hrr)
    have P0 : LoopInv ab eps e n b s₀ 0 s₀ ∧
        BestInv (w.nets n).classif n b (scoreOf (w.nets n).classif s₀.minLoss s₀.maxAcc :: scoreList (w.nets n).classif s₀.t) (layersOf w₀ n :: s₀.seen) s₀ ∧
        SchedInv t₁.getLearningRate (scoreOf (w.nets n).classif s₀.minLoss s₀.maxAcc :: scoreList (w.nets n).classif s₀.t) 0 s₀ ∧
        (s₀.t.Dead s₀.w ∨ s₀.t.Rate t₁.getLearningRate) :=
      ⟨LoopInv.start b5 b3 (by rw [b2]) (by rw [b2]) (by rw [b2]), by rw [b3, hl0]; exact init, by rw [hl0]; exact init', .inr hr0⟩
    obtain ⟨r, r', r1, r2⟩ := forN_take h4 hk'
    have key := forN_ok_idx stepP P0 r1
    -- the scores known by then are a prefix of the final ones
    have pre : ∃ more, scoreList (w.nets n).classif t' = scoreList (w.nets n).classif r.t ++ more := by
      obtain ⟨m, hm⟩ : ∃ m, t.epochs.toNat = k + m := ⟨t.epochs.toNat - k, by omega⟩
      rw [hm, forN_add, r1] at h4
      change forN m (fun i => epochStep ab eps e n b x y (k + i)) r = .ok s at h4
      have := forN_ok_idx (P := fun i q => (LoopInv ab eps e n b s₀ (k + i) q ∧ BestInv (w.nets n).classif n b
          (scoreOf (w.nets n).classif s₀.minLoss s₀.maxAcc :: scoreList (w.nets n).classif q.t) (layersOf w₀ n :: q.seen) q) ∧
          ∃ more, scoreList (w.nets n).classif q.t = scoreList (w.nets n).classif r.t ++ more)
        (fun i q q' hq hq' => by
          obtain ⟨⟨q1, q2⟩, more, hm⟩ := hq
          have hkr : q.t.keepBest = true := by have := q1.settings; rw [← this]; exact hk0
          refine ⟨⟨q1.step hb hq', BestInv.step hb hkr q1.inv q2 hq'⟩, ?_⟩
          obtain ⟨v, hv⟩ := scoreList_step hb q1.inv q2.classif hq'
          exact ⟨more ++ [v], by rw [hv, hm, List.append_assoc]⟩)
        ⟨⟨key.1, key.2.1⟩, [], by simp⟩ h4
      rw [h6] at this
      exact this.2
    obtain ⟨more, hmore⟩ := pre
    have hlist : scoreOf (w.nets n).classif s₀.minLoss s₀.maxAcc :: scoreList (w.nets n).classif t' =
        if (w.nets n).classif then s₀.maxAcc :: t'.accList else -s₀.minLoss :: t'.lossList.map (fun x => -x) := by
      unfold scoreOf scoreList
      split <;> rfl
    rw [← hlist, hmore]
    obtain ⟨k1, k2, k3, k4⟩ := key
    have hp' : r.t.patience = p := by
      have := k1.settings
      rw [← this, b2]
      exact hpt.trans hp
    have hon := (k3.on p hp').2.get
    rw [(k4.resolve_left (notdead k r r' k1 r2)).get] at hon
    have hc := schedule_congr (p := p) (S := fun i => (scoreOf (w.nets n).classif s₀.minLoss s₀.maxAcc :: (scoreList (w.nets n).classif r.t ++ more)).getD i 0)
      (S' := fun i => (scoreOf (w.nets n).classif s₀.minLoss s₀.maxAcc :: scoreList (w.nets n).classif r.t).getD i 0) k (fun i hi => by
        have := k3.len
        have hi' : i < (scoreOf (w.nets n).classif s₀.minLoss s₀.maxAcc :: scoreList (w.nets n).classif r.t).length := by omega
        rw [← List.cons_append, List.getD, List.getElem?_append_left hi']
        rfl)
    rw [hc]
    by_contra hne
    have : (1 : ℝ) < 2 ^ (schedule p (fun i => (scoreOf (w.nets n).classif s₀.minLoss s₀.maxAcc :: scoreList (w.nets n).classif r.t).getD i 0) k).2 :=
      one_lt_pow₀ (by norm_num) hne
    have h2' := div_lt_self hpos this
    rw [← hon] at h2'
    exact lt_irrefl _ h2'

/-- C52 violated: a set-up with which training goes well if the patience is −1, but with a patience `p`.  A network for
classification that classifies all samples right from the beginning cannot improve, so the network is replaced after
`p+1` epochs, and the next batch uses the deleted layers. -/
theorem C52_use_after_free {w : World} {t : Trainer} {n b : Nat} {m : Mlp} {N D : Nat} {x y : Nat → Row} (h : FitSetup w { t with patience := -1 } n b m N D x y)
    {k : OptKind} (hk : createOptimizer t.optName = some k) (hlr : 0 < t.lr) (hc : (w.nets n).classif = true) (hkb : t.keepBest = true)
    (hval : t.valid = none) (hright : nbRight N (m.width m.depth) D (fun i => m.out (x i)) y = N) (p : Nat) (hp : t.patience = p)
    (hep : (p : Int) + 2 ≤ t.epochs) (hpar : ∃ b i, i < m.depth ∧ (m.ply i).has b = true) (eps : ℝ) (e : FitEnv) :
    fit (fun x => |x|) eps e w t n b = .error .useAfterFree := by
  obtain ⟨ψ, l1, -⟩ := lossOk_of_mem eps h.loss (h.net.ok.pos _ (Nat.le_refl m.depth)) D
  rcases fit_mlp_or (e := e) (t := t) h.net h.owned h.slot h.fresh h.inOut h.gradient hk h.samples x y h.train h.truth h.valid h.valBatch h.batchSize h.balancing hkb
    h.loss l1 hpar with ⟨⟨w', t', seen⟩, hr⟩ | hr
  · exfalso
    have hne : (w.nets n).layers ≠ [] := fun h0 => by
      have := h.net.count
      rw [h0] at this
      exact absurd h.net.ok.depth (by simp at this; omega)
    have hf : Fitted (fun x => |x|) eps e w t n b w' t' seen := ⟨h.owned, h.net.allValid, hne, h.slot, h.fresh, h.inOut, h.gradient, hr⟩
    obtain ⟨w₁, t₁, s1, s2, s3, s4, s5⟩ := setNet_mlp (g := e.g) (t := t) h.net h.inOut h.gradient hk
    have hvb' : AllValid w (w.nets b).layers := by rw [h.fresh]; exact fun a ha => absurd ha List.not_mem_nil
    have hpos : 0 < t₁.getLearningRate := by
      rcases C57_start_rate (t := t) h.slot h.owned h.net.allValid hvb' h.inOut h.gradient s1 with ⟨-, q⟩ | ⟨o, -, q⟩
      · rw [q]; exact hlr
      · rw [q]
        split
        · rw [if_neg (by linarith)]; exact hlr
        · exact hlr
    have hpp : t₁.pWeights ++ t₁.pBiases ≠ [] := by
      obtain ⟨c, i, hi, hci⟩ := hpar
      obtain ⟨a, ha⟩ : ∃ a, (w₁.nets n).layers[i]? = some a :=
        ⟨_, List.getElem?_eq_getElem (by rw [s2.rep.count]; exact hi)⟩
      have hm := ((s2.ptr c).mem i a ha).2 hci
      intro h0
      have h1 := List.append_eq_nil_iff.1 h0
      cases c
      · rw [show t₁.ptrs false = t₁.pWeights from rfl, h1.1] at hm; cases hm
      · rw [show t₁.ptrs true = t₁.pBiases from rfl, h1.2] at hm; cases hm
    obtain ⟨w₀, l₀, a₀, q1, q2⟩ := C52_restart_wrong hf hkb _ _ h.train h.samples s1 hpos hpp p hp
    have hvb1 : t₁.valBatch = t.valBatch := by rw [← s5]
    have hlo1 : t₁.loss = t.loss := by rw [← s5]
    have d1 := h.loss
    have d2 := h.truth
    have hvb := h.valBatch
    obtain ⟨w₃, q3, -⟩ := computeLossAccuracy_mlp (eps := eps) (e := e.eval 0) (t := { t₁ with lossWeight := t'.lossWeight }) s2.net s2.rep (by rw [hlo1]; exact d1)
      ((C56_fit hf).1 (.inr h.balancing)) t.valBatch.toNat (by dsimp only at hvb; omega) (by dsimp only at hvb ⊢; rw [hvb1]; omega) _ N h.samples x y (by rw [hlo1]; exact d2)
    rw [hval] at q1
    have q4 := q1.symm.trans q3
    injection q4 with q4
    injection q4 with _ q4
    injection q4 with _ q4
    rw [hright, mul_div_assoc, div_self (by have := h.samples; positivity), mul_one] at q4
    have q5 := q2 (p + 1) (by omega)
    rw [if_pos hc] at q5
    have hvt : t'.valid = none := (C53_lengths hf).2.2.1.trans hval
    have key := C57_plateau p (fun i => (a₀ :: t'.accList).getD i 0) 0 (p + 1) rfl (fun j _ hj hI => by
      have h0 := hI 0 (Nat.zero_le _)
      have hlen := C53_accuracies hf (.inl hkb)
      rw [if_pos hc] at hlen
      have hal : t'.accList = t'.trainAcc := by
        unfold accList
        rw [hvt]
        rfl
      have hjl : j < t'.trainAcc.length := by omega
      simp only [List.getD_cons_zero, List.getD_cons_succ, hal] at h0
      rw [List.getD, List.getElem?_eq_getElem hjl, Option.getD_some, q4] at h0
      exact absurd ((C55_range hf h.samples h.train _ (List.getElem_mem hjl)).2.2) (not_le.2 h0))
    rw [Nat.zero_add, q5, Nat.div_self (Nat.succ_pos p)] at key
    simp [schedule] at key
  · exact hr

/-- Four samples that the perceptron maps to 0, as they should be. -/
noncomputable def liveWitness : Trainer :=
  { fitWitness with lr := 1 / 4, patience := 2, train := some (Mat.ofFn 4 2 (fun _ j => if j = 0 then -3 else 0), Mat.ofFn 4 1 (fun _ _ => 0)) }

theorem liveWitness_setup : FitSetup mlpWorld { liveWitness with patience := -1 } 0 1 mlpWitness 4 1 (fun _ j => if j = 0 then -3 else 0) (fun _ _ => 0) :=
  { fitWitness_setup with train := rfl, truth := (distanceLosses_fits (by decide)).2 _ _ _, valid := fun d h => by cases h }

/-- Ten epochs with patience 2: use after free. -/
example (eps : ℝ) (e : FitEnv) : fit (fun x => |x|) eps e mlpWorld liveWitness 0 1 = .error .useAfterFree := by
  refine C52_use_after_free liveWitness_setup (k := .sgd) rfl (by show (0 : ℝ) < 1 / 4; norm_num) rfl rfl rfl ?_ 2 rfl (by decide) ⟨false, 0, by decide, rfl⟩ eps e
  have key : ∀ i : Nat, IsRight (mlpWitness.width mlpWitness.depth) 1
      (mlpWitness.out fun j => if j = 0 then -3 else 0) (fun _ => 0) := fun i => by
    rw [show mlpWitness.width mlpWitness.depth = 1 from rfl]
    unfold IsRight
    rw [if_pos rfl]
    have : mlpWitness.out (fun j => if j = 0 then (-3 : ℝ) else 0) 0 = 0 := by
      simp [Mlp.out, mlpWitness, Mlp.hidden, Ply.apply, Finset.sum_range_succ, Act.tanh]
    rw [this]
    simp [World.roundf]
    norm_num
  unfold nbRight
  simp only [Finset.filter_const]
  rw [if_pos (key 0), Finset.card_range]

/-- The hypotheses of `C52_current` and `C52_restart_wrong` are met. -/
example (eps : ℝ) (e : FitEnv) : ∃ w₁ t₁ s₀, setNet e.g mlpWorld fitWitness 0 = .ok (w₁, t₁) ∧
    Trainer.start (fun x => |x|) eps e 0 1 (Mat.ofFn 4 2 (fun i j => (i : ℝ) + j)) (Mat.ofFn 4 1 (fun i _ => (i : ℝ))) w₁ t₁ = .ok s₀ ∧
    ∀ k, k < 10 → ∃ s, forN k (epochStep (fun x => |x|) eps e 0 1 (Mat.ofFn 4 2 (fun i j => (i : ℝ) + j)) (Mat.ofFn 4 1 (fun i _ => (i : ℝ)))) s₀ = .ok s ∧
      s.t.pWeights = t₁.pWeights ∧ s.t.pBiases = t₁.pBiases ∧
      ∀ a ∈ s.t.pWeights ++ s.t.pBiases, a ∈ (s.w.nets 0).layers ∧ ∃ l, s.w.heap[a]? = some (some l) := by
  obtain ⟨w', t', seen, h, -⟩ := fitWitness_fitted eps e
  exact C52_current h _ _ rfl (by decide)

end BeeDNN
