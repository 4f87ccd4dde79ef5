import Verif.Lemmas.TrainSchedule
import Verif.Props.MlpFit

/-! # The patience and reboost schedules (C57) -/

namespace BeeDNN
open Trainer

theorem setNet_rate {g : Nat → ℝ} {w w₁ : World} {t t₁ : Trainer} {n b : Nat} (hb : b ≠ n) (ho : Owned w) (hv : AllValid w (w.nets n).layers)
    (hvb : AllValid w (w.nets b).layers) (hi : ∀ m ∈ t.inOut, m.WF) (hg : ∀ m ∈ t.gradient, m.WF) (h : setNet g w t n = .ok (w₁, t₁)) :
    t₁.Rate t₁.getLearningRate := by
  obtain ⟨-, -, -, -, -, -, -, -, -, h1⟩ := setNet_inv hb ho hv hvb hi hg h
  unfold Rate getLearningRate
  rcases h1 with ⟨-, h1⟩ | ⟨o, -, h1⟩
  · rw [h1]; exact ⟨fun o ho => absurd ho List.not_mem_nil, fun _ => rfl⟩
  · cases hk : t₁.pWeights.length + t₁.pBiases.length with
    | zero => rw [hk] at h1; rw [h1]; exact ⟨fun o ho => absurd ho List.not_mem_nil, fun _ => rfl⟩
    | succ k =>
      rw [hk] at h1
      rw [h1, List.replicate_succ]
      refine ⟨fun o ho => ?_, fun h => by cases h⟩
      dsimp only
      rw [← List.replicate_succ] at ho
      rw [List.eq_of_mem_replicate ho]

/-- The rate `set_net` gives to the optimizers: that of the trainer, or the default of the optimizer if the trainer has −1
and the optimizer has a default; a network without parameters has no optimizers. -/
theorem C57_start_rate {g : Nat → ℝ} {w w₁ : World} {t t₁ : Trainer} {n b : Nat} (hb : b ≠ n) (ho : Owned w) (hv : AllValid w (w.nets n).layers)
    (hvb : AllValid w (w.nets b).layers) (hi : ∀ m ∈ t.inOut, m.WF) (hg : ∀ m ∈ t.gradient, m.WF) (h : setNet g w t n = .ok (w₁, t₁)) :
    t₁.opts = [] ∧ t₁.getLearningRate = t.lr ∨
      ∃ o, createOptimizer t.optName = some o ∧ t₁.getLearningRate = match Opt.defaultLr o with
        | some d => if t.lr = -1 then d else t.lr
        | none => t.lr := by
  obtain ⟨-, -, -, -, h0, -, -, -, -, h1⟩ := setNet_inv hb ho hv hvb hi hg h
  have hl : t₁.lr = t.lr := by rw [← h0]
  unfold getLearningRate
  rcases h1 with ⟨-, h1⟩ | ⟨o, h2, h1⟩
  · rw [h1]; exact .inl ⟨rfl, hl⟩
  · cases hk : t₁.pWeights.length + t₁.pBiases.length with
    | zero => rw [hk] at h1; rw [h1]; exact .inl ⟨rfl, hl⟩
    | succ k =>
      rw [hk] at h1
      rw [h1, List.replicate_succ]
      refine .inr ⟨o, h2, ?_⟩
      dsimp only
      unfold Opt.setParams
      rw [Opt.init_lr]
      show orDefault t.lr (Opt.defaultLr o) = _
      unfold orDefault
      rcases Opt.defaultLr o with _ | d
      · rfl
      · rfl

/-- C57: with keep-best and patience `p`, after `fit` (for every number of epochs) every optimizer has the learning rate it
began with, halved as often as the schedule says: whenever the score has not improved for more than `p` epochs since the last
improvement or halving.  With patience −1 the rate is the one at the beginning.  In particular the rate stays positive. -/
theorem C57_patience {ab : ℝ → ℝ} {eps : ℝ} {e : FitEnv} {w w' w₁ : World} {t t' t₁ : Trainer} {n b : Nat} {seen : List (List (Option Layer))}
    (h : Fitted ab eps e w t n b w' t' seen) (hk : t.keepBest = true) (x y : Mat ℝ) (hxy : t.train = some (x, y))
    (h1 : setNet e.g w t n = .ok (w₁, t₁)) (hpos : 0 < t₁.getLearningRate)
    (hp : -1 ≤ t.patience) :
    ∃ p₀ l₀ a₀, StartScore ab eps e w n t' (t.valid.getD (x, y)).1 (t.valid.getD (x, y)).2 p₀ l₀ a₀ ∧
      ∃ L, 0 < L ∧ t'.getLearningRate = L ∧ (∀ o ∈ t'.opts, o.lr = L) ∧
        (t.patience = -1 → L = t₁.getLearningRate) ∧
        ∀ p : Nat, t.patience = p →
          L = t₁.getLearningRate / 2 ^ (schedule p (fun i =>
            (if (w.nets n).classif then a₀ :: t'.accList else -l₀ :: t'.lossList.map (fun x => -x)).getD i 0) t.epochs.toNat).2 ∧
          t'.curPatience = (schedule p (fun i =>
            (if (w.nets n).classif then a₀ :: t'.accList else -l₀ :: t'.lossList.map (fun x => -x)).getD i 0) t.epochs.toNat).1 := by
  obtain ⟨w₁', t₁', x', y', s₀, s, h1', h2, h3, h4, h5, h6, h7, h8, h9⟩ :=
    fit_split h.run h.layers h.slot h.owned h.valid h.fresh h.inOut h.gradient
  rw [h1] at h1'
  injection h1' with h1'
  injection h1' with q1 q2
  subst q1 q2
  rw [hxy] at h2
  injection h2 with h2
  injection h2 with q1 q2
  subst q1 q2
  have hb := h.slot
  have hvb' : AllValid w (w.nets b).layers := by rw [h.fresh]; exact fun a ha => absurd ha List.not_mem_nil
  obtain ⟨a1, am, a2, a3, a4, -⟩ := setNet_inv hb h.owned h.valid hvb' h.inOut h.gradient h1
  obtain ⟨cw, w₀, b1, b2, b3, b4, b5, b6, b7, b8, b9, -⟩ := start_inv hb a2 h3
  have hrate := setNet_rate hb h.owned h.valid hvb' h.inOut h.gradient h1
  have hkb : t₁.keepBest = true := by rw [← hk, ← a4]
  have hvd : t₁.valid = t.valid := by rw [← a4]
  have hpt : t₁.patience = t.patience := by rw [← a4]
  obtain ⟨b9, b10, b11⟩ := b9 hkb
  rw [hvd] at b9
  have hcl0 : (w₀.nets n).classif = (w.nets n).classif := by rw [b6.nets, a1.nets]
  refine ⟨layersOf w₀ n, s₀.minLoss, s₀.maxAcc, ⟨w₁, w₀, markFirst_same h.owned am, by rw [a1.nets], ?_, rfl⟩, ?_⟩
  · rw [← b9]
    have ss := h9.settings
    rw [h6] at ss
    exact computeLossAccuracy_congr (by rw [← ss]) (by rw [← ss]) (by rw [← ss]) (by rw [← ss])
  · have hk0 : s₀.t.keepBest = true := by rw [b2]; exact hkb
    have init : BestInv (w.nets n).classif n b [scoreOf (w.nets n).classif s₀.minLoss s₀.maxAcc] [layersOf w₀ n] s₀ := by
      refine ⟨rfl, ⟨0, ⟨by simp, fun j hj => ?_, fun j hj => absurd hj (by omega)⟩, rfl, b10⟩, ?_, ?_⟩
      · have : j = 0 := by simpa using hj
        rw [this]
      · rw [b7 n hb.symm]; exact hcl0
      · exact b11.trans hcl0
    have hl0 : scoreList (w.nets n).classif s₀.t = [] := by
      unfold scoreList accList lossList
      rw [b2]
      cases (w.nets n).classif <;> simp
    have hr0 : s₀.t.Rate t₁.getLearningRate := Rate.init hpos hrate e.g (by rw [b2]) (by rw [b2])
    have init' : SchedInv t₁.getLearningRate [scoreOf (w.nets n).classif s₀.minLoss s₀.maxAcc] 0 s₀ :=
      ⟨rfl, fun _ => hr0, fun p _ => ⟨by rw [b2]; rfl, by simpa [schedule] using hr0⟩⟩
    have key := forN_ok_idx (P := fun i r => LoopInv ab eps e n b s₀ i r ∧
        BestInv (w.nets n).classif n b (scoreOf (w.nets n).classif s₀.minLoss s₀.maxAcc :: scoreList (w.nets n).classif r.t) (layersOf w₀ n :: r.seen) r ∧
        SchedInv t₁.getLearningRate (scoreOf (w.nets n).classif s₀.minLoss s₀.maxAcc :: scoreList (w.nets n).classif r.t) i r)
      (fun i r r' hr hr' => by
        have hkr : r.t.keepBest = true := by have := hr.1.settings; rw [← this]; exact hk0
        exact ⟨hr.1.step hb hr', BestInv.step hb hkr hr.1.inv hr.2.1 hr', SchedInv.step hpos hb hkr hr.1.inv hr.2.1 hr.2.2 hr'⟩)
      ⟨LoopInv.start b5 b3 (by rw [b2]) (by rw [b2]) (by rw [b2]), by rw [b3, hl0]; exact init, by rw [hl0]; exact init'⟩ h4
    have kS := key.2.2
    rw [h6] at kS
    have hlist : scoreOf (w.nets n).classif s₀.minLoss s₀.maxAcc :: scoreList (w.nets n).classif t' =
        if (w.nets n).classif then s₀.maxAcc :: t'.accList else -s₀.minLoss :: t'.lossList.map (fun x => -x) := by
      unfold scoreOf scoreList
      split <;> rfl
    rw [hlist] at kS
    have hp' : s.t.patience = t.patience := by
      have := h9.settings
      rw [← this, b2]
      exact hpt
    have hp0 := kS.off
    have hp1 := kS.on
    rw [hp'] at hp0 hp1
    rw [h6] at hp0 hp1
    by_cases hm : t.patience = -1
    · have hr := hp0 hm
      refine ⟨_, hpos, hr.get, hr.1, fun _ => rfl, fun p hp => ?_⟩
      omega
    · by_cases hn : ∃ p : Nat, t.patience = p
      · obtain ⟨p, hp⟩ := hn
        obtain ⟨c1, c2⟩ := hp1 p hp
        refine ⟨_, by positivity, c2.get, c2.1, fun h => absurd h hm, fun p' hp' => ?_⟩
        obtain rfl : p = p' := by omega
        exact ⟨rfl, c1⟩
      · exact absurd ⟨t.patience.toNat, by omega⟩ hn

/-- C57, what the schedule says: in `m` epochs without improvement after an improvement or a halving, there are `m/(p+1)`
halvings: one every `p+1` epochs. -/
theorem C57_plateau (p : Nat) (S : Nat → ℝ) (k m : Nat) (h0 : (schedule p S k).1 = 0) (h : ∀ j, k ≤ j → j < k + m → ¬ Improves S j) :
    (schedule p S (k + m)).2 = (schedule p S k).2 + m / (p + 1) ∧ (schedule p S (k + m)).1 = m % (p + 1) := by
  induction m with
  | zero => simp [h0]
  | succ m ih =>
    obtain ⟨h1, h2⟩ := ih fun j hj hj' => h j hj (by omega)
    have hn := h (k + m) (by omega) (by omega)
    rw [← Nat.add_assoc]
    simp only [schedule, if_neg hn, h1, h2]
    have hlt : m % (p + 1) < p + 1 := Nat.mod_lt m (Nat.succ_pos p)
    have hm := Nat.div_add_mod m (p + 1)
    by_cases hc : p < m % (p + 1) + 1
    · rw [if_pos hc]
      have e : m + 1 = (p + 1) * (m / (p + 1) + 1) := by rw [Nat.mul_add, Nat.mul_one]; omega
      rw [e, Nat.mul_div_cancel_left _ (Nat.succ_pos p), Nat.mul_mod_right]
      exact ⟨by omega, rfl⟩
    · rw [if_neg hc]
      have e : m + 1 = m % (p + 1) + 1 + (p + 1) * (m / (p + 1)) := by omega
      have hq : (m + 1) / (p + 1) = m / (p + 1) := by
        conv_lhs => rw [e]
        rw [Nat.add_mul_div_left _ _ (Nat.succ_pos p), Nat.div_eq_of_lt (by omega), Nat.zero_add]
      have hr : (m + 1) % (p + 1) = m % (p + 1) + 1 := by
        conv_lhs => rw [e]
        rw [Nat.add_mul_mod_self_left, Nat.mod_eq_of_lt (by omega)]
      rw [hq, hr]
      exact ⟨rfl, rfl⟩

/-- C57: the score counts as improved exactly when it is better than all before; then the counter restarts and the rate is kept. -/
theorem C57_improvement (p : Nat) (S : Nat → ℝ) (k : Nat) (h : Improves S k) : schedule p S (k + 1) = (0, (schedule p S k).2) := by
  simp only [schedule, if_pos h]

theorem bestStep_iReboost {e : FitEnv} {k n b : Nat} {s s' : FitSt} {l a : ℝ} (h : bestStep e k n b s l a = .ok s') : s'.iReboost = s.iReboost := by
  unfold bestStep at h
  split at h
  · obtain ⟨s₁, h1, h⟩ := ok_bind h
    have e1 : s₁.iReboost = s.iReboost := by
      rcases keepStep_inv h1 with (⟨-, -, w, hw, rfl⟩ | ⟨-, -, w, hw, rfl⟩) | ⟨-, rfl⟩ <;> rfl
    rcases patienceStep_inv h with ⟨-, -, w, hw, rfl⟩ | ⟨-, rfl⟩ <;> exact e1
  · injection h with h; subst h; rfl

theorem epoch_reboost {ab : ℝ → ℝ} {eps : ℝ} {e : FitEnv} {n b : Nat} {x y : Mat ℝ} {k N j : Nat} {s s' : FitSt} (hb : b ≠ n)
    (hi : Inv n b s.w s.t) (hN : s.t.reboostEvery = N) (hj : s.iReboost = j) (h : epochStep ab eps e n b x y k s = .ok s') :
    ∃ (u u' : FitSt) (l a : ℝ), bestStep e k n b u l a = .ok u' ∧ (j < N → s'.iReboost = j + 1 ∧ s'.t = u'.t) ∧
      (N ≤ j → s'.iReboost = 0 ∧ s'.t = { u'.t with opts := u'.t.opts.map (Opt.init e.g) }) := by
  obtain ⟨w₁, t₁, l, a, s₂, k1, k2, k3, k4, k5, -, -, k6, k7, k8⟩ := epochStep_inv hb hi h
  have t2 : TailKeep n b _ s₂ := bestStep_tail hb k2 k7
  have hN2 : s₂.t.reboostEvery = N := by
    have e1 : t₁.reboostEvery = s.t.reboostEvery := by rw [← k3.same]
    have := t2.same
    rw [← this]
    exact e1.trans hN
  have hj2 : s₂.iReboost = j := (bestStep_iReboost k7).trans hj
  refine ⟨_, s₂, l, a, k7, fun hlt => ?_, fun hge => ?_⟩
  · rw [k8]
    unfold reboostStep
    rw [if_pos (by rw [hN2]; omega), if_pos (by rw [hN2, hj2]; omega)]
    exact ⟨by dsimp only; rw [hj2], rfl⟩
  · rw [k8]
    unfold reboostStep
    rw [if_pos (by rw [hN2]; omega), if_neg (by rw [hN2, hj2]; omega)]
    exact ⟨rfl, rfl⟩

theorem mod_step (i N : Nat) : (i % (N + 1) < N ∧ (i + 1) % (N + 1) = i % (N + 1) + 1 ∧ ¬ (N + 1) ∣ (i + 1)) ∨
    (N ≤ i % (N + 1) ∧ (i + 1) % (N + 1) = 0 ∧ (N + 1) ∣ (i + 1)) := by
  have hlt : i % (N + 1) < N + 1 := Nat.mod_lt i (Nat.succ_pos N)
  have hm := Nat.div_add_mod i (N + 1)
  by_cases hc : i % (N + 1) < N
  · have hr : (i + 1) % (N + 1) = i % (N + 1) + 1 := by
      conv_lhs => rw [show i + 1 = i % (N + 1) + 1 + (N + 1) * (i / (N + 1)) by omega]
      rw [Nat.add_mul_mod_self_left, Nat.mod_eq_of_lt (by omega)]
    exact .inl ⟨hc, hr, fun hd => by rw [Nat.mod_eq_zero_of_dvd hd] at hr; omega⟩
  · have hd : (N + 1) ∣ (i + 1) := ⟨i / (N + 1) + 1, by rw [Nat.mul_add, Nat.mul_one]; omega⟩
    exact .inr ⟨by omega, Nat.mod_eq_zero_of_dvd hd, hd⟩

/-- C57: re-initialisation.  With `reboostEvery = N ≥ 0`, in epoch `K` (counted from 0) all optimizers are re-initialised
exactly if `N+1` divides `K+1`: the period is `N+1` epochs.  Otherwise the optimizers are those after the patience step. -/
theorem C57_reboost {ab : ℝ → ℝ} {eps : ℝ} {e : FitEnv} {w w₁ : World} {t t₁ : Trainer} {n b : Nat} (hb : b ≠ n) (ho : Owned w)
    (hv : AllValid w (w.nets n).layers) (hvb : (w.nets b).layers = []) (hi : ∀ m ∈ t.inOut, m.WF) (hg : ∀ m ∈ t.gradient, m.WF)
    (h1 : setNet e.g w t n = .ok (w₁, t₁)) {x y : Mat ℝ} {s₀ s s' : FitSt} (h2 : Trainer.start ab eps e n b x y w₁ t₁ = .ok s₀) {K N : Nat} (hN : t.reboostEvery = N)
    (h3 : forN K (epochStep ab eps e n b x y) s₀ = .ok s) (h4 : epochStep ab eps e n b x y K s = .ok s') :
    ∃ (u u' : FitSt) (l a : ℝ), bestStep e K n b u l a = .ok u' ∧
      s'.t = if (N + 1) ∣ (K + 1) then { u'.t with opts := u'.t.opts.map (Opt.init e.g) } else u'.t := by
  have hvb' : AllValid w (w.nets b).layers := by rw [hvb]; exact fun a ha => absurd ha List.not_mem_nil
  obtain ⟨a1, am, a2, a3, a4, -⟩ := setNet_inv hb ho hv hvb' hi hg h1
  obtain ⟨cw, w₀, b1, b2, b3, b4, b5, -⟩ := start_inv hb a2 h2
  have hr0 : s₀.t.reboostEvery = N := by
    rw [b2]
    show t₁.reboostEvery = N
    rw [← hN, ← a4]
  have key : LoopInv ab eps e n b s₀ K s ∧ s.iReboost = ((K % (N + 1) : Nat) : Int) :=
    forN_ok_idx (P := fun i r => LoopInv ab eps e n b s₀ i r ∧ r.iReboost = ((i % (N + 1) : Nat) : Int))
      (fun i r r' hr hr' => by
        refine ⟨hr.1.step hb hr', ?_⟩
        have hst : r.t.reboostEvery = N := by have := hr.1.settings; rw [← this]; exact hr0
        obtain ⟨_, _, _, _, -, c1, c2⟩ := epoch_reboost hb hr.1.inv hst hr.2 hr'
        rcases mod_step i N with ⟨d1, d2, -⟩ | ⟨d1, d2, -⟩
        · rw [(c1 d1).1, d2]; push_cast; rfl
        · rw [(c2 d1).1, d2]; rfl)
      ⟨LoopInv.start b5 b3 (by rw [b2]) (by rw [b2]) (by rw [b2]), by rw [b4]; simp⟩ h3
  have hst : s.t.reboostEvery = N := by have := key.1.settings; rw [← this]; exact hr0
  obtain ⟨u, u', l, a, c0, c1, c2⟩ := epoch_reboost hb key.1.inv hst key.2 h4
  refine ⟨u, u', l, a, c0, ?_⟩
  rcases mod_step K N with ⟨d1, -, d3⟩ | ⟨d1, -, d3⟩
  · rw [if_neg d3]; exact (c1 d1).2
  · rw [if_pos d3]; exact (c2 d1).2

/-- C57: without reboost (−1, the default) the optimizers are never re-initialised by it. -/
theorem C57_no_reboost (g : Nat → ℝ) (s : FitSt) (h : s.t.reboostEvery = -1) : reboostStep g s = s := by
  unfold reboostStep
  rw [if_neg (by rw [h]; decide)]

/-- C57 needs optimizers or a rate set by the user: for a network without parameters and the default rate −1, an epoch
that does not improve makes the learning rate −1/2. -/
theorem C57_no_parameters_wrong {e : FitEnv} {k n b : Nat} {s s' : FitSt} {l a : ℝ} (ho : s.t.opts = []) (hl : s.t.lr = -1)
    (hp : s.t.patience = 0) (hc : s.t.curPatience = 0) (hm : (s.w.nets n).classif = false) (hs : s.minLoss ≤ l)
    (h : bestStep e k n b s l a = .ok s') : s'.t.getLearningRate = -1 / 2 := by
  unfold bestStep at h
  rw [if_pos (.inr (by rw [hp]; decide))] at h
  obtain ⟨s₁, h1, h⟩ := ok_bind h
  rcases keepStep_inv h1 with (⟨k1, -⟩ | ⟨-, k2, -⟩) | ⟨-, rfl⟩
  · rw [hm] at k1; cases k1
  · linarith
  · rcases patienceStep_inv h with ⟨-, -, w, hw, rfl⟩ | ⟨c1, -⟩
    · simp [setLearningRate, getLearningRate, ho, hl]
    · exact absurd ⟨by simp [hc, hp], by simp [hp]⟩ c1

/-- A perceptron trained with patience 10 and re-initialisation period 3. -/
noncomputable def schedWitness : Trainer := { fitWitness with patience := 10, reboostEvery := 2, lr := 1 / 4 }

theorem schedWitness_setup : FitSetup mlpWorld schedWitness 0 1 mlpWitness 4 1 (fun i j => (i : ℝ) + j) (fun i _ => (i : ℝ)) :=
  { fitWitness_setup with patience := .inr (by decide) }

/-- The hypotheses of `C57_patience` are met. -/
example (eps : ℝ) (e : FitEnv) : ∃ w' t' seen p₀ l₀ a₀, Fitted (fun x => |x|) eps e mlpWorld schedWitness 0 1 w' t' seen ∧
    StartScore (fun x => |x|) eps e mlpWorld 0 t' (Mat.ofFn 4 2 (fun i j => (i : ℝ) + j)) (Mat.ofFn 4 1 (fun i _ => (i : ℝ))) p₀ l₀ a₀ ∧
    ∀ o ∈ t'.opts, 0 < o.lr := by
  obtain ⟨w', t', seen, m', h1, -⟩ := C92_fit_runs schedWitness_setup (k := .sgd) rfl eps e
  obtain ⟨w₁, t₁, s1, -, -, s4, -⟩ := setNet_mlp (g := e.g) (t := schedWitness) mlpWorld_represents (fun _ h => absurd h List.not_mem_nil)
    (fun _ h => absurd h List.not_mem_nil) (k := .sgd) rfl
  have hf : Fitted (fun x => |x|) eps e mlpWorld schedWitness 0 1 w' t' seen :=
    ⟨mlpWorld_owned, mlpWorld_represents.allValid, by simp [mlpWorld], by decide, rfl, fun _ h => absurd h List.not_mem_nil,
      fun _ h => absurd h List.not_mem_nil, h1⟩
  have hpos : 0 < t₁.getLearningRate := by
    rcases C57_start_rate (b := 1) (by decide) mlpWorld_owned mlpWorld_represents.allValid (fun a h => absurd h List.not_mem_nil)
      (fun _ h => absurd h List.not_mem_nil) (fun _ h => absurd h List.not_mem_nil) s1 with ⟨-, h⟩ | ⟨o, h, h'⟩
    · rw [h]
      show (0 : ℝ) < 1 / 4
      norm_num
    · obtain rfl : OptKind.sgd = o := by injection h
      rw [h']
      show (0 : ℝ) < if (1 / 4 : ℝ) = -1 then 0.01 else 1 / 4
      norm_num
  obtain ⟨p₀, l₀, a₀, q1, L, q2, -, q3, -⟩ := C57_patience hf rfl _ _ rfl s1 hpos (by decide)
  exact ⟨w', t', seen, p₀, l₀, a₀, hf, q1, fun o ho => by rw [q3 o ho]; exact q2⟩

/-- The hypotheses of `C57_reboost` are met, for each of the ten epochs. -/
example (eps : ℝ) (e : FitEnv) (K : Nat) (hK : K < 10) : ∃ w₁ t₁ x y s₀ s s', setNet e.g mlpWorld schedWitness 0 = .ok (w₁, t₁) ∧
    Trainer.start (fun x => |x|) eps e 0 1 x y w₁ t₁ = .ok s₀ ∧ forN K (epochStep (fun x => |x|) eps e 0 1 x y) s₀ = .ok s ∧
    epochStep (fun x => |x|) eps e 0 1 x y K s = .ok s' ∧
    ∃ (u u' : FitSt) (l a : ℝ), bestStep e K 0 1 u l a = .ok u' ∧
      s'.t = if 3 ∣ (K + 1) then { u'.t with opts := u'.t.opts.map (Opt.init e.g) } else u'.t := by
  obtain ⟨w', t', seen, m', h1, -⟩ := C92_fit_runs schedWitness_setup (k := .sgd) rfl eps e
  obtain ⟨w₁, t₁, x, y, s₀, sf, g1, g2, g3, g4, -⟩ := fit_split h1 (by simp [mlpWorld]) (by decide : (1 : Nat) ≠ 0) mlpWorld_owned
    mlpWorld_represents.allValid rfl (fun _ h => absurd h List.not_mem_nil) (fun _ h => absurd h List.not_mem_nil)
  replace g4 : forN 10 (epochStep (fun x => |x|) eps e 0 1 x y) s₀ = .ok sf := g4
  rw [show 10 = K + 1 + (10 - (K + 1)) by omega, forN_add] at g4
  obtain ⟨s', k1, -⟩ := ok_bind g4
  rw [forN_succ] at k1
  obtain ⟨s, k1, k2⟩ := ok_bind k1
  exact ⟨w₁, t₁, x, y, s₀, s, s', g1, g3, k1, k2, C57_reboost (N := 2) (by decide) mlpWorld_owned mlpWorld_represents.allValid rfl
    (fun _ h => absurd h List.not_mem_nil) (fun _ h => absurd h List.not_mem_nil) g1 g3 rfl k1 k2⟩

/-- Scores 5, 4, 4, 4, 6, … with patience 1: the rate is halved after the second epoch without improvement. -/
example : schedule 1 (fun i => if i = 0 then 5 else if i < 4 then 4 else 6) 3 = (1, 1) := by
  have h : ∀ j, 0 ≤ j → j < 0 + 3 → ¬ Improves (fun i => if i = 0 then (5 : ℝ) else if i < 4 then 4 else 6) j := fun j _ hj hI => by
    have := hI 0 (by omega)
    dsimp only at this
    rw [if_pos rfl, if_neg (by omega), if_pos (by omega)] at this
    norm_num at this
  have := C57_plateau 1 _ 0 3 rfl h
  exact Prod.ext this.2 this.1

/-- The hypotheses of `C57_no_parameters_wrong` are met: a network without parameters, the default rate, patience 0. -/
example (e : FitEnv) : ∃ s', bestStep e 0 0 1 ⟨⟨[], fun _ => ⟨[], false, false⟩⟩, { patience := 0 }, 1, 0, 0, []⟩ 2 0 = .ok s' ∧
    s'.t.getLearningRate = -1 / 2 := by
  obtain ⟨s', h⟩ : ∃ s', bestStep e 0 0 1 ⟨⟨[], fun _ => ⟨[], false, false⟩⟩, { patience := 0 }, 1, 0, 0, []⟩ 2 0 = .ok s' := by
    simp [bestStep, keepStep, patienceStep, World.assign, World.clear, World.freeAll, World.setNet, World.cloneAll, Except.bind, bind]
  exact ⟨s', h, C57_no_parameters_wrong rfl rfl rfl rfl rfl (by norm_num) h⟩

end BeeDNN
