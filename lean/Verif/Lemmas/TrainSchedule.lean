import Verif.Lemmas.TrainFit

/-! # Training: the patience and reboost schedules -/

namespace BeeDNN

theorem schedule_congr {p : Nat} {S S' : Nat → ℝ} : ∀ k, (∀ i, i ≤ k → S i = S' i) → schedule p S k = schedule p S' k
  | 0, _ => rfl
  | k + 1, h => by
    have ih := schedule_congr (p := p) k fun i hi => h i (by omega)
    have e : Improves S k ↔ Improves S' k := by
      unfold Improves
      rw [h (k + 1) le_rfl]
      exact forall_congr' fun j => ⟨fun a b => by rw [← h j (by omega)]; exact a b, fun a b => by rw [h j (by omega)]; exact a b⟩
    simp only [schedule, ih]
    by_cases hi : Improves S k
    · rw [if_pos hi, if_pos (e.1 hi)]
    · rw [if_neg hi, if_neg (fun hh => hi (e.2 hh))]

namespace Trainer

/-- All optimizers have the learning rate `L`; without optimizers the trainer has it. -/
def Rate (t : Trainer) (L : ℝ) : Prop := (∀ o ∈ t.opts, o.lr = L) ∧ (t.opts = [] → t.lr = L)

theorem Rate.get {t : Trainer} {L : ℝ} (h : t.Rate L) : t.getLearningRate = L := by
  unfold getLearningRate
  cases ho : t.opts with
  | nil => exact h.2 ho
  | cons o os => exact h.1 o (by rw [ho]; exact List.mem_cons_self)

theorem Opt.hyper_lr {o o' : Opt ℝ} (h : o'.hyper = o.hyper) : o'.lr = o.lr := by
  unfold Opt.hyper at h
  injection h

theorem OptsSame.rate {os os' : List (Opt ℝ)} {L : ℝ} (h : OptsSame os os') (hL : ∀ o ∈ os, o.lr = L) : ∀ o ∈ os', o.lr = L := by
  induction h with
  | nil => exact fun o ho => absurd ho List.not_mem_nil
  | cons h1 _ ih =>
    intro o ho
    rcases List.mem_cons.mp ho with rfl | ho
    · rw [Opt.hyper_lr h1.2]; exact hL _ List.mem_cons_self
    · exact ih (fun o ho => hL o (List.mem_cons_of_mem _ ho)) o ho

theorem Rate.mid {t t' : Trainer} {L : ℝ} (h : t.Rate L) (hm : MidKeep t t') : t'.Rate L := by
  refine ⟨OptsSame.rate hm.opts h.1, fun h0 => ?_⟩
  have := hm.opts.length_eq
  rw [h0] at this
  rw [hm.lr]
  exact h.2 (List.length_eq_zero_iff.mp this)

theorem Rate.init {t t' : Trainer} {L : ℝ} (hL : 0 < L) (h : t.Rate L) (g : Nat → ℝ) (h1 : t'.opts = t.opts.map (Opt.init g)) (h2 : t'.lr = t.lr) : t'.Rate L := by
  refine ⟨fun o ho => ?_, fun h0 => ?_⟩
  · rw [h1] at ho
    obtain ⟨o', ho', rfl⟩ := List.mem_map.mp ho
    rw [Opt.init_lr_pos _ _ (by rw [h.1 o' ho']; exact hL)]
    exact h.1 o' ho'
  · rw [h1, List.map_eq_nil_iff] at h0
    rw [h2]; exact h.2 h0

theorem Rate.set {t : Trainer} {L : ℝ} (hL : 0 < L) (g : Nat → ℝ) : (t.setLearningRate g L).Rate L := by
  refine ⟨fun o ho => ?_, fun _ => rfl⟩
  unfold setLearningRate at ho
  dsimp only at ho
  obtain ⟨o', ho', rfl⟩ := List.mem_map.mp ho
  unfold Opt.setLearningRate
  rw [Opt.init_lr_pos _ _ hL]

/-- The counters after `k` epochs with the scores `S`. -/
structure SchedInv (L : ℝ) (S : List ℝ) (k : Nat) (s : FitSt) : Prop where
  len : S.length = k + 1
  off : s.t.patience = -1 → s.t.Rate L
  on : ∀ p : Nat, s.t.patience = p → s.t.curPatience = (schedule p (fun i => S.getD i 0) k).1 ∧
    s.t.Rate (L / 2 ^ (schedule p (fun i => S.getD i 0) k).2)

theorem reboostStep_same (g : Nat → ℝ) (s : FitSt) : (reboostStep g s).t.patience = s.t.patience ∧ (reboostStep g s).t.curPatience = s.t.curPatience ∧
    (reboostStep g s).t.lr = s.t.lr ∧ ((reboostStep g s).t.opts = s.t.opts ∨ (reboostStep g s).t.opts = s.t.opts.map (Opt.init g)) := by
  unfold reboostStep
  split
  · split
    · exact ⟨rfl, rfl, rfl, .inl rfl⟩
    · exact ⟨rfl, rfl, rfl, .inr rfl⟩
  · exact ⟨rfl, rfl, rfl, .inl rfl⟩

theorem Rate.reboost {s : FitSt} {L : ℝ} (hL : 0 < L) (h : s.t.Rate L) (g : Nat → ℝ) : (reboostStep g s).t.Rate L := by
  obtain ⟨-, -, e3, e4 | e4⟩ := reboostStep_same g s
  · exact ⟨by rw [e4]; exact h.1, by rw [e4, e3]; exact h.2⟩
  · exact h.init hL g e4 e3

/-- One epoch. -/
theorem SchedInv.step {ab : ℝ → ℝ} {eps : ℝ} {e : FitEnv} {c : Bool} {n b : Nat} {x y : Mat ℝ} {k : Nat} {r₀ : ℝ} {p₀ : List (Option Layer)} {s s' : FitSt}
    {L : ℝ} (hL : 0 < L) (hb : b ≠ n) (hk : s.t.keepBest = true) (hi : Inv n b s.w s.t) (h : BestInv c n b (r₀ :: scoreList c s.t) (p₀ :: s.seen) s)
    (hq : SchedInv L (r₀ :: scoreList c s.t) k s) (hs : epochStep ab eps e n b x y k s = .ok s') : SchedInv L (r₀ :: scoreList c s'.t) (k + 1) s' := by
  obtain ⟨w₁, t₁, l, a, s₂, k1, k2, k3, k4, k5, k5', k5'', k6, k7, k8⟩ := epochStep_inv hb hi hs
  have t2 : TailKeep n b _ s₂ := bestStep_tail hb k2 k7
  have t3 : TailKeep n b s₂ s' := k8 ▸ reboostStep_tail t2.inv
  have tt := t2.trans t3
  have hval : t₁.valid = s.t.valid := by rw [← k3.same]
  have hl : scoreList c s'.t = scoreList c s.t ++ [scoreOf c l a] := by
    have e0 : scoreList c s'.t = scoreList c t₁ := by
      unfold scoreList accList lossList
      rw [← tt.same]
    rw [e0]
    have hcl := h.classif
    unfold scoreList accList lossList scoreOf
    rw [hval]
    cases hc : s.t.valid with
    | none =>
      obtain ⟨-, -, e1, e2⟩ := k5 hc
      cases c
      · simp [k3.trainLoss, e1]
      · simp [k5' hcl, e2]
    | some v =>
      obtain ⟨e1, e2⟩ := k4 (by rw [hc]; rfl)
      cases c
      · simp [e1]
      · simp [e2]
  have hkb : t₁.keepBest = true := by rw [← hk, ← k3.same]
  have hpa : t₁.patience = s.t.patience := by rw [← k3.same]
  have hcp : t₁.curPatience = s.t.curPatience := k3.curPatience
  unfold bestStep at k7
  rw [if_pos (.inl hkb)] at k7
  obtain ⟨s₃, h3, h4⟩ := ok_bind k7
  obtain ⟨j, ⟨j0, j1, -⟩, j2, -⟩ := h.best
  have hlen : (r₀ :: scoreList c s.t).length = k + 1 := hq.len
  -- the scores
  obtain ⟨S, hS⟩ : ∃ S, S = r₀ :: scoreList c s.t := ⟨_, rfl⟩
  rw [hl, ← List.cons_append, ← hS]
  rw [← hS] at j0 j1 j2 hlen hq
  have eold : ∀ i, i ≤ k → (S ++ [scoreOf c l a]).getD i 0 = S.getD i 0 := fun i hi => by
    simp [List.getD, List.getElem?_append_left (show i < S.length by omega)]
  have enew : (S ++ [scoreOf c l a]).getD (k + 1) 0 = scoreOf c l a := by
    rw [← hlen]; simp [List.getD]
  have himp : Improves (fun i => (S ++ [scoreOf c l a]).getD i 0) k ↔ scoreOf c s.minLoss s.maxAcc < scoreOf c l a := by
    unfold Improves
    dsimp only
    rw [enew, j2]
    constructor
    · intro hh
      have := hh j (by omega)
      rwa [eold j (by omega)] at this
    · intro hh i hi
      rw [eold i hi]
      exact lt_of_le_of_lt (j1 i (by omega)) hh
  have hsched : ∀ p, schedule p (fun i => (S ++ [scoreOf c l a]).getD i 0) k = schedule p (fun i => S.getD i 0) k := fun p => schedule_congr k eold
  have hcl1 : (w₁.nets n).classif = c := k1.classif.trans h.classif
  have hks := keepStep_score hcl1 h3
  dsimp only at hks
  -- the trainer before and after the patience step
  have h3t : s₃.t = { t₁ with curPatience := s₃.t.curPatience } ∧
      s₃.t.curPatience = if scoreOf c s.minLoss s.maxAcc < scoreOf c l a then 0 else s.t.curPatience + 1 := by
    rcases hks with ⟨c1, w, -, -, -, c4, -⟩ | ⟨c1, rfl⟩
    · rw [if_pos c1, c4]; exact ⟨rfl, rfl⟩
    · rw [if_neg (not_lt.mpr c1)]; exact ⟨rfl, by rw [← hcp]⟩
  obtain ⟨h3t, h3c⟩ := h3t
  have h3p : s₃.t.patience = s.t.patience := by rw [h3t]; exact hpa
  have h3o : s₃.t.opts = t₁.opts := by rw [h3t]
  have h3l : s₃.t.lr = t₁.lr := by rw [h3t]
  have h3r : ∀ M, t₁.Rate M → s₃.t.Rate M := fun M hM => ⟨by rw [h3o]; exact hM.1, by rw [h3o, h3l]; exact hM.2⟩
  have hp' : s'.t.patience = s.t.patience := by
    have := (k3.settings k3.curPatience k3.lr).trans tt.settings
    rw [← this]
  obtain ⟨e1, e2, e3, e4⟩ := reboostStep_same e.g s₂
  refine ⟨by simp [hlen], fun hoff => ?_, fun p hon => ?_⟩
  · rw [hp'] at hoff
    rcases patienceStep_inv h4 with ⟨-, c2, -⟩ | ⟨-, rfl⟩
    · exact absurd (h3p.trans hoff) c2
    · rw [k8]
      exact Rate.reboost hL (h3r _ ((hq.off hoff).mid k3)) _
  · rw [hp'] at hon
    obtain ⟨q1, q2⟩ := hq.on p hon
    have hLp : 0 < L / 2 ^ (schedule p (fun i => S.getD i 0) k).2 := by positivity
    rw [k8, e2]
    simp only [schedule, hsched]
    rw [q1] at h3c
    rcases patienceStep_inv h4 with ⟨c1, c2, w, hw, rfl⟩ | ⟨c1, rfl⟩
    · have hni : ¬ scoreOf c s.minLoss s.maxAcc < scoreOf c l a := fun hh => by
        rw [if_pos hh] at h3c
        rw [h3c, h3p, hon] at c1
        omega
      rw [if_neg hni] at h3c
      have hlt : p < (schedule p (fun i => S.getD i 0) k).1 + 1 := by
        rw [h3c, h3p, hon] at c1
        omega
      rw [if_neg (fun hh => hni (himp.1 hh)), if_pos hlt]
      refine ⟨rfl, ?_⟩
      dsimp only
      rw [pow_succ, ← div_div]
      apply Rate.reboost (by positivity)
      dsimp only
      rw [(h3r _ (q2.mid k3)).get]
      exact Rate.set (by positivity) _
    · rw [h3p, hon] at c1
      have hne : (p : Int) ≠ -1 := by omega
      by_cases hi' : scoreOf c s.minLoss s.maxAcc < scoreOf c l a
      · rw [if_pos hi'] at h3c
        rw [if_pos (himp.2 hi')]
        exact ⟨h3c, Rate.reboost hLp (h3r _ (q2.mid k3)) _⟩
      · rw [if_neg hi'] at h3c
        rw [if_neg (fun hh => hi' (himp.1 hh))]
        have hnl : ¬ p < (schedule p (fun i => S.getD i 0) k).1 + 1 := fun hh => c1 ⟨by rw [h3c]; omega, hne⟩
        rw [if_neg hnl]
        exact ⟨h3c, Rate.reboost hLp (h3r _ (q2.mid k3)) _⟩

end Trainer
end BeeDNN
