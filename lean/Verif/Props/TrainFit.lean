import Verif.Lemmas.TrainFit

/-! # Properties of `fit`: C50 (batches), C51 (keep best), C52 (pointers), C53 (history) -/

namespace BeeDNN
open Trainer

/-! ## C50 -/

/-- C50: for `n` samples and batch size `B > 0` the loop of `train_one_epoch` calls `train_batch` with the batches
`0, …, ⌈n/B⌉ - 1` in this order, batch `k` being the rows `k*B, …, min((k+1)*B, n) - 1` of the samples and of the
truths, whatever `train_batch` does; and it terminates. -/
theorem C50_batches {σ : Type} (n C D B : Nat) (hB : 0 < B) (x y : Nat → Nat → ℝ) (f : Nat → Mat ℝ → Mat ℝ → σ → Out σ) (s : σ) :
    batchLoop n B (Mat.ofFn n C x) (Mat.ofFn n D y) f s =
      forN (nbBatches n B) (fun k => f k (rowsOf C (batchStart B k) (batchEnd n B k) x) (rowsOf D (batchStart B k) (batchEnd n B k) y)) s :=
  batchLoop_eq n C D B hB x y f s

/-- C50: an epoch calls `train_batch` with these batches of all samples, each call on what the one before has left. -/
theorem C50_epoch (ab : ℝ → ℝ) (eps : ℝ) (e : Nat → Nat → Nat → Env) (n C D B : Nat) (hB : 0 < B) (x y : Nat → Nat → ℝ) (w : World) (t : Trainer) (ht : t.batchAdj = B) :
    t.trainEpoch ab eps e (Mat.ofFn n C x) (Mat.ofFn n D y) w =
      forN (nbBatches n B) (fun k s => trainBatch ab eps (e k) s.1 s.2 (rowsOf C (batchStart B k) (batchEnd n B k) x) (rowsOf D (batchStart B k) (batchEnd n B k) y)) (w, t) := by
  unfold trainEpoch
  rw [ht]
  exact batchLoop_eq n C D B hB x y _ _

/-- Seven samples in batches of three. -/
example (ab : ℝ → ℝ) (eps : ℝ) (e : Nat → Nat → Nat → Env) (x y : Nat → Nat → ℝ) (w : World) (t : Trainer) (ht : t.batchAdj = (3 : Nat)) :=
  C50_epoch ab eps e 7 2 1 3 (by decide) x y w t ht

/-- C50: these batches are consecutive and not empty, have at most `B` samples, all but the last exactly `B`, and every
sample is in exactly one of them. -/
theorem C50_partition (n B : Nat) (hB : 0 < B) :
    (∀ k, k < nbBatches n B → batchStart B k < batchEnd n B k ∧ batchEnd n B k ≤ n ∧ batchEnd n B k - batchStart B k ≤ B ∧
      (k + 1 < nbBatches n B → batchEnd n B k = batchStart B (k + 1) ∧ batchEnd n B k - batchStart B k = B) ∧
      (k + 1 = nbBatches n B → batchEnd n B k = n)) ∧
      ∀ i, i < n → ∃! k, k < nbBatches n B ∧ batchStart B k ≤ i ∧ i < batchEnd n B k := by
  unfold batchStart batchEnd
  constructor
  · intro k hk
    have hk' := (nbBatches_lt hB).1 hk
    rw [Nat.add_mul, Nat.one_mul]
    refine ⟨by omega, by omega, by omega, fun h => ?_, fun h => ?_⟩
    · have := (nbBatches_lt hB).1 h
      rw [Nat.add_mul, Nat.one_mul] at this
      omega
    · have : ¬ (k + 1) * B < n := fun h' => by
        have := (nbBatches_lt hB).2 h'
        omega
      rw [Nat.add_mul, Nat.one_mul] at this
      omega
  · intro i hi
    have h1 : i / B * B ≤ i := Nat.div_mul_le_self i B
    have h2 : i < (i / B + 1) * B := by
      have := Nat.div_add_mod i B
      have := Nat.mod_lt i hB
      rw [Nat.add_mul, Nat.one_mul, Nat.mul_comm]
      omega
    refine ⟨i / B, ⟨(nbBatches_lt hB).2 (by omega), h1, by omega⟩, ?_⟩
    rintro k ⟨-, c1, c2⟩
    have c2 : i < (k + 1) * B := by omega
    exact (Nat.div_eq_of_lt_le c1 c2).symm

example : nbBatches 7 3 = 3 ∧ batchStart 3 2 = 6 ∧ batchEnd 7 3 2 = 7 := by decide

/-- C50: the batch size used in `fit` is between 1 and the number of samples, if the one set is not negative; 0 or a too
large one mean one batch. -/
theorem C50_adjusted (B : Int) (n : Nat) (hB : 0 ≤ B) (hn : 0 < n) :
    ∃ b : Nat, adjustBatch B n = b ∧ 0 < b ∧ b ≤ n ∧ ((B = 0 ∨ B > n) → b = n) ∧ (0 < B → B ≤ n → (b : Int) = B) := by
  unfold adjustBatch
  split
  · exact ⟨n, rfl, hn, le_rfl, fun _ => rfl, fun h1 h2 => by omega⟩
  · exact ⟨B.toNat, by omega, by omega, by omega, fun h => by omega, fun _ _ => by omega⟩

/-- C50: a negative batch size ends in a failed assertion, if there are samples. -/
theorem C50_negative {σ : Type} (n : Nat) (hn : 0 < n) (B : Int) (hB : B ≤ 0) (X Y : Mat ℝ) (f : Nat → Mat ℝ → Mat ℝ → σ → Out σ) (s : σ) :
    batchLoop n B X Y f s = .error .assertFail := by
  unfold batchLoop
  cases n with
  | zero => omega
  | succ n =>
    rw [whileF]
    simp only [Nat.zero_lt_succ, decide_true, if_true]
    unfold Mat.viewRowInt
    have : ¬ ((0 : Nat) : Int) < if ((0 : Nat) : Int) + B > ((n + 1 : Nat) : Int) then ((n + 1 : Nat) : Int) else ((0 : Nat) : Int) + B := by
      split <;> omega
    simp only [check, this, if_false, bind_error']

/-- C50: the data of an epoch are the samples and truths in some order, the same for both; each occurs once. -/
theorem C50_data (g : Nat → ℝ) (draw : Nat → Nat) (shuffle : Bool) (n C D : Nat) (x y : Nat → Nat → ℝ) :
    ∃ σ : Nat → Nat, ((List.range n).map σ).Perm (List.range n) ∧
      epochData g draw shuffle (Mat.ofFn n C x) (Mat.ofFn n D y) =
        .ok (Mat.ofFn n C (fun i => x (σ i)), Mat.ofFn n D (fun i => y (σ i))) := by
  unfold epochData
  cases shuffle
  · refine ⟨fun i => i, by simp, ?_⟩
    simp only [Bool.false_eq_true, if_false, Mat.assign_eq g Mat.WF_empty (Mat.ofFn_WF ..), bind_ok', pure_ok]
  · obtain ⟨p, hp, hperm⟩ := randPerm_perm draw n
    have hlen : p.length = n := by simpa using hperm.length_eq
    have hq : ∀ i, i < n → p[i]? = some (p.getD i 0) ∧ p.getD i 0 < n := by
      intro i hi
      have : p[i]? = some p[i] := List.getElem?_eq_getElem (by omega)
      rw [List.getD, this]
      refine ⟨rfl, ?_⟩
      have := hperm.mem_iff.1 (List.getElem_mem (l := p) (by omega : i < p.length))
      simpa using this
    refine ⟨fun i => p.getD i 0, ?_, ?_⟩
    · have : (List.range n).map (fun i => p.getD i 0) = p := by
        refine List.ext_getElem (by simp [hlen]) fun i h1 h2 => ?_
        simp [List.getD, h2]
      rw [this]; exact hperm
    · simp only [if_true]
      rw [show (Mat.ofFn n C x).rows = n from rfl, hp, bind_ok']
      rw [Mat.applyRowPermutation_ofFn g p x Mat.WF_empty hlen (fun i => p.getD i 0) hq, bind_ok',
        Mat.applyRowPermutation_ofFn g p y Mat.WF_empty hlen (fun i => p.getD i 0) hq, bind_ok', pure_ok]

/-! ## C51, C52, C53

The hypotheses common to the theorems on `fit`: every network owns its layers, those of the network to train are well
formed, `bestNet` (slot `b`) is a new network, the trainer's matrices are well formed, and `fit` ends without undefined
behaviour and failed assertions. -/

/-- A trainer and a network on which `fit` was called, with its result. -/
structure Fitted (ab : ℝ → ℝ) (eps : ℝ) (e : FitEnv) (w : World) (t : Trainer) (n b : Nat) (w' : World) (t' : Trainer)
    (seen : List (List (Option Layer))) : Prop where
  owned : Owned w
  valid : AllValid w (w.nets n).layers
  layers : (w.nets n).layers ≠ []
  slot : b ≠ n
  fresh : (w.nets b).layers = []
  inOut : ∀ m ∈ t.inOut, m.WF
  gradient : ∀ m ∈ t.gradient, m.WF
  run : fit ab eps e w t n b = .ok (w', t', seen)

/-- The score of the network before training. -/
structure StartScore (ab : ℝ → ℝ) (eps : ℝ) (e : FitEnv) (w : World) (n : Nat) (t' : Trainer) (x y : Mat ℝ) (p₀ : List (Option Layer)) (l₀ a₀ : ℝ) :
    Prop where
  /-- `compute_loss_accuracy` with the settings of the trainer, on the network with the layers it had, gives the score and
  leaves the layers `p₀` -/
  eval : ∃ w₁ w₀ : World, SameLayers (layersOf w n) (layersOf w₁ n) ∧ (w₁.nets n).layers = (w.nets n).layers ∧
    computeLossAccuracy ab eps (e.eval 0) w₁ t' x y true = .ok (w₀, l₀, a₀) ∧ p₀ = layersOf w₀ n

theorem fit_best {ab : ℝ → ℝ} {eps : ℝ} {e : FitEnv} {w w' : World} {t t' : Trainer} {n b : Nat} {seen : List (List (Option Layer))}
    (h : Fitted ab eps e w t n b w' t' seen) (hk : t.keepBest = true) (x y : Mat ℝ) (hxy : t.train = some (x, y)) :
    ∃ p₀ l₀ a₀, StartScore ab eps e w n t' (t.valid.getD (x, y)).1 (t.valid.getD (x, y)).2 p₀ l₀ a₀ ∧
      ∃ k, IsFirstMax (seen.length + 1)
          (fun i => (scoreOf (w.nets n).classif l₀ a₀ :: scoreList (w.nets n).classif t').getD i 0) k ∧
        SameLayers ((p₀ :: seen).getD k []) (layersOf w' n) ∧ (w'.nets n).classif = (w.nets n).classif ∧
        TestMode w' (w'.nets n).layers ∧
        ∃ w₁ t₁ w₀, setNet e.g w t n = .ok (w₁, t₁) ∧
          computeLossAccuracy ab eps (e.eval 0) w₁ t' (t.valid.getD (x, y)).1 (t.valid.getD (x, y)).2 true = .ok (w₀, l₀, a₀) ∧ p₀ = layersOf w₀ n := by
  obtain ⟨w₁, t₁, x', y', s₀, s, h1, h2, h3, h4, h5, h6, h7, h8, h9⟩ :=
    fit_split h.run h.layers h.slot h.owned h.valid h.fresh h.inOut h.gradient
  rw [hxy] at h2
  injection h2 with h2
  injection h2 with q1 q2
  subst q1 q2
  have hb := h.slot
  have hvb' : AllValid w (w.nets b).layers := by rw [h.fresh]; exact fun a ha => absurd ha List.not_mem_nil
  obtain ⟨a1, am, a2, a3, a4, -⟩ := setNet_inv hb h.owned h.valid hvb' h.inOut h.gradient h1
  obtain ⟨cw, w₀, b1, b2, b3, b4, b5, b6, b7, b8, b9, -⟩ := start_inv hb a2 h3
  have hkb : t₁.keepBest = true := by rw [← hk, ← a4]
  have hvd : t₁.valid = t.valid := by rw [← a4]
  obtain ⟨b9, b10, b11⟩ := b9 hkb
  rw [hvd] at b9
  have hcl0 : (w₀.nets n).classif = (w.nets n).classif := by rw [b6.nets, a1.nets]
  have hev : computeLossAccuracy ab eps (e.eval 0) w₁ t' (t.valid.getD (x, y)).1 (t.valid.getD (x, y)).2 true = .ok (w₀, s₀.minLoss, s₀.maxAcc) := by
    rw [← b9]
    have ss := h9.settings
    rw [h6] at ss
    exact computeLossAccuracy_congr (by rw [← ss]) (by rw [← ss]) (by rw [← ss]) (by rw [← ss])
  refine ⟨layersOf w₀ n, s₀.minLoss, s₀.maxAcc, ⟨w₁, w₀, markFirst_same h.owned am, by rw [a1.nets], hev, rfl⟩, ?_⟩
  · have hk0 : s₀.t.keepBest = true := by rw [b2]; exact hkb
    have init : BestInv (w.nets n).classif n b [scoreOf (w.nets n).classif s₀.minLoss s₀.maxAcc] [layersOf w₀ n] s₀ := by
      refine ⟨rfl, ⟨0, ⟨by simp, fun j hj => ?_, fun j hj => absurd hj (by omega)⟩, rfl, b10⟩, ?_, ?_⟩
      · have : j = 0 := by simpa using hj
        rw [this]
      · rw [b7 n hb.symm]; exact hcl0
      · exact b11.trans hcl0
    have hl0 : scoreList (w.nets n).classif s₀.t = [] := by
      unfold scoreList accList lossList
      rw [b2]
      cases (w.nets n).classif <;> simp
    have key := forN_ok_idx (P := fun i r => LoopInv ab eps e n b s₀ i r ∧
        BestInv (w.nets n).classif n b (scoreOf (w.nets n).classif s₀.minLoss s₀.maxAcc :: scoreList (w.nets n).classif r.t) (layersOf w₀ n :: r.seen) r)
      (fun i r r' hr hr' => ⟨hr.1.step hb hr', BestInv.step hb (by have := hr.1.settings; rw [← this]; exact hk0) hr.1.inv hr.2 hr'⟩)
      ⟨LoopInv.start b5 b3 (by rw [b2]) (by rw [b2]) (by rw [b2]), by rw [b3, hl0]; exact init⟩ h4
    have kI := key.2
    rw [h6, h7] at kI
    obtain ⟨k, k1, k2, k3⟩ := kI.best
    have hks : s.t.keepBest = true := by have := h9.settings; rw [← this]; exact hk0
    obtain ⟨-, -, -, -, -, -, -, f1, -⟩ := finish_inv hb h9.inv h5
    obtain ⟨f1, f2, f3⟩ := f1 hks
    have hlen : (scoreOf (w.nets n).classif s₀.minLoss s₀.maxAcc :: scoreList (w.nets n).classif t').length = seen.length + 1 := by
      rw [← kI.len]; rfl
    rw [hlen] at k1
    exact ⟨k, k1, k3.trans f1, f3.trans kI.classifB, f2, w₁, t₁, w₀, h1, hev, rfl⟩

/-- C51, classification: with keep-best, the network left after `fit` is the first with the highest accuracy among the
network before training and the networks at the end of the epochs.  The accuracies of the epochs are the recorded ones:
on the validation data if there are any, else those of the training. -/
theorem C51_classification {ab : ℝ → ℝ} {eps : ℝ} {e : FitEnv} {w w' : World} {t t' : Trainer} {n b : Nat} {seen : List (List (Option Layer))}
    (h : Fitted ab eps e w t n b w' t' seen) (hk : t.keepBest = true) (x y : Mat ℝ) (hxy : t.train = some (x, y))
    (hc : (w.nets n).classif = true) :
    ∃ p₀ l₀ a₀, StartScore ab eps e w n t' (t.valid.getD (x, y)).1 (t.valid.getD (x, y)).2 p₀ l₀ a₀ ∧
      ∃ k, IsFirstMax (seen.length + 1) (fun i => (a₀ :: if t'.valid.isSome then t'.valAcc else t'.trainAcc).getD i 0) k ∧
        SameLayers ((p₀ :: seen).getD k []) (layersOf w' n) := by
  obtain ⟨p₀, l₀, a₀, h1, k, h2, h3, -⟩ := fit_best h hk x y hxy
  rw [hc] at h2
  exact ⟨p₀, l₀, a₀, h1, k, h2, h3⟩

/-- C51, regression: the first with the lowest loss. -/
theorem C51_regression {ab : ℝ → ℝ} {eps : ℝ} {e : FitEnv} {w w' : World} {t t' : Trainer} {n b : Nat} {seen : List (List (Option Layer))}
    (h : Fitted ab eps e w t n b w' t' seen) (hk : t.keepBest = true) (x y : Mat ℝ) (hxy : t.train = some (x, y))
    (hc : (w.nets n).classif = false) :
    ∃ p₀ l₀ a₀, StartScore ab eps e w n t' (t.valid.getD (x, y)).1 (t.valid.getD (x, y)).2 p₀ l₀ a₀ ∧
      ∃ k, IsFirstMin (seen.length + 1) (fun i => (l₀ :: if t'.valid.isSome then t'.valLoss else t'.trainLoss).getD i 0) k ∧
        SameLayers ((p₀ :: seen).getD k []) (layersOf w' n) := by
  obtain ⟨p₀, l₀, a₀, h1, k, ⟨h2, h3, h4⟩, h5, -⟩ := fit_best h hk x y hxy
  rw [hc] at h3 h4
  have e : ∀ i, (scoreOf false l₀ a₀ :: scoreList false t').getD i 0 = -(l₀ :: if t'.valid.isSome then t'.valLoss else t'.trainLoss).getD i 0 := by
    intro i
    have : (scoreOf false l₀ a₀ :: scoreList false t') = (l₀ :: if t'.valid.isSome then t'.valLoss else t'.trainLoss).map (fun x => -x) := rfl
    rw [this]
    simp only [List.getD, List.getElem?_map]
    cases (l₀ :: if t'.valid.isSome then t'.valLoss else t'.trainLoss)[i]? <;> simp
  simp only [e] at h3 h4
  exact ⟨p₀, l₀, a₀, h1, k, ⟨h2, fun j hj => neg_le_neg_iff.1 (h3 j hj), fun j hj => neg_lt_neg_iff.1 (h4 j hj)⟩, h5⟩

/-- C51: the network is left in test mode and in the mode (classification or regression) it had. -/
theorem C51_test_mode {ab : ℝ → ℝ} {eps : ℝ} {e : FitEnv} {w w' : World} {t t' : Trainer} {n b : Nat} {seen : List (List (Option Layer))}
    (h : Fitted ab eps e w t n b w' t' seen) (hk : t.keepBest = true) (x y : Mat ℝ) (hxy : t.train = some (x, y)) :
    TestMode w' (w'.nets n).layers ∧ (w'.nets n).classif = (w.nets n).classif := by
  obtain ⟨p₀, l₀, a₀, h1, k, h2, h3, h4, h5, -⟩ := fit_best h hk x y hxy
  exact ⟨h5, h4⟩

/-- C53: after `fit` the training losses have one entry per epoch, the callback was called once per epoch, and the
validation losses and accuracies have one entry per epoch if there are validation data, else none. -/
theorem C53_lengths {ab : ℝ → ℝ} {eps : ℝ} {e : FitEnv} {w w' : World} {t t' : Trainer} {n b : Nat} {seen : List (List (Option Layer))}
    (h : Fitted ab eps e w t n b w' t' seen) :
    t'.trainLoss.length = t.epochs.toNat ∧ seen.length = t.epochs.toNat ∧ t'.valid = t.valid ∧
      t'.valLoss.length = (if t.valid.isSome then t.epochs.toNat else 0) ∧
      t'.valAcc.length = (if t.valid.isSome then t.epochs.toNat else 0) := by
  obtain ⟨w₁, t₁, x', y', s₀, s, h1, h2, h3, h4, h5, h6, h7, h8, h9⟩ :=
    fit_split h.run h.layers h.slot h.owned h.valid h.fresh h.inOut h.gradient
  have hb := h.slot
  have hvb' : AllValid w (w.nets b).layers := by rw [h.fresh]; exact fun a ha => absurd ha List.not_mem_nil
  obtain ⟨a1, am, a2, a3, a4, -⟩ := setNet_inv hb h.owned h.valid hvb' h.inOut h.gradient h1
  obtain ⟨cw, w₀, b1, b2, -⟩ := start_inv hb a2 h3
  have hv : t'.valid = t.valid := by
    have := h9.settings
    rw [h6] at this
    rw [← this]
    show s₀.t.valid = t.valid
    rw [b2]
    show t₁.valid = t.valid
    rw [← a4]
  have v1 := h9.valLoss
  have v2 := h9.valAcc
  rw [h6, hv] at v1 v2
  exact ⟨h6 ▸ h9.trainLoss, h7 ▸ h9.seen, hv, v1, v2⟩

/-- C53: entry `i` of the validation losses and accuracies is what `compute_loss_accuracy` gives for the network that the
callback sees at the end of epoch `i`. -/
theorem C53_validation_history {ab : ℝ → ℝ} {eps : ℝ} {e : FitEnv} {w w' : World} {t t' : Trainer} {n b : Nat} {seen : List (List (Option Layer))}
    (h : Fitted ab eps e w t n b w' t' seen) (x y : Mat ℝ) (hxy : t'.valid = some (x, y)) (i : Nat) (hi : i < t.epochs.toNat) :
    ∃ w₀ w₁ l a, computeLossAccuracy ab eps (e.eval (i + 1)) w₀ t' x y true = .ok (w₁, l, a) ∧
      t'.valLoss[i]? = some l ∧ t'.valAcc[i]? = some a ∧ seen[i]? = some (layersOf w₁ n) := by
  obtain ⟨w₁, t₁, x', y', s₀, s, h1, h2, h3, h4, h5, h6, h7, h8, h9⟩ :=
    fit_split h.run h.layers h.slot h.owned h.valid h.fresh h.inOut h.gradient
  subst h6 h7
  exact h9.evals x y hxy i hi

/-- C53: in classification mode the training accuracies have one entry per epoch, in regression mode none (the claim
fails there).  Without keep-best a patience restart may switch to the mode of an empty network, hence the hypothesis. -/
theorem C53_accuracies {ab : ℝ → ℝ} {eps : ℝ} {e : FitEnv} {w w' : World} {t t' : Trainer} {n b : Nat} {seen : List (List (Option Layer))}
    (h : Fitted ab eps e w t n b w' t' seen) (hk : t.keepBest = true ∨ t.patience = -1) :
    t'.trainAcc.length = if (w.nets n).classif then t.epochs.toNat else 0 := by
  obtain ⟨w₁, t₁, x', y', s₀, s, h1, h2, h3, h4, h5, h6, h7, h8, h9⟩ :=
    fit_split h.run h.layers h.slot h.owned h.valid h.fresh h.inOut h.gradient
  have hb := h.slot
  have hvb' : AllValid w (w.nets b).layers := by rw [h.fresh]; exact fun a ha => absurd ha List.not_mem_nil
  obtain ⟨a1, am, a2, a3, a4, -⟩ := setNet_inv hb h.owned h.valid hvb' h.inOut h.gradient h1
  obtain ⟨cw, w₀, b1, b2, b3, b4, b5, b6, b7, b8, b9, -⟩ := start_inv hb a2 h3
  have hkb : t₁.keepBest = t.keepBest := by rw [← a4]
  have hpa : t₁.patience = t.patience := by rw [← a4]
  have hcl0 : (w₀.nets n).classif = (w.nets n).classif := by rw [b6.nets, a1.nets]
  have init : ClassInv (w.nets n).classif n b 0 s₀ := by
    refine ⟨by rw [b7 n hb.symm]; exact hcl0, fun hk => ?_, by rw [b2]; split <;> rfl⟩
    exact (b9 (by rw [b2] at hk; exact hk)).2.2.trans hcl0
  have key := forN_ok_idx (P := fun i r => LoopInv ab eps e n b s₀ i r ∧ ClassInv (w.nets n).classif n b i r)
    (fun i r r' hr hr' => ⟨hr.1.step hb hr', ClassInv.step hb (by
      have := hr.1.settings
      rw [← this]
      show s₀.t.keepBest = true ∨ s₀.t.patience = -1
      rw [b2]
      show t₁.keepBest = true ∨ t₁.patience = -1
      rw [hkb, hpa]; exact hk) hr.1.inv hr.2 hr'⟩)
    ⟨LoopInv.start b5 b3 (by rw [b2]) (by rw [b2]) (by rw [b2]), init⟩ h4
  exact h6 ▸ key.2.acc

/-- C52: `fit` leaves all other networks and their layers alone, deletes `bestNet`, and the networks own their layers again. -/
theorem C52_other_networks {ab : ℝ → ℝ} {eps : ℝ} {e : FitEnv} {w w' : World} {t t' : Trainer} {n b : Nat} {seen : List (List (Option Layer))}
    (h : Fitted ab eps e w t n b w' t' seen) :
    Owned w' ∧ AllValid w' (w'.nets n).layers ∧ (w'.nets b).layers = [] ∧
      ∀ m, m ≠ n → m ≠ b → w'.nets m = w.nets m ∧ ∀ a ∈ (w.nets m).layers, w'.heap[a]? = w.heap[a]? := by
  obtain ⟨w₁, t₁, x', y', s₀, s, h1, h2, h3, h4, h5, h6, h7, h8, h9⟩ :=
    fit_split h.run h.layers h.slot h.owned h.valid h.fresh h.inOut h.gradient
  have hb := h.slot
  have hvb' : AllValid w (w.nets b).layers := by rw [h.fresh]; exact fun a ha => absurd ha List.not_mem_nil
  obtain ⟨a1, am, a2, a3, a4, -⟩ := setNet_inv hb h.owned h.valid hvb' h.inOut h.gradient h1
  obtain ⟨cw, w₀, b1, b2, b3, b4, b5, b6, b7, b8, -⟩ := start_inv hb a2 h3
  obtain ⟨-, -, f1, f2, f3, f4, f5, -⟩ := finish_inv hb h9.inv h5
  have fr1 := a1.stage.frame h.owned
  have b6' : Evolve (w₁.nets n).layers w₁ w₀ := b6
  have fr2 := b6'.stage.frame a2.owned
  refine ⟨f1, f5, f2, fun m hm hm' => ?_⟩
  have n1 : w₁.nets m = w.nets m := fr1.nets m hm
  have n2 : w₀.nets m = w₁.nets m := fr2.nets m hm
  have n3 : s₀.w.nets m = w₀.nets m := b7 m hm'
  have n4 : s.w.nets m = s₀.w.nets m := h9.nets m hm hm'
  have n5 := f3 m hm hm'
  refine ⟨n5.trans (n4.trans (n3.trans (n2.trans n1))), fun a ha => ?_⟩
  have m1 : a ∈ (w₁.nets m).layers := n1 ▸ ha
  have m2 : a ∈ (w₀.nets m).layers := n2 ▸ m1
  have m3 : a ∈ (s₀.w.nets m).layers := n3 ▸ m2
  have m4 : a ∈ (s.w.nets m).layers := n4 ▸ m3
  exact (f4 m hm hm' a m4).trans ((h9.layers m hm hm' a m3).trans ((b8 m hm' a m2).trans ((fr2.layers m hm a m1).trans (fr1.layers m hm a ha))))

end BeeDNN
