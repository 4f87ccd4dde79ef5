import Verif.Lemmas.MlpBest
import Verif.Props.TrainEval

/-! # Losses reported by the training: C108; the network kept without validation data: C109 -/

namespace BeeDNN
open Finset Trainer

/-! ## Batches and samples -/

theorem batch_div {N B k i : Nat} (hB : 0 < B) (hi : i < batchEnd N B k - batchStart B k) : (batchStart B k + i) / B = k := by
  unfold batchEnd batchStart at *
  have : i < B := by rw [Nat.add_mul] at hi; omega
  rw [Nat.mul_comm, Nat.mul_add_div hB, Nat.div_eq_of_lt this, Nat.add_zero]

theorem batch_lt {N B k i : Nat} (hi : i < batchEnd N B k - batchStart B k) : batchStart B k + i < N := by
  unfold batchEnd batchStart at *
  omega

theorem sum_batch_samples (N B : Nat) (hB : 0 < B) (F : Nat → Nat → ℝ) :
    ∑ k ∈ range (nbBatches N B), ∑ i ∈ range (batchEnd N B k - batchStart B k), F k (batchStart B k + i) = ∑ q ∈ range N, F (q / B) q := by
  rw [← sum_batches N B hB (fun q => F (q / B) q)]
  refine sum_congr rfl fun k _ => ?_
  rw [sum_Ico_eq_sum_range]
  exact sum_congr rfl fun i hi => by rw [batch_div hB (mem_range.1 hi)]

theorem batch_size {N B k : Nat} (hB : 0 < B) (h : B ∣ N) (hk : k < nbBatches N B) : batchEnd N B k - batchStart B k = B := by
  obtain ⟨q, rfl⟩ := h
  have h1 := (nbBatches_lt hB).1 hk
  have h2 : k + 1 ≤ q := by
    by_contra hc
    have := Nat.mul_le_mul_right B (show q ≤ k by omega)
    rw [Nat.mul_comm] at h1
    rw [Nat.mul_comm q B] at this
    rw [Nat.mul_comm] at h1
    omega
  have h3 := Nat.mul_le_mul_right B h2
  unfold batchEnd batchStart
  rw [Nat.mul_comm B q, min_eq_left h3, Nat.add_mul]
  omega

theorem perm_sum {σ : Nat → Nat} {N : Nat} (h : ((List.range N).map σ).Perm (List.range N)) (f : Nat → ℝ) :
    ∑ i ∈ range N, f (σ i) = ∑ i ∈ range N, f i := by
  have := (h.map f).sum_eq
  rw [List.map_map] at this
  simpa [Finset.sum, Finset.range, Multiset.range, Function.comp_def] using this

/-- The loss reported for an epoch: the sum of the losses of the batches, divided by the number of samples. -/
noncomputable def reportedLoss (eps : ℝ) (s : String) (N B : Nat) (x y : Nat → Row) (σ : Nat → Nat) (net : Nat → Mlp) : ℝ :=
  (∑ k ∈ range (nbBatches N B), (net k).batchLoss eps s (batchEnd N B k - batchStart B k) (fun i => x (σ (batchStart B k + i)))
    (fun i => y (σ (batchStart B k + i)))) / N

theorem reportedLoss_eq {eps : ℝ} {s : String} {m : Mlp} {N B : Nat} (hN : 0 < N) (hB : 0 < B) {x y : Nat → Row} {σ : Nat → Nat} {net : Nat → Mlp}
    (hl : ∀ k, k < nbBatches N B → Mlp.Like m (net k)) (h : s ∈ sumLosses ∨ B ∣ N) :
    reportedLoss eps s N B x y σ net = Mlp.onlineMean eps s (m.width m.depth) B N x y σ net / (if s ∈ sumLosses then 1 else (B : ℝ)) := by
  unfold reportedLoss Mlp.onlineMean
  rw [div_right_comm]
  congr 1
  rw [← sum_batch_samples N B hB (fun k q => sampleLoss eps s (m.width m.depth) ((net k).out (x (σ q))) (y (σ q))), sum_div]
  refine sum_congr rfl fun k hk => ?_
  have hk := mem_range.1 hk
  unfold Mlp.batchLoss
  rw [(hl k hk).depth, (hl k hk).width]
  by_cases hs : s ∈ sumLosses
  · rw [if_pos hs, if_pos hs]
  · rw [if_neg hs, if_neg hs, batch_size hB (h.resolve_left hs) hk]

/-- The run described by the facts about the epochs. -/
theorem run_of_epochs {eps : ℝ} {loss : String} {S : Prop} {Γ : Row → Row → Row} {lr : ℝ} {m : Mlp} {N B D E : Nat} (hok : m.Ok) (hs : loss ∈ listLoss)
    {x y : Nat → Row} (hT : TruthFits loss (m.width m.depth) D N y) {ms : Nat → Mlp} {r : Nat → Nat} {v : Nat → ℝ} (h0 : ms 0 = m)
    (h3 : ∀ j, j ≤ E → Mlp.Like m (ms j))
    (h9 : ∀ i, i < E → EpochFact (fun x => |x|) eps loss S Γ lr N B D x y (ms i) (ms (i + 1)) (r i) (v i)) :
    ∃ (σ : Nat → Nat → Nat) (net : Nat → Nat → Mlp), m.Run N B E σ net ∧ (∀ i, i ≤ E → net i 0 = ms i) ∧
      (∀ i, i < E → v i = reportedLoss eps loss N B x y (σ i) (net i)) ∧
      (S → ∀ i k, i < E → k < nbBatches N B → GradStep Γ lr (batchEnd N B k - batchStart B k) (fun s => x (σ i (batchStart B k + s)))
        (fun s => y (σ i (batchStart B k + s))) (net i k) (net i (k + 1))) := by
  have key : ∀ i, ∃ (σ : Nat → Nat) (bs : Nat → Mlp), i < E → ((List.range N).map σ).Perm (List.range N) ∧ bs 0 = ms i ∧ bs (nbBatches N B) = ms (i + 1) ∧
      (∀ k, k < nbBatches N B → Mlp.Like (ms i) (bs k)) ∧ v i = reportedLoss eps loss N B x y σ bs ∧
      (S → ∀ k, k < nbBatches N B → GradStep Γ lr (batchEnd N B k - batchStart B k) (fun s => x (σ (batchStart B k + s)))
        (fun s => y (σ (batchStart B k + s))) (bs k) (bs (k + 1))) := by
    intro i
    by_cases hi : i < E
    · obtain ⟨σ, bs, c1, c2, c3, c4, -, xs, c5, c6⟩ := h9 i hi
      refine ⟨σ, bs, fun _ => ⟨c1, c2, c3, fun k hk => (c4 k hk).1, ?_, fun hS k hk => (c4 k hk).2.2 hS⟩⟩
      rw [c5, reportedLoss]
      congr 1
      refine sum_congr rfl fun k hk => ?_
      have hk := mem_range.1 hk
      have lk := (h3 i hi.le)
      have lk' := (c4 k hk).1
      have hx := c6 k hk
      rw [lk.depth, lk.width] at hx
      rw [BatchLoss.eq hx hs (hok.pos _ le_rfl) (hT.sub fun q hq => ⟨σ (batchStart B k + q), perm_lt c1 (batch_lt hq), rfl⟩), Mlp.batchLoss,
        lk'.depth, lk'.width, lk.depth, lk.width]
    · exact ⟨fun i => i, fun _ => m, fun h => absurd h hi⟩
  choose σ bs hb using key
  have hz : ∀ i, i ≤ E → (if i < E then bs i 0 else ms i) = ms i := by
    intro i hi
    split
    · exact (hb i (by assumption)).2.1
    · rfl
  refine ⟨σ, fun i k => if i < E then bs i k else ms i, ⟨(hz 0 (Nat.zero_le _)).trans h0, fun i hi => ?_, fun i hi => (hb i hi).1, fun i k hi hk => ?_⟩,
    hz, fun i hi => ?_, fun hS i k hi hk => ?_⟩
  · show (if i + 1 < E then bs (i + 1) 0 else ms (i + 1)) = if i < E then _ else _
    rw [hz (i + 1) hi, if_pos hi]
    exact (hb i hi).2.2.1.symm
  · show Mlp.Like m (if i < E then bs i k else ms i)
    rw [if_pos hi]
    exact (h3 i hi.le).trans ((hb i hi).2.2.2.1 k hk)
  · simp only [hi, if_true]
    exact (hb i hi).2.2.2.2.1
  · simp only [hi, if_true]
    exact (hb i hi).2.2.2.2.2 hS k hk

/-! ## C108 -/

/-- C108: a batch adds to the loss of the epoch the mean of the losses of its samples (for L1, L2 and L3 their sum), for any of the twelve losses. -/
theorem C108_batch (eps : ℝ) (g : Nat → ℝ) (c : Bool) (t : Trainer) (K D N : Nat) (hK : 0 < K) (hl : t.loss ∈ listLoss) (hw : t.lossWeight.size = 0)
    (p y : Nat → Row) (hY : TruthFits t.loss K D N y) :
    ∃ t', t.addOnline g (fun x => |x|) eps c (Mat.ofFn N K p) (Mat.ofFn N D y) = .ok t' ∧
      t'.onlineLoss = t.onlineLoss + (∑ i ∈ range N, sampleLoss eps t.loss K (p i) (y i)) / (if t.loss ∈ sumLosses then 1 else (N : ℝ)) := by
  obtain ⟨ψ, l1, -⟩ := lossOk_of_mem eps hl hK D
  obtain ⟨x, h1, h2⟩ := addOnline_mlp (g := g) (c := c) l1 hw hK p y hY
  exact ⟨_, h1, by rw [BatchLoss.eq h2 hl hK hY]⟩

/-- The losses reported by `fit`. -/
theorem fit_reported {w : World} {t : Trainer} {n b : Nat} {m : Mlp} {N D : Nat} {x y : Nat → Row} (h : FitSetup w t n b m N D x y)
    {k : OptKind} (hk : createOptimizer t.optName = some k) (eps : ℝ) (e : FitEnv) :
    ∃ (w' : World) (t' : Trainer) (seen : List (List (Option Layer))) (σ : Nat → Nat → Nat) (net : Nat → Nat → Mlp),
      fit (fun x => |x|) eps e w t n b = .ok (w', t', seen) ∧
      m.Run N (if t.batchSize = 0 then N else min t.batchSize.toNat N) t.epochs.toNat σ net ∧
      t'.trainLoss = (List.range t.epochs.toNat).map (fun i =>
        reportedLoss eps t.loss N (if t.batchSize = 0 then N else min t.batchSize.toNat N) x y (σ i) (net i)) := by
  obtain ⟨ψ, l1, -⟩ := lossOk_of_mem eps h.loss (h.net.ok.pos _ (Nat.le_refl m.depth)) D
  obtain ⟨w', t', seen, ms, r, v, j, h1, h2, h3, h4, h5, h6, h7, h8, h9, h10, h11, -⟩ := fit_mlp (e := e) h.net h.owned h.slot h.fresh h.inOut h.gradient h.reg hk
    h.samples x y h.train h.truth h.valid h.valBatch h.batchSize h.balancing h.patience h.loss l1
  obtain ⟨σ, net, r1, -, r3, -⟩ := run_of_epochs h.net.ok h.loss h.truth h2 h3 h9
  rw [adjustBatch_toNat h.batchSize]
  refine ⟨w', t', seen, σ, net, h1, r1, h11.trans ?_⟩
  exact List.map_congr_left fun i hi => r3 i (List.mem_range.1 hi)

theorem batch_pos {s : Int} {N : Nat} (hs : 0 ≤ s) (hN : 0 < N) : 0 < if s = 0 then N else min s.toNat N := by
  split <;> omega

/-- C108: the loss reported for an epoch is the sum over the batches of the loss of the batch, divided by the number of *samples*. -/
theorem C108_fit {w : World} {t : Trainer} {n b : Nat} {m : Mlp} {N D : Nat} {x y : Nat → Row} (h : FitSetup w t n b m N D x y)
    {k : OptKind} (hk : createOptimizer t.optName = some k) (eps : ℝ) (e : FitEnv) {B : Nat} (hB : (if t.batchSize = 0 then N else min t.batchSize.toNat N) = B) :
    ∃ (w' : World) (t' : Trainer) (seen : List (List (Option Layer))) (σ : Nat → Nat → Nat) (net : Nat → Nat → Mlp),
      fit (fun x => |x|) eps e w t n b = .ok (w', t', seen) ∧ m.Run N B t.epochs.toNat σ net ∧
      t'.trainLoss = (List.range t.epochs.toNat).map (fun i => (∑ k ∈ range (nbBatches N B),
        (net i k).batchLoss eps t.loss (batchEnd N B k - batchStart B k) (fun q => x (σ i (batchStart B k + q))) (fun q => y (σ i (batchStart B k + q)))) / N) := by
  subst hB
  exact fit_reported h hk eps e

/-- C108, for batches of one sample, and for L1, L2 and L3 with any batches: the loss reported for an epoch is the mean of the
losses of its samples, each by the network as it is when the sample is presented.  Missing: for other losses and batches
the claim is false, see `C108_divided` and `C108_wrong`. -/
theorem C108_mean_partial {w : World} {t : Trainer} {n b : Nat} {m : Mlp} {N D : Nat} {x y : Nat → Row} (h : FitSetup w t n b m N D x y)
    {k : OptKind} (hk : createOptimizer t.optName = some k) (eps : ℝ) (e : FitEnv) {B : Nat} (hB : (if t.batchSize = 0 then N else min t.batchSize.toNat N) = B)
    (hl : t.loss ∈ sumLosses ∨ B = 1) :
    ∃ (w' : World) (t' : Trainer) (seen : List (List (Option Layer))) (σ : Nat → Nat → Nat) (net : Nat → Nat → Mlp),
      fit (fun x => |x|) eps e w t n b = .ok (w', t', seen) ∧ m.Run N B t.epochs.toNat σ net ∧
      t'.trainLoss = (List.range t.epochs.toNat).map (fun i => Mlp.onlineMean eps t.loss (m.width m.depth) B N x y (σ i) (net i)) := by
  obtain ⟨w', t', seen, σ, net, h1, h2, h3⟩ := fit_reported h hk eps e
  rw [hB] at h2 h3
  refine ⟨w', t', seen, σ, net, h1, h2, h3.trans (List.map_congr_left fun i hi => ?_)⟩
  rw [reportedLoss_eq h.samples (hB ▸ batch_pos h.batchSize h.samples) (h2.like i · (List.mem_range.1 hi)) (hl.imp_right fun h => by rw [h]; exact one_dvd N)]
  rcases hl with hl | rfl
  · rw [if_pos hl, div_one]
  · split <;> simp

/-- C108 is violated: for the other nine losses, if all batches have `B` samples, the loss reported is the mean divided by `B`. -/
theorem C108_divided {w : World} {t : Trainer} {n b : Nat} {m : Mlp} {N D : Nat} {x y : Nat → Row} (h : FitSetup w t n b m N D x y)
    {k : OptKind} (hk : createOptimizer t.optName = some k) (eps : ℝ) (e : FitEnv) {B : Nat} (hB : (if t.batchSize = 0 then N else min t.batchSize.toNat N) = B)
    (hl : t.loss ∉ sumLosses) (hd : B ∣ N) :
    ∃ (w' : World) (t' : Trainer) (seen : List (List (Option Layer))) (σ : Nat → Nat → Nat) (net : Nat → Nat → Mlp),
      fit (fun x => |x|) eps e w t n b = .ok (w', t', seen) ∧ m.Run N B t.epochs.toNat σ net ∧
      t'.trainLoss = (List.range t.epochs.toNat).map (fun i => Mlp.onlineMean eps t.loss (m.width m.depth) B N x y (σ i) (net i) / B) := by
  obtain ⟨w', t', seen, σ, net, h1, h2, h3⟩ := fit_reported h hk eps e
  rw [hB] at h2 h3
  refine ⟨w', t', seen, σ, net, h1, h2, h3.trans (List.map_congr_left fun i hi => ?_)⟩
  rw [reportedLoss_eq h.samples (hB ▸ batch_pos h.batchSize h.samples) (h2.like i · (List.mem_range.1 hi)) (.inr hd), if_neg hl]

/-- The mean over a single batch of all samples is the mean loss of the network before the batch. -/
theorem onlineMean_full {eps : ℝ} {s : String} {N : Nat} {x y : Nat → Row} {σ : Nat → Nat} (hσ : ((List.range N).map σ).Perm (List.range N))
    {net : Nat → Mlp} {m : Mlp} (h0 : net 0 = m) : Mlp.onlineMean eps s (m.width m.depth) N N x y σ net = m.meanLoss eps s N x y := by
  unfold Mlp.onlineMean Mlp.meanLoss
  congr 1
  rw [← perm_sum hσ (fun i => sampleLoss eps s (m.width m.depth) (m.out (x i)) (y i))]
  exact sum_congr rfl fun q hq => by rw [Nat.div_eq_of_lt (mem_range.1 hq), h0]

/-- C108 is violated: with all samples in one batch the first loss reported is the mean loss of the untrained network
divided by the number of samples. -/
theorem C108_wrong {w : World} {t : Trainer} {n b : Nat} {m : Mlp} {N D : Nat} {x y : Nat → Row} (h : FitSetup w t n b m N D x y)
    {k : OptKind} (hk : createOptimizer t.optName = some k) (eps : ℝ) (e : FitEnv) (hB : t.batchSize = 0 ∨ (N : Int) ≤ t.batchSize) (hE : 0 < t.epochs)
    (hl : t.loss ∉ sumLosses) :
    ∃ (w' : World) (t' : Trainer) (seen : List (List (Option Layer))), fit (fun x => |x|) eps e w t n b = .ok (w', t', seen) ∧
      t'.trainLoss[0]? = some (m.meanLoss eps t.loss N x y / N) := by
  have hB' : (if t.batchSize = 0 then N else min t.batchSize.toNat N) = N := by split <;> omega
  obtain ⟨w', t', seen, σ, net, h1, h2, h3⟩ := C108_divided h hk eps e hB' hl dvd_rfl
  refine ⟨w', t', seen, h1, ?_⟩
  rw [h3, List.getElem?_map, List.getElem?_range (by omega), Option.map_some, onlineMean_full (h2.order 0 (by omega)) h2.start]

example (eps : ℝ) (e : FitEnv) := C108_fit fitWitness_setup (k := .sgd) rfl eps e (B := 3) rfl

/-! ## C109 -/

theorem getD_map_range (v : Nat → ℝ) (a : ℝ) (E i : Nat) (hi : i < E) : (a :: (List.range E).map v).getD (i + 1) 0 = v i := by
  rw [List.getD_cons_succ, List.getD_eq_getElem?_getD, List.getElem?_map, List.getElem?_range hi]
  rfl

/-- C109, with validation data: keep-best never leaves a network that is worse than the original one, nor worse than that
after any of the epochs.  Missing: without validation data the claim is false, see `C109_wrong`. -/
theorem C109_validation_partial {w : World} {t : Trainer} {n b : Nat} {m : Mlp} {N D : Nat} {x y : Nat → Row} (h : FitSetup w t n b m N D x y)
    {k : OptKind} (hk : createOptimizer t.optName = some k) (hkb : t.keepBest = true) {M G : Nat} (hM : 0 < M) {u z : Nat → Row}
    (hz : TruthFits t.loss (m.width m.depth) G M z) (hv : t.valid = some (Mat.ofFn M (m.width 0) u, Mat.ofFn M G z)) (eps : ℝ) (e : FitEnv) :
    ∃ (w' : World) (t' : Trainer) (seen : List (List (Option Layer))) (σ : Nat → Nat → Nat) (net : Nat → Nat → Mlp) (j : Nat),
      fit (fun x => |x|) eps e w t n b = .ok (w', t', seen) ∧
      m.Run N (if t.batchSize = 0 then N else min t.batchSize.toNat N) t.epochs.toNat σ net ∧ j ≤ t.epochs.toNat ∧ Represents w' n (net j 0) ∧
      ((w.nets n).classif = false → ∀ i, i ≤ t.epochs.toNat →
        (net j 0).evalLoss eps t.loss t.valBatch.toNat M u z ≤ (net i 0).evalLoss eps t.loss t.valBatch.toNat M u z) ∧
      ((w.nets n).classif = true → ∀ i, i ≤ t.epochs.toNat → (net i 0).evalAcc M G u z ≤ (net j 0).evalAcc M G u z) := by
  obtain ⟨ψ, l1, -⟩ := lossOk_of_mem eps h.loss (h.net.ok.pos _ (Nat.le_refl m.depth)) D
  obtain ⟨w', t', seen, ms, r, v, l₀, a₀, j, h1, h2, h3, h4, h5, h6, h7, h8, ⟨h9, h10, -⟩, h11⟩ := fit_best_mlp h hk hkb e l1
  obtain ⟨σ, net, r1, r2, -, -⟩ := run_of_epochs h.net.ok h.loss h.truth h2 h3 h4
  obtain ⟨ls, as, v1, v2, v3⟩ := h6 _ hv
  rw [hv] at h7
  have e0 := EvalFact.eq h7 h.loss h.valBatch hM hz
  have ei : ∀ i, i < t.epochs.toNat → ls i = (ms (i + 1)).evalLoss eps t.loss t.valBatch.toNat M u z ∧ as i = (ms (i + 1)).evalAcc M G u z := by
    intro i hi
    have lk := h3 (i + 1) hi
    have := v3 i hi
    rw [← lk.width] at this
    exact EvalFact.eq this h.loss h.valBatch hM (by rw [lk.depth, lk.width]; exact hz)
  have hval : t'.valid.isSome = true := by rw [h8, hv]; rfl
  rw [adjustBatch_toNat h.batchSize]
  refine ⟨w', t', seen, σ, net, j, h1, r1, by omega, by rw [r2 j (by omega)]; exact h11, fun hc i hi => ?_, fun hc i hi => ?_⟩
  · have key : ∀ i, i ≤ t.epochs.toNat → (scoreOf (w.nets n).classif l₀ a₀ :: scoreList (w.nets n).classif t').getD i 0 =
        -(net i 0).evalLoss eps t.loss t.valBatch.toNat M u z := by
      intro i hi
      rw [hc, scoreList, if_neg (by decide), lossList, if_pos hval, v1, List.map_map, r2 i hi]
      cases i with
      | zero => rw [List.getD_cons_zero, scoreOf, if_neg (by decide), h2, e0.1]
      | succ i => rw [getD_map_range _ _ _ _ hi, Function.comp, (ei i hi).1]
    have := h10 i (by omega)
    beta_reduce at this
    rw [key i hi, key j (by omega)] at this
    linarith
  · have key : ∀ i, i ≤ t.epochs.toNat → (scoreOf (w.nets n).classif l₀ a₀ :: scoreList (w.nets n).classif t').getD i 0 =
        (net i 0).evalAcc M G u z := by
      intro i hi
      rw [hc, scoreList, if_pos rfl, accList, if_pos hval, v2, r2 i hi]
      cases i with
      | zero => rw [List.getD_cons_zero, scoreOf, if_pos rfl, h2, e0.2]
      | succ i => rw [getD_map_range _ _ _ _ hi, (ei i hi).2]
    have := h10 i (by omega)
    beta_reduce at this
    rwa [key i hi, key j (by omega)] at this

theorem nbBatches_one {N V : Nat} (hN : 0 < N) (h : N ≤ V) : nbBatches N V = 1 := by
  have a := (nbBatches_lt (n := N) (B := V) (k := 0) (by omega)).2 (by omega)
  have b : ¬ 1 < nbBatches N V := fun hc => by
    have := (nbBatches_lt (n := N) (B := V) (k := 1) (by omega)).1 hc
    omega
  omega

theorem evalLoss_mean {eps : ℝ} {s : String} (hs : s ∉ sumLosses) {m : Mlp} {N V : Nat} (hN : 0 < N) (h : N ≤ V) (x y : Nat → Row) :
    m.evalLoss eps s V N x y = m.meanLoss eps s N x y := by
  unfold Mlp.evalLoss Mlp.batchLoss Mlp.meanLoss
  rw [nbBatches_one hN h, range_one, sum_singleton, if_neg hs, show batchEnd N V 0 - batchStart V 0 = N by unfold batchEnd batchStart; omega]
  simp [batchStart]

/-- C109 is violated: in regression without validation data, with a single epoch that takes all samples (at least two) in one
batch, keep-best never keeps the original network if that has a positive loss: it leaves the network after the epoch, however bad. -/
theorem C109_never_original {w : World} {t : Trainer} {n b : Nat} {m : Mlp} {N D : Nat} {x y : Nat → Row} (h : FitSetup w t n b m N D x y)
    {k : OptKind} (hk : createOptimizer t.optName = some k) (hkb : t.keepBest = true) (hv : t.valid = none) (hc : (w.nets n).classif = false)
    (hE : t.epochs = 1) (hB : t.batchSize = 0) (hN : 2 ≤ N) (hV : (N : Int) ≤ t.valBatch) (hl : t.loss ∉ sumLosses) {eps : ℝ}
    (hp : 0 < m.meanLoss eps t.loss N x y) (e : FitEnv) {Γ : Row → Row → Row} (hlo : LossOk (fun x => |x|) eps t.loss (m.width m.depth) D Γ) :
    ∃ (w' : World) (t' : Trainer) (seen : List (List (Option Layer))) (σ : Nat → Nat) (m' : Mlp), fit (fun x => |x|) eps e w t n b = .ok (w', t', seen) ∧
      Represents w' n m' ∧ Mlp.Like m m' ∧ ((List.range N).map σ).Perm (List.range N) ∧
      (k = .sgd → GradStep Γ (if t.lr = -1 then 0.01 else t.lr) N (fun s => x (σ s)) (fun s => y (σ s)) m m') := by
  obtain ⟨w', t', seen, ms, r, v, l₀, a₀, j, h1, h2, h3, h4, h5, h6, h7, h8, ⟨h9, h10, -⟩, h11⟩ := fit_best_mlp h hk hkb e hlo
  obtain ⟨σ, net, r1, r2, r3, r4⟩ := run_of_epochs h.net.ok h.loss h.truth h2 h3 h4
  have hE' : t.epochs.toNat = 1 := by rw [hE]; rfl
  have hB' : (adjustBatch t.batchSize N).toNat = N := by rw [← adjustBatch_toNat h.batchSize, if_pos hB]
  have hnb : nbBatches N N = 1 := nbBatches_one h.samples le_rfl
  rw [hE'] at r1 r2 r3 r4 h5 h9 h10 h3
  rw [hB'] at r1 r3 r4
  rw [hv] at h7
  have e0 := (EvalFact.eq h7 h.loss h.valBatch h.samples h.truth).1
  rw [evalLoss_mean hl h.samples (by omega)] at e0
  have ev : v 0 = m.meanLoss eps t.loss N x y / N := by
    rw [r3 0 one_pos, reportedLoss_eq h.samples h.samples (r1.like 0 · one_pos) (.inr dvd_rfl), if_neg hl, onlineMean_full (r1.order 0 one_pos) r1.start]
  have hj : j = 1 := by
    by_contra hne
    obtain rfl : j = 0 := by omega
    have := h10 1 (by omega)
    beta_reduce at this
    rw [hc, scoreList, if_neg (by decide), lossList, if_neg (by rw [h8, hv]; decide), h5, List.map_map, getD_map_range _ _ _ _ one_pos,
      List.getD_cons_zero, scoreOf, if_neg (by decide), Function.comp, ev, e0] at this
    have hNr : (2 : ℝ) ≤ N := by exact_mod_cast hN
    have : m.meanLoss eps t.loss N x y / N < m.meanLoss eps t.loss N x y := by
      rw [div_lt_iff₀ (by linarith)]
      nlinarith
    linarith
  subst hj
  refine ⟨w', t', seen, σ 0, ms 1, h1, h11, h3 1 le_rfl, r1.order 0 one_pos, fun hS => ?_⟩
  have := r4 hS 0 0 one_pos (by omega)
  have hz : net 0 (0 + 1) = ms 1 := by
    rw [← r2 1 le_rfl, r1.next 0 one_pos, hnb]
  rw [hz, r1.start, show batchEnd N N 0 - batchStart N 0 = N by unfold batchEnd batchStart; omega] at this
  simpa [batchStart] using this

/-! ### A training that makes the network worse -/

/-- One input is multiplied by 1. -/
noncomputable def gainNet : Mlp := { depth := 1, width := fun _ => 1, ply := fun _ => { kind := .dot, weight := fun _ _ => 1 } }

/-- Network 0 is this network, for regression. -/
noncomputable def gainWorld : World :=
  { heap := [some { kind := .dot 1 1, weight := Mat.ofFn 1 1 (fun _ _ => 1), wInit := "GlorotUniform" }]
    nets := fun n => if n = 0 then { layers := [0], classif := false } else {} }

/-- Two samples 1 with truth 0, one epoch, learning rate 10, and the best network is to be kept. -/
noncomputable def gainTrainer : Trainer :=
  { optName := "SGD", lr := 10, epochs := 1, batchSize := 0, keepBest := true, train := some (Mat.ofFn 2 1 (fun _ _ => 1), Mat.ofFn 2 1 (fun _ _ => 0)) }

theorem gainWorld_represents : Represents gainWorld 0 gainNet where
  ok :=
    { depth := by decide
      pos := fun i _ => by simp [gainNet]
      fits := fun i hi => by simp [gainNet, PlyKind.Fits] }
  nodup := by simp [gainWorld]
  count := rfl
  layer := fun i a hi => by
    match i with
    | 0 =>
      obtain rfl : 0 = a := by simpa [gainWorld] using hi
      exact ⟨_, rfl, ⟨Mat.ofFn_WF .., rfl, rfl, rfl, rfl, rfl, rfl, rfl, rfl, rfl, rfl, rfl,
        fun m hm => absurd hm List.not_mem_nil, by simp [LayerKind.usesWeight], fun _ => rfl, fun _ => ⟨rfl, rfl, rfl⟩, trivial⟩,
        ⟨⟨1, 1, rfl⟩, fun _ => rfl, fun h => (by cases h)⟩, fun h => absurd h (by decide)⟩
    | i + 1 => simp [gainWorld] at hi

theorem gainTrainer_setup : FitSetup gainWorld gainTrainer 0 1 gainNet 2 1 (fun _ _ => 1) (fun _ _ => 0) where
  net := gainWorld_represents
  owned :=
    { live := fun n a ha => by
        by_cases hn : n = 0
        · rw [hn] at ha
          obtain rfl : a = 0 := by simpa [gainWorld] using ha
          exact ⟨_, rfl⟩
        · simp [gainWorld, hn] at ha
      nodup := fun n => by by_cases hn : n = 0 <;> simp [gainWorld, hn]
      disjoint := fun n k a ha hk => by
        by_cases hn : n = 0
        · by_cases hk' : k = 0
          · rw [hn, hk']
          · simp [gainWorld, hk'] at hk
        · simp [gainWorld, hn] at ha }
  slot := by decide
  fresh := rfl
  inOut := fun _ h => absurd h List.not_mem_nil
  gradient := fun _ h => absurd h List.not_mem_nil
  samples := by decide
  train := rfl
  truth := (distanceLosses_fits (by decide)).2 _ _ _
  valid := fun d h => by cases h
  valBatch := by decide
  batchSize := by decide
  loss := by decide
  reg := rfl
  balancing := rfl
  patience := .inl rfl

/-- Mean loss of such a network. -/
theorem gain_mean (eps : ℝ) {m : Mlp} (h : Mlp.Like gainNet m) :
    m.meanLoss eps "MeanSquaredError" 2 (fun _ _ => 1) (fun _ _ => 0) = (m.ply 0).weight 0 0 ^ 2 := by
  have ho : m.out (fun _ => 1) 0 = (m.ply 0).weight 0 0 := by
    rw [Mlp.out, h.depth]
    show (m.ply 0).apply (m.width 0) (fun _ => 1) 0 = _
    rw [h.width]
    unfold Ply.apply
    rw [h.kind]
    simp [gainNet]
  unfold Mlp.meanLoss sampleLoss
  rw [h.depth, h.width]
  simp [gainNet, ho, pointLoss, pow_two]

/-- C109 is violated: a network with mean loss 1 is trained with keep-best on two samples, and the network left has mean
loss 81 on the same two samples. -/
theorem C109_wrong (eps : ℝ) (e : FitEnv) :
    gainTrainer.keepBest = true ∧ FitSetup gainWorld gainTrainer 0 1 gainNet 2 1 (fun _ _ => 1) (fun _ _ => 0) ∧
    gainNet.meanLoss eps "MeanSquaredError" 2 (fun _ _ => 1) (fun _ _ => 0) = 1 ∧
    ∃ (w' : World) (t' : Trainer) (seen : List (List (Option Layer))) (m' : Mlp), fit (fun x => |x|) eps e gainWorld gainTrainer 0 1 = .ok (w', t', seen) ∧
      Represents w' 0 m' ∧ Mlp.Like gainNet m' ∧ m'.meanLoss eps "MeanSquaredError" 2 (fun _ _ => 1) (fun _ _ => 0) = 81 := by
  have h0 : gainNet.meanLoss eps "MeanSquaredError" 2 (fun _ _ => 1) (fun _ _ => 0) = 1 := by
    rw [gain_mean eps (Mlp.Like.refl _)]
    simp [gainNet]
  refine ⟨rfl, gainTrainer_setup, h0, ?_⟩
  obtain ⟨ψ, l1, l2⟩ := lossOk_of_mem eps (s := "MeanSquaredError") (by decide) (K := 1) one_pos 1
  have hψ : ψ 1 = 1 := by
    have d1 := l2 (by decide) 1 (fun h => absurd h (by decide))
    have d2 : HasDerivAt (pointError "MeanSquaredError" 1) 1 1 := by
      have := ((hasDerivAt_id (1 : ℝ)).pow 2).div_const 2
      have e : pointError "MeanSquaredError" 1 = fun z => (id z) ^ 2 / 2 := by
        funext z
        simp [pointError]
      rw [e]
      refine this.congr_deriv ?_
      simp
    exact d1.unique d2
  obtain ⟨w', t', seen, σ, m', c1, c2, c3, -, c5⟩ := C109_never_original gainTrainer_setup (k := .sgd) rfl rfl rfl rfl rfl rfl (by decide) (by decide)
    (by decide) (eps := eps) (by rw [show gainTrainer.loss = "MeanSquaredError" from rfl, h0]; exact one_pos) e l1
  refine ⟨w', t', seen, m', c1, c2, c3, ?_⟩
  have hw := c5 rfl false 0 one_pos rfl
  have hw' : (m'.ply 0).weight 0 0 = -9 := by
    have hp : (m'.ply 0).par false = (m'.ply 0).weight := rfl
    rw [← hp, hw]
    have ho : gainNet.out (fun _ => 1) 0 = 1 := by simp [gainNet, Mlp.out, Mlp.hidden, Ply.apply]
    have hg : (lossGrad eps gainTrainer.loss ψ (gainNet.out fun _ => 1) fun _ => 0) 0 = 1 := by
      simp [lossGrad, gainTrainer, ho, hψ]
    have hr : gainNet.rate 2 false 0 = 1 := by simp [Mlp.rate, gainNet, PlyKind.parRate]
    have hl : (if gainTrainer.lr = -1 then (0.01 : ℝ) else gainTrainer.lr) = 10 := by
      simp only [gainTrainer]
      norm_num
    have hc : gainNet.codeGrad 2 (fun _ _ => 1) (fun _ => lossGrad eps "MeanSquaredError" ψ (gainNet.out fun _ => 1) fun _ => 0) false 0 0 0 = 1 := by
      have : gainNet.grad 2 (fun _ _ => 1) (fun _ => lossGrad eps "MeanSquaredError" ψ (gainNet.out fun _ => 1) fun _ => 0) false 0 0 0 =
          (∑ _s ∈ range 2, (1 : ℝ) * (lossGrad eps gainTrainer.loss ψ (gainNet.out fun _ => 1) fun _ => 0) 0) / (2 : Nat) := rfl
      show gainNet.rate 2 false 0 * gainNet.grad 2 _ _ false 0 0 0 = 1
      rw [hr, this, hg]
      norm_num
    show (1 : ℝ) - (if gainTrainer.lr = -1 then (0.01 : ℝ) else gainTrainer.lr) * gainNet.codeGrad 2 _ _ false 0 0 0 = -9
    rw [hl]
    erw [hc]
    norm_num
  rw [gain_mean eps c3, hw']
  norm_num

/-- The same with two batches of one sample. -/
theorem gainTrainer_setup_small : FitSetup gainWorld { gainTrainer with batchSize := 1 } 0 1 gainNet 2 1 (fun _ _ => 1) (fun _ _ => 0) :=
  { gainTrainer_setup with batchSize := by decide }

/-- The same with the samples as validation data. -/
theorem gainTrainer_setup_valid : FitSetup gainWorld { gainTrainer with valid := some (Mat.ofFn 2 1 (fun _ _ => 1), Mat.ofFn 2 1 (fun _ _ => 0)) }
    0 1 gainNet 2 1 (fun _ _ => 1) (fun _ _ => 0) :=
  { gainTrainer_setup with
    valid := fun d h => by
      obtain rfl := Option.some.inj h
      exact ⟨2, 1, _, _, by decide, gainTrainer_setup.truth, rfl⟩ }

example (eps : ℝ) (e : FitEnv) := C108_mean_partial gainTrainer_setup_small (k := .sgd) rfl eps e (B := 1) rfl (.inr rfl)

example (eps : ℝ) (e : FitEnv) := C108_divided gainTrainer_setup (k := .sgd) rfl eps e (B := 2) rfl (by decide) (by decide)

example (eps : ℝ) (e : FitEnv) := C108_wrong gainTrainer_setup (k := .sgd) rfl eps e (.inl rfl) (by decide) (by decide)

example (eps : ℝ) (e : FitEnv) := C109_validation_partial gainTrainer_setup_valid (k := .sgd) rfl rfl (M := 2) (G := 1) (by decide)
  gainTrainer_setup.truth rfl eps e

end BeeDNN
