import Verif.Lemmas.Balanced
import Verif.Props.RegTrain
import Verif.Props.Reported

/-! # Training with class balancing: C130 -/

namespace BeeDNN
open Finset Trainer

/-- What class balancing needs: a network in classification mode with one output, one of the nine distance losses, and labels `cls i`, the largest of which
is `K - 1`, as truths.  Labels for validation must not be larger. -/
structure BalancedData (w : World) (t : Trainer) (n : Nat) (m : Mlp) (N K : Nat) (cls : Nat → Nat) (y : Nat → Row) : Prop where
  classif : (w.nets n).classif = true
  width : m.width m.depth = 1
  loss : t.loss ∈ distanceLosses
  label : ∀ i, i < N → y i 0 = cls i
  small : ∀ i, i < N → cls i < K
  largest : ∃ i, i < N ∧ cls i + 1 = K
  bound : K ≤ 2147483647
  valid : ∀ d, t.valid = some d → ∃ (M : Nat) (u v : Nat → Row) (c : Nat → Nat), 0 < M ∧ d = (Mat.ofFn M (m.width 0) u, Mat.ofFn M 1 v) ∧
    ∀ i, i < M → v i 0 = c i ∧ c i < K

/-- The weight of a sample with label `y 0`, when `N` samples have the labels `cls` below `K`. -/
noncomputable def labelWeight (N K : Nat) (cls : Nat → Nat) (y : Row) : ℝ := N / (K * classCount N cls ⌊y 0⌋₊)

section
variable {w : World} {t : Trainer} {n b : Nat} {m : Mlp} {N D : Nat} {x y : Nat → Row}

/-- `fit` with class balancing; `ok` is what is known of the samples. -/
theorem fit_balanced_training (h : FitSetup w t n b m N D x y) {K : Nat} {cls : Nat → Nat} (hb : BalancedData w t n m N K cls y) (r : Option Reg)
    {k : OptKind} (hk : createOptimizer t.optName = some k) (hre : t.reboostEvery = -1) {eps : ℝ} (heps : 0 < eps) (e : FitEnv)
    {ok : Mlp → Row → Row → Prop} (hok : ∀ (m₁ : Mlp) (v : Row) (j : Nat), Mlp.Like m m₁ → j < N → ok m₁ v (y j) → m₁.Regular eps t.loss v (y j)) :
    ∃ (w' : World) (t' : Trainer) (seen : List (List (Option Layer))) (ms : Nat → Nat → Mlp) (j : Nat),
      fit (fun x => |x|) eps e w { t with balancing := true, reg := r } n b = .ok (w', t', seen) ∧
      Mlp.TrainingBy r (Mlp.IsWeightedDrive (labelWeight N K cls) ok t.loss) k (bookSettings t.optName t.lr t.mom t.decay) N
        (if t.batchSize = 0 then N else min t.batchSize.toNat N) t.epochs.toNat x y m ms ∧
      Represents w' n (ms j 0) ∧ j ≤ t.epochs.toNat ∧ (t.keepBest = false → j = t.epochs.toNat) := by
  obtain rfl : D = 1 := by
    rw [← hb.width]
    exact (h.truth.same (by rintro h; have := hb.loss; rw [h] at this; exact absurd this (by decide))).1
  have hK : 0 < K := lt_of_le_of_lt (Nat.zero_le _) (hb.small 0 h.samples)
  obtain ⟨W, hW⟩ : ∃ W : Nat → Nat → ℝ, W = fun k _ => if classCount N cls k = 0 then e.div0 else (N : ℝ) / (K * classCount N cls k) := ⟨_, rfl⟩
  have hw : ∀ j, j < N → W ⌊y j 0⌋₊ 0 = labelWeight N K cls (y j) := by
    intro j hj
    have hne : classCount N cls (cls j) ≠ 0 := (classCount_pos.2 ⟨j, hj, rfl⟩).ne'
    rw [hW, labelWeight, hb.label j hj, Nat.floor_natCast]
    exact if_neg hne
  obtain ⟨ψ, l1, l2⟩ := lossOk_classes eps hb.loss hK (by have := hb.bound; omega) W
  rw [← hb.width] at l2
  obtain ⟨w', t', seen, ms, mems, mids, j, h1, h2, h3, h4, h5, h6, h7, h8⟩ := fit_rule_boost_w (e := e) (t := { t with balancing := true, reg := r })
    (ω := .classes K W) h.net h.owned h.slot h.fresh h.inOut h.gradient hk h.samples x y h.train
    ⟨hb.loss, hb.width, rfl, h.samples, cls, fun i hi => ⟨hb.label i hi, hb.small i hi⟩⟩
    (fun d hd => by
      obtain ⟨M, u, v, c, c1, rfl, c2⟩ := hb.valid d hd
      exact ⟨M, 1, u, v, c1, ⟨hb.loss, hb.width, rfl, c1, c, c2⟩, rfl⟩) h.valBatch h.batchSize
    ⟨_, by
      show classWeights e.g e.div0 (w.nets n).classif true t.train = _
      rw [hb.classif, h.train]
      exact C56_label_weights e.g e.div0 hb.bound _ y cls hb.label hb.small hb.largest, by rw [hW]; rfl⟩
    h.patience (evalOk_classes eps _ hK (by have := hb.bound; omega) W _) (by rw [hb.width]; exact l1)
  obtain ⟨b1, b2⟩ := started_book hk e.g t.lr t.decay t.mom
  have wf0 : ((Opt.new k : Opt ℝ).setParams e.g t.lr t.decay t.mom).WF :=
    Opt.init_WF e.g (o := { (Opt.new k : Opt ℝ) with lr := t.lr, decay := t.decay, mom := t.mom }) ⟨Mat.WF_empty, Mat.WF_empty, Mat.WF_empty⟩
  have hr : ∀ i, i < t.epochs.toNat → EpochRule r (fun x => |x|) (fun p y j => lossGrad eps t.loss ψ p y j * W ⌊y 0⌋₊ 0) N
      (adjustBatch t.batchSize N).toNat x y (ms i) (ms (i + 1)) (mems i) (mems (i + 1)) := by
    intro i hi
    obtain ⟨a1, a2⟩ := h8 i hi
    rw [a2, if_neg fun h => h.1 hre]
    exact a1
  obtain ⟨M, c1, c2, -⟩ := training_of_rules_by (kd := k) (hy := bookSettings t.optName t.lr t.mom t.decay) h.nbBatches_pos h2
    (fun b l _ _ => by rw [h7]; exact ⟨Opt.init_WF e.g wf0, Opt.init_fresh e.g wf0, b1, b2⟩) h3 hr
    (drive := Mlp.IsWeightedDrive (labelWeight N K cls) ok t.loss) (fun m₁ N' x' y' lk hsub hreg bb i hi hb' => by
      refine ⟨_, Mlp.grad_weightedError (lk.ok h.net.ok) heps hb.loss (ψ := ψ) (by rw [lk.depth, lk.width]; exact l2) (labelWeight N K cls) N' x' y'
        (fun i hi => ?_) bb hi hb', fun p q => ?_⟩
      · obtain ⟨j, j1, -, j2⟩ := hsub i hi
        have := hreg i hi
        rw [j2] at this ⊢
        exact hok m₁ _ j lk j1 this
      · show m₁.rate N' bb i * m₁.grad N' x' (fun s j => lossGrad eps t.loss ψ (m₁.out (x' s)) (y' s) j * W ⌊y' s 0⌋₊ 0) bb i p q =
          m₁.rate N' bb i * m₁.grad N' x' (fun s j => lossGrad eps t.loss ψ (m₁.out (x' s)) (y' s) j * labelWeight N K cls (y' s)) bb i p q
        unfold Mlp.grad
        congr 2
        refine sum_congr rfl fun s hs => ?_
        obtain ⟨j, j1, -, j2⟩ := hsub s (mem_range.1 hs)
        dsimp only
        rw [j2, hw j j1])
  rw [← adjustBatch_toNat h.batchSize] at c1
  exact ⟨w', t', seen, M, j, h1, c1, by rw [c2 j h4]; exact h6, h4, h5⟩

/-- C130: with class balancing, `fit` of any network of the fifteen kinds of layers with one output, in classification mode, with
any of the nine distance losses, any of the fifteen optimizers and any regularizer, runs to the end without fault and trains by the rule of the
optimizer, where the gradients are those of the weighted error: every sample counts `N / (K * count)` times, if `count` of the `N`
samples have its label, and the labels are below `K`.  The weights are those of all the data in every batch. -/
theorem C130_fit (h : FitSetup w t n b m N D x y) {K : Nat} {cls : Nat → Nat} (hb : BalancedData w t n m N K cls y) {r : Option Reg} (_hr : RegFits r)
    {k : OptKind} (hk : createOptimizer t.optName = some k) (hre : t.reboostEvery = -1) {eps : ℝ} (heps : 0 < eps) (e : FitEnv) :
    ∃ (w' : World) (t' : Trainer) (seen : List (List (Option Layer))) (ms : Nat → Nat → Mlp) (j : Nat),
      fit (fun x => |x|) eps e w { t with balancing := true, reg := r } n b = .ok (w', t', seen) ∧
      Mlp.TrainingBy r (Mlp.IsWeightedDrive (labelWeight N K cls) (fun m => m.Regular eps t.loss) t.loss) k (bookSettings t.optName t.lr t.mom t.decay) N
        (if t.batchSize = 0 then N else min t.batchSize.toNat N) t.epochs.toNat x y m ms ∧
      Represents w' n (ms j 0) ∧ j ≤ t.epochs.toNat ∧ (t.keepBest = false → j = t.epochs.toNat) :=
  fit_balanced_training h hb r hk hre heps e fun _ _ _ _ _ h => h

/-- C130: with smooth activations and a loss without kink nothing is asked of the samples. -/
theorem C130_smooth (h : FitSetup w t n b m N D x y) {K : Nat} {cls : Nat → Nat} (hb : BalancedData w t n m N K cls y) {r : Option Reg} (_hr : RegFits r)
    {k : OptKind} (hk : createOptimizer t.optName = some k) (hre : t.reboostEvery = -1) (hm : m.Smooth) (hkink : t.loss ∉ kinkAtZero)
    {eps : ℝ} (heps : 0 < eps) (e : FitEnv) :
    ∃ (w' : World) (t' : Trainer) (seen : List (List (Option Layer))) (ms : Nat → Nat → Mlp) (j : Nat),
      fit (fun x => |x|) eps e w { t with balancing := true, reg := r } n b = .ok (w', t', seen) ∧
      Mlp.TrainingBy r (Mlp.IsWeightedDrive (labelWeight N K cls) (fun _ _ _ => True) t.loss) k (bookSettings t.optName t.lr t.mom t.decay) N
        (if t.batchSize = 0 then N else min t.batchSize.toNat N) t.epochs.toNat x y m ms ∧
      Represents w' n (ms j 0) ∧ j ≤ t.epochs.toNat ∧ (t.keepBest = false → j = t.epochs.toNat) :=
  fit_balanced_training h hb r hk hre heps e (ok := fun _ _ _ => True) (fun m₁ v j lk _ _ => by
    have hl := hb.loss
    rw [Mlp.Regular, if_neg (by rintro (h | h) <;> rw [h] at hl <;> exact absurd hl (by decide))]
    exact ⟨(hm.like lk).at _, fun h => absurd (by simpa [kinkAtZero] using h) hkink, fun h => by rw [h] at hl; exact absurd hl (by decide)⟩)

/-- C130: over all the data, the weighted error is the mean over the classes of the mean error in each class, however many samples the classes have.
(A class without samples counts nothing.) -/
theorem C130_class_mean (m : Mlp) (loss : String) {N K : Nat} {cls : Nat → Nat} {x y : Nat → Row} (hy : ∀ i, i < N → y i 0 = cls i) (hc : ∀ i, i < N → cls i < K) :
    m.weightedError (labelWeight N K cls) loss N x y = (∑ k ∈ range K with 0 < classCount N cls k, m.classError cls k loss N x y) / K := by
  rcases Nat.eq_zero_or_pos N with rfl | hN
  · have : ∀ k, classCount 0 cls k = 0 := fun k => by simp [classCount]
    simp [Mlp.weightedError, this]
  have hN' : (N : ℝ) ≠ 0 := by positivity
  unfold Mlp.weightedError
  have e1 : ∑ s ∈ range N, labelWeight N K cls (y s) * sampleError loss (m.width m.depth) (m.out (x s)) (y s) =
      ∑ k ∈ range K, ∑ s ∈ range N with cls s = k, labelWeight N K cls (y s) * sampleError loss (m.width m.depth) (m.out (x s)) (y s) :=
    (sum_fiberwise_of_maps_to (fun s hs => mem_range.2 (hc s (mem_range.1 hs))) _).symm
  have e2 : ∀ k, ∑ s ∈ range N with cls s = k, labelWeight N K cls (y s) * sampleError loss (m.width m.depth) (m.out (x s)) (y s) =
      if 0 < classCount N cls k then N / K * m.classError cls k loss N x y else 0 := by
    intro k
    split
    · rename_i hk
      rw [Mlp.classError, mul_div_assoc', mul_sum, sum_div]
      refine sum_congr rfl fun s hs => ?_
      obtain ⟨s1, s2⟩ := mem_filter.1 hs
      rw [labelWeight, hy s (mem_range.1 s1), Nat.floor_natCast, s2, div_mul_eq_div_div]
      ring
    · rename_i hk
      rw [classCount, card_pos, not_nonempty_iff_eq_empty] at hk
      rw [hk, sum_empty]
  rw [e1, sum_congr rfl fun k _ => e2 k, sum_filter, mul_sum, sum_div]
  refine sum_congr rfl fun k _ => ?_
  split
  · field_simp
  · simp

/-- C130: with plain gradient descent and no regularizer, every batch is a step of gradient descent for the weighted error on the batch. -/
theorem C130_descends {κ : Row → ℝ} {ok : Mlp → Row → Row → Prop} {loss : String} {hy : Hyper ℝ} {B E : Nat} {ms : Nat → Nat → Mlp}
    (ht : Mlp.TrainingBy none (Mlp.IsWeightedDrive κ ok loss) .sgd hy N B E x y m ms) (hx : m.Exact) :
    ∃ σ : Nat → Nat → Nat, (∀ i, i < E → ((List.range N).map (σ i)).Perm (List.range N)) ∧ ∀ i j, i < E → j < nbBatches N B →
      (∀ s, s < batchEnd N B j - batchStart B j → ok (ms i j) (x (σ i (batchStart B j + s))) (y (σ i (batchStart B j + s)))) →
      Mlp.DescendsOn (fun m' => m'.weightedError κ loss (batchEnd N B j - batchStart B j) (fun s => x (σ i (batchStart B j + s)))
        (fun s => y (σ i (batchStart B j + s)))) hy.lr (ms i j) (ms i (j + 1)) := by
  obtain ⟨σ, d, d', h1, h2, h3, h4⟩ := ht.rule
  refine ⟨σ, h1, fun i j hi hj hok => ?_⟩
  have lk := ht.like i j (.inl ⟨hi, hj.le⟩)
  have lk' := ht.like i (j + 1) (.inl ⟨hi, hj⟩)
  refine ⟨⟨lk'.depth.trans lk.depth.symm, lk'.width.trans lk.width.symm, fun l => (lk'.kind l).trans (lk.kind l).symm⟩, fun b l hl hb => ?_⟩
  obtain ⟨G, g1, g2⟩ := h2 i j hi hj hok b l hl hb
  refine ⟨G, g1, fun p q hp hq => ?_⟩
  have hs : (ms i j).shape b l = m.shape b l := by
    unfold Mlp.shape
    rw [lk.kind, lk.width]
  have hl' : l < m.depth := lk.depth ▸ hl
  have hb' : (m.ply l).has b = true := by
    unfold Ply.has at hb ⊢
    rw [← lk.kind]
    exact hb
  rw [hs] at hp hq
  have e1 : d' (i * nbBatches N B + j) b l p q = G p q := by
    rw [h3 i j hi hj b l, show regGrad none (m.shape b l).1 (m.shape b l).2 (((ms i j).ply l).par b) (d (i * nbBatches N B + j) b l) p q =
      d (i * nbBatches N B + j) b l p q from rfl, g2, (hx.like lk).rate _ b hl, one_mul]
  rw [← e1, h4 i (j + 1) (.inl ⟨hi, hj⟩) b l hl' hb' p q hp hq, h4 i j (.inl ⟨hi, hj.le⟩) b l hl' hb' p q hp hq]
  rfl

/-- C130: with all samples in one batch, every epoch is a step of gradient descent for the mean over the classes of the mean error in each class. -/
theorem C130_class_mean_descends {K : Nat} {cls : Nat → Nat} {ok : Mlp → Row → Row → Prop} {loss : String} {hy : Hyper ℝ} {E : Nat} {ms : Nat → Nat → Mlp}
    (hN : 0 < N) (hy' : ∀ i, i < N → y i 0 = cls i) (hc : ∀ i, i < N → cls i < K)
    (ht : Mlp.TrainingBy none (Mlp.IsWeightedDrive (labelWeight N K cls) ok loss) .sgd hy N N E x y m ms) (hx : m.Exact)
    {i : Nat} (hi : i < E) (hok : ∀ s, s < N → ok (ms i 0) (x s) (y s)) :
    Mlp.DescendsOn (fun m' => (∑ k ∈ range K with 0 < classCount N cls k, m'.classError cls k loss N x y) / K) hy.lr (ms i 0) (ms (i + 1) 0) := by
  obtain ⟨σ, h1, h2⟩ := C130_descends ht hx
  have hnb : nbBatches N N = 1 := nbBatches_one hN le_rfl
  have hs : batchStart N 0 = 0 := Nat.zero_mul _
  have he : batchEnd N N 0 = N := by simp [batchEnd, batchStart]
  have := h2 i 0 hi (by omega) (by
    rw [hs, he]
    intro s hs
    rw [Nat.zero_add]
    exact hok _ (perm_lt (h1 i hi) (by omega)))
  rw [ht.next i hi, hnb]
  rw [hs, he, Nat.sub_zero] at this
  simp only [Nat.zero_add] at this
  have e : (fun m' : Mlp => (∑ k ∈ range K with 0 < classCount N cls k, m'.classError cls k loss N x y) / (K : ℝ)) =
      fun m' : Mlp => m'.weightedError (labelWeight N K cls) loss N (fun s => x (σ i s)) (fun s => y (σ i s)) := by
    funext m'
    rw [← C130_class_mean m' loss hy' hc]
    unfold Mlp.weightedError
    rw [perm_sum (h1 i hi) fun s => labelWeight N K cls (y s) * sampleError loss (m'.width m'.depth) (m'.out (x s)) (y s)]
  rw [e]
  exact this

/-- C130: with the cross entropies class balancing has no effect: `fit` trains as without it, whatever the class weights are. -/
theorem C130_cross_entropy (h : FitSetup w t n b m N D x y) (hl : t.loss ∉ distanceLosses) {r : Option Reg} (_hr : RegFits r)
    {k : OptKind} (hk : createOptimizer t.optName = some k) (hre : t.reboostEvery = -1) {eps : ℝ} (heps : 0 < eps) (e : FitEnv)
    (hcw : ∃ cw, classWeights e.g e.div0 (w.nets n).classif true t.train = .ok cw) :
    ∃ (w' : World) (t' : Trainer) (seen : List (List (Option Layer))) (ms : Nat → Nat → Mlp) (j : Nat),
      fit (fun x => |x|) eps e w { t with balancing := true, reg := r } n b = .ok (w', t', seen) ∧
      Mlp.RegTraining r (fun m => m.Regular eps t.loss) t.loss k (bookSettings t.optName t.lr t.mom t.decay) N
        (if t.batchSize = 0 then N else min t.batchSize.toNat N) t.epochs.toNat x y m ms ∧
      Represents w' n (ms j 0) ∧ j ≤ t.epochs.toNat ∧ (t.keepBest = false → j = t.epochs.toNat) := by
  obtain ⟨cw, hcw⟩ := hcw
  have l1 := lossOk_ignored eps h.loss (h.net.ok.pos _ (Nat.le_refl m.depth)) D (fun _ => 0)
  obtain ⟨w', t', seen, ms, mems, mids, j, h1, h2, h3, h4, h5, h6, h7, h8⟩ := fit_rule_boost_w (e := e) (t := { t with balancing := true, reg := r })
    (ω := .ignored) h.net h.owned h.slot h.fresh h.inOut h.gradient hk h.samples x y h.train ⟨hl, h.truth⟩
    (fun d hd => by
      obtain ⟨M, E, u, v, c1, c2, rfl⟩ := h.valid d hd
      exact ⟨M, E, u, v, c1, ⟨hl, c2⟩, rfl⟩) h.valBatch h.batchSize
    ⟨cw, hcw, trivial⟩ h.patience (evalOk_ignored eps _ h.loss _) l1
  obtain ⟨b1, b2⟩ := started_book hk e.g t.lr t.decay t.mom
  have wf0 : ((Opt.new k : Opt ℝ).setParams e.g t.lr t.decay t.mom).WF :=
    Opt.init_WF e.g (o := { (Opt.new k : Opt ℝ) with lr := t.lr, decay := t.decay, mom := t.mom }) ⟨Mat.WF_empty, Mat.WF_empty, Mat.WF_empty⟩
  have hr : ∀ i, i < t.epochs.toNat → EpochRule r (fun x => |x|) (lossGrad eps t.loss fun _ => 0) N
      (adjustBatch t.batchSize N).toNat x y (ms i) (ms (i + 1)) (mems i) (mems (i + 1)) := by
    intro i hi
    obtain ⟨a1, a2⟩ := h8 i hi
    rw [a2, if_neg fun h => h.1 hre]
    exact a1
  obtain ⟨M, c1, c2, -⟩ := training_of_rules_from (kd := k) (hy := bookSettings t.optName t.lr t.mom t.decay) h.nbBatches_pos h2
    (fun b l _ _ => by rw [h7]; exact ⟨Opt.init_WF e.g wf0, Opt.init_fresh e.g wf0, b1, b2⟩) h3 hr
    (ok := fun m => m.Regular eps t.loss) (loss := t.loss) (fun m₁ N' x' y' lk hsub hreg bb i hi hb => ⟨_, Mlp.grad_error (lk.ok h.net.ok) heps h.loss (ψ := fun _ => 0)
      (fun h => absurd h hl) _ _ _ (D := D) (by rw [lk.depth, lk.width]; exact h.truth.sub fun i hi => (hsub i hi).imp fun j hj => ⟨hj.1, hj.2.2⟩)
      hreg bb hi hb, fun p q => rfl⟩)
  rw [← adjustBatch_toNat h.batchSize] at c1
  exact ⟨w', t', seen, M, j, h1, c1, by rw [c2 j h4]; exact h6, h4, h5⟩

/-- C130: truths of several columns (one per class) are balanced with wrong weights: the gradients of sample `i` are multiplied with the weight of class 0 or of class 1,
depending on the `i`-th number of the truths counted through all rows, so never with that of class 2. -/
theorem C130_columns (g : Nat → ℝ) (eps : ℝ) {loss : String} (hl : loss ∈ distanceLosses) {K : Nat} (hK : 2 ≤ K) (hK2 : K ≤ 2147483648) (cls : Nat → Nat)
    (W : Nat → Nat → ℝ) (P : Nat → Row) {o : Mat ℝ} (ho : o.WF) (N : Nat) :
    ∃ (ℓ : LossFn) (ψ : Nat → ℝ → ℝ), createLoss g (fun x => |x|) eps loss = some ℓ ∧
      (∀ w : Mat ℝ, w.size = 0 → ℓ.gradient w (Mat.ofFn N K P) (Mat.ofFn N K fun i k => if cls i = k then 1 else 0) o =
        .ok (Mat.ofFn N K fun i j => ψ K (P i j - if cls i = j then 1 else 0))) ∧
      ℓ.gradient (Mat.ofFn K 1 W) (Mat.ofFn N K P) (Mat.ofFn N K fun i k => if cls i = k then 1 else 0) o =
        .ok (Mat.ofFn N K fun i j => ψ K (P i j - if cls i = j then 1 else 0) * W (if cls (i / K) = i % K then 1 else 0) 0) := by
  obtain ⟨ψ, d1, -⟩ := diffLoss_of_mem eps loss hl
  obtain ⟨ℓ, red, φ, c1, c2⟩ := d1 g
  refine ⟨ℓ, ψ, c1, fun w hw => c2.gradient N K _ _ w o hw ho, c2.balanced N K K _ _ W o ho (by omega) hK2 (fun i => if cls (i / K) = i % K then 1 else 0) ?_ ?_⟩
  · intro i hi
    rw [Mat.getI_ofFn (lt_of_lt_of_le hi (Nat.le_mul_of_pos_right N (by omega)))]
    split <;> simp
  · intro i _
    split <;> omega

end

/-! ## A witness -/

/-- Four samples, one of class 0 and three of class 1. -/
noncomputable def balTrainer : Trainer :=
  { fitWitness with train := some (Mat.ofFn 4 2 (fun i j => (i : ℝ) + j), Mat.ofFn 4 1 (fun i _ => ((min i 1 : Nat) : ℝ))) }

theorem balTrainer_setup (o : String) (B : Int) (hB : 0 ≤ B) :
    FitSetup mlpWorld { balTrainer with optName := o, batchSize := B } 0 1 mlpWitness 4 1 (fun i j => (i : ℝ) + j) (fun i _ => ((min i 1 : Nat) : ℝ)) :=
  { fitWitness_setup with
    train := rfl
    truth := (distanceLosses_fits (s := "MeanSquaredError") (by decide)).2 _ _ _
    batchSize := hB }

theorem balTrainer_balanced (o : String) (B : Int) :
    BalancedData mlpWorld { balTrainer with optName := o, batchSize := B } 0 mlpWitness 4 2 (fun i => min i 1) (fun i _ => ((min i 1 : Nat) : ℝ)) where
  classif := rfl
  width := rfl
  loss := show "MeanSquaredError" ∈ distanceLosses by decide
  label := fun _ _ => rfl
  small := fun i _ => by omega
  largest := ⟨1, by decide, rfl⟩
  bound := by decide
  valid := fun d h => by cases h

example {eps : ℝ} (heps : 0 < eps) (e : FitEnv) := C130_fit (balTrainer_setup "Adam" 3 (by decide)) (balTrainer_balanced "Adam" 3) (r := some ⟨.l2, 1 / 100⟩) trivial
  (k := .adam) rfl rfl heps e

/-- The weights differ: the one sample of class 0 counts three times as much. -/
example : labelWeight 4 2 (fun i => min i 1) (fun _ => 0) = 3 * labelWeight 4 2 (fun i => min i 1) (fun _ => 1) := by
  have h0 : classCount 4 (fun i => min i 1) 0 = 1 := by decide
  have h1 : classCount 4 (fun i => min i 1) 1 = 3 := by decide
  simp only [labelWeight, Nat.floor_zero, Nat.floor_one, h0, h1]
  norm_num

/-- The training that the other theorems speak of. -/
theorem balTraining_exists (B : Int) (hB : 0 ≤ B) (e : FitEnv) :
    ∃ ms, Mlp.TrainingBy none (Mlp.IsWeightedDrive (labelWeight 4 2 fun i => min i 1) (fun _ _ _ => True) "MeanSquaredError") .sgd (bookSettings "SGD" (-1) (-1) (-1)) 4
      (if B = 0 then 4 else min B.toNat 4) 10 (fun i j => (i : ℝ) + j) (fun i _ => ((min i 1 : Nat) : ℝ)) mlpWitness ms := by
  obtain ⟨w', t', seen, ms, j, -, h2, -⟩ := C130_smooth (balTrainer_setup "SGD" B hB) (balTrainer_balanced "SGD" B) (r := none) trivial (k := .sgd) rfl rfl
    mlpWitness_smooth (show "MeanSquaredError" ∉ kinkAtZero by decide) one_pos e
  exact ⟨ms, h2⟩

example (e : FitEnv) :=
  have h := (balTraining_exists 3 (by decide) e).choose_spec
  C130_descends h mlpWitness_exact

example (e : FitEnv) :=
  have h := (balTraining_exists 0 (by decide) e).choose_spec
  C130_class_mean_descends (by decide) (balTrainer_balanced "SGD" 0).label (balTrainer_balanced "SGD" 0).small h mlpWitness_exact (i := 9) (by decide) fun _ _ => trivial

example (x : Nat → Row) := C130_class_mean mlpWitness "MeanSquaredError" (x := x) (y := fun i _ => ((min i 1 : Nat) : ℝ)) (balTrainer_balanced "SGD" 0).label
  (balTrainer_balanced "SGD" 0).small

example {eps : ℝ} (heps : 0 < eps) (e : FitEnv) := C130_cross_entropy clsTrainer_setup (by decide) (r := none) trivial (k := .sgd) rfl rfl heps e
  ⟨_, C56_label_weights (N := 4) (K := 2) e.g e.div0 (by decide) _ _ (fun _ => 1) (fun _ _ => by simp) (by decide) ⟨0, by decide, rfl⟩⟩

/-- Three samples of the classes 2, 1 and 0: the first is given the weight of class 0. -/
example (g : Nat → ℝ) (eps : ℝ) (W : Nat → Nat → ℝ) (P : Nat → Row) :=
  C130_columns g eps (loss := "MeanSquaredError") (by decide) (K := 3) (by decide) (by decide) (fun i => 2 - i) W P Mat.WF_empty 3

end BeeDNN
