import Verif.Lemmas.MlpRun
import Verif.Props.Mlp
import Verif.Lemmas.TrainRange
import Verif.Spec.MlpFit

/-! # `fit` on perceptrons: C92; accuracies of the training: C55 -/

namespace BeeDNN
open Finset Trainer

/-- What the caller of `fit` has to provide: network `n` is the feed-forward network `m`, `b` is the new network `bestNet`, the
trainer has `N` samples `x` with truths `y` of `D` entries that fit the loss, validation data do so too, and the settings are in range. -/
structure FitSetup (w : World) (t : Trainer) (n b : Nat) (m : Mlp) (N D : Nat) (x y : Nat → Row) : Prop where
  net : Represents w n m
  owned : Owned w
  slot : b ≠ n
  fresh : (w.nets b).layers = []
  inOut : ∀ a ∈ t.inOut, a.WF
  gradient : ∀ a ∈ t.gradient, a.WF
  samples : 0 < N
  train : t.train = some (Mat.ofFn N (m.width 0) x, Mat.ofFn N D y)
  truth : TruthFits t.loss (m.width m.depth) D N y
  valid : ∀ d, t.valid = some d → ∃ (M E : Nat) (u v : Nat → Row), 0 < M ∧ TruthFits t.loss (m.width m.depth) E M v ∧
    d = (Mat.ofFn M (m.width 0) u, Mat.ofFn M E v)
  valBatch : 0 < t.valBatch
  batchSize : 0 ≤ t.batchSize
  loss : t.loss ∈ listLoss
  reg : t.reg = none
  balancing : t.balancing = false
  patience : t.patience = -1 ∨ t.epochs ≤ t.patience

/-- C92: with every optimizer of the library, `fit` runs a perceptron to the end: no assertion fails, no memory access is
out of bounds or to a deleted layer.  The result is a perceptron of the same shape, and the callback was called once per epoch. -/
theorem C92_fit_runs {w : World} {t : Trainer} {n b : Nat} {m : Mlp} {N D : Nat} {x y : Nat → Row} (h : FitSetup w t n b m N D x y)
    {k : OptKind} (hk : createOptimizer t.optName = some k) (eps : ℝ) (e : FitEnv) :
    ∃ (w' : World) (t' : Trainer) (seen : List (List (Option Layer))) (m' : Mlp), fit (fun x => |x|) eps e w t n b = .ok (w', t', seen) ∧
      Represents w' n m' ∧ Mlp.Like m m' ∧ Owned w' ∧ seen.length = t.epochs.toNat := by
  obtain ⟨ψ, l1, -⟩ := lossOk_of_mem eps h.loss (h.net.ok.pos _ (Nat.le_refl m.depth)) D
  obtain ⟨w', t', seen, ms, r, v, j, h1, h2, h3, h4, h5, h6, h7, h8, h9, h10, -⟩ := fit_mlp (e := e) h.net h.owned h.slot h.fresh h.inOut h.gradient h.reg hk
    h.samples x y h.train h.truth h.valid h.valBatch h.batchSize h.balancing h.patience h.loss l1
  exact ⟨w', t', seen, ms j, h1, h6, h3 j h4, h7, h8⟩

theorem Mlp.Like.ok {m m' : Mlp} (h : Mlp.Like m m') (hok : m.Ok) : m'.Ok where
  depth := by rw [h.depth]; exact hok.depth
  pos := fun i hi => by rw [h.width]; exact hok.pos i (by rw [← h.depth]; exact hi)
  fits := fun i hi => by
    rw [h.width, h.kind i]
    exact hok.fits i (by rw [← h.depth]; exact hi)

/-- What is known of every batch, is known of the epoch. -/
theorem EpochFact.steps {eps : ℝ} (heps : 0 < eps) {s : String} (hs : s ∈ listLoss) {m : Mlp} (hok : m.Ok) {ψ : ℝ → ℝ}
    (hψ : s ∈ distanceLosses → ∀ z : ℝ, (s ∈ kinkAtZero → z ≠ 0) → HasDerivAt (pointError s (m.width m.depth)) (ψ z) z)
    {lr : ℝ} {N B D : Nat} {x y : Nat → Row} (hT : TruthFits s (m.width m.depth) D N y) {m' : Mlp} {r : Nat} {v : ℝ}
    (h : EpochFact (fun x => |x|) eps s True (lossGrad eps s ψ) lr N B D x y m m' r v) {step : Nat → (Nat → Row) → (Nat → Row) → Mlp → Mlp → Prop}
    (hstep : ∀ N' x' y' m₁ m₂, (∀ i, i < N' → ∃ j, j < N ∧ x' i = x j ∧ y' i = y j) → Mlp.Like m m₁ → Mlp.Like m₁ m₂ →
      ((∀ i, i < N' → m₁.Regular eps s (x' i) (y' i)) → Mlp.Steps (m₁.rate N') s lr N' x' y' m₁ m₂) → step N' x' y' m₁ m₂) :
    Mlp.Epoch step N B D x y m m' r := by
  obtain ⟨σ, ms, h1, h2, h3, h4, h5, -⟩ := h
  refine ⟨σ, ms, h1, h2, h3, fun k hk => ?_, h5⟩
  obtain ⟨c1, c2, c3⟩ := h4 k hk
  have ok := c1.ok hok
  have hsub : ∀ i, i < batchEnd N B k - batchStart B k → ∃ j, j < N ∧ x (σ (batchStart B k + i)) = x j ∧ y (σ (batchStart B k + i)) = y j :=
    fun i hi => ⟨_, perm_lt h1 (by unfold batchEnd batchStart at *; omega), rfl, rfl⟩
  refine hstep _ _ _ _ _ hsub c1 c2 fun hreg => ⟨c2, fun b i hi hb => ⟨_, Mlp.grad_error ok heps hs (ψ := ψ) (by rw [c1.depth, c1.width]; exact hψ) _ _ _
    (D := D) (by rw [c1.depth, c1.width]; exact hT.sub fun i hi => (hsub i hi).imp fun j hj => ⟨hj.1, hj.2.2⟩) hreg b hi hb, fun p q => ?_⟩⟩
  rw [c3 trivial b i hi hb]
  rfl

theorem adjustBatch_toNat {s : Int} (hs : 0 ≤ s) (N : Nat) : (if s = 0 then N else min s.toNat N) = (adjustBatch s N).toNat := by
  unfold adjustBatch
  split <;> split <;> omega

/-- C92: with plain gradient descent, smooth activations and a loss without kink, `fit` is stochastic gradient descent:
each epoch presents all samples in some order in batches of the size set (all samples if it is 0 or too large), each
batch moves all weights and biases by the learning rate times the gradient of the error of this batch.  The network left
is that after the last epoch, or, if the best is to be kept, that after one of the epochs or the original one.  For a
classification network the accuracies recorded are the percentages of samples classified right on the way. -/
theorem C92_fit_descends {w : World} {t : Trainer} {n b : Nat} {m : Mlp} {N D : Nat} {x y : Nat → Row} (h : FitSetup w t n b m N D x y)
    (ho : t.optName = "SGD") (hx : m.Exact) (hm : m.Smooth) (hl : t.loss ∈ distanceLosses) (hk : t.loss ∉ kinkAtZero) {eps : ℝ} (heps : 0 < eps)
    (e : FitEnv) :
    ∃ (w' : World) (t' : Trainer) (seen : List (List (Option Layer))) (ms : Nat → Mlp) (r : Nat → Nat) (j : Nat),
      fit (fun x => |x|) eps e w t n b = .ok (w', t', seen) ∧ ms 0 = m ∧
      (∀ i, i < t.epochs.toNat → Mlp.Epoch (Mlp.Descends t.loss (if t.lr = -1 then 0.01 else t.lr)) N
        (if t.batchSize = 0 then N else min t.batchSize.toNat N) D x y (ms i) (ms (i + 1)) (r i)) ∧
      ((w.nets n).classif = true → t'.trainAcc = (List.range t.epochs.toNat).map (fun i => 100 * (r i : ℝ) / N)) ∧
      Represents w' n (ms j) ∧ j ≤ t.epochs.toNat ∧ (t.keepBest = false → j = t.epochs.toNat) := by
  obtain ⟨ψ, l1, l2⟩ := lossOk_of_mem eps h.loss (h.net.ok.pos _ (Nat.le_refl m.depth)) D
  obtain ⟨w', t', seen, ms, r, v, j, h1, h2, h3, h4, h5, h6, h7, h8, h9, h10, -⟩ := fit_mlp (e := e) h.net h.owned h.slot h.fresh h.inOut h.gradient h.reg
    (k := .sgd) (by rw [ho]; rfl) h.samples x y h.train h.truth h.valid h.valBatch h.batchSize h.balancing h.patience h.loss l1
  refine ⟨w', t', seen, ms, r, j, h1, h2, fun i hi => ?_, h10, h6, h4, h5⟩
  rw [adjustBatch_toNat h.batchSize]
  have lk := h3 i (by omega)
  refine EpochFact.steps heps h.loss (lk.ok h.net.ok) (by rw [lk.depth, lk.width]; exact l2) (by rw [lk.depth, lk.width]; exact h.truth)
    (by simpa using h9 i hi) (fun N' x' y' m₁ m₂ _ h1 _ hst => (hst fun i _ => ?_).descends (hx.like (lk.trans h1)))
  rw [Mlp.Regular, if_neg (by rintro (h | h) <;> rw [h] at hl <;> exact absurd hl (by decide))]
  exact ⟨(hm.like (lk.trans h1)).at _, fun h => absurd (by simpa [kinkAtZero] using h) hk, fun h => by rw [h] at hl; exact absurd hl (by decide)⟩

/-- C95: `fit` of any feed-forward network of the fifteen kinds of layers, with any of the twelve losses and plain gradient descent, runs to
the end, and every batch whose samples are regular moves the parameters by learning rate times rate times the gradient of the error. -/
theorem C95_fit {w : World} {t : Trainer} {n b : Nat} {m : Mlp} {N D : Nat} {x y : Nat → Row} (h : FitSetup w t n b m N D x y)
    (ho : t.optName = "SGD") {eps : ℝ} (heps : 0 < eps) (e : FitEnv) :
    ∃ (w' : World) (t' : Trainer) (seen : List (List (Option Layer))) (ms : Nat → Mlp) (r : Nat → Nat) (j : Nat),
      fit (fun x => |x|) eps e w t n b = .ok (w', t', seen) ∧ ms 0 = m ∧
      (∀ i, i < t.epochs.toNat → Mlp.Epoch (fun N' x' y' m₁ m₂ => (∀ i, i < N' → m₁.Regular eps t.loss (x' i) (y' i)) →
          Mlp.Steps (m₁.rate N') t.loss (if t.lr = -1 then 0.01 else t.lr) N' x' y' m₁ m₂)
        N (if t.batchSize = 0 then N else min t.batchSize.toNat N) D x y (ms i) (ms (i + 1)) (r i)) ∧
      ((w.nets n).classif = true → t'.trainAcc = (List.range t.epochs.toNat).map (fun i => 100 * (r i : ℝ) / N)) ∧
      Represents w' n (ms j) ∧ j ≤ t.epochs.toNat ∧ (t.keepBest = false → j = t.epochs.toNat) := by
  obtain ⟨ψ, l1, l2⟩ := lossOk_of_mem eps h.loss (h.net.ok.pos _ (Nat.le_refl m.depth)) D
  obtain ⟨w', t', seen, ms, r, v, j, h1, h2, h3, h4, h5, h6, h7, h8, h9, h10, -⟩ := fit_mlp (e := e) h.net h.owned h.slot h.fresh h.inOut h.gradient h.reg
    (k := .sgd) (by rw [ho]; rfl) h.samples x y h.train h.truth h.valid h.valBatch h.batchSize h.balancing h.patience h.loss l1
  refine ⟨w', t', seen, ms, r, j, h1, h2, fun i hi => ?_, h10, h6, h4, h5⟩
  rw [adjustBatch_toNat h.batchSize]
  have lk := h3 i (by omega)
  exact EpochFact.steps heps h.loss (lk.ok h.net.ok) (by rw [lk.depth, lk.width]; exact l2) (by rw [lk.depth, lk.width]; exact h.truth)
    (by simpa using h9 i hi) (fun N' x' y' m₁ m₂ _ _ _ hst => hst)

/-- C96: `fit` of a classifier that ends with softmax, with a categorical cross entropy and plain gradient descent, is stochastic gradient
descent for the mean cross entropy, as long as no prediction gets closer than `eps` to 0 or 1. -/
theorem C96_fit {w : World} {t : Trainer} {n b : Nat} {m : Mlp} {N D : Nat} {x y : Nat → Row} (h : FitSetup w t n b m N D x y)
    (ho : t.optName = "SGD") (hx : m.Exact) (hm : m.Classifier) (hl : t.loss ∈ ["CategoricalCrossEntropy", "SparseCategoricalCrossEntropy"])
    (hs : t.loss = "CategoricalCrossEntropy" → ∀ i, i < N → ∑ j ∈ range (m.width m.depth), y i j = 1) {eps : ℝ} (heps : 0 < eps) (e : FitEnv) :
    ∃ (w' : World) (t' : Trainer) (seen : List (List (Option Layer))) (ms : Nat → Mlp) (r : Nat → Nat) (j : Nat),
      fit (fun x => |x|) eps e w t n b = .ok (w', t', seen) ∧ ms 0 = m ∧
      (∀ i, i < t.epochs.toNat → Mlp.Epoch (fun N' x' y' m₁ m₂ => (∀ i, i < N' → m₁.Unsaturated eps (x' i)) →
          Mlp.Descends t.loss (if t.lr = -1 then 0.01 else t.lr) N' x' y' m₁ m₂)
        N (if t.batchSize = 0 then N else min t.batchSize.toNat N) D x y (ms i) (ms (i + 1)) (r i)) ∧
      ((w.nets n).classif = true → t'.trainAcc = (List.range t.epochs.toNat).map (fun i => 100 * (r i : ℝ) / N)) ∧
      Represents w' n (ms j) ∧ j ≤ t.epochs.toNat ∧ (t.keepBest = false → j = t.epochs.toNat) := by
  obtain ⟨ψ, l1, l2⟩ := lossOk_of_mem eps h.loss (h.net.ok.pos _ (Nat.le_refl m.depth)) D
  obtain ⟨w', t', seen, ms, r, v, j, h1, h2, h3, h4, h5, h6, h7, h8, h9, h10, -⟩ := fit_mlp (e := e) h.net h.owned h.slot h.fresh h.inOut h.gradient h.reg
    (k := .sgd) (by rw [ho]; rfl) h.samples x y h.train h.truth h.valid h.valBatch h.batchSize h.balancing h.patience h.loss l1
  refine ⟨w', t', seen, ms, r, j, h1, h2, fun i hi => ?_, h10, h6, h4, h5⟩
  rw [adjustBatch_toNat h.batchSize]
  have lk := h3 i (by omega)
  refine EpochFact.steps heps h.loss (lk.ok h.net.ok) (by rw [lk.depth, lk.width]; exact l2) (by rw [lk.depth, lk.width]; exact h.truth)
    (by simpa using h9 i hi) (fun N' x' y' m₁ m₂ hsub h1 _ hst hu => (hst fun i hi => ?_).descends (hx.like (lk.trans h1)))
  refine (hm.like (lk.trans h1)).regular hl (hu i hi) fun hc => ?_
  obtain ⟨j, hj, -, e2⟩ := hsub i hi
  rw [(lk.trans h1).depth, (lk.trans h1).width, e2]
  exact hs hc j hj

/-! ## C55 -/

/-- C55: a batch adds to the number of right samples exactly the number of its samples that are classified right, for any
of the twelve losses. -/
theorem C55_batch (eps : ℝ) (g : Nat → ℝ) (t : Trainer) (K D N : Nat) (hK : 0 < K) (hl : t.loss ∈ listLoss) (hw : t.lossWeight.size = 0)
    (p y : Nat → Row) (hY : TruthFits t.loss K D N y) :
    ∃ t', t.addOnline g (fun x => |x|) eps true (Mat.ofFn N K p) (Mat.ofFn N D y) = .ok t' ∧
      t'.onlineGood = t.onlineGood + nbRight N K D p y := by
  have hD : D = K ∨ D = 1 := by
    by_cases hs : t.loss = "SparseCategoricalCrossEntropy"
    · rw [TruthFits, if_pos hs] at hY; exact .inr hY.1
    · exact .inl (hY.same hs).1
  obtain ⟨M, h1, -, h2⟩ := Trainer.lossCompute_fits (P := p) hl hw hK hY g Mat.WF_empty
  unfold addOnline
  rw [h1, bind_ok', h2, bind_ok', if_pos rfl, goodOnline_ofFn N K D p y hK hD]
  exact ⟨_, rfl, rfl⟩

/-- C55: training a perceptron for classification, with any optimizer.  The accuracy of every epoch is the percentage of
the samples that are classified right, each by the network as it is when the sample is presented. -/
theorem C55_epochs {w : World} {t : Trainer} {n b : Nat} {m : Mlp} {N D : Nat} {x y : Nat → Row} (h : FitSetup w t n b m N D x y)
    {k : OptKind} (hk : createOptimizer t.optName = some k) (hc : (w.nets n).classif = true) (eps : ℝ) (e : FitEnv) :
    ∃ (w' : World) (t' : Trainer) (seen : List (List (Option Layer))) (ms : Nat → Mlp) (r : Nat → Nat),
      fit (fun x => |x|) eps e w t n b = .ok (w', t', seen) ∧ ms 0 = m ∧
      t'.trainAcc = (List.range t.epochs.toNat).map (fun i => 100 * (r i : ℝ) / N) ∧
      ∀ i, i < t.epochs.toNat → Mlp.Epoch (fun _ _ _ => Mlp.Like) N (if t.batchSize = 0 then N else min t.batchSize.toNat N)
        D x y (ms i) (ms (i + 1)) (r i) := by
  obtain ⟨ψ, l1, -⟩ := lossOk_of_mem eps h.loss (h.net.ok.pos _ (Nat.le_refl m.depth)) D
  obtain ⟨w', t', seen, ms, r, v, j, h1, h2, h3, h4, h5, h6, h7, h8, h9, h10, -⟩ := fit_mlp (e := e) h.net h.owned h.slot h.fresh h.inOut h.gradient h.reg hk
    h.samples x y h.train h.truth h.valid h.valBatch h.batchSize h.balancing h.patience h.loss l1
  refine ⟨w', t', seen, ms, r, h1, h2, h10 hc, fun i hi => ?_⟩
  rw [adjustBatch_toNat h.batchSize]
  obtain ⟨σ, bs, c1, c2, c3, c4, c5, -⟩ := h9 i hi
  exact ⟨σ, bs, c1, c2, c3, fun k hk => (c4 k hk).2.1, c5⟩

/-- C55: for every network of any layers, any loss and optimizer, with class balancing, patience and so on: if `fit` ends
at all, every training accuracy recorded is a percentage of the samples. -/
theorem C55_range {ab : ℝ → ℝ} {eps : ℝ} {e : FitEnv} {w w' : World} {t t' : Trainer} {n b : Nat} {seen : List (List (Option Layer))}
    (h : Fitted ab eps e w t n b w' t' seen) {N C D : Nat} (hN : 0 < N) {x y : Nat → Row} (hxy : t.train = some (Mat.ofFn N C x, Mat.ofFn N D y)) :
    ∀ a ∈ t'.trainAcc, (∃ r : Nat, r ≤ N ∧ a = 100 * (r : ℝ) / N) ∧ 0 ≤ a ∧ a ≤ 100 := by
  obtain ⟨w₁, t₁, x', y', s₀, s, h1, h2, h3, h4, h5, h6, h7, h8, h9⟩ :=
    fit_split h.run h.layers h.slot h.owned h.valid h.fresh h.inOut h.gradient
  rw [hxy] at h2
  injection h2 with h2
  injection h2 with q1 q2
  subst q1 q2
  have hb := h.slot
  obtain ⟨cw, w₀, b1, b2, b3, b4, b5, -⟩ := start_inv hb h8 h3
  have key := forN_ok_idx (P := fun i r => LoopInv ab eps e n b s₀ i r ∧ ∀ a ∈ r.t.trainAcc, ∃ r : Nat, r ≤ N ∧ a = 100 * (r : ℝ) / N)
    (fun i r r' hr hr' => by
      refine ⟨hr.1.step hb hr', fun a ha => ?_⟩
      rcases epochStep_range hN hr.1.inv.net hr' with c | ⟨q, c1, c2⟩
      · rw [c] at ha; exact hr.2 a ha
      · rw [c2, List.mem_append, List.mem_singleton] at ha
        rcases ha with ha | ha
        · exact hr.2 a ha
        · exact ⟨q, c1, ha⟩)
    ⟨LoopInv.start b5 b3 (by rw [b2]) (by rw [b2]) (by rw [b2]), by rw [b2]; exact fun a ha => absurd ha List.not_mem_nil⟩ h4
  intro a ha
  obtain ⟨r, r1, r2⟩ := key.2 a (by rw [h6]; exact ha)
  have hN' : (0 : ℝ) < N := by exact_mod_cast hN
  have hr' : (r : ℝ) ≤ N := by exact_mod_cast r1
  have hr0 : (0 : ℝ) ≤ r := Nat.cast_nonneg r
  refine ⟨⟨r, r1, r2⟩, ?_, ?_⟩
  · rw [r2]; positivity
  · rw [r2, div_le_iff₀ hN']; linarith

/-! ## A run of `fit` -/

/-- Four samples, ten epochs, batches of three, plain gradient descent. -/
noncomputable def fitWitness : Trainer :=
  { optName := "SGD", epochs := 10, batchSize := 3, train := some (Mat.ofFn 4 2 (fun i j => (i : ℝ) + j), Mat.ofFn 4 1 (fun i _ => (i : ℝ))) }

theorem mlpWorld_owned : Owned mlpWorld where
  live := fun n a ha => by
    by_cases hn : n = 0
    · rw [hn] at ha
      have : a = 0 ∨ a = 1 := by simpa [mlpWorld] using ha
      rcases this with rfl | rfl
      · exact ⟨_, rfl⟩
      · exact ⟨_, rfl⟩
    · simp [mlpWorld, hn] at ha
  nodup := fun n => by
    by_cases hn : n = 0 <;> simp [mlpWorld, hn]
  disjoint := fun n k a ha hk => by
    by_cases hn : n = 0
    · by_cases hk' : k = 0
      · rw [hn, hk']
      · simp [mlpWorld, hk'] at hk
    · simp [mlpWorld, hn] at ha

theorem fitWitness_setup : FitSetup mlpWorld fitWitness 0 1 mlpWitness 4 1 (fun i j => (i : ℝ) + j) (fun i _ => (i : ℝ)) where
  net := mlpWorld_represents
  owned := mlpWorld_owned
  slot := by decide
  fresh := rfl
  inOut := fun _ h => absurd h List.not_mem_nil
  gradient := fun _ h => absurd h List.not_mem_nil
  samples := by decide
  train := rfl
  truth := (distanceLosses_fits (by decide)).2 _ _ _
  valid := fun d h => by cases h
  valBatch := by decide
  batchSize := by decide
  loss := by decide
  reg := rfl
  balancing := rfl
  patience := .inl rfl

example (eps : ℝ) (e : FitEnv) := C92_fit_runs fitWitness_setup (k := .sgd) rfl eps e
example {eps : ℝ} (heps : 0 < eps) (e : FitEnv) := C92_fit_descends fitWitness_setup rfl mlpWitness_exact mlpWitness_smooth (by decide) (by decide) heps e
example {eps : ℝ} (heps : 0 < eps) (e : FitEnv) := C95_fit fitWitness_setup rfl heps e
example (eps : ℝ) (e : FitEnv) := C55_epochs fitWitness_setup (k := .sgd) rfl rfl eps e

/-- Four samples of class 1, with the sparse cross entropy. -/
noncomputable def clsTrainer : Trainer :=
  { optName := "SGD", loss := "SparseCategoricalCrossEntropy", epochs := 10, batchSize := 3
    train := some (Mat.ofFn 4 2 (fun i j => (i : ℝ) + j), Mat.ofFn 4 1 (fun _ _ => 1)) }

theorem clsWorld_owned : Owned clsWorld where
  live := fun n a ha => by
    by_cases hn : n = 0
    · rw [hn] at ha
      have : a = 0 ∨ a = 1 := by simpa [clsWorld] using ha
      rcases this with rfl | rfl
      · exact ⟨_, rfl⟩
      · exact ⟨_, rfl⟩
    · simp [clsWorld, hn] at ha
  nodup := fun n => by
    by_cases hn : n = 0 <;> simp [clsWorld, hn]
  disjoint := fun n k a ha hk => by
    by_cases hn : n = 0
    · by_cases hk' : k = 0
      · rw [hn, hk']
      · simp [clsWorld, hk'] at hk
    · simp [clsWorld, hn] at ha

theorem clsTrainer_setup : FitSetup clsWorld clsTrainer 0 1 clsWitness 4 1 (fun i j => (i : ℝ) + j) (fun _ _ => 1) where
  net := clsWorld_represents
  owned := clsWorld_owned
  slot := by decide
  fresh := rfl
  inOut := fun _ h => absurd h List.not_mem_nil
  gradient := fun _ h => absurd h List.not_mem_nil
  samples := by decide
  train := rfl
  truth := by
    rw [TruthFits, if_pos (show clsTrainer.loss = "SparseCategoricalCrossEntropy" from rfl)]
    exact ⟨rfl, by decide, fun i _ => ⟨1, by decide, by simp⟩⟩
  valid := fun d h => by cases h
  valBatch := by decide
  batchSize := by decide
  loss := by decide
  reg := rfl
  balancing := rfl
  patience := .inl rfl

example {eps : ℝ} (heps : 0 < eps) (e : FitEnv) :=
  C96_fit clsTrainer_setup rfl clsWitness_exact clsWitness_classifier (by decide) (fun h => absurd h (by decide)) heps e

/-- Four images of one pixel. -/
noncomputable def convTrainer : Trainer :=
  { optName := "SGD", loss := "BinaryCrossEntropy", epochs := 10, batchSize := 3
    train := some (Mat.ofFn 4 1 (fun _ _ => 1 / 2), Mat.ofFn 4 1 (fun i _ => if i = 0 then 1 else 0)) }

theorem convWorld_owned : Owned convWorld where
  live := fun n a ha => by
    by_cases hn : n = 0
    · rw [hn] at ha
      obtain rfl : a = 0 := by simpa [convWorld] using ha
      exact ⟨_, rfl⟩
    · simp [convWorld, hn] at ha
  nodup := fun n => by
    by_cases hn : n = 0 <;> simp [convWorld, hn]
  disjoint := fun n k a ha hk => by
    by_cases hn : n = 0
    · by_cases hk' : k = 0
      · rw [hn, hk']
      · simp [convWorld, hk'] at hk
    · simp [convWorld, hn] at ha

theorem convTrainer_setup : FitSetup convWorld convTrainer 0 1 convWitness 4 1 (fun _ _ => 1 / 2) (fun i _ => if i = 0 then 1 else 0) where
  net := convWorld_represents
  owned := convWorld_owned
  slot := by decide
  fresh := rfl
  inOut := fun _ h => absurd h List.not_mem_nil
  gradient := fun _ h => absurd h List.not_mem_nil
  samples := by decide
  train := rfl
  truth := by
    rw [TruthFits, if_neg (show ¬ convTrainer.loss = "SparseCategoricalCrossEntropy" by decide)]
    exact ⟨rfl, fun _ => rfl⟩
  valid := fun d h => by cases h
  valBatch := by decide
  batchSize := by decide
  loss := by decide
  reg := rfl
  balancing := rfl
  patience := .inl rfl

example {eps : ℝ} (heps : 0 < eps) (e : FitEnv) := C95_fit convTrainer_setup rfl heps e

/-- The samples of the first batch are regular: the prediction is one half. -/
example : convWitness.Regular 1e-8 convTrainer.loss (fun _ => 1 / 2) (fun _ => 1) := by
  rw [Mlp.Regular, if_neg (by decide)]
  refine ⟨fun i _ => trivial, fun h => absurd h (by decide), fun _ => ?_⟩
  have : convWitness.out (fun _ => 1 / 2) 0 = 1 / 2 := by
    have := convWitness_out (fun _ _ => 1) (fun _ => 1 / 2)
    rw [one_mul] at this
    exact this
  rw [this]
  norm_num

/-- The runs that C50 to C53 and C55 speak of exist. -/
theorem fitWitness_fitted (eps : ℝ) (e : FitEnv) : ∃ w' t' seen, Fitted (fun x => |x|) eps e mlpWorld fitWitness 0 1 w' t' seen ∧ seen.length = 10 := by
  obtain ⟨w', t', seen, m', h1, h2, h3, h4, h5⟩ := C92_fit_runs fitWitness_setup (k := .sgd) rfl eps e
  exact ⟨w', t', seen, ⟨mlpWorld_owned, mlpWorld_represents.allValid, by simp [mlpWorld], by decide, rfl, fun _ h => absurd h List.not_mem_nil,
    fun _ h => absurd h List.not_mem_nil, h1⟩, h5⟩

example (eps : ℝ) (e : FitEnv) : ∃ w' t' seen, fit (fun x => |x|) eps e mlpWorld fitWitness 0 1 = .ok (w', t', seen) ∧
    t'.trainLoss.length = 10 ∧ t'.trainAcc.length = 10 ∧ ∀ a ∈ t'.trainAcc, 0 ≤ a ∧ a ≤ 100 := by
  obtain ⟨w', t', seen, h, -⟩ := fitWitness_fitted eps e
  exact ⟨w', t', seen, h.run, (C53_lengths h).1, C53_accuracies h (.inr rfl), fun a ha => (C55_range h (by decide) rfl a ha).2⟩

end BeeDNN
