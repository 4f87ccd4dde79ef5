import Verif.Lemmas.Linear
import Verif.Props.MlpFit
import Verif.Props.Reported

/-! # Training a dense layer as a linear model: C116 -/

namespace BeeDNN
open Finset Trainer

/-- The losses that are squares. -/
def squaredLosses : List String := ["MeanSquaredError", "L2"]

theorem Mlp.Single.like {m m' : Mlp} (h : m.Single) (hl : Mlp.Like m m') : m'.Single := ⟨hl.depth.trans h.depth, (hl.kind 0).trans h.dense⟩

theorem Mlp.Single.error_eq {m : Mlp} (h : m.Single) {loss : String} (hl : loss ∈ squaredLosses) (N : Nat) (x y : Nat → Row) :
    m.error loss N x y = Linear.err (lossScale loss (m.width 1)) N (m.width 0) (m.width 1) x y (m.ply 0).weight (m.ply 0).bias := by
  have ho : ∀ v j, m.out v j = ∑ k ∈ range (m.width 0), v k * (m.ply 0).weight k j + (m.ply 0).bias 0 j := fun v j => by
    rw [Mlp.out, h.depth, Mlp.hidden, Mlp.hidden, Ply.apply, h.dense]
  unfold Mlp.error Linear.err
  rw [h.depth]
  congr 1
  refine sum_congr rfl fun s _ => ?_
  unfold squaredLosses at hl
  simp only [List.mem_cons, List.not_mem_nil, or_false] at hl
  have e : ∀ z, pointError loss (m.width 1) z = lossScale loss (m.width 1) * z ^ 2 / 2 := fun z => by
    rcases hl with rfl | rfl
    · rw [pointError, if_pos rfl, lossScale, if_pos rfl]
      ring
    · rw [pointError, if_neg (by decide), if_pos rfl, lossScale, if_neg (by decide), one_mul]
  have hs : sampleError loss (m.width 1) (m.out (x s)) (y s) = ∑ j ∈ range (m.width 1), pointError loss (m.width 1) (m.out (x s) j - y s j) := by
    rcases hl with rfl | rfl <;> rw [sampleError, if_neg (by decide), if_neg (by decide), if_neg (by decide)]
  rw [hs]
  exact sum_congr rfl fun j _ => by rw [e, ho]; rfl

theorem error_perm {m : Mlp} {loss : String} {N : Nat} {x y : Nat → Row} {σ : Nat → Nat} (h : ((List.range N).map σ).Perm (List.range N)) :
    m.error loss N (fun i => x (σ i)) (fun i => y (σ i)) = m.error loss N x y := by
  unfold Mlp.error
  rw [perm_sum h fun s => sampleError loss (m.width m.depth) (m.out (x s)) (y s)]

/-- An epoch with all samples in one batch is one step on the data in their own order. -/
theorem Mlp.Epoch.full {loss : String} {lr : ℝ} {N D : Nat} (hN : 0 < N) {x y : Nat → Row} {m m' : Mlp} {r : Nat} (h : Mlp.Epoch (Mlp.Descends loss lr) N N D x y m m' r) :
    Mlp.Descends loss lr N x y m m' := by
  obtain ⟨σ, ms, h1, h2, h3, h4, -⟩ := h
  have hb := nbBatches_one hN (le_refl N)
  rw [hb] at h3 h4
  have h5 := h4 0 one_pos
  rw [h2, h3, show batchEnd N N 0 - batchStart N 0 = N by unfold batchEnd batchStart; omega] at h5
  simp only [batchStart, Nat.zero_mul, Nat.zero_add] at h5
  refine ⟨h5.like, fun b i hi hh => ?_⟩
  obtain ⟨G, g1, g2⟩ := h5.step b i hi hh
  refine ⟨G, fun V => ?_, g2⟩
  have := g1 V
  simp only [error_perm h1] at this
  exact this

/-- The gradients of a step, for the weights and the biases. -/
theorem Mlp.Single.grads {m m' : Mlp} (h : m.Single) {loss : String} (hl : loss ∈ squaredLosses) {lr : ℝ} {N : Nat} {x y : Nat → Row} (hd : Mlp.Descends loss lr N x y m m') :
    ∃ G g, IsGrad (m.width 0) (m.width 1) (fun P => Linear.err (lossScale loss (m.width 1)) N (m.width 0) (m.width 1) x y P (m.ply 0).bias) (m.ply 0).weight G ∧
      IsGrad 1 (m.width 1) (fun P => Linear.err (lossScale loss (m.width 1)) N (m.width 0) (m.width 1) x y (m.ply 0).weight P) (m.ply 0).bias g ∧
      (m'.ply 0).weight = (fun k j => (m.ply 0).weight k j - lr * G k j) ∧ (m'.ply 0).bias = fun k j => (m.ply 0).bias k j - lr * g k j := by
  have h0 : 0 < m.depth := by rw [h.depth]; exact one_pos
  obtain ⟨G, g1, g2⟩ := hd.step false 0 h0 (by rw [Ply.has, h.dense]; rfl)
  obtain ⟨g, g3, g4⟩ := hd.step true 0 h0 (by rw [Ply.has, h.dense]; rfl)
  have hs : ∀ b V, (m.setPar b 0 V).Single := fun b V => ⟨h.depth, by
    show (if 0 = 0 then (m.ply 0).setPar b V else m.ply 0).kind = _
    rw [if_pos rfl, ← h.dense]
    cases b <;> rfl⟩
  refine ⟨G, g, fun V => ?_, fun V => ?_, funext fun k => funext fun j => g2 k j, funext fun k => funext fun j => g4 k j⟩
  · have := g1 V
    simp only [(hs false _).error_eq hl] at this
    rw [Mlp.shape, h.dense] at this
    exact this
  · have := g3 V
    simp only [(hs true _).error_eq hl] at this
    rw [Mlp.shape, h.dense] at this
    exact this

theorem distSq_eq (m m' : Mlp) : m.distSq m' = Linear.norm2 (m.width 0) (m.width 1) (fun k j => (m.ply 0).weight k j - (m'.ply 0).weight k j)
    (fun k j => (m.ply 0).bias k j - (m'.ply 0).bias k j) := by
  unfold Mlp.distSq Linear.norm2 dotM
  rw [sum_range_one]
  simp only [pow_two]

theorem lossScale_nonneg (loss : String) (K : Nat) : 0 ≤ lossScale loss K := by
  unfold lossScale
  split <;> positivity

/-- One full step. -/
theorem Mlp.Single.step {m m' : Mlp} (h : m.Single) {loss : String} (hl : loss ∈ squaredLosses) {lr : ℝ} {N : Nat} {x y : Nat → Row} (hd : Mlp.Descends loss lr N x y m m')
    (h0 : 0 < lr) (h1 : lr * curvature loss N (m.width 0) (m.width 1) x ≤ 1) :
    m'.error loss N x y ≤ m.error loss N x y ∧ ∀ o : Mlp, o.Single → o.width = m.width →
      2 * lr * (m'.error loss N x y - o.error loss N x y) ≤ m.distSq o - m'.distSq o := by
  obtain ⟨G, g, g1, g2, g3, g4⟩ := h.grads hl hd
  obtain ⟨k1, k2⟩ := Linear.step (lossScale_nonneg loss (m.width 1)) g1 g2 h0 h1
  rw [← g3, ← g4] at k1
  have hm' := h.like hd.like
  have e' : m'.error loss N x y = Linear.err (lossScale loss (m.width 1)) N (m.width 0) (m.width 1) x y (m'.ply 0).weight (m'.ply 0).bias := by
    rw [hm'.error_eq hl, hd.like.width]
  have hn : 0 ≤ Linear.norm2 (m.width 0) (m.width 1) G g :=
    add_nonneg (sum_nonneg fun _ _ => sum_nonneg fun _ _ => mul_self_nonneg _) (sum_nonneg fun _ _ => sum_nonneg fun _ _ => mul_self_nonneg _)
  refine ⟨?_, fun o ho hw => ?_⟩
  · rw [e', h.error_eq hl]
    have : 0 ≤ lr / 2 * Linear.norm2 (m.width 0) (m.width 1) G g := by positivity
    linarith
  · have := k2 (o.ply 0).weight (o.ply 0).bias
    rw [e', ho.error_eq hl, hw, distSq_eq, distSq_eq, hd.like.width, g3, g4]
    exact this

/-- A sequence of full steps. -/
theorem Mlp.Single.steps {m : Mlp} (hm : m.Single) {loss : String} (hl : loss ∈ squaredLosses) {lr : ℝ} {N E : Nat} {x y : Nat → Row} {ms : Nat → Mlp} (k0 : ms 0 = m)
    (kd : ∀ i, i < E → Mlp.Descends loss lr N x y (ms i) (ms (i + 1))) (h0 : 0 < lr) (h1 : lr * curvature loss N (m.width 0) (m.width 1) x ≤ 1) :
    (∀ i, i < E → (ms (i + 1)).error loss N x y ≤ (ms i).error loss N x y) ∧
      ∀ T, T ≤ E → ∀ o : Mlp, o.Single → o.width = m.width → (T : ℝ) * ((ms T).error loss N x y - o.error loss N x y) ≤ m.distSq o / (2 * lr) := by
  have like : ∀ i, i ≤ E → Mlp.Like m (ms i) := by
    intro i
    induction i with
    | zero => intro _; rw [k0]; exact ⟨rfl, rfl, fun _ => rfl⟩
    | succ i ih => exact fun hi => (ih (by omega)).trans (kd i hi).like
  have st : ∀ i, i < E → _ := fun i hi => (hm.like (like i hi.le)).step hl (kd i hi) h0 (by rw [(like i hi.le).width]; exact h1)
  refine ⟨fun i hi => (st i hi).1, fun T hT o o1 o2 => ?_⟩
  have key : ∀ T, T ≤ E → 2 * lr * (T * ((ms T).error loss N x y - o.error loss N x y)) ≤ m.distSq o - (ms T).distSq o := by
    intro T
    induction T with
    | zero => intro _; rw [k0]; simp
    | succ T ih =>
      intro hT
      have a1 := ih (by omega)
      obtain ⟨a2, a3⟩ := st T hT
      have a4 := a3 o o1 (by rw [o2, (like T (by omega)).width])
      have a5 : 2 * lr * (T * ((ms (T + 1)).error loss N x y - o.error loss N x y)) ≤ 2 * lr * (T * ((ms T).error loss N x y - o.error loss N x y)) :=
        mul_le_mul_of_nonneg_left (mul_le_mul_of_nonneg_left (by linarith) (Nat.cast_nonneg T)) (by positivity)
      push_cast
      linarith
  have hd : 0 ≤ (ms T).distSq o := by
    unfold Mlp.distSq
    positivity
  rw [le_div_iff₀ (by positivity)]
  have := key T hT
  linarith

/-- C116: `fit` with plain gradient descent, all samples in one batch and a squared loss trains a dense layer to the best linear model: for a learning rate up to the reciprocal of the
mean squared length of the samples (times the factor of the loss), the error after the last epoch exceeds that of any other weights and biases by at most their squared distance from the
original ones over twice the learning rate times the number of epochs; so it gets as close to the least error as wanted.  The error never grows from one epoch to the next. -/
theorem C116_converges {w : World} {t : Trainer} {n b : Nat} {m : Mlp} {N D : Nat} {x y : Nat → Row} (h : FitSetup w t n b m N D x y) (hm : m.Single)
    (ho : t.optName = "SGD") (hl : t.loss ∈ squaredLosses) (hb : t.batchSize = 0 ∨ (N : Int) ≤ t.batchSize) (hk : t.keepBest = false) {lr : ℝ}
    (hlr : lr = if t.lr = -1 then 0.01 else t.lr) (h0 : 0 < lr) (h1 : lr * curvature t.loss N (m.width 0) (m.width 1) x ≤ 1) {eps : ℝ} (heps : 0 < eps) (e : FitEnv) :
    ∃ (w' : World) (t' : Trainer) (seen : List (List (Option Layer))) (ms : Nat → Mlp), fit (fun x => |x|) eps e w t n b = .ok (w', t', seen) ∧
      ms 0 = m ∧ Represents w' n (ms t.epochs.toNat) ∧ (∀ i, i < t.epochs.toNat → (ms (i + 1)).error t.loss N x y ≤ (ms i).error t.loss N x y) ∧
      ∀ o : Mlp, o.Single → o.width = m.width →
        (t.epochs.toNat : ℝ) * ((ms t.epochs.toNat).error t.loss N x y - o.error t.loss N x y) ≤ m.distSq o / (2 * lr) := by
  have hsm : m.Smooth := fun i hi => by
    obtain rfl : i = 0 := by rw [hm.depth] at hi; omega
    rw [hm.dense]; trivial
  have hex : m.Exact := fun i hi => by
    obtain rfl : i = 0 := by rw [hm.depth] at hi; omega
    rw [hm.dense]; trivial
  have hl1 : t.loss ∈ distanceLosses ∧ t.loss ∉ kinkAtZero := by
    have : ∀ s ∈ squaredLosses, s ∈ distanceLosses ∧ s ∉ kinkAtZero := by decide
    exact this _ hl
  obtain ⟨w', t', seen, ms, r, j, k1, k2, k3, -, k5, -, k7⟩ := C92_fit_descends h ho hex hsm hl1.1 hl1.2 heps e
  rw [k7 hk] at k5
  have hB : (if t.batchSize = 0 then N else min t.batchSize.toNat N) = N := by
    split
    · rfl
    · rcases hb with hb | hb
      · contradiction
      · omega
  rw [hB, ← hlr] at k3
  have kd : ∀ i, i < t.epochs.toNat → Mlp.Descends t.loss lr N x y (ms i) (ms (i + 1)) := fun i hi => (k3 i hi).full h.samples
  obtain ⟨a1, a2⟩ := hm.steps hl k2 kd h0 h1
  exact ⟨w', t', seen, ms, k1, k2, k5, a1, a2 _ le_rfl⟩

/-- C116: for a single sample the error after any number of epochs is known: every epoch multiplies it by the same number.  So the bound of the learning rate cannot be more than
doubled: beyond that the error grows without limit. -/
theorem C116_one_sample {w : World} {t : Trainer} {n b : Nat} {m : Mlp} {D : Nat} {x y : Nat → Row} (h : FitSetup w t n b m 1 D x y) (hm : m.Single)
    (ho : t.optName = "SGD") (hl : t.loss ∈ squaredLosses) (hk : t.keepBest = false) {lr : ℝ}
    (hlr : lr = if t.lr = -1 then 0.01 else t.lr) {eps : ℝ} (heps : 0 < eps) (e : FitEnv) :
    ∃ (w' : World) (t' : Trainer) (seen : List (List (Option Layer))) (m' : Mlp), fit (fun x => |x|) eps e w t n b = .ok (w', t', seen) ∧ Represents w' n m' ∧
      m'.error t.loss 1 x y = ((1 - lr * curvature t.loss 1 (m.width 0) (m.width 1) x) ^ 2) ^ t.epochs.toNat * m.error t.loss 1 x y := by
  have hsm : m.Smooth := fun i hi => by
    obtain rfl : i = 0 := by rw [hm.depth] at hi; omega
    rw [hm.dense]; trivial
  have hex : m.Exact := fun i hi => by
    obtain rfl : i = 0 := by rw [hm.depth] at hi; omega
    rw [hm.dense]; trivial
  have hl1 : t.loss ∈ distanceLosses ∧ t.loss ∉ kinkAtZero := by
    have : ∀ s ∈ squaredLosses, s ∈ distanceLosses ∧ s ∉ kinkAtZero := by decide
    exact this _ hl
  obtain ⟨w', t', seen, ms, r, j, k1, k2, k3, -, k5, -, k7⟩ := C92_fit_descends h ho hex hsm hl1.1 hl1.2 heps e
  rw [k7 hk] at k5
  have hB : (if t.batchSize = 0 then 1 else min t.batchSize.toNat 1) = 1 := by
    have := h.batchSize
    split <;> omega
  rw [hB, ← hlr] at k3
  have kd : ∀ i, i < t.epochs.toNat → Mlp.Descends t.loss lr 1 x y (ms i) (ms (i + 1)) := fun i hi => (k3 i hi).full one_pos
  have like : ∀ i, i ≤ t.epochs.toNat → Mlp.Like m (ms i) := by
    intro i
    induction i with
    | zero => intro _; rw [k2]; exact ⟨rfl, rfl, fun _ => rfl⟩
    | succ i ih => exact fun hi => (ih (by omega)).trans (kd i hi).like
  refine ⟨w', t', seen, _, k1, k5, ?_⟩
  have key : ∀ T, T ≤ t.epochs.toNat → (ms T).error t.loss 1 x y = ((1 - lr * curvature t.loss 1 (m.width 0) (m.width 1) x) ^ 2) ^ T * m.error t.loss 1 x y := by
    intro T
    induction T with
    | zero => intro _; rw [k2]; simp
    | succ T ih =>
      intro hT
      have lk := like T (by omega)
      have hs := hm.like lk
      obtain ⟨G, g, g1, g2, g3, g4⟩ := hs.grads hl (kd T hT)
      have := Linear.step_single g1 g2 lr
      rw [(hs.like (kd T hT).like).error_eq hl, (kd T hT).like.width, g3, g4, this, ← hs.error_eq hl, ih (by omega), lk.width, curvature, sum_range_one, pow_succ]
      simp
      ring
  exact key _ le_rfl

/-! ## Keep-best -/

/-- For a squared loss the error is a multiple of the mean loss. -/
theorem error_meanLoss {m : Mlp} (hK : 0 < m.width m.depth) {loss : String} (hl : loss ∈ squaredLosses) (eps : ℝ) (N : Nat) (x y : Nat → Row) :
    m.error loss N x y = lossScale loss (m.width m.depth) * (m.width m.depth : ℝ) / 2 * m.meanLoss eps loss N x y := by
  unfold Mlp.error Mlp.meanLoss
  rw [one_div, inv_mul_eq_div, ← mul_div_assoc, mul_sum]
  refine congrArg (· / (N : ℝ)) (sum_congr rfl fun s _ => ?_)
  unfold squaredLosses at hl
  simp only [List.mem_cons, List.not_mem_nil, or_false] at hl
  have hK' : (m.width m.depth : ℝ) ≠ 0 := by positivity
  have e : ∀ z, pointError loss (m.width m.depth) z = lossScale loss (m.width m.depth) / 2 * pointLoss loss z := fun z => by
    rcases hl with rfl | rfl
    · rw [pointError, if_pos rfl, lossScale, if_pos rfl, pointLoss, if_pos (.inl rfl)]
      ring
    · rw [pointError, if_neg (by decide), if_pos rfl, lossScale, if_neg (by decide), pointLoss, if_pos (.inr rfl)]
      ring
  have h1 : sampleError loss (m.width m.depth) (m.out (x s)) (y s) = ∑ j ∈ range (m.width m.depth), pointError loss (m.width m.depth) (m.out (x s) j - y s j) := by
    rcases hl with rfl | rfl <;> rw [sampleError, if_neg (by decide), if_neg (by decide), if_neg (by decide)]
  have h2 : sampleLoss eps loss (m.width m.depth) (m.out (x s)) (y s) = (∑ j ∈ range (m.width m.depth), pointLoss loss (m.out (x s) j - y s j)) / (m.width m.depth : ℝ) := by
    rcases hl with rfl | rfl <;> rw [sampleLoss, if_neg (by decide), if_neg (by decide), if_neg (by decide)]
  rw [h1, h2]
  simp only [e, ← mul_sum]
  field_simp

theorem sampleLoss_nonneg_squared {loss : String} (hl : loss ∈ squaredLosses) (eps : ℝ) (K : Nat) (p t : Row) : 0 ≤ sampleLoss eps loss K p t := by
  unfold squaredLosses at hl
  simp only [List.mem_cons, List.not_mem_nil, or_false] at hl
  have h2 : sampleLoss eps loss K p t = (∑ j ∈ range K, (p j - t j) ^ 2) / (K : ℝ) := by
    rcases hl with rfl | rfl <;> rw [sampleLoss, if_neg (by decide), if_neg (by decide), if_neg (by decide)] <;> simp [pointLoss]
  rw [h2]
  positivity

/-- The loss of an evaluation, that adds up means over batches, is at least the mean loss. -/
theorem meanLoss_le_evalLoss {m : Mlp} {loss : String} (hl : loss ∈ squaredLosses) (eps : ℝ) {V N : Nat} (hV : 0 < V) (x y : Nat → Row) :
    m.meanLoss eps loss N x y ≤ m.evalLoss eps loss V N x y := by
  unfold Mlp.meanLoss Mlp.evalLoss Mlp.batchLoss
  rw [← sum_batch_samples N V hV (fun _ q => sampleLoss eps loss (m.width m.depth) (m.out (x q)) (y q)), sum_div]
  refine sum_le_sum fun k hk => ?_
  have hk := (nbBatches_lt hV).1 (mem_range.1 hk)
  have h0 : 0 ≤ ∑ i ∈ range (batchEnd N V k - batchStart V k), sampleLoss eps loss (m.width m.depth) (m.out (x (batchStart V k + i))) (y (batchStart V k + i)) :=
    sum_nonneg fun _ _ => sampleLoss_nonneg_squared hl ..
  have hb : 0 < batchEnd N V k - batchStart V k ∧ batchEnd N V k - batchStart V k ≤ N := by
    unfold batchEnd batchStart
    rw [Nat.add_mul, Nat.one_mul]
    omega
  have hN : (1 : ℝ) ≤ N := by exact_mod_cast (show 1 ≤ N by omega)
  split
  · exact div_le_div_of_nonneg_left h0 one_pos hN
  · exact div_le_div_of_nonneg_left h0 (by exact_mod_cast hb.1) (by exact_mod_cast hb.2)

/-- C116, keep-best: in regression without validation data it makes the guarantee of `C116_converges` lose one epoch only: the network left is at least as good as that before the
last epoch. -/
theorem C116_keep_best {w : World} {t : Trainer} {n b : Nat} {m : Mlp} {N D : Nat} {x y : Nat → Row} (h : FitSetup w t n b m N D x y) (hm : m.Single)
    (ho : t.optName = "SGD") (hl : t.loss ∈ squaredLosses) (hb : t.batchSize = 0 ∨ (N : Int) ≤ t.batchSize) (hk : t.keepBest = true) (hv : t.valid = none)
    (hc : (w.nets n).classif = false) (hE : 0 < t.epochs) {lr : ℝ}
    (hlr : lr = if t.lr = -1 then 0.01 else t.lr) (h0 : 0 < lr) (h1 : lr * curvature t.loss N (m.width 0) (m.width 1) x ≤ 1) {eps : ℝ} (heps : 0 < eps) (e : FitEnv) :
    ∃ (w' : World) (t' : Trainer) (seen : List (List (Option Layer))) (m' : Mlp), fit (fun x => |x|) eps e w t n b = .ok (w', t', seen) ∧
      Represents w' n m' ∧ m'.error t.loss N x y ≤ m.error t.loss N x y ∧ ∀ o : Mlp, o.Single → o.width = m.width →
        ((t.epochs.toNat - 1 : Nat) : ℝ) * (m'.error t.loss N x y - o.error t.loss N x y) ≤ m.distSq o / (2 * lr) := by
  have hsm : m.Smooth := fun i hi => by
    obtain rfl : i = 0 := by rw [hm.depth] at hi; omega
    rw [hm.dense]; trivial
  have hex : m.Exact := fun i hi => by
    obtain rfl : i = 0 := by rw [hm.depth] at hi; omega
    rw [hm.dense]; trivial
  have hl1 : t.loss ∈ distanceLosses ∧ t.loss ∉ kinkAtZero := by
    have : ∀ s ∈ squaredLosses, s ∈ distanceLosses ∧ s ∉ kinkAtZero := by decide
    exact this _ hl
  have hB : (adjustBatch t.batchSize N).toNat = N := by
    rw [← adjustBatch_toNat h.batchSize]
    split
    · rfl
    · rcases hb with hb | hb
      · contradiction
      · omega
  obtain ⟨ψ, l1, l2⟩ := lossOk_of_mem eps h.loss (h.net.ok.pos _ (Nat.le_refl m.depth)) D
  obtain ⟨w', t', seen, ms, r, v, l₀, a₀, j, k1, k2, k3, k4, k5, -, k7, k8, ⟨k9, k10, -⟩, k11⟩ := fit_best_mlp h (k := .sgd) (by rw [ho]; rfl) hk e l1
  rw [hB, ← hlr] at k4
  have kd : ∀ i, i < t.epochs.toNat → Mlp.Descends t.loss lr N x y (ms i) (ms (i + 1)) := fun i hi => by
    have lk := k3 i (by omega)
    refine (EpochFact.steps (step := Mlp.Descends t.loss lr) heps h.loss (lk.ok h.net.ok) (by rw [lk.depth, lk.width]; exact l2) (by rw [lk.depth, lk.width]; exact h.truth)
      (by simpa using k4 i hi) (fun N' x' y' m₁ m₂ _ h1 _ hst => (hst fun i _ => ?_).descends (hex.like (lk.trans h1)))).full h.samples
    rw [Mlp.Regular, if_neg (by rintro (h | h) <;> rw [h] at hl <;> exact absurd hl (by decide))]
    exact ⟨(hsm.like (lk.trans h1)).at _, fun h => absurd (by simpa [kinkAtZero] using h) hl1.2, fun h => by rw [h] at hl; exact absurd hl (by decide)⟩
  obtain ⟨a1, a2⟩ := hm.steps hl k2 kd h0 h1
  have anti : ∀ i k, i + k ≤ t.epochs.toNat → (ms (i + k)).error t.loss N x y ≤ (ms i).error t.loss N x y := by
    intro i k
    induction k with
    | zero => exact fun _ => le_rfl
    | succ k ih => exact fun hi => (a1 (i + k) (by omega)).trans (ih (by omega))
  obtain ⟨σ, net, r1, r2, r3, -⟩ := run_of_epochs h.net.ok h.loss h.truth k2 k3 k4
  rw [hv] at k7
  have e0 := (EvalFact.eq k7 h.loss h.valBatch h.samples h.truth).1
  have ev : ∀ i, i < t.epochs.toNat → v i = (ms i).meanLoss eps t.loss N x y / (if t.loss ∈ sumLosses then 1 else (N : ℝ)) := fun i hi => by
    have hw := k3 i (by omega)
    rw [r3 i hi, reportedLoss_eq h.samples h.samples (r1.like i · hi) (.inr dvd_rfl), ← onlineMean_full (r1.order i hi) (r2 i (by omega)), hw.depth, hw.width]
  have hT : t.epochs.toNat - 1 < t.epochs.toNat := by omega
  have hN1 : (1 : ℝ) ≤ if t.loss ∈ sumLosses then 1 else (N : ℝ) := by
    split
    · exact le_rfl
    · exact_mod_cast h.samples
  have hpos : ∀ m' : Mlp, 0 ≤ m'.meanLoss eps t.loss N x y := fun m' => div_nonneg (sum_nonneg fun _ _ => sampleLoss_nonneg_squared hl ..) (Nat.cast_nonneg N)
  have er : ∀ i, i ≤ t.epochs.toNat → (ms i).error t.loss N x y = lossScale t.loss (m.width m.depth) * (m.width m.depth : ℝ) / 2 * (ms i).meanLoss eps t.loss N x y := fun i hi => by
    have hw := k3 i hi
    have := error_meanLoss (m := ms i) (by rw [hw.depth, hw.width]; exact h.net.ok.pos _ le_rfl) hl eps N x y
    rwa [hw.depth, hw.width] at this
  have hf : 0 ≤ lossScale t.loss (m.width m.depth) * (m.width m.depth : ℝ) / 2 := by
    have := lossScale_nonneg t.loss (m.width m.depth)
    positivity
  have hlast := k10 (t.epochs.toNat - 1 + 1) (by omega)
  beta_reduce at hlast
  rw [hc, scoreList, if_neg (by decide), lossList, if_neg (by rw [k8, hv]; decide), k5, List.map_map, getD_map_range _ _ _ _ hT, Function.comp, ev _ hT] at hlast
  have main : (ms j).error t.loss N x y ≤ (ms (t.epochs.toNat - 1)).error t.loss N x y := by
    cases j with
    | zero =>
      rw [List.getD_cons_zero, show scoreOf false l₀ a₀ = -l₀ from rfl, e0] at hlast
      have b1 := meanLoss_le_evalLoss (m := m) hl eps (V := t.valBatch.toNat) (N := N) (by have := h.valBatch; omega) x y
      have b2 := div_le_self (hpos (ms (t.epochs.toNat - 1))) hN1
      rw [er _ (Nat.zero_le _), er _ hT.le, k2]
      exact mul_le_mul_of_nonneg_left (by linarith) hf
    | succ j =>
      rw [getD_map_range _ _ _ _ (by omega), Function.comp, ev j (by omega), neg_le_neg_iff, div_le_div_iff_of_pos_right (by linarith)] at hlast
      refine (a1 j (by omega)).trans ?_
      rw [er j (by omega), er _ hT.le]
      exact mul_le_mul_of_nonneg_left hlast hf
  refine ⟨w', t', seen, ms j, k1, k11, ?_, fun o o1 o2 => ?_⟩
  · have := anti 0 j (by omega)
    rwa [Nat.zero_add, k2] at this
  · exact (mul_le_mul_of_nonneg_left (by linarith) (Nat.cast_nonneg _)).trans (a2 _ hT.le o o1 o2)

/-! ## A case: three points of a straight line, fitted from zero -/

/-- A dense layer with one input and one output, all zero. -/
noncomputable def lineNet : Mlp := { depth := 1, width := fun _ => 1, ply := fun _ => { kind := .dense, weight := fun _ _ => 0, bias := fun _ _ => 0 } }

/-- Network 0 is this network, for regression. -/
noncomputable def lineWorld : World :=
  { heap := [some { kind := .dense 1 1, weight := Mat.ofFn 1 1 (fun _ _ => 0), bias := Mat.ofFn 1 1 (fun _ _ => 0), wInit := "GlorotUniform", bInit := "Zeros" }]
    nets := fun n => if n = 0 then { layers := [0], classif := false } else {} }

/-- `N` samples 0, 1, 2 ... with the truths `2 i + 1`, fifty epochs. -/
noncomputable def lineTrainer (N : Nat) (keep : Bool) : Trainer :=
  { optName := "SGD", lr := 1 / 4, epochs := 50, batchSize := 0, keepBest := keep, train := some (Mat.ofFn N 1 (fun i _ => (i : ℝ)), Mat.ofFn N 1 (fun i _ => 2 * (i : ℝ) + 1)) }

theorem lineWorld_represents : Represents lineWorld 0 lineNet where
  ok :=
    { depth := by decide
      pos := fun i _ => by simp [lineNet]
      fits := fun i hi => by simp [lineNet, PlyKind.Fits] }
  nodup := by simp [lineWorld]
  count := rfl
  layer := fun i a hi => by
    match i with
    | 0 =>
      obtain rfl : 0 = a := by simpa [lineWorld] using hi
      exact ⟨_, rfl, ⟨Mat.ofFn_WF .., rfl, Mat.ofFn_WF .., rfl, rfl, rfl, rfl, rfl, rfl, rfl, rfl, rfl,
        fun m hm => absurd hm List.not_mem_nil, by simp [LayerKind.usesWeight], by simp [LayerKind.usesBias], fun _ => ⟨rfl, rfl, rfl⟩, trivial⟩,
        ⟨⟨1, 1, rfl⟩, fun _ => rfl, fun _ => rfl⟩, fun h => absurd h (by decide)⟩
    | i + 1 => simp [lineWorld] at hi

theorem lineTrainer_setup (N : Nat) (hN : 0 < N) (keep : Bool) : FitSetup lineWorld (lineTrainer N keep) 0 1 lineNet N 1 (fun i _ => (i : ℝ)) (fun i _ => 2 * (i : ℝ) + 1) where
  net := lineWorld_represents
  owned :=
    { live := fun n a ha => by
        by_cases hn : n = 0
        · rw [hn] at ha
          obtain rfl : a = 0 := by simpa [lineWorld] using ha
          exact ⟨_, rfl⟩
        · simp [lineWorld, hn] at ha
      nodup := fun n => by by_cases hn : n = 0 <;> simp [lineWorld, hn]
      disjoint := fun n k a ha hk => by
        by_cases hn : n = 0
        · by_cases hk' : k = 0
          · rw [hn, hk']
          · simp [lineWorld, hk'] at hk
        · simp [lineWorld, hn] at ha }
  slot := by decide
  fresh := rfl
  inOut := fun _ h => absurd h List.not_mem_nil
  gradient := fun _ h => absurd h List.not_mem_nil
  samples := hN
  train := rfl
  truth := (distanceLosses_fits (by show "MeanSquaredError" ∈ distanceLosses; decide)).2 _ _ _
  valid := fun d h => by cases h
  valBatch := by show (0 : Int) < 128; decide
  batchSize := le_refl (0 : Int)
  loss := by show "MeanSquaredError" ∈ listLoss; decide
  reg := rfl
  balancing := rfl
  patience := .inl rfl

theorem lineNet_single : lineNet.Single := ⟨rfl, rfl⟩

theorem line_rate : (1 / 4 : ℝ) * curvature "MeanSquaredError" 3 (lineNet.width 0) (lineNet.width 1) (fun i _ => (i : ℝ)) ≤ 1 := by
  norm_num [curvature, lossScale, lineNet, sum_range_succ]

/-- The line itself. -/
noncomputable def lineBest : Mlp := { depth := 1, width := fun _ => 1, ply := fun _ => { kind := .dense, weight := fun _ _ => 2, bias := fun _ _ => 1 } }

/-- After fifty epochs the error is at most 1/5, since the line has error 0 and is at squared distance 5. -/
example {eps : ℝ} (heps : 0 < eps) (e : FitEnv) : ∃ (w' : World) (t' : Trainer) (seen : List (List (Option Layer))) (m' : Mlp),
    fit (fun x => |x|) eps e lineWorld (lineTrainer 3 false) 0 1 = .ok (w', t', seen) ∧ Represents w' 0 m' ∧
      m'.error "MeanSquaredError" 3 (fun i _ => (i : ℝ)) (fun i _ => 2 * (i : ℝ) + 1) ≤ 1 / 5 := by
  obtain ⟨w', t', seen, ms, h1, h2, h3, -, h5⟩ := C116_converges (lineTrainer_setup 3 (by decide) false) lineNet_single rfl (by show "MeanSquaredError" ∈ squaredLosses; decide) (.inl rfl) rfl
    (lr := 1 / 4) (by rw [if_neg (by show ¬ (1 / 4 : ℝ) = -1; norm_num)]; rfl) (by norm_num) line_rate heps e
  refine ⟨w', t', seen, _, h1, h3, ?_⟩
  have := h5 lineBest ⟨rfl, rfl⟩ rfl
  have hb : lineBest.error (lineTrainer 3 false).loss 3 (fun i _ => (i : ℝ)) (fun i _ => 2 * (i : ℝ) + 1) = 0 := by
    rw [Mlp.Single.error_eq ⟨rfl, rfl⟩ (by show "MeanSquaredError" ∈ squaredLosses; decide)]
    norm_num [Linear.err, Linear.lin, lineBest, sum_range_succ]
  have hd : lineNet.distSq lineBest = 5 := by
    simp [Mlp.distSq, lineNet, lineBest]
    norm_num
  rw [hb, hd, show ((lineTrainer 3 false).epochs.toNat : ℝ) = 50 by simp [lineTrainer]] at this
  show (ms _).error (lineTrainer 3 false).loss _ _ _ ≤ _
  linarith

example {eps : ℝ} (heps : 0 < eps) (e : FitEnv) := C116_keep_best (lineTrainer_setup 3 (by decide) true) lineNet_single rfl (by show "MeanSquaredError" ∈ squaredLosses; decide) (.inl rfl)
  rfl rfl rfl (by show (0 : Int) < 50; decide) (lr := 1 / 4) (by rw [if_neg (by show ¬ (1 / 4 : ℝ) = -1; norm_num)]; rfl) (by norm_num) line_rate heps e

example {eps : ℝ} (heps : 0 < eps) (e : FitEnv) := C116_one_sample (lineTrainer_setup 1 (by decide) false) lineNet_single rfl (by show "MeanSquaredError" ∈ squaredLosses; decide)
  rfl rfl heps e

end BeeDNN
