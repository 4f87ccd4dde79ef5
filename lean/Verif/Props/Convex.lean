import Verif.Lemmas.ConvexLoss
import Verif.Props.Linear

/-! # Training a dense layer with a smooth convex loss: C125 -/

namespace BeeDNN
open Finset Trainer

namespace Mlp.Regression

variable {loss : String} {m m' : Mlp}

theorem like (h : m.Regression loss) (hl : Mlp.Like m m') : m'.Regression loss := by
  rcases h with ⟨h1, h2⟩ | ⟨h1, h2, h3⟩
  · exact .inl ⟨h1.like hl, h2⟩
  · exact .inr ⟨hl.depth.trans h1, (hl.kind 0).trans h2, by rw [hl.kind 1]; exact h3⟩

theorem loss_mem (h : m.Regression loss) : loss ∈ smoothLosses ∨ loss ∈ classLosses ∨ loss = "BinaryCrossEntropy" := by
  rcases h with ⟨-, h⟩ | ⟨-, -, ⟨-, h⟩ | ⟨-, h⟩⟩
  · exact .inl h
  · exact .inr (.inl h)
  · exact .inr (.inr h)

theorem dense (h : m.Regression loss) : (m.ply 0).kind = .dense := by
  rcases h with ⟨h1, -⟩ | ⟨-, h2, -⟩
  · exact h1.dense
  · exact h2

theorem depth_pos (h : m.Regression loss) : 0 < m.depth := by
  rcases h with ⟨h1, -⟩ | ⟨h1, -⟩
  · rw [h1.depth]; exact one_pos
  · rw [h1]; exact two_pos

theorem exact (h : m.Regression loss) : m.Exact := fun i hi => by
  rcases h with ⟨h1, -⟩ | ⟨h1, h2, h3⟩
  · obtain rfl : i = 0 := by rw [h1.depth] at hi; omega
    rw [h1.dense]; trivial
  · rw [h1] at hi
    obtain rfl | rfl : i = 0 ∨ i = 1 := by omega
    · rw [h2]; trivial
    · rcases h3 with ⟨h3, -⟩ | ⟨h3, -⟩ <;> rw [h3] <;> trivial

/-- The network is the dense layer followed by the head. -/
theorem out_eq (h : m.Regression loss) (v : Row) :
    m.out v = Linear.head loss (m.width 1) fun j => ∑ k ∈ range (m.width 0), v k * (m.ply 0).weight k j + (m.ply 0).bias 0 j := by
  have hd := h.dense
  rcases h with ⟨h1, h2⟩ | ⟨h1, -, ⟨h3, h4⟩ | ⟨h3, h4⟩⟩
  · have : ∀ s ∈ smoothLosses, s ∉ classLosses ∧ s ≠ "BinaryCrossEntropy" := by decide
    rw [Linear.head, if_neg (this _ h2).1, if_neg (this _ h2).2, Mlp.out, h1.depth, Mlp.hidden, Mlp.hidden, Ply.apply, hd]
  · rw [Linear.head, if_pos h4, Mlp.out, h1, Mlp.hidden, Mlp.hidden, Mlp.hidden, Ply.apply, h3]
    dsimp only
    rw [Ply.apply, hd]
  · rw [Linear.head, if_neg (by rw [h4]; decide), if_pos h4, Mlp.out, h1, Mlp.hidden, Mlp.hidden, Mlp.hidden, Ply.apply, h3]
    dsimp only
    rw [Ply.apply, hd]

theorem width_eq (h : m.Regression loss) (hok : m.Ok) : m.width m.depth = m.width 1 := by
  rcases h with ⟨h1, h2⟩ | ⟨h1, -, ⟨h3, h4⟩ | ⟨h3, h4⟩⟩
  · rw [h1.depth]
  · have := hok.fits 1 (by rw [h1]; decide)
    rw [h3] at this
    rw [h1]
    exact this
  · have := hok.fits 1 (by rw [h1]; decide)
    rw [h3] at this
    rw [h1]
    exact this.1

theorem error_eq (h : m.Regression loss) (hok : m.Ok) (N : Nat) (x y : Nat → Row) :
    m.error loss N x y = Linear.cerr N (m.width 0) x (fun s => Linear.sampleLink loss (m.width 1) (y s)) (m.ply 0).weight (m.ply 0).bias := by
  unfold Mlp.error Linear.cerr
  rw [h.width_eq hok]
  congr 1
  refine sum_congr rfl fun s _ => ?_
  rw [h.out_eq]
  rfl

theorem setPar (h : m.Regression loss) (hok : m.Ok) (b : Bool) (V : Nat → Nat → ℝ) : (m.setPar b 0 V).Regression loss ∧ (m.setPar b 0 V).Ok ∧ (m.setPar b 0 V).ply 0 = (m.ply 0).setPar b V := by
  have lk : Mlp.Like m (m.setPar b 0 V) := ⟨rfl, rfl, fun i => by
    show (if i = 0 then (m.ply 0).setPar b V else m.ply i).kind = _
    split
    · next h => subst h; cases b <;> rfl
    · rfl⟩
  exact ⟨h.like lk, lk.ok hok, rfl⟩

/-- The gradients of a step, for the weights and the biases. -/
theorem grads (h : m.Regression loss) (hok : m.Ok) {lr : ℝ} {N : Nat} {x y : Nat → Row} (hd : Mlp.Descends loss lr N x y m m') :
    ∃ G g, IsGrad (m.width 0) (m.width 1) (fun P => Linear.cerr N (m.width 0) x (fun s => Linear.sampleLink loss (m.width 1) (y s)) P (m.ply 0).bias) (m.ply 0).weight G ∧
      IsGrad 1 (m.width 1) (fun P => Linear.cerr N (m.width 0) x (fun s => Linear.sampleLink loss (m.width 1) (y s)) (m.ply 0).weight P) (m.ply 0).bias g ∧
      (m'.ply 0).weight = (fun k j => (m.ply 0).weight k j - lr * G k j) ∧ (m'.ply 0).bias = fun k j => (m.ply 0).bias k j - lr * g k j := by
  obtain ⟨G, g1, g2⟩ := hd.step false 0 h.depth_pos (by rw [Ply.has, h.dense]; rfl)
  obtain ⟨g, g3, g4⟩ := hd.step true 0 h.depth_pos (by rw [Ply.has, h.dense]; rfl)
  have hs : ∀ b V, (m.setPar b 0 V).error loss N x y =
      Linear.cerr N (m.width 0) x (fun s => Linear.sampleLink loss (m.width 1) (y s)) ((m.ply 0).setPar b V).weight ((m.ply 0).setPar b V).bias := fun b V => by
    obtain ⟨a1, a2, a3⟩ := h.setPar hok b V
    rw [a1.error_eq a2, a3]
    rfl
  refine ⟨G, g, fun V => ?_, fun V => ?_, funext fun k => funext fun j => g2 k j, funext fun k => funext fun j => g4 k j⟩
  · have := g1 V
    simp only [hs] at this
    rw [Mlp.shape, h.dense] at this
    exact this
  · have := g3 V
    simp only [hs] at this
    rw [Mlp.shape, h.dense] at this
    exact this

end Mlp.Regression

theorem lossCurvature_nonneg (loss : String) (K : Nat) : 0 ≤ lossCurvature loss K := by
  unfold lossCurvature
  split_ifs <;> positivity

/-- One full step. -/
theorem Mlp.Regression.step {loss : String} {m m' : Mlp} (h : m.Regression loss) (hok : m.Ok) {lr : ℝ} {N : Nat} {x y : Nat → Row}
    (hy : ∀ s, s < N → Linear.Truth loss (m.width 1) (y s)) (hd : Mlp.Descends loss lr N x y m m')
    (h0 : 0 < lr) (h1 : lr * errorCurvature loss N (m.width 0) (m.width 1) x ≤ 1) :
    m'.error loss N x y ≤ m.error loss N x y ∧ ∀ o : Mlp, o.Regression loss → o.Ok → o.width = m.width →
      2 * lr * (m'.error loss N x y - o.error loss N x y) ≤ m.distSq o - m'.distSq o := by
  obtain ⟨G, g, g1, g2, g3, g4⟩ := h.grads hok hd
  have hK : 0 < m.width 1 := hok.pos 1 h.depth_pos
  choose! gr hgr using fun (s : Nat) (hs : s < N) => Linear.link_of_truth h.loss_mem hK (hy s hs)
  obtain ⟨k1, k2⟩ := Linear.cstep hgr (lossCurvature_nonneg _ _) g1 g2 h0 h1
  rw [← g3, ← g4] at k1
  have hm' := h.like hd.like
  have e' : m'.error loss N x y = Linear.cerr N (m.width 0) x (fun s => Linear.sampleLink loss (m.width 1) (y s)) (m'.ply 0).weight (m'.ply 0).bias := by
    rw [hm'.error_eq (hd.like.ok hok), hd.like.width]
  have hn : 0 ≤ Linear.norm2 (m.width 0) (m.width 1) G g :=
    add_nonneg (sum_nonneg fun _ _ => sum_nonneg fun _ _ => mul_self_nonneg _) (sum_nonneg fun _ _ => sum_nonneg fun _ _ => mul_self_nonneg _)
  refine ⟨?_, fun o ho hoo hw => ?_⟩
  · rw [e', h.error_eq hok]
    have : 0 ≤ lr / 2 * Linear.norm2 (m.width 0) (m.width 1) G g := by positivity
    linarith
  · have := k2 (o.ply 0).weight (o.ply 0).bias
    rw [e', ho.error_eq hoo, hw, distSq_eq, distSq_eq, hd.like.width, g3, g4]
    exact this

theorem distSq_nonneg (m o : Mlp) : 0 ≤ m.distSq o := by
  unfold Mlp.distSq
  positivity

/-- A sequence of full steps. -/
theorem Mlp.Regression.steps {loss : String} {m : Mlp} (hm : m.Regression loss) (hok : m.Ok) {lr : ℝ} {N E : Nat} {x y : Nat → Row}
    (hy : ∀ s, s < N → Linear.Truth loss (m.width 1) (y s)) {ms : Nat → Mlp} (k0 : ms 0 = m)
    (kd : ∀ i, i < E → Mlp.Descends loss lr N x y (ms i) (ms (i + 1))) (h0 : 0 < lr) (h1 : lr * errorCurvature loss N (m.width 0) (m.width 1) x ≤ 1) :
    (∀ i, i < E → (ms (i + 1)).error loss N x y ≤ (ms i).error loss N x y) ∧
      ∀ o : Mlp, o.Regression loss → o.Ok → o.width = m.width → ∀ T, T ≤ E →
        2 * lr * (T * ((ms T).error loss N x y - o.error loss N x y)) ≤ m.distSq o - (ms T).distSq o := by
  have like : ∀ i, i ≤ E → Mlp.Like m (ms i) := by
    intro i
    induction i with
    | zero => intro _; rw [k0]; exact ⟨rfl, rfl, fun _ => rfl⟩
    | succ i ih => exact fun hi => (ih (by omega)).trans (kd i hi).like
  have st : ∀ i, i < E → _ := fun i hi => (hm.like (like i hi.le)).step ((like i hi.le).ok hok) (by rw [(like i hi.le).width]; exact hy) (kd i hi) h0
    (by rw [(like i hi.le).width]; exact h1)
  refine ⟨fun i hi => (st i hi).1, fun o o1 o2 o3 T => ?_⟩
  induction T with
  | zero => intro _; rw [k0]; simp
  | succ T ih =>
    intro hT
    have a1 := ih (by omega)
    obtain ⟨a2, a3⟩ := st T hT
    have a4 := a3 o o1 o2 (by rw [o3, (like T (by omega)).width])
    have a5 : 2 * lr * (T * ((ms (T + 1)).error loss N x y - o.error loss N x y)) ≤ 2 * lr * (T * ((ms T).error loss N x y - o.error loss N x y)) :=
      mul_le_mul_of_nonneg_left (mul_le_mul_of_nonneg_left (by linarith) (Nat.cast_nonneg T)) (by positivity)
    push_cast
    linarith

/-- The cross entropies, that cut off logarithms. -/
def crossEntropies : List String := ["CategoricalCrossEntropy", "SparseCategoricalCrossEntropy", "BinaryCrossEntropy"]

/-- When a sample is regular. -/
theorem Mlp.Regression.regular {loss : String} {m : Mlp} (h : m.Regression loss) (hok : m.Ok) {eps : ℝ} {v y : Row} (hy : Linear.Truth loss (m.width 1) y)
    (hu : loss ∈ crossEntropies → m.Unsaturated eps v) : m.Regular eps loss v y := by
  have hw := h.width_eq hok
  rcases h with ⟨h1, h2⟩ | ⟨h1, h2, ⟨h3, h4⟩ | ⟨h3, h4⟩⟩
  · have : ∀ s ∈ smoothLosses, ¬ (s = "CategoricalCrossEntropy" ∨ s = "SparseCategoricalCrossEntropy") ∧ ¬ (s = "MeanAbsoluteError" ∨ s = "L1") ∧ s ≠ "BinaryCrossEntropy" := by decide
    obtain ⟨a1, a2, a3⟩ := this _ h2
    rw [Mlp.Regular, if_neg a1]
    refine ⟨fun i hi => ?_, fun h => absurd h a2, fun h => absurd h a3⟩
    obtain rfl : i = 0 := by rw [h1.depth] at hi; omega
    rw [h1.dense]; trivial
  · have : ∀ s ∈ classLosses, (s = "CategoricalCrossEntropy" ∨ s = "SparseCategoricalCrossEntropy") ∧ s ∈ crossEntropies := by decide
    rw [Mlp.Regular, if_pos (this _ h4).1, h1]
    refine ⟨h3, fun i hi => ?_, ?_, fun h => ?_⟩
    · obtain rfl : i = 0 := by omega
      rw [h2]; trivial
    · have := hu (this _ h4).2
      rw [Mlp.Unsaturated, h1] at this
      exact this
    · have := hy.1 h
      rw [← hw, h1] at this
      exact this
  · subst h4
    rw [Mlp.Regular, if_neg (by decide)]
    refine ⟨fun i hi => ?_, fun h => absurd h (by decide), fun _ => hu (by decide) 0 (hok.pos _ le_rfl)⟩
    rw [h1] at hi
    obtain rfl | rfl : i = 0 ∨ i = 1 := by omega
    · rw [h2]; trivial
    · rw [h3]
      intro j _
      refine (hasDerivAt_sigm _).congr_deriv ?_
      simp only [Act.sigmoid]
      have h0 := one_add_exp_ne (-m.hidden v 1 j)
      field_simp
      ring

/-- Full batches: an epoch is one step. -/
theorem Mlp.Epoch.full_if {P : Mlp → Row → Row → Prop} {rate : Mlp → Nat → Bool → Nat → ℝ} {loss : String} {lr : ℝ} {N D : Nat} (hN : 0 < N) {x y : Nat → Row} {m m' : Mlp} {r : Nat}
    (h : Mlp.Epoch (fun N' x' y' m₁ m₂ => (∀ i, i < N' → P m₁ (x' i) (y' i)) → Mlp.Steps (rate m₁ N') loss lr N' x' y' m₁ m₂) N N D x y m m' r)
    (hP : ∀ i, i < N → P m (x i) (y i)) : Mlp.Steps (rate m N) loss lr N x y m m' := by
  obtain ⟨σ, ms, h1, h2, h3, h4, -⟩ := h
  have hb := nbBatches_one hN (le_refl N)
  rw [hb] at h3 h4
  have h5 := h4 0 one_pos
  rw [h2, h3, show batchEnd N N 0 - batchStart N 0 = N by unfold batchEnd batchStart; omega] at h5
  simp only [batchStart, Nat.zero_mul, Nat.zero_add] at h5
  have h5 := h5 fun i hi => hP _ (perm_lt h1 hi)
  refine ⟨h5.like, fun b i hi hh => ?_⟩
  obtain ⟨G, g1, g2⟩ := h5.step b i hi hh
  refine ⟨G, fun V => ?_, g2⟩
  have := g1 V
  simp only [error_perm h1] at this
  exact this

/-- What a run of `fit` does, epoch by epoch. -/
theorem Mlp.Regression.fit {w : World} {t : Trainer} {n b : Nat} {m : Mlp} {N D : Nat} {x y : Nat → Row} (h : FitSetup w t n b m N D x y) (hm : m.Regression t.loss)
    (ho : t.optName = "SGD") (hb : t.batchSize = 0 ∨ (N : Int) ≤ t.batchSize) (hk : t.keepBest = false)
    (hs : t.loss = "CategoricalCrossEntropy" → ∀ i, i < N → ∑ j ∈ range (m.width 1), y i j = 1) {lr : ℝ}
    (hlr : lr = if t.lr = -1 then 0.01 else t.lr) {eps : ℝ} (heps : 0 < eps) (e : FitEnv) :
    (∀ s, s < N → Linear.Truth t.loss (m.width 1) (y s)) ∧
    ∃ (w' : World) (t' : Trainer) (seen : List (List (Option Layer))) (ms : Nat → Mlp), Trainer.fit (fun x => |x|) eps e w t n b = .ok (w', t', seen) ∧
      ms 0 = m ∧ (∀ i, i ≤ t.epochs.toNat → Mlp.Like m (ms i)) ∧ Represents w' n (ms t.epochs.toNat) ∧
      ∀ i, i < t.epochs.toNat → (t.loss ∈ crossEntropies → ∀ s, s < N → (ms i).Unsaturated eps (x s)) → Mlp.Descends t.loss lr N x y (ms i) (ms (i + 1)) := by
  have hT : ∀ s, s < N → Linear.Truth t.loss (m.width 1) (y s) := fun s hs' => by
    have := h.truth
    rw [hm.width_eq h.net.ok, TruthFits] at this
    refine ⟨fun hl => hs hl s hs', fun hl => ?_, fun hl => ?_⟩
    · rw [if_pos hl] at this
      exact this.2.2 s hs'
    · rw [if_neg (by rw [hl]; decide)] at this
      exact this.2 hl
  refine ⟨hT, ?_⟩
  obtain ⟨ψ, l1, l2⟩ := lossOk_of_mem eps h.loss (h.net.ok.pos _ (Nat.le_refl m.depth)) D
  obtain ⟨w', t', seen, ms, r, v, j, h1, h2, h3, h4, h5, h6, h7, h8, h9, h10, -⟩ := fit_mlp (e := e) h.net h.owned h.slot h.fresh h.inOut h.gradient h.reg
    (k := .sgd) (by rw [ho]; rfl) h.samples x y h.train h.truth h.valid h.valBatch h.batchSize h.balancing h.patience h.loss l1
  rw [h5 hk] at h6
  refine ⟨w', t', seen, ms, h1, h2, h3, h6, fun i hi hu => ?_⟩
  have lk := h3 i hi.le
  have hep := EpochFact.steps heps h.loss (lk.ok h.net.ok) (by rw [lk.depth, lk.width]; exact l2) (by rw [lk.depth, lk.width]; exact h.truth)
    (by simpa using h9 i hi) (step := fun N' x' y' m₁ m₂ => (∀ i, i < N' → m₁.Regular eps t.loss (x' i) (y' i)) → Mlp.Steps (m₁.rate N') t.loss (if t.lr = -1 then 0.01 else t.lr) N' x' y' m₁ m₂)
    (fun N' x' y' m₁ m₂ _ _ _ hst => hst)
  rw [← adjustBatch_toNat h.batchSize] at hep
  have hB : (if t.batchSize = 0 then N else min t.batchSize.toNat N) = N := by
    split
    · rfl
    · rcases hb with hb | hb
      · contradiction
      · omega
  rw [hB, ← hlr] at hep
  have hmi := hm.like lk
  refine (hep.full_if (P := fun m₁ v z => m₁.Regular eps t.loss v z) (rate := fun m₁ N' => m₁.rate N') h.samples fun s hs' => ?_).descends hmi.exact
  exact hmi.regular (lk.ok h.net.ok) (by rw [lk.width]; exact hT s hs') fun hc => hu hc s hs'

/-- C125: `fit` with plain gradient descent and all samples in one batch trains linear models with any smooth convex loss, softmax classifiers and logistic models to the least
error: for a learning rate up to the reciprocal of the curvature, the error after the last epoch exceeds that of any other weights and biases by at most their squared distance
from the original ones over twice the learning rate times the number of epochs, and the error never grows.  For the cross entropies this is as long as no prediction for a sample
gets closer than `eps` to 0 or 1. -/
theorem C125_converges {w : World} {t : Trainer} {n b : Nat} {m : Mlp} {N D : Nat} {x y : Nat → Row} (h : FitSetup w t n b m N D x y) (hm : m.Regression t.loss)
    (ho : t.optName = "SGD") (hb : t.batchSize = 0 ∨ (N : Int) ≤ t.batchSize) (hk : t.keepBest = false)
    (hs : t.loss = "CategoricalCrossEntropy" → ∀ i, i < N → ∑ j ∈ range (m.width 1), y i j = 1) {lr : ℝ}
    (hlr : lr = if t.lr = -1 then 0.01 else t.lr) (h0 : 0 < lr) (h1 : lr * errorCurvature t.loss N (m.width 0) (m.width 1) x ≤ 1) {eps : ℝ} (heps : 0 < eps) (e : FitEnv) :
    ∃ (w' : World) (t' : Trainer) (seen : List (List (Option Layer))) (ms : Nat → Mlp), fit (fun x => |x|) eps e w t n b = .ok (w', t', seen) ∧
      ms 0 = m ∧ Represents w' n (ms t.epochs.toNat) ∧
      ((t.loss ∈ crossEntropies → ∀ i, i < t.epochs.toNat → ∀ s, s < N → (ms i).Unsaturated eps (x s)) →
        (∀ i, i < t.epochs.toNat → (ms (i + 1)).error t.loss N x y ≤ (ms i).error t.loss N x y) ∧
        ∀ o : Mlp, o.Regression t.loss → o.Ok → o.width = m.width →
          (t.epochs.toNat : ℝ) * ((ms t.epochs.toNat).error t.loss N x y - o.error t.loss N x y) ≤ m.distSq o / (2 * lr)) := by
  obtain ⟨hT, w', t', seen, ms, k1, k2, k3, k4, k5⟩ := hm.fit h ho hb hk hs hlr heps e
  refine ⟨w', t', seen, ms, k1, k2, k4, fun hu => ?_⟩
  obtain ⟨a1, a2⟩ := hm.steps h.net.ok hT k2 (fun i hi => k5 i hi fun hc => hu hc i hi) h0 h1
  refine ⟨a1, fun o o1 o2 o3 => ?_⟩
  rw [le_div_iff₀ (by positivity)]
  have := a2 o o1 o2 o3 _ le_rfl
  have := distSq_nonneg (ms t.epochs.toNat) o
  linarith

/-! ## Networks near an unsaturated one -/

namespace Linear

theorem lin_near (C K : Nat) (x : Nat → Row) (W b V v : Nat → Nat → ℝ) (s : Nat) {j : Nat} (hj : j < K) :
    |lin C x W b s j - lin C x V v s j| ≤ Real.sqrt ((∑ k ∈ range C, x s k ^ 2 + 1) * norm2 C K (fun k j => W k j - V k j) (fun k j => b k j - v k j)) := by
  have h1 := lin_add C x V v (fun k j => W k j - V k j) (fun k j => b k j - v k j) 1 s j
  simp only [one_mul, add_sub_cancel] at h1
  rw [h1, add_sub_cancel_left]
  refine Real.abs_le_sqrt ((lin_sq_le C x _ _ s j).trans (mul_le_mul_of_nonneg_left ?_ (by positivity)))
  unfold norm2 dotM
  rw [sum_range_one, sum_comm, ← sum_add_distrib]
  refine le_trans (le_of_eq ?_) (single_le_sum (f := fun j => ∑ k ∈ range C, (W k j - V k j) * (W k j - V k j) + (b 0 j - v 0 j) * (b 0 j - v 0 j)) (fun j _ =>
    add_nonneg (sum_nonneg fun k _ => mul_self_nonneg _) (mul_self_nonneg _)) (mem_range.2 hj))
  simp only [pow_two]

theorem softmax_near {K : Nat} {z z' : Row} {r : ℝ} (h : ∀ j, j < K → |z' j - z j| ≤ r) {j : Nat} (hj : j < K) : softmaxAt K z j * Real.exp (-2 * r) ≤ softmaxAt K z' j := by
  have hp : ∀ z : Row, 0 < ∑ k ∈ range K, Real.exp (z k) := fun z => sum_pos (fun j _ => Real.exp_pos _) ⟨j, mem_range.2 hj⟩
  have h1 : Real.exp (z j) * Real.exp (-r) ≤ Real.exp (z' j) := by
    rw [← Real.exp_add]
    exact Real.exp_le_exp.2 (by have := abs_le.1 (h j hj); linarith)
  have h2 : ∑ k ∈ range K, Real.exp (z' k) ≤ (∑ k ∈ range K, Real.exp (z k)) * Real.exp r := by
    rw [sum_mul]
    refine sum_le_sum fun k hk => ?_
    rw [← Real.exp_add]
    exact Real.exp_le_exp.2 (by have := abs_le.1 (h k (mem_range.1 hk)); linarith)
  unfold softmaxAt
  rw [div_mul_eq_mul_div, div_le_div_iff₀ (hp z) (hp z')]
  calc Real.exp (z j) * Real.exp (-2 * r) * ∑ k ∈ range K, Real.exp (z' k)
      ≤ Real.exp (z j) * Real.exp (-2 * r) * ((∑ k ∈ range K, Real.exp (z k)) * Real.exp r) := mul_le_mul_of_nonneg_left h2 (by positivity)
    _ = Real.exp (z j) * Real.exp (-r) * ∑ k ∈ range K, Real.exp (z k) := by
      rw [show -r = -2 * r + r by ring, Real.exp_add]
      ring
    _ ≤ _ := mul_le_mul_of_nonneg_right h1 (hp z).le

theorem softmax_compl_near {K : Nat} {z z' : Row} {r : ℝ} (h : ∀ j, j < K → |z' j - z j| ≤ r) {j : Nat} (hj : j < K) :
    (1 - softmaxAt K z j) * Real.exp (-2 * r) ≤ 1 - softmaxAt K z' j := by
  have e : ∀ z : Row, 1 - softmaxAt K z j = ∑ i ∈ (range K).erase j, softmaxAt K z i := fun z => by
    have hp : 0 < ∑ k ∈ range K, Real.exp (z k) := sum_pos (fun j _ => Real.exp_pos _) ⟨j, mem_range.2 hj⟩
    have h1 : ∑ i ∈ range K, softmaxAt K z i = 1 := by
      unfold softmaxAt
      rw [← sum_div, div_self hp.ne']
    rw [← h1, ← sum_erase_add _ _ (mem_range.2 hj)]
    ring
  rw [e, e, sum_mul]
  exact sum_le_sum fun i hi => softmax_near h (mem_range.1 (mem_of_mem_erase hi))

theorem sigmoid_near {z z' r : ℝ} (h : |z' - z| ≤ r) :
    Act.sigmoid.apply z * Real.exp (-2 * r) ≤ Act.sigmoid.apply z' ∧ (1 - Act.sigmoid.apply z) * Real.exp (-2 * r) ≤ 1 - Act.sigmoid.apply z' := by
  have hv : ∀ z, Act.sigmoid.apply z = softmaxAt 2 (fun j => if j = 0 then z else 0) 0 := fun z => by
    show 1 / (1 + Real.exp (-z)) = _
    rw [softmaxAt, sum_range_succ, sum_range_one, if_pos rfl, if_neg one_ne_zero, Real.exp_zero, Real.exp_neg]
    have := Real.exp_pos z
    field_simp
  have hn : ∀ j, j < 2 → |(if j = 0 then z' else 0) - (if j = 0 then z else 0)| ≤ r := fun j _ => by
    split
    · exact h
    · rw [sub_self, abs_zero]
      exact (abs_nonneg _).trans h
  rw [hv, hv]
  exact ⟨softmax_near hn two_pos, softmax_compl_near hn two_pos⟩

end Linear

/-- A network that is near an unsaturated one is unsaturated. -/
theorem Mlp.Regression.near {loss : String} {m o : Mlp} (hm : m.Regression loss) (ho : o.Regression loss) (hl : loss ∈ crossEntropies) (hok : m.Ok)
    (hw : o.width = m.width) {eps D : ℝ} (hD : m.distSq o ≤ D) (v : Row)
    (hu : ∀ j, j < m.width 1 → eps < o.out v j * Real.exp (-2 * Real.sqrt ((∑ k ∈ range (m.width 0), v k ^ 2 + 1) * D)) ∧
      eps < (1 - o.out v j) * Real.exp (-2 * Real.sqrt ((∑ k ∈ range (m.width 0), v k ^ 2 + 1) * D))) : m.Unsaturated eps v := by
  intro j hj
  rw [hm.width_eq hok] at hj
  have hz : ∀ j, j < m.width 1 → |(∑ k ∈ range (m.width 0), v k * (m.ply 0).weight k j + (m.ply 0).bias 0 j) - (∑ k ∈ range (m.width 0), v k * (o.ply 0).weight k j + (o.ply 0).bias 0 j)| ≤
      Real.sqrt ((∑ k ∈ range (m.width 0), v k ^ 2 + 1) * D) := fun j hj => by
    refine (Linear.lin_near (m.width 0) (m.width 1) (fun _ => v) (m.ply 0).weight (m.ply 0).bias (o.ply 0).weight (o.ply 0).bias 0 hj).trans (Real.sqrt_le_sqrt ?_)
    rw [← distSq_eq]
    exact mul_le_mul_of_nonneg_left hD (by positivity)
  have key : o.out v j * Real.exp (-2 * Real.sqrt ((∑ k ∈ range (m.width 0), v k ^ 2 + 1) * D)) ≤ m.out v j ∧
      (1 - o.out v j) * Real.exp (-2 * Real.sqrt ((∑ k ∈ range (m.width 0), v k ^ 2 + 1) * D)) ≤ 1 - m.out v j := by
    rw [ho.out_eq, hm.out_eq, hw]
    rcases hm with ⟨-, h2⟩ | ⟨-, -, ⟨-, h4⟩ | ⟨-, h4⟩⟩
    · have : ∀ s ∈ smoothLosses, s ∉ crossEntropies := by decide
      exact absurd hl (this _ h2)
    · rw [Linear.head, Linear.head, if_pos h4, if_pos h4]
      exact ⟨Linear.softmax_near hz hj, Linear.softmax_compl_near hz hj⟩
    · rw [Linear.head, Linear.head, if_neg (by rw [h4]; decide), if_pos h4, if_neg (by rw [h4]; decide), if_pos h4]
      exact Linear.sigmoid_near (hz j hj)
  obtain ⟨a1, a2⟩ := hu j hj
  exact ⟨a1.trans_le key.1, by have := a2.trans_le key.2; linarith⟩

/-- C125: if there is a best model `o` whose predictions for the samples are far enough from 0 and 1, measured by the distance of the original weights and biases from it, then
all predictions on the way keep away from 0 and 1: no condition on the run is needed, and training comes ever closer to the best weights and biases. -/
theorem C125_best {w : World} {t : Trainer} {n b : Nat} {m : Mlp} {N D : Nat} {x y : Nat → Row} (h : FitSetup w t n b m N D x y) (hm : m.Regression t.loss)
    (ho : t.optName = "SGD") (hb : t.batchSize = 0 ∨ (N : Int) ≤ t.batchSize) (hk : t.keepBest = false)
    (hs : t.loss = "CategoricalCrossEntropy" → ∀ i, i < N → ∑ j ∈ range (m.width 1), y i j = 1) {lr : ℝ}
    (hlr : lr = if t.lr = -1 then 0.01 else t.lr) (h0 : 0 < lr) (h1 : lr * errorCurvature t.loss N (m.width 0) (m.width 1) x ≤ 1) {eps : ℝ} (heps : 0 < eps) (e : FitEnv)
    {o : Mlp} (o1 : o.Regression t.loss) (o2 : o.Ok) (o3 : o.width = m.width) (hbest : ∀ o' : Mlp, Mlp.Like m o' → o.error t.loss N x y ≤ o'.error t.loss N x y)
    (hu : t.loss ∈ crossEntropies → ∀ s, s < N → ∀ j, j < m.width 1 →
      eps < o.out (x s) j * Real.exp (-2 * Real.sqrt ((∑ k ∈ range (m.width 0), x s k ^ 2 + 1) * m.distSq o)) ∧
      eps < (1 - o.out (x s) j) * Real.exp (-2 * Real.sqrt ((∑ k ∈ range (m.width 0), x s k ^ 2 + 1) * m.distSq o))) :
    ∃ (w' : World) (t' : Trainer) (seen : List (List (Option Layer))) (ms : Nat → Mlp), fit (fun x => |x|) eps e w t n b = .ok (w', t', seen) ∧
      ms 0 = m ∧ Represents w' n (ms t.epochs.toNat) ∧
      (∀ i, i < t.epochs.toNat → (ms (i + 1)).error t.loss N x y ≤ (ms i).error t.loss N x y ∧ (ms (i + 1)).distSq o ≤ (ms i).distSq o) ∧
      (t.epochs.toNat : ℝ) * ((ms t.epochs.toNat).error t.loss N x y - o.error t.loss N x y) ≤ m.distSq o / (2 * lr) := by
  obtain ⟨hT, w', t', seen, ms, k1, k2, k3, k4, k5⟩ := hm.fit h ho hb hk hs hlr heps e
  have key : ∀ i, i ≤ t.epochs.toNat → (ms i).distSq o ≤ m.distSq o ∧ ∀ k, k < i → Mlp.Descends t.loss lr N x y (ms k) (ms (k + 1)) ∧ (ms (k + 1)).distSq o ≤ (ms k).distSq o := by
    intro i
    induction i with
    | zero => exact fun _ => ⟨by rw [k2], fun k hk => absurd hk (by omega)⟩
    | succ i ih =>
      intro hi
      obtain ⟨a1, a2⟩ := ih (by omega)
      have lk := k3 i (by omega)
      have hmi := hm.like lk
      have hd := k5 i hi fun hc s hs' => hmi.near o1 hc (lk.ok h.net.ok) (by rw [o3, lk.width]) a1 (x s) (by rw [lk.width]; exact hu hc s hs')
      have b1 := (hmi.step (lk.ok h.net.ok) (by rw [lk.width]; exact hT) hd h0 (by rw [lk.width]; exact h1)).2 o o1 o2 (by rw [o3, lk.width])
      have b2 := hbest _ (k3 (i + 1) hi)
      have b3 : 0 ≤ 2 * lr * ((ms (i + 1)).error t.loss N x y - o.error t.loss N x y) := mul_nonneg (by positivity) (by linarith)
      have b4 : (ms (i + 1)).distSq o ≤ (ms i).distSq o := by linarith
      refine ⟨b4.trans a1, fun k hk' => ?_⟩
      rcases Nat.lt_succ_iff_lt_or_eq.1 hk' with hk' | rfl
      · exact a2 k hk'
      · exact ⟨hd, b4⟩
  have all := (key _ le_rfl).2
  obtain ⟨a1, a2⟩ := hm.steps h.net.ok hT k2 (fun i hi => (all i hi).1) h0 h1
  refine ⟨w', t', seen, ms, k1, k2, k4, fun i hi => ⟨a1 i hi, (all i hi).2⟩, ?_⟩
  rw [le_div_iff₀ (by positivity)]
  have := a2 o o1 o2 o3 _ le_rfl
  have := distSq_nonneg (ms t.epochs.toNat) o
  linarith

/-! ## Cases -/

/-- The straight line of C116, with the loss of Huber. -/
noncomputable def huberTrainer : Trainer := { lineTrainer 3 false with loss := "Huber" }

theorem huberTrainer_setup : FitSetup lineWorld huberTrainer 0 1 lineNet 3 1 (fun i _ => (i : ℝ)) (fun i _ => 2 * (i : ℝ) + 1) :=
  { lineTrainer_setup 3 (by decide) false with
    truth := by
      rw [TruthFits, if_neg (by show ¬ "Huber" = _; decide)]
      exact ⟨rfl, fun h => absurd (show "Huber" = _ from h) (by decide)⟩
    valid := fun d h => by cases h
    loss := by show "Huber" ∈ listLoss; decide }

example {eps : ℝ} (heps : 0 < eps) (e : FitEnv) := C125_converges huberTrainer_setup (.inl ⟨lineNet_single, by show "Huber" ∈ smoothLosses; decide⟩) rfl (.inl rfl) rfl
  (fun h => absurd (show "Huber" = _ from h) (by decide)) (lr := 1 / 4) (by show (1 / 4 : ℝ) = if (1 / 4 : ℝ) = -1 then 0.01 else 1 / 4; norm_num) (by norm_num)
  (by
    show (1 / 4 : ℝ) * errorCurvature "Huber" 3 1 1 (fun i _ => (i : ℝ)) ≤ 1
    simp [errorCurvature, lossCurvature, classLosses, sum_range_succ]
    norm_num) heps e

/-- Three equal samples, two of class 0 and one of class 1, a thousand epochs. -/
noncomputable def voteTrainer : Trainer :=
  { optName := "SGD", loss := "SparseCategoricalCrossEntropy", lr := 1, epochs := 1000, batchSize := 0, keepBest := false
    train := some (Mat.ofFn 3 2 (fun _ _ => 0), Mat.ofFn 3 1 (fun i _ => if i = 2 then 1 else 0)) }

theorem voteTrainer_setup : FitSetup clsWorld voteTrainer 0 1 clsWitness 3 1 (fun _ _ => 0) (fun i _ => if i = 2 then 1 else 0) where
  net := clsWorld_represents
  owned := clsWorld_owned
  slot := by decide
  fresh := rfl
  inOut := fun _ h => absurd h List.not_mem_nil
  gradient := fun _ h => absurd h List.not_mem_nil
  samples := by decide
  train := rfl
  truth := by
    rw [TruthFits, if_pos (show voteTrainer.loss = "SparseCategoricalCrossEntropy" from rfl)]
    exact ⟨rfl, by decide, fun i _ => by
      by_cases h : i = 2
      · exact ⟨1, by decide, by simp [h]⟩
      · exact ⟨0, by decide, by simp [h]⟩⟩
  valid := fun d h => by cases h
  valBatch := by decide
  batchSize := by decide
  loss := by show "SparseCategoricalCrossEntropy" ∈ listLoss; decide
  reg := rfl
  balancing := rfl
  patience := .inl rfl

/-- The best model: it predicts 2/3 and 1/3. -/
noncomputable def voteBest : Mlp :=
  { depth := 2, width := fun _ => 2, ply := fun i => if i = 0 then { kind := .dense, bias := fun _ j => if j = 0 then Real.log 2 else 0 } else { kind := .softmax } }

theorem vote_regression : clsWitness.Regression voteTrainer.loss ∧ voteBest.Regression voteTrainer.loss :=
  ⟨.inr ⟨rfl, rfl, .inl ⟨rfl, by show "SparseCategoricalCrossEntropy" ∈ classLosses; decide⟩⟩,
    .inr ⟨rfl, rfl, .inl ⟨rfl, by show "SparseCategoricalCrossEntropy" ∈ classLosses; decide⟩⟩⟩

theorem voteBest_softmax : softmaxAt 2 (fun j => if j = 0 then Real.log 2 else 0) 0 = 2 / 3 ∧ softmaxAt 2 (fun j => if j = 0 then Real.log 2 else 0) 1 = 1 / 3 := by
  unfold softmaxAt
  rw [sum_range_succ, sum_range_one]
  dsimp only
  rw [if_pos rfl, if_neg one_ne_zero, Real.exp_log two_pos, Real.exp_zero]
  norm_num

theorem vote_error {o : Mlp} (h : o.Regression voteTrainer.loss) (hok : o.Ok) (hw : o.width = fun _ => 2) :
    o.error voteTrainer.loss 3 (fun _ _ => 0) (fun i _ => if i = 2 then 1 else 0) = Linear.lse 2 ((o.ply 0).bias 0) - (2 / 3 * (o.ply 0).bias 0 0 + 1 / 3 * (o.ply 0).bias 0 1) := by
  rw [h.error_eq hok, hw, Linear.cerr]
  have e : ∀ s, Linear.lin 2 (fun _ _ => 0) (o.ply 0).weight (o.ply 0).bias s = (o.ply 0).bias 0 := fun s => funext fun j => by simp [Linear.lin]
  have e1 : ∀ (c : Nat) (y : Row), y 0 = c → Linear.sampleLink voteTrainer.loss 2 y ((o.ply 0).bias 0) = Linear.lse 2 ((o.ply 0).bias 0) - (o.ply 0).bias 0 c := fun c y hy => by
    show Linear.sampleLink "SparseCategoricalCrossEntropy" 2 y _ = _
    rw [Linear.sampleLink, Linear.head, if_pos (by decide), sampleError, if_neg (by decide), if_pos rfl, hy, Nat.floor_natCast, Linear.log_softmax two_pos]
    ring
  rw [sum_range_succ, sum_range_succ, sum_range_one, e, e, e, e1 0 _ (by simp), e1 0 _ (by simp), e1 1 _ (by simp)]
  push_cast
  ring

theorem voteBest_ok : voteBest.Ok where
  depth := by decide
  pos := fun i _ => by simp [voteBest]
  fits := fun i hi => by by_cases h0 : i = 0 <;> simp [voteBest, h0, PlyKind.Fits]

/-- After a thousand epochs the cross entropy exceeds the least one by at most `(log 2)² / 2000`. -/
example (e : FitEnv) : ∃ (w' : World) (t' : Trainer) (seen : List (List (Option Layer))) (m' : Mlp), fit (fun x => |x|) 1e-8 e clsWorld voteTrainer 0 1 = .ok (w', t', seen) ∧
    Represents w' 0 m' ∧ m'.error voteTrainer.loss 3 (fun _ _ => 0) (fun i _ => if i = 2 then 1 else 0) ≤
      voteBest.error voteTrainer.loss 3 (fun _ _ => 0) (fun i _ => if i = 2 then 1 else 0) + (Real.log 2) ^ 2 / 2000 := by
  have hd : clsWitness.distSq voteBest = Real.log 2 ^ 2 := by simp [Mlp.distSq, clsWitness, voteBest, sum_range_succ]
  have hl := Real.log_pos one_lt_two
  have hx : Real.exp (-2 * Real.log 2) = 1 / 4 := by
    rw [neg_mul, Real.exp_neg, two_mul, Real.exp_add, Real.exp_log two_pos]
    norm_num
  have hout : ∀ v : Row, (∀ k, v k = 0) → voteBest.out v 0 = 2 / 3 ∧ voteBest.out v 1 = 1 / 3 := fun v hv => by
    rw [vote_regression.2.out_eq]
    show Linear.head "SparseCategoricalCrossEntropy" 2 _ 0 = _ ∧ Linear.head "SparseCategoricalCrossEntropy" 2 _ 1 = _
    rw [Linear.head, if_pos (by decide)]
    have : (fun j => ∑ k ∈ range (voteBest.width 0), v k * (voteBest.ply 0).weight k j + (voteBest.ply 0).bias 0 j) = fun j => if j = 0 then Real.log 2 else 0 := funext fun j => by
      simp [hv, voteBest]
    rw [this]
    exact voteBest_softmax
  obtain ⟨w', t', seen, ms, k1, k2, k3, -, k5⟩ := C125_best voteTrainer_setup vote_regression.1 rfl (.inl rfl) rfl
    (fun h => absurd (show "SparseCategoricalCrossEntropy" = _ from h) (by decide)) (lr := 1) (by show (1 : ℝ) = if (1 : ℝ) = -1 then 0.01 else 1; norm_num) one_pos
    (by
      show (1 : ℝ) * errorCurvature "SparseCategoricalCrossEntropy" 3 2 2 (fun _ _ => 0) ≤ 1
      simp [errorCurvature, lossCurvature, classLosses]
      norm_num) (eps := 1e-8) (by norm_num) e vote_regression.2 voteBest_ok rfl (fun o' lk => by
        rw [vote_error vote_regression.2 voteBest_ok rfl, vote_error (vote_regression.1.like lk) (lk.ok clsWorld_represents.ok) lk.width]
        have := (Linear.lse_line 2 two_pos (fun j => if j = 0 then Real.log 2 else 0) fun j => (o'.ply 0).bias 0 j - if j = 0 then Real.log 2 else 0).1
        rw [sum_range_succ, sum_range_one, voteBest_softmax.1, voteBest_softmax.2] at this
        simp only [add_sub_cancel] at this
        have e1 : (voteBest.ply 0).bias 0 = fun j => if j = 0 then Real.log 2 else 0 := rfl
        have e2 : Linear.lse 2 (fun j => (o'.ply 0).bias 0 j) = Linear.lse 2 ((o'.ply 0).bias 0) := rfl
        rw [e1]
        rw [e2] at this
        simp only [if_true, one_ne_zero, if_false] at this ⊢
        linarith) (fun _ s _ j hj => by
        obtain ⟨o1, o2⟩ := hout (fun _ => 0) fun _ => rfl
        rw [hd]
        have hs : Real.sqrt ((∑ k ∈ range (clsWitness.width 0), (0 : ℝ) ^ 2 + 1) * Real.log 2 ^ 2) = Real.log 2 := by
          simp [hl.le]
        rw [hs, hx]
        obtain rfl | rfl : j = 0 ∨ j = 1 := by
          have : j < 2 := hj
          omega
        · rw [o1]; norm_num
        · rw [o2]; norm_num)
  refine ⟨w', t', seen, _, k1, k3, ?_⟩
  rw [hd, show voteTrainer.epochs.toNat = 1000 from rfl] at k5
  rw [show voteTrainer.epochs.toNat = 1000 from rfl]
  push_cast at k5
  linarith

/-- A logistic model with one input: a dense layer and a sigmoid, all weights zero. -/
noncomputable def coinNet : Mlp := { depth := 2, width := fun _ => 1, ply := fun i => if i = 0 then { kind := .dense } else { kind := .act Act.sigmoid } }

/-- Network 0 is this model. -/
noncomputable def coinWorld : World :=
  { heap := [some { kind := .dense 1 1, weight := Mat.ofFn 1 1 (fun _ _ => 0), bias := Mat.ofFn 1 1 (fun _ _ => 0), wInit := "GlorotUniform", bInit := "Zeros" },
      some { kind := .activation Act.sigmoid }], nets := fun n => if n = 0 then { layers := [0, 1] } else {} }

theorem coinWorld_represents : Represents coinWorld 0 coinNet where
  ok :=
    { depth := by decide
      pos := fun i _ => by simp [coinNet]
      fits := fun i hi => by
        by_cases h0 : i = 0
        · simp [coinNet, h0, PlyKind.Fits]
        · show PlyKind.Fits 1 1 (if i = 0 then _ else _ : Ply).kind
          rw [if_neg h0]
          exact ⟨rfl, "Sigmoid", rfl⟩ }
  nodup := by simp [coinWorld]
  count := rfl
  layer := fun i a hi => by
    match i with
    | 0 =>
      obtain rfl : 0 = a := by simpa [coinWorld] using hi
      exact ⟨_, rfl, ⟨Mat.ofFn_WF .., rfl, Mat.ofFn_WF .., rfl, rfl, rfl, rfl, rfl, rfl, rfl, rfl, rfl,
        fun m hm => absurd hm List.not_mem_nil, by simp [LayerKind.usesWeight], by simp [LayerKind.usesBias], fun _ => ⟨rfl, rfl, rfl⟩, trivial⟩,
        ⟨⟨1, 1, rfl⟩, fun _ => rfl, fun _ => rfl⟩, fun h => absurd h (by decide)⟩
    | 1 =>
      obtain rfl : 1 = a := by simpa [coinWorld] using hi
      exact ⟨_, rfl, Layer.valid_new (.activation Act.sigmoid) "" "" ⟨"Sigmoid", rfl⟩, ⟨rfl, fun h => (by cases h), fun h => (by cases h)⟩, fun _ => rfl⟩
    | i + 2 => simp [coinWorld] at hi

/-- Samples 0, 1, 2, 3 with the truths 0, 1, 0, 1. -/
noncomputable def coinTrainer : Trainer :=
  { optName := "SGD", loss := "BinaryCrossEntropy", lr := 1 / 2, epochs := 100, batchSize := 0, keepBest := false
    train := some (Mat.ofFn 4 1 (fun i _ => (i : ℝ)), Mat.ofFn 4 1 (fun i _ => if i % 2 = 1 then 1 else 0)) }

theorem coinTrainer_setup : FitSetup coinWorld coinTrainer 0 1 coinNet 4 1 (fun i _ => (i : ℝ)) (fun i _ => if i % 2 = 1 then 1 else 0) where
  net := coinWorld_represents
  owned :=
    { live := fun n a ha => by
        by_cases hn : n = 0
        · rw [hn] at ha
          have : a = 0 ∨ a = 1 := by simpa [coinWorld] using ha
          rcases this with rfl | rfl
          · exact ⟨_, rfl⟩
          · exact ⟨_, rfl⟩
        · simp [coinWorld, hn] at ha
      nodup := fun n => by by_cases hn : n = 0 <;> simp [coinWorld, hn]
      disjoint := fun n k a ha hk => by
        by_cases hn : n = 0
        · by_cases hk' : k = 0
          · rw [hn, hk']
          · simp [coinWorld, hk'] at hk
        · simp [coinWorld, hn] at ha }
  slot := by decide
  fresh := rfl
  inOut := fun _ h => absurd h List.not_mem_nil
  gradient := fun _ h => absurd h List.not_mem_nil
  samples := by decide
  train := rfl
  truth := by
    rw [TruthFits, if_neg (by show ¬ "BinaryCrossEntropy" = _; decide)]
    exact ⟨rfl, fun _ => rfl⟩
  valid := fun d h => by cases h
  valBatch := by decide
  batchSize := by decide
  loss := by show "BinaryCrossEntropy" ∈ listLoss; decide
  reg := rfl
  balancing := rfl
  patience := .inl rfl

example {eps : ℝ} (heps : 0 < eps) (e : FitEnv) := C125_converges coinTrainer_setup (.inr ⟨rfl, rfl, .inr ⟨rfl, rfl⟩⟩) rfl (.inl rfl) rfl
  (fun h => absurd (show "BinaryCrossEntropy" = _ from h) (by decide)) (lr := 1 / 2) (by show (1 / 2 : ℝ) = if (1 / 2 : ℝ) = -1 then 0.01 else 1 / 2; norm_num) (by norm_num)
  (by
    show (1 / 2 : ℝ) * errorCurvature "BinaryCrossEntropy" 4 1 1 (fun i _ => (i : ℝ)) ≤ 1
    simp [errorCurvature, lossCurvature, classLosses, sum_range_succ]
    norm_num) heps e

end BeeDNN
