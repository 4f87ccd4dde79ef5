import Verif.Props.Linear

/-! # Training a dense layer in batches on data that a linear model explains: C124 -/

namespace BeeDNN
open Finset Trainer

namespace Linear

variable {q : ℝ} {N C K : Nat} {x y : Nat → Row}

theorem err_nonneg (hq : 0 ≤ q) (W b : Nat → Nat → ℝ) : 0 ≤ err q N C K x y W b := by
  unfold err
  refine mul_nonneg (by positivity) (sum_nonneg fun s _ => sum_nonneg fun j _ => ?_)
  positivity

/-- One step of gradient descent that is not too long, if `V`, `v` explain all samples: the distance to them shrinks by twice the error times the length. -/
theorem step_exact {W b G g : Nat → Nat → ℝ} (hq : 0 ≤ q) (hG : IsGrad C K (fun P => err q N C K x y P b) W G) (hg : IsGrad 1 K (fun P => err q N C K x y W P) b g)
    {t : ℝ} (ht : 0 < t) (hL : t * (q * ((∑ s ∈ range N, (∑ k ∈ range C, x s k ^ 2 + 1)) / N)) ≤ 1) {V v : Nat → Nat → ℝ}
    (hV : ∀ s, s < N → ∀ j, j < K → lin C x V v s j = y s j) :
    norm2 C K (fun k j => W k j - t * G k j - V k j) (fun k j => b k j - t * g k j - v k j) ≤
      norm2 C K (fun k j => W k j - V k j) (fun k j => b k j - v k j) - 2 * t * err q N C K x y W b := by
  have h1 := (step hq hG hg ht hL).1
  have h2 := err_nonneg (N := N) (C := C) (K := K) (x := x) (y := y) hq (fun k j => W k j - t * G k j) (fun k j => b k j - t * g k j)
  have h3 : dotM C K G (fun k j => V k j - W k j) + dotM 1 K g (fun k j => v k j - b k j) = -(2 * err q N C K x y W b) := by
    rw [← der_eq hG hg]
    unfold der err
    rw [mul_left_comm, ← mul_neg, mul_sum (a := (2 : ℝ)), ← sum_neg_distrib]
    refine congrArg _ ?_
    refine sum_congr rfl fun s hs => ?_
    rw [mul_sum, ← sum_neg_distrib]
    refine sum_congr rfl fun j hj => ?_
    have e := lin_add C x V v W b (-1) s j
    simp only [neg_mul, one_mul, ← sub_eq_add_neg] at e
    rw [e, hV s (mem_range.1 hs) j (mem_range.1 hj)]
    ring
  have h5 : norm2 C K (fun k j => W k j - t * G k j - V k j) (fun k j => b k j - t * g k j - v k j) = norm2 C K (fun k j => W k j - V k j) (fun k j => b k j - v k j) +
      2 * t * (dotM C K G (fun k j => V k j - W k j) + dotM 1 K g fun k j => v k j - b k j) + t ^ 2 * norm2 C K G g := by
    unfold norm2
    rw [dist_step, dist_step]
    ring
  rw [h5, h3]
  have h6 : 0 ≤ 2 * t * (err q N C K x y W b - t / 2 * norm2 C K G g) := mul_nonneg (by positivity) (by linarith)
  linarith

end Linear

theorem Mlp.Single.out_eq {m : Mlp} (h : m.Single) (v : Row) (j : Nat) : m.out v j = ∑ k ∈ range (m.width 0), v k * (m.ply 0).weight k j + (m.ply 0).bias 0 j := by
  rw [Mlp.out, h.depth, Mlp.hidden, Mlp.hidden, Ply.apply, h.dense]

theorem Mlp.Single.step_exact {m m' : Mlp} (h : m.Single) {loss : String} (hl : loss ∈ squaredLosses) {lr : ℝ} {N : Nat} {x y : Nat → Row} (hd : Mlp.Descends loss lr N x y m m')
    (h0 : 0 < lr) (h1 : lr * curvature loss N (m.width 0) (m.width 1) x ≤ 1) {o : Mlp} (ho : o.Single) (hw : o.width = m.width)
    (hV : ∀ s, s < N → ∀ j, j < m.width 1 → o.out (x s) j = y s j) : m'.distSq o ≤ m.distSq o - 2 * lr * m.error loss N x y := by
  obtain ⟨G, g, g1, g2, g3, g4⟩ := h.grads hl hd
  have := Linear.step_exact (lossScale_nonneg loss (m.width 1)) g1 g2 h0 h1 (V := (o.ply 0).weight) (v := (o.ply 0).bias) (fun s hs j hj => by
    rw [← hV s hs j hj, ho.out_eq, hw]
    rfl)
  rw [h.error_eq hl, distSq_eq, distSq_eq, hd.like.width, g3, g4]
  exact this

/-- If no sample is too long, no batch is. -/
theorem curvature_batch {loss : String} {lr : ℝ} {N C K : Nat} {x : Nat → Row} (hN : 0 < N) (h : ∀ s, s < N → lr * (lossScale loss K * (∑ k ∈ range C, x s k ^ 2 + 1)) ≤ 1) :
    lr * curvature loss N C K x ≤ 1 := by
  unfold curvature
  have hN' : (0 : ℝ) < N := by exact_mod_cast hN
  rw [mul_div_assoc', mul_div_assoc', div_le_one hN', mul_sum, mul_sum]
  calc _ ≤ ∑ s ∈ range N, (1 : ℝ) := sum_le_sum fun s hs => h s (mem_range.1 hs)
    _ = N := by simp

/-- `fit` by gradient descent, batch by batch, with the losses it reports. -/
theorem fit_run_descends {w : World} {t : Trainer} {n b : Nat} {m : Mlp} {N D : Nat} {x y : Nat → Row} (h : FitSetup w t n b m N D x y)
    (ho : t.optName = "SGD") (hx : m.Exact) (hm : m.Smooth) (hl : t.loss ∈ distanceLosses) (hk : t.loss ∉ kinkAtZero) {eps : ℝ} (heps : 0 < eps) (e : FitEnv) {B : Nat}
    (hB : B = if t.batchSize = 0 then N else min t.batchSize.toNat N) :
    ∃ (w' : World) (t' : Trainer) (seen : List (List (Option Layer))) (σ : Nat → Nat → Nat) (net : Nat → Nat → Mlp) (j : Nat),
      fit (fun x => |x|) eps e w t n b = .ok (w', t', seen) ∧ m.Run N B t.epochs.toNat σ net ∧
      (∀ i k, i < t.epochs.toNat → k < nbBatches N B → Mlp.Descends t.loss (if t.lr = -1 then 0.01 else t.lr) (batchEnd N B k - batchStart B k)
        (fun s => x (σ i (batchStart B k + s))) (fun s => y (σ i (batchStart B k + s))) (net i k) (net i (k + 1))) ∧
      t'.trainLoss = (List.range t.epochs.toNat).map (fun i => reportedLoss eps t.loss N B x y (σ i) (net i)) ∧
      Represents w' n (net j 0) ∧ j ≤ t.epochs.toNat ∧ (t.keepBest = false → j = t.epochs.toNat) := by
  obtain ⟨ψ, l1, l2⟩ := lossOk_of_mem eps h.loss (h.net.ok.pos _ (Nat.le_refl m.depth)) D
  obtain ⟨w', t', seen, ms, r, v, j, h1, h2, h3, h4, h5, h6, h7, h8, h9, h10, h11, -⟩ := fit_mlp (e := e) h.net h.owned h.slot h.fresh h.inOut h.gradient h.reg
    (k := .sgd) (by rw [ho]; rfl) h.samples x y h.train h.truth h.valid h.valBatch h.batchSize h.balancing h.patience h.loss l1
  obtain ⟨σ, net, r1, r2, r3, r4⟩ := run_of_epochs h.net.ok h.loss h.truth h2 h3 h9
  rw [adjustBatch_toNat h.batchSize] at hB
  rw [← hB] at r1 r3 r4
  refine ⟨w', t', seen, σ, net, j, h1, r1, fun i k hi hk' => ?_, ?_, ?_, h4, h5⟩
  · have c1 := r1.like i k hi hk'
    have hg := r4 rfl i k hi hk'
    have hnb : 0 < nbBatches N B := by omega
    have c2 : Mlp.Like m (net i (k + 1)) := by
      by_cases hk1 : k + 1 < nbBatches N B
      · exact r1.like i _ hi hk1
      · rw [show k + 1 = nbBatches N B by omega, ← r1.next i hi, r2 (i + 1) hi]
        exact h3 (i + 1) hi
    have hsub : ∀ s, s < batchEnd N B k - batchStart B k → ∃ j, j < N ∧ x (σ i (batchStart B k + s)) = x j ∧ y (σ i (batchStart B k + s)) = y j :=
      fun s hs => ⟨_, perm_lt (r1.order i hi) (batch_lt hs), rfl, rfl⟩
    have hst : Mlp.Steps ((net i k).rate (batchEnd N B k - batchStart B k)) t.loss (if t.lr = -1 then 0.01 else t.lr) (batchEnd N B k - batchStart B k)
        (fun s => x (σ i (batchStart B k + s))) (fun s => y (σ i (batchStart B k + s))) (net i k) (net i (k + 1)) :=
      ⟨⟨by rw [c2.depth, c1.depth], by rw [c2.width, c1.width], fun q => by rw [c2.kind, c1.kind]⟩, fun b q hq hb => ⟨_, Mlp.grad_error (c1.ok h.net.ok) heps h.loss (ψ := ψ)
        (by rw [c1.depth, c1.width]; exact l2) _ _ _ (D := D) (by rw [c1.depth, c1.width]; exact h.truth.sub fun s hs => (hsub s hs).imp fun j hj => ⟨hj.1, hj.2.2⟩)
        (fun s _ => by
          rw [Mlp.Regular, if_neg (by rintro (h | h) <;> rw [h] at hl <;> exact absurd hl (by decide))]
          exact ⟨(hm.like c1).at _, fun h => absurd (by simpa [kinkAtZero] using h) hk, fun h => by rw [h] at hl; exact absurd hl (by decide)⟩) b hq hb, fun p q' => by
        rw [hg b q hq hb]
        rfl⟩⟩
    exact hst.descends (hx.like c1)
  · rw [h11]
    exact List.map_congr_left fun i hi => r3 i (List.mem_range.1 hi)
  · rw [r2 j h4]; exact h6

/-- C124: plain gradient descent of a dense layer with a squared loss, in batches of any size and in any order, on data that some linear model explains: no batch takes the network further away
from any model that explains the data, and every batch brings it closer by twice the learning rate times the error on this batch (as squared distances).  The learning rate is
at most the reciprocal of the squared length of any sample, with the 1 for the bias, times the factor of the loss. -/
theorem C124_closer {w : World} {t : Trainer} {n b : Nat} {m : Mlp} {N D : Nat} {x y : Nat → Row} (h : FitSetup w t n b m N D x y) (hm : m.Single)
    (ho : t.optName = "SGD") (hl : t.loss ∈ squaredLosses) {lr : ℝ} (hlr : lr = if t.lr = -1 then 0.01 else t.lr) (h0 : 0 < lr)
    (h1 : ∀ s, s < N → lr * (lossScale t.loss (m.width 1) * (∑ k ∈ range (m.width 0), x s k ^ 2 + 1)) ≤ 1) {eps : ℝ} (heps : 0 < eps) (e : FitEnv) {B : Nat}
    (hB : B = if t.batchSize = 0 then N else min t.batchSize.toNat N) :
    ∃ (w' : World) (t' : Trainer) (seen : List (List (Option Layer))) (σ : Nat → Nat → Nat) (net : Nat → Nat → Mlp) (j : Nat),
      fit (fun x => |x|) eps e w t n b = .ok (w', t', seen) ∧ m.Run N B t.epochs.toNat σ net ∧ Represents w' n (net j 0) ∧ j ≤ t.epochs.toNat ∧
      (t.keepBest = false → j = t.epochs.toNat) ∧ t'.trainLoss = (List.range t.epochs.toNat).map (fun i => reportedLoss eps t.loss N B x y (σ i) (net i)) ∧
      ∀ o : Mlp, o.Single → o.width = m.width → o.Explains N x y → ∀ i k, i < t.epochs.toNat → k < nbBatches N B →
        (net i (k + 1)).distSq o ≤ (net i k).distSq o - 2 * lr * (net i k).error t.loss (batchEnd N B k - batchStart B k)
          (fun s => x (σ i (batchStart B k + s))) (fun s => y (σ i (batchStart B k + s))) := by
  have hsm : m.Smooth := fun i hi => by
    obtain rfl : i = 0 := by rw [hm.depth] at hi; omega
    rw [hm.dense]; trivial
  have hex : m.Exact := fun i hi => by
    obtain rfl : i = 0 := by rw [hm.depth] at hi; omega
    rw [hm.dense]; trivial
  have hl1 : t.loss ∈ distanceLosses ∧ t.loss ∉ kinkAtZero := by
    have : ∀ s ∈ squaredLosses, s ∈ distanceLosses ∧ s ∉ kinkAtZero := by decide
    exact this _ hl
  obtain ⟨w', t', seen, σ, net, j, k1, k2, k3, k4, k5, k6, k7⟩ := fit_run_descends h ho hex hsm hl1.1 hl1.2 heps e hB
  refine ⟨w', t', seen, σ, net, j, k1, k2, k5, k6, k7, k4, fun o o1 o2 o3 i k hi hk => ?_⟩
  have lk := k2.like i k hi hk
  have hB0 : 0 < B := hB ▸ batch_pos h.batchSize h.samples
  have hn : 0 < batchEnd N B k - batchStart B k := by
    have := (nbBatches_lt hB0).1 hk
    unfold batchEnd batchStart
    rw [Nat.add_mul, Nat.one_mul]
    omega
  have hd := k3 i k hi hk
  rw [← hlr] at hd
  refine (hm.like lk).step_exact hl hd h0 (curvature_batch hn fun s hs => ?_) o1 (by rw [o2, lk.width]) fun s hs q hq => ?_
  · rw [lk.width]
    exact h1 _ (perm_lt (k2.order i hi) (batch_lt hs))
  · exact o3 _ (perm_lt (k2.order i hi) (batch_lt hs)) q (by rw [o2, ← lk.width]; exact hq)

/-- The distances of a run. -/
theorem run_distances {lr : ℝ} {m o : Mlp} {N B E : Nat} {σ : Nat → Nat → Nat} {net : Nat → Nat → Mlp} {er : Nat → Nat → ℝ} (hr : m.Run N B E σ net)
    (h : ∀ i k, i < E → k < nbBatches N B → (net i (k + 1)).distSq o ≤ (net i k).distSq o - 2 * lr * er i k) :
    ∀ i, i ≤ E → (net i 0).distSq o + 2 * lr * ∑ i' ∈ range i, ∑ k ∈ range (nbBatches N B), er i' k ≤ m.distSq o := by
  have one : ∀ i, i < E → ∀ k, k ≤ nbBatches N B → (net i k).distSq o + 2 * lr * ∑ k' ∈ range k, er i k' ≤ (net i 0).distSq o := by
    intro i hi k
    induction k with
    | zero => intro _; simp
    | succ k ih =>
      intro hk
      have := ih (by omega)
      have := h i k hi (by omega)
      rw [sum_range_succ]
      linarith
  intro i
  induction i with
  | zero => intro _; rw [hr.start]; simp
  | succ i ih =>
    intro hi
    have a := ih (by omega)
    have c := one i hi _ le_rfl
    rw [sum_range_succ, hr.next i hi]
    linarith

/-- For a squared loss, the loss of a batch in terms of the error. -/
theorem batchLoss_le {m : Mlp} (hK : 0 < m.width m.depth) {loss : String} (hl : loss ∈ squaredLosses) (eps : ℝ) {n B : Nat} (hn : 0 < n) (hnB : n ≤ B) (x y : Nat → Row) :
    0 ≤ m.batchLoss eps loss n x y ∧ m.batchLoss eps loss n x y ≤ (if loss = "MeanSquaredError" then 1 else (B : ℝ) / m.width m.depth) * (2 * m.error loss n x y) := by
  have h0 : 0 ≤ ∑ i ∈ range n, sampleLoss eps loss (m.width m.depth) (m.out (x i)) (y i) := sum_nonneg fun _ _ => sampleLoss_nonneg_squared hl ..
  have hn' : (0 : ℝ) < n := by exact_mod_cast hn
  have hK' : (0 : ℝ) < m.width m.depth := by exact_mod_cast hK
  have hB' : (n : ℝ) ≤ B := by exact_mod_cast hnB
  rw [error_meanLoss hK hl eps, Mlp.meanLoss, Mlp.batchLoss]
  unfold squaredLosses at hl
  simp only [List.mem_cons, List.not_mem_nil, or_false] at hl
  generalize ∑ i ∈ range n, sampleLoss eps loss (m.width m.depth) (m.out (x i)) (y i) = S at h0
  rcases hl with rfl | rfl
  · rw [if_neg (by decide), if_pos rfl, lossScale, if_pos rfl]
    refine ⟨by positivity, le_of_eq ?_⟩
    field_simp
  · rw [if_pos (by decide), if_neg (by decide), lossScale, if_neg (by decide)]
    refine ⟨by positivity, ?_⟩
    have : (B : ℝ) / m.width m.depth * (2 * (1 * (m.width m.depth : ℝ) / 2 * (S / n))) = B / n * S := by field_simp
    rw [this, div_one]
    exact le_mul_of_one_le_left h0 ((one_le_div hn').2 hB')

/-- C124: the losses reported add up to at most a constant, whatever the number of epochs: the squared distance of the original network to any model that explains the data, over the learning
rate and the number of samples (for L2: times the batch size over the number of outputs).  The network left is at most as far from such a model as the original one. -/
theorem C124_reported {w : World} {t : Trainer} {n b : Nat} {m : Mlp} {N D : Nat} {x y : Nat → Row} (h : FitSetup w t n b m N D x y) (hm : m.Single)
    (ho : t.optName = "SGD") (hl : t.loss ∈ squaredLosses) {lr : ℝ} (hlr : lr = if t.lr = -1 then 0.01 else t.lr) (h0 : 0 < lr)
    (h1 : ∀ s, s < N → lr * (lossScale t.loss (m.width 1) * (∑ k ∈ range (m.width 0), x s k ^ 2 + 1)) ≤ 1) {eps : ℝ} (heps : 0 < eps) (e : FitEnv) :
    ∃ (w' : World) (t' : Trainer) (seen : List (List (Option Layer))) (m' : Mlp),
      fit (fun x => |x|) eps e w t n b = .ok (w', t', seen) ∧ Represents w' n m' ∧ t'.trainLoss.length = t.epochs.toNat ∧ (∀ l ∈ t'.trainLoss, 0 ≤ l) ∧
      ∀ o : Mlp, o.Single → o.width = m.width → o.Explains N x y → m'.distSq o ≤ m.distSq o ∧
        t'.trainLoss.sum ≤ (if t.loss = "MeanSquaredError" then 1 else (if t.batchSize = 0 then N else min t.batchSize.toNat N : Nat) / (m.width 1 : ℝ)) * m.distSq o / (lr * N) := by
  obtain ⟨B, hB⟩ : ∃ B, B = if t.batchSize = 0 then N else min t.batchSize.toNat N := ⟨_, rfl⟩
  obtain ⟨w', t', seen, σ, net, j, k1, k2, k3, k4, -, k6, k7⟩ := C124_closer h hm ho hl hlr h0 h1 heps e hB
  have hB0 : 0 < B := hB ▸ batch_pos h.batchSize h.samples
  have hN' : (0 : ℝ) < N := by exact_mod_cast h.samples
  have hd : m.width m.depth = m.width 1 := by rw [hm.depth]
  have bl : ∀ i, i < t.epochs.toNat → ∀ k, k < nbBatches N B →
      0 ≤ (net i k).batchLoss eps t.loss (batchEnd N B k - batchStart B k) (fun s => x (σ i (batchStart B k + s))) (fun s => y (σ i (batchStart B k + s))) ∧
      (net i k).batchLoss eps t.loss (batchEnd N B k - batchStart B k) (fun s => x (σ i (batchStart B k + s))) (fun s => y (σ i (batchStart B k + s))) ≤
        (if t.loss = "MeanSquaredError" then 1 else (B : ℝ) / m.width 1) * (2 * (net i k).error t.loss (batchEnd N B k - batchStart B k)
          (fun s => x (σ i (batchStart B k + s))) (fun s => y (σ i (batchStart B k + s)))) := fun i hi k hk => by
    have lk := k2.like i k hi hk
    have hn : 0 < batchEnd N B k - batchStart B k ∧ batchEnd N B k - batchStart B k ≤ B := by
      have := (nbBatches_lt hB0).1 hk
      unfold batchEnd batchStart
      rw [Nat.add_mul, Nat.one_mul]
      omega
    have := batchLoss_le (m := net i k) (by rw [lk.depth, lk.width]; exact h.net.ok.pos _ le_rfl) hl eps hn.1 hn.2 (fun s => x (σ i (batchStart B k + s))) (fun s => y (σ i (batchStart B k + s)))
    rwa [lk.depth, lk.width, hd] at this
  have hc : (0 : ℝ) ≤ if t.loss = "MeanSquaredError" then 1 else (B : ℝ) / m.width 1 := by split <;> positivity
  refine ⟨w', t', seen, _, k1, k3, by rw [k6]; simp, fun l hlm => ?_, fun o o1 o2 o3 => ?_⟩
  · rw [k6] at hlm
    obtain ⟨i, hi, rfl⟩ := List.mem_map.1 hlm
    exact div_nonneg (sum_nonneg fun k hk => (bl i (List.mem_range.1 hi) k (mem_range.1 hk)).1) hN'.le
  · have key := run_distances k2 (k7 o o1 o2 o3)
    have pos : ∀ i, i ≤ t.epochs.toNat → 0 ≤ ∑ i' ∈ range i, ∑ k ∈ range (nbBatches N B), (net i' k).error t.loss (batchEnd N B k - batchStart B k)
        (fun s => x (σ i' (batchStart B k + s))) (fun s => y (σ i' (batchStart B k + s))) := fun i hi =>
      sum_nonneg fun i' hi' => sum_nonneg fun k hk => by
        have lk := k2.like i' k (by have := mem_range.1 hi'; omega) (mem_range.1 hk)
        rw [(hm.like lk).error_eq hl]
        exact Linear.err_nonneg (lossScale_nonneg ..) ..
    have hpos : ∀ m' : Mlp, 0 ≤ m'.distSq o := fun m' => by unfold Mlp.distSq; positivity
    refine ⟨?_, ?_⟩
    · have a := key j k4
      have := mul_nonneg (by positivity : 0 ≤ 2 * lr) (pos j k4)
      linarith
    · have a := key _ le_rfl
      have a' := hpos (net t.epochs.toNat 0)
      have hsum : t'.trainLoss.sum = (∑ i ∈ range t.epochs.toNat, ∑ k ∈ range (nbBatches N B), (net i k).batchLoss eps t.loss (batchEnd N B k - batchStart B k)
          (fun s => x (σ i (batchStart B k + s))) (fun s => y (σ i (batchStart B k + s)))) / N := by
        rw [k6, sum_div]
        unfold reportedLoss
        simp [Finset.sum, Finset.range, Multiset.range]
      have hle := sum_le_sum fun i hi => sum_le_sum fun k hk => (bl i (mem_range.1 hi) k (mem_range.1 hk)).2
      simp only [← mul_sum] at hle
      rw [hsum, ← hB, div_le_div_iff₀ hN' (by positivity)]
      have h2 := mul_le_mul_of_nonneg_left (show 2 * lr * (∑ i' ∈ range t.epochs.toNat, ∑ k ∈ range (nbBatches N B), (net i' k).error t.loss (batchEnd N B k - batchStart B k)
        (fun s => x (σ i' (batchStart B k + s))) (fun s => y (σ i' (batchStart B k + s)))) ≤ m.distSq o by linarith) hc
      have h3 := mul_le_mul_of_nonneg_left hle h0.le
      have h4 := mul_le_mul_of_nonneg_left (h3.trans (le_of_eq_of_le (by ring) h2)) hN'.le
      linarith

/-- C124: so in at least one of `E` epochs the loss reported is at most this constant over `E`. -/
theorem C124_some_epoch {w : World} {t : Trainer} {n b : Nat} {m : Mlp} {N D : Nat} {x y : Nat → Row} (h : FitSetup w t n b m N D x y) (hm : m.Single)
    (ho : t.optName = "SGD") (hl : t.loss = "MeanSquaredError") (hE : 0 < t.epochs) {lr : ℝ} (hlr : lr = if t.lr = -1 then 0.01 else t.lr) (h0 : 0 < lr)
    (h1 : ∀ s, s < N → lr * (∑ k ∈ range (m.width 0), x s k ^ 2 + 1) ≤ m.width 1) {o : Mlp} (o1 : o.Single) (o2 : o.width = m.width) (o3 : o.Explains N x y)
    {eps : ℝ} (heps : 0 < eps) (e : FitEnv) :
    ∃ (w' : World) (t' : Trainer) (seen : List (List (Option Layer))), fit (fun x => |x|) eps e w t n b = .ok (w', t', seen) ∧
      ∃ l ∈ t'.trainLoss, 0 ≤ l ∧ l ≤ m.distSq o / (lr * N * t.epochs.toNat) := by
  have hK : (0 : ℝ) < m.width 1 := by exact_mod_cast h.net.ok.pos 1 (by rw [hm.depth])
  obtain ⟨w', t', seen, m', k1, -, k3, k4, k5⟩ := C124_reported h hm ho (by rw [hl]; decide) hlr h0 (fun s hs => by
    rw [lossScale, if_pos hl, one_div, mul_left_comm, inv_mul_le_one₀ hK]
    exact h1 s hs) heps e
  refine ⟨w', t', seen, k1, ?_⟩
  have := (k5 o o1 o2 o3).2
  rw [if_pos hl, one_mul] at this
  have hN' : (0 : ℝ) < N := by exact_mod_cast h.samples
  have hE' : (0 : ℝ) < t.epochs.toNat := by exact_mod_cast (show 0 < t.epochs.toNat by omega)
  obtain ⟨l, l1, l2⟩ := List.exists_le_of_sum_le (l := t'.trainLoss) (by rw [ne_eq, ← List.length_eq_zero_iff, k3]; omega) id (fun _ => m.distSq o / (lr * N * t.epochs.toNat)) (by
    rw [List.map_id, List.map_const', List.sum_replicate, k3, nsmul_eq_mul]
    refine this.trans (le_of_eq ?_)
    field_simp)
  exact ⟨l, l1, k4 l l1, l2⟩

/-! ## A case: the straight line of C116, in batches of two -/

/-- The trainer of C116 with learning rate 1/5 and batches of two samples. -/
noncomputable def lineBatches : Trainer := { lineTrainer 3 false with lr := 1 / 5, batchSize := 2 }

theorem lineBatches_setup : FitSetup lineWorld lineBatches 0 1 lineNet 3 1 (fun i _ => (i : ℝ)) (fun i _ => 2 * (i : ℝ) + 1) :=
  { lineTrainer_setup 3 (by decide) false with batchSize := by show (0 : Int) ≤ 2; decide }

theorem line_sample (s : Nat) (hs : s < 3) : (1 / 5 : ℝ) * (∑ k ∈ range (lineNet.width 0), (fun i _ => (i : ℝ) : Nat → Row) s k ^ 2 + 1) ≤ 1 := by
  have : (s : ℝ) ≤ 2 := by exact_mod_cast (show s ≤ 2 by omega)
  simp [lineNet]
  nlinarith [Nat.cast_nonneg (α := ℝ) s]

theorem lineBest_explains : lineBest.Explains 3 (fun i _ => (i : ℝ)) (fun i _ => 2 * (i : ℝ) + 1) := fun s _ j _ => by
  rw [Mlp.Single.out_eq ⟨rfl, rfl⟩]
  simp [lineBest]
  ring

/-- In fifty epochs, some epoch reports a loss of at most 1/6: the squared distance is 5, the learning rate 1/5. -/
example {eps : ℝ} (heps : 0 < eps) (e : FitEnv) : ∃ (w' : World) (t' : Trainer) (seen : List (List (Option Layer))),
    fit (fun x => |x|) eps e lineWorld lineBatches 0 1 = .ok (w', t', seen) ∧ ∃ l ∈ t'.trainLoss, 0 ≤ l ∧ l ≤ 1 / 6 := by
  obtain ⟨w', t', seen, h1, l, l1, l2, l3⟩ := C124_some_epoch lineBatches_setup lineNet_single rfl rfl (by show (0 : Int) < 50; decide) (lr := 1 / 5)
    (by rw [if_neg (by show ¬ (1 / 5 : ℝ) = -1; norm_num)]; rfl) (by norm_num) (fun s hs => (line_sample s hs).trans (by simp [lineNet])) (o := lineBest) ⟨rfl, rfl⟩ rfl lineBest_explains heps e
  refine ⟨w', t', seen, h1, l, l1, l2, l3.trans (le_of_eq ?_)⟩
  have hd : lineNet.distSq lineBest = 5 := by
    simp [Mlp.distSq, lineNet, lineBest]
    norm_num
  rw [hd, show (lineBatches.epochs.toNat : ℝ) = 50 by simp [lineBatches, lineTrainer]]
  norm_num

example {eps : ℝ} (heps : 0 < eps) (e : FitEnv) := C124_closer lineBatches_setup lineNet_single rfl (by show "MeanSquaredError" ∈ squaredLosses; decide) (lr := 1 / 5)
  (by rw [if_neg (by show ¬ (1 / 5 : ℝ) = -1; norm_num)]; rfl) (by norm_num) (fun s hs => by
    have := line_sample s hs
    rw [show lossScale lineBatches.loss (lineNet.width 1) = 1 by norm_num [lossScale, lineBatches, lineTrainer, lineNet], one_mul]
    exact this) heps e (B := 2) rfl

end BeeDNN
