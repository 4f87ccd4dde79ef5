import Verif.Props.Reboost
import Verif.Props.Convex
import Verif.Lemmas.Ridge
import Verif.Spec.Ridge

/-! # Training linear models with the regularizer L2: C128 -/

namespace BeeDNN
open Finset Trainer

namespace Mlp.Regression

variable {loss : String} {m m' : Mlp} {lam : ℝ}

theorem parSum_eq (h : m.Regression loss) (f : ℝ → ℝ) : m.parSum f = (∑ k ∈ range (m.width 0), ∑ j ∈ range (m.width 1), f ((m.ply 0).weight k j)) +
    ∑ k ∈ range 1, ∑ j ∈ range (m.width 1), f ((m.ply 0).bias k j) := by
  have hd := h.dense
  have e0 : (∑ b : Bool, if (m.ply 0).has b then ∑ p ∈ range (m.shape b 0).1, ∑ q ∈ range (m.shape b 0).2, f ((m.ply 0).par b p q) else 0) =
      (∑ k ∈ range (m.width 0), ∑ j ∈ range (m.width 1), f ((m.ply 0).weight k j)) + ∑ k ∈ range 1, ∑ j ∈ range (m.width 1), f ((m.ply 0).bias k j) := by
    rw [Fintype.sum_bool, add_comm]
    unfold Mlp.shape Ply.has
    rw [hd]
    rfl
  rcases h with ⟨h1, -⟩ | ⟨h1, -, h3⟩
  · unfold Mlp.parSum
    rw [h1.depth, sum_range_one, e0]
  · unfold Mlp.parSum
    rw [h1, sum_range_succ, sum_range_one, e0]
    have : (∑ b : Bool, if (m.ply 1).has b then ∑ p ∈ range (m.shape b 1).1, ∑ q ∈ range (m.shape b 1).2, f ((m.ply 1).par b p q) else 0) = 0 := by
      refine sum_eq_zero fun b _ => ?_
      unfold Ply.has
      rcases h3 with ⟨h3, -⟩ | ⟨h3, -⟩ <;> rw [h3] <;> cases b <;> rfl
    rw [this, add_zero]

theorem ridge_eq (h : m.Regression loss) (hok : m.Ok) (N : Nat) (x y : Nat → Row) : m.ridge lam loss N x y =
    Linear.rerr lam N (m.width 0) (m.width 1) x (fun s => Linear.sampleLink loss (m.width 1) (y s)) (m.ply 0).weight (m.ply 0).bias := by
  unfold Mlp.ridge Linear.rerr Linear.norm2 dotM
  rw [h.error_eq hok, h.parSum_eq, mul_add, mul_sum, mul_sum]
  congr 2
  · exact sum_congr rfl fun k _ => by rw [mul_sum]; exact sum_congr rfl fun j _ => by ring
  · exact sum_congr rfl fun k _ => by rw [mul_sum]; exact sum_congr rfl fun j _ => by ring

/-- One full step. -/
theorem ridgeStep (h : m.Regression loss) (hok : m.Ok) (lk : Mlp.Like m m') {lr : ℝ} {N : Nat} {x y : Nat → Row}
    (hy : ∀ s, s < N → Linear.Truth loss (m.width 1) (y s)) {d : Bool → Nat → Nat → Nat → ℝ} (hd : Mlp.IsDrive (fun _ _ _ => True) loss N x y m d)
    (hs : ∀ b p q, p < (m.shape b 0).1 → q < (m.shape b 0).2 → (m'.ply 0).par b p q = (m.ply 0).par b p q - lr * (d b 0 p q + (m.ply 0).par b p q * lam))
    (h0 : 0 < lr) (h1 : lr * (errorCurvature loss N (m.width 0) (m.width 1) x + lam) ≤ 1) :
    m'.ridge lam loss N x y ≤ m.ridge lam loss N x y ∧ ∀ o : Mlp, o.Regression loss → o.Ok → o.width = m.width →
      2 * lr * (m'.ridge lam loss N x y - o.ridge lam loss N x y) ≤ (1 - lr * lam) * m.distSq o - m'.distSq o := by
  have hK : 0 < m.width 1 := hok.pos 1 h.depth_pos
  choose! gr hgr using fun (s : Nat) (hs : s < N) => Linear.link_of_truth h.loss_mem hK (hy s hs)
  obtain ⟨G, g1, g2⟩ := hd (fun _ _ => trivial) false 0 h.depth_pos (by rw [Ply.has, h.dense]; rfl)
  obtain ⟨g, g3, g4⟩ := hd (fun _ _ => trivial) true 0 h.depth_pos (by rw [Ply.has, h.dense]; rfl)
  have hr : ∀ b, m.rate N b 0 = 1 := fun b => h.exact.rate N b h.depth_pos
  have he : ∀ b V, (m.setPar b 0 V).error loss N x y =
      Linear.cerr N (m.width 0) x (fun s => Linear.sampleLink loss (m.width 1) (y s)) ((m.ply 0).setPar b V).weight ((m.ply 0).setPar b V).bias := fun b V => by
    obtain ⟨a1, a2, a3⟩ := h.setPar hok b V
    rw [a1.error_eq a2, a3]
    rfl
  have s1 : m.shape false 0 = (m.width 0, m.width 1) := by rw [Mlp.shape, h.dense]; rfl
  have s2 : m.shape true 0 = (1, m.width 1) := by rw [Mlp.shape, h.dense]; rfl
  simp only [he] at g1 g3
  rw [s1] at g1
  rw [s2] at g3
  have hder := Linear.cder_eq hgr g1 g3
  have hdd : ∀ V v, Linear.cder N (m.width 0) (m.width 1) x gr (m.ply 0).weight (m.ply 0).bias V v + lam * Linear.dot2 (m.width 0) (m.width 1) (m.ply 0).weight (m.ply 0).bias V v =
      Linear.dot2 (m.width 0) (m.width 1) (fun k j => G k j + lam * (m.ply 0).weight k j) (fun k j => g k j + lam * (m.ply 0).bias k j) V v := fun V v => by
    rw [show Linear.cder N (m.width 0) (m.width 1) x gr (m.ply 0).weight (m.ply 0).bias V v = _ from hder V v]
    unfold Linear.dot2
    rw [Linear.dotM_comb, Linear.dotM_comb]
    ring
  obtain ⟨k1, k2⟩ := Linear.rstep hgr (lossCurvature_nonneg _ _) hdd h0 h1
  have w1 : ∀ k j, k < m.width 0 → j < m.width 1 → (m'.ply 0).weight k j = (m.ply 0).weight k j - lr * (G k j + lam * (m.ply 0).weight k j) := fun k j hk hj => by
    have := hs false k j (by rw [s1]; exact hk) (by rw [s1]; exact hj)
    rw [g2, hr, one_mul, mul_comm _ lam] at this
    exact this
  have w2 : ∀ k j, k < 1 → j < m.width 1 → (m'.ply 0).bias k j = (m.ply 0).bias k j - lr * (g k j + lam * (m.ply 0).bias k j) := fun k j hk hj => by
    have := hs true k j (by rw [s2]; exact hk) (by rw [s2]; exact hj)
    rw [g4, hr, one_mul, mul_comm _ lam] at this
    exact this
  have e' : m'.ridge lam loss N x y = Linear.rerr lam N (m.width 0) (m.width 1) x (fun s => Linear.sampleLink loss (m.width 1) (y s))
      (fun k j => (m.ply 0).weight k j - lr * (G k j + lam * (m.ply 0).weight k j)) (fun k j => (m.ply 0).bias k j - lr * (g k j + lam * (m.ply 0).bias k j)) := by
    rw [(h.like lk).ridge_eq (lk.ok hok), lk.width]
    exact Linear.rerr_congr hgr w1 fun j hj => w2 0 j one_pos hj
  refine ⟨?_, fun o ho hoo hw => ?_⟩
  · rw [e', h.ridge_eq hok]
    have := mul_nonneg (half_pos h0).le (Linear.norm2_nonneg (C := m.width 0) (K := m.width 1) (fun k j => G k j + lam * (m.ply 0).weight k j)
      (fun k j => g k j + lam * (m.ply 0).bias k j))
    linarith
  · have := k2 (o.ply 0).weight (o.ply 0).bias
    have e3 : m'.distSq o = Linear.norm2 (m.width 0) (m.width 1) (fun k j => (m.ply 0).weight k j - lr * (G k j + lam * (m.ply 0).weight k j) - (o.ply 0).weight k j)
        (fun k j => (m.ply 0).bias k j - lr * (g k j + lam * (m.ply 0).bias k j) - (o.ply 0).bias k j) := by
      rw [distSq_eq, lk.width]
      unfold Linear.norm2
      congr 1
      · exact Linear.dotM_congr (fun k j hk hj => by rw [w1 k j hk hj]) fun k j hk hj => by rw [w1 k j hk hj]
      · exact Linear.dotM_congr (fun k j hk hj => by rw [w2 k j hk hj]) fun k j hk hj => by rw [w2 k j hk hj]
    rw [e', ho.ridge_eq hoo, hw, e3, distSq_eq]
    exact this

end Mlp.Regression

/-- What the distances and the excesses of the error make of each other. -/
theorem geometric {a t : ℝ} (ha : 0 ≤ a) (ht : 0 < t) {D e : Nat → ℝ} {E : Nat} (hD : ∀ i, i ≤ E → 0 ≤ D i) (he : ∀ i, i < E → e (i + 1) ≤ e i)
    (h : ∀ i, i < E → 2 * t * e (i + 1) ≤ a * D i - D (i + 1)) :
    (0 < E → 2 * t * e E ≤ a ^ E * D 0) ∧ ((∀ i, i ≤ E → 0 ≤ e i) → D E ≤ a ^ E * D 0) := by
  have hmono : ∀ k i, i + k ≤ E → e (i + k) ≤ e i := by
    intro k
    induction k with
    | zero => intro i _; exact le_rfl
    | succ k ih => intro i hi; exact (he (i + k) (by omega)).trans (ih i (by omega))
  have key : 0 ≤ e E → ∀ i, i < E → D (i + 1) + 2 * t * e E ≤ a ^ (i + 1) * D 0 := by
    intro h0 i
    induction i with
    | zero =>
      intro hi
      have h1 := h 0 hi
      have h2 := hmono (E - 1) 1 (by omega)
      rw [show 1 + (E - 1) = E by omega] at h2
      rw [zero_add, pow_one]
      rw [zero_add] at h1
      have := mul_le_mul_of_nonneg_left h2 (show 0 ≤ 2 * t by positivity)
      linarith
    | succ i ih =>
      intro hi
      have h1 := h (i + 1) hi
      have h2 := hmono (E - (i + 2)) (i + 2) (by omega)
      rw [show i + 2 + (E - (i + 2)) = E by omega] at h2
      have h3 := mul_le_mul_of_nonneg_left h2 (show 0 ≤ 2 * t by positivity)
      have h4 := ih (by omega)
      have h5 : a * D (i + 1) ≤ a * (a ^ (i + 1) * D 0) := mul_le_mul_of_nonneg_left (by
        have : 0 ≤ 2 * t * e E := by positivity
        linarith) ha
      rw [pow_succ' a (i + 1), mul_assoc]
      linarith
  constructor
  · intro hE
    by_cases h0 : 0 ≤ e E
    · have := key h0 (E - 1) (by omega)
      rw [show E - 1 + 1 = E by omega] at this
      have := hD E le_rfl
      linarith
    · push Not at h0
      have h1 : 2 * t * e E ≤ 0 := by nlinarith
      exact h1.trans (mul_nonneg (pow_nonneg ha _) (hD 0 (Nat.zero_le _)))
  · intro hp
    rcases Nat.eq_zero_or_pos E with rfl | hE
    · simp
    · have := key (hp E le_rfl) (E - 1) (by omega)
      rw [show E - 1 + 1 = E by omega] at this
      have h1 := hp E le_rfl
      have : 0 ≤ 2 * t * e E := by positivity
      linarith

theorem Mlp.Regression.truths {w : World} {t : Trainer} {n b : Nat} {m : Mlp} {N D : Nat} {x y : Nat → Row} (hm : m.Regression t.loss) (h : FitSetup w t n b m N D x y)
    (hs : t.loss = "CategoricalCrossEntropy" → ∀ i, i < N → ∑ j ∈ range (m.width 1), y i j = 1) (s : Nat) (hs' : s < N) : Linear.Truth t.loss (m.width 1) (y s) := by
  have := h.truth
  rw [hm.width_eq h.net.ok, TruthFits] at this
  refine ⟨fun hl => hs hl s hs', fun hl => ?_, fun hl => ?_⟩
  · rw [if_pos hl] at this
    exact this.2.2 s hs'
  · rw [if_neg (by rw [hl]; decide)] at this
    exact this.2 hl

/-- C128: `fit` with plain gradient descent, all samples in one batch and the regularizer `L2` trains linear models with any smooth convex loss, softmax classifiers and logistic
models (for the cross entropies: as long as no prediction for a sample gets closer than `eps` to 0 or 1) to the least sum of error and penalty, geometrically: for a learning rate up to the reciprocal of the curvature, every epoch
makes what is left smaller by the factor `1 - lr λ`.  This is so for the excess over any other weights and biases, and for the distance to the best ones. -/
theorem C128_converges {w : World} {t : Trainer} {n b : Nat} {m : Mlp} {N D : Nat} {x y : Nat → Row} (h : FitSetup w t n b m N D x y) (hm : m.Regression t.loss)
    (ho : t.optName = "SGD") (hb : t.batchSize = 0 ∨ (N : Int) ≤ t.batchSize) (hk : t.keepBest = false)
    (hs : t.loss = "CategoricalCrossEntropy" → ∀ i, i < N → ∑ j ∈ range (m.width 1), y i j = 1) {lr lam : ℝ}
    (hlr : lr = if t.lr = -1 then 0.01 else t.lr) (h0 : 0 < lr) (hlam : 0 ≤ lam) (h1 : lr * (errorCurvature t.loss N (m.width 0) (m.width 1) x + lam) ≤ 1) {eps : ℝ} (heps : 0 < eps) (e : FitEnv) :
    ∃ (w' : World) (t' : Trainer) (seen : List (List (Option Layer))) (ms : Nat → Mlp), fit (fun x => |x|) eps e w { t with reg := some ⟨.l2, lam⟩ } n b = .ok (w', t', seen) ∧
      ms 0 = m ∧ (∀ i, i ≤ t.epochs.toNat → Mlp.Like m (ms i)) ∧ Represents w' n (ms t.epochs.toNat) ∧
      ((t.loss ∈ crossEntropies → ∀ i, i < t.epochs.toNat → ∀ s, s < N → (ms i).Unsaturated eps (x s)) →
        (∀ i, i < t.epochs.toNat → (ms (i + 1)).ridge lam t.loss N x y ≤ (ms i).ridge lam t.loss N x y) ∧
        ∀ o : Mlp, Mlp.Like m o →
          (0 < t.epochs → (ms t.epochs.toNat).ridge lam t.loss N x y - o.ridge lam t.loss N x y ≤ (1 - lr * lam) ^ t.epochs.toNat * (m.distSq o / (2 * lr))) ∧
          (o.RidgeBest lam t.loss N x y → (ms t.epochs.toNat).distSq o ≤ (1 - lr * lam) ^ t.epochs.toNat * m.distSq o)) := by
  have hT := hm.truths h hs
  obtain ⟨w', t', seen, ms, j, k1, k2, k3, k4, k5⟩ := C129_fit_sgd h (r := some ⟨.l2, lam⟩) trivial ho heps e
  have hB : (if t.batchSize = 0 then N else min t.batchSize.toNat N) = N := by
    split
    · rfl
    · rcases hb with hb | hb
      · contradiction
      · omega
  rw [hB] at k2
  rw [k5 hk] at k3
  have hset : (bookSettings t.optName t.lr t.mom t.decay : Hyper ℝ).lr = lr := by
    rw [ho, hlr]
    rw [show (0.01 : ℝ) = 1 / 100 by norm_num]
    simp [bookSettings, givenOr, bookRate]
  obtain ⟨σ, d, r1, r2, r3⟩ := k2.sgd
  have hnb := nbBatches_one h.samples (le_refl N)
  have knext := k2.next
  rw [hnb] at r2 r3 knext
  have lk : ∀ i, i ≤ t.epochs.toNat → Mlp.Like m (ms i 0) := fun i hi => k2.like i 0 (by rw [hnb]; omega)
  refine ⟨w', t', seen, fun i => ms i 0, k1, k2.first, lk, k3, fun hu => ?_⟩
  have st : ∀ i, i < t.epochs.toNat → _ := fun i hi =>
    (hm.like (lk i hi.le)).ridgeStep (m' := ms (i + 1) 0) (lam := lam) (lr := lr) (N := N) (x := x) (y := y) (d := d i 0) ((lk i hi.le).ok h.net.ok)
      (by
        have a := lk i hi.le
        have b := lk (i + 1) hi
        exact ⟨b.depth.trans a.depth.symm, b.width.trans a.width.symm, fun l => (b.kind l).trans (a.kind l).symm⟩)
      (by rw [(lk i hi.le).width]; exact hT)
      (by
        have := r2 i 0 hi one_pos
        rw [show batchEnd N N 0 - batchStart N 0 = N by unfold batchEnd batchStart; omega] at this
        simp only [batchStart, Nat.zero_mul, Nat.zero_add] at this
        intro _ b l hl hh
        obtain ⟨G, g1, g2⟩ := this (fun s hs' => (hm.like (lk i hi.le)).regular ((lk i hi.le).ok h.net.ok) (by rw [(lk i hi.le).width]; exact hT _ (perm_lt (r1 i hi) hs'))
          fun hc => hu hc i hi _ (perm_lt (r1 i hi) hs')) b l hl hh
        refine ⟨G, fun V => ?_, g2⟩
        have := g1 V
        simp only [error_perm (r1 i hi)] at this
        exact this)
      (fun b p q hp hq => by
        have hsh : (ms i 0).shape b 0 = m.shape b 0 := by
          unfold Mlp.shape
          rw [(lk i hi.le).kind, (lk i hi.le).width]
        rw [hsh] at hp hq
        have := r3 i 0 hi one_pos b 0 hm.depth_pos (by rw [Ply.has, hm.dense]; cases b <;> rfl) p q hp hq
        rw [knext i hi, this, hset]
        rfl)
      h0 (by rw [(lk i hi.le).width]; exact h1)
  refine ⟨fun i hi => (st i hi).1, fun o lko => ?_⟩
  have ho1 := hm.like lko
  have hcurv : 0 ≤ errorCurvature t.loss N (m.width 0) (m.width 1) x := mul_nonneg (lossCurvature_nonneg _ _) (by positivity)
  have ha : 0 ≤ 1 - lr * lam := by nlinarith
  obtain ⟨q1, q2⟩ := geometric (a := 1 - lr * lam) (t := lr) ha h0 (D := fun i => (ms i 0).distSq o)
    (e := fun i => (ms i 0).ridge lam t.loss N x y - o.ridge lam t.loss N x y) (E := t.epochs.toNat) (fun i _ => distSq_nonneg _ _)
    (fun i hi => by have := (st i hi).1; linarith) (fun i hi => (st i hi).2 o ho1 (lko.ok h.net.ok) (by rw [lko.width, (lk i hi.le).width]))
  rw [k2.first] at q1 q2
  refine ⟨fun hE => ?_, fun hbest => q2 fun i hi => ?_⟩
  · rw [mul_div_assoc', le_div_iff₀ (by positivity)]
    have := q1 (by omega)
    linarith
  · have a := lk i hi
    exact sub_nonneg.2 (hbest _ ⟨a.depth.trans lko.depth.symm, a.width.trans lko.width.symm, fun l => (a.kind l).trans (lko.kind l).symm⟩)

/-- There are best weights and biases. -/
theorem Mlp.Regression.best {loss : String} {m : Mlp} (hm : m.Regression loss) (hok : m.Ok) {N : Nat} {x y : Nat → Row}
    (hy : ∀ s, s < N → Linear.Truth loss (m.width 1) (y s)) {lam : ℝ} (hlam : 0 < lam) :
    ∃ o : Mlp, Mlp.Like m o ∧ o.RidgeBest lam loss N x y ∧ ∀ o' : Mlp, Mlp.Like m o' → lam / 2 * o'.distSq o ≤ o'.ridge lam loss N x y - o.ridge lam loss N x y := by
  have hK : 0 < m.width 1 := hok.pos 1 hm.depth_pos
  choose! gr hgr using fun (s : Nat) (hs : s < N) => Linear.link_of_truth hm.loss_mem hK (hy s hs)
  obtain ⟨W, b, hWb⟩ := Linear.rbest_exists (lam := lam) (C := m.width 0) (x := x) hgr hlam
  let o : Mlp := (m.setPar false 0 W).setPar true 0 b
  have lko : Mlp.Like m o := ⟨rfl, rfl, fun i => by
    show (if i = 0 then ((m.setPar false 0 W).ply 0).setPar true b else if i = 0 then (m.ply 0).setPar false W else m.ply i).kind = _
    split
    · next h => subst h; rfl
    · rfl⟩
  have eo : o.ridge lam loss N x y = Linear.rerr lam N (m.width 0) (m.width 1) x (fun s => Linear.sampleLink loss (m.width 1) (y s)) W b := (hm.like lko).ridge_eq (lko.ok hok) N x y
  have eo' : ∀ o' : Mlp, Mlp.Like m o' → o'.ridge lam loss N x y =
      Linear.rerr lam N (m.width 0) (m.width 1) x (fun s => Linear.sampleLink loss (m.width 1) (y s)) (o'.ply 0).weight (o'.ply 0).bias := fun o' lk => by
    rw [(hm.like lk).ridge_eq (lk.ok hok), lk.width]
  refine ⟨o, lko, fun o' lk => ?_, fun o' lk => ?_⟩
  · have : Mlp.Like m o' := lko.trans lk
    rw [eo, eo' o' this]
    exact hWb _ _
  · rw [eo, eo' o' lk, distSq_eq, lk.width]
    exact Linear.rbest hgr (lossCurvature_nonneg _ _) hlam hWb _ _

/-- C128: with a penalty there are best weights and biases, and all others are worse, the more the farther they are; so the best ones are unique.  For linear models, training
comes as close to them as one likes: with every epoch the squared distance shrinks by the factor `1 - lr λ`. -/
theorem C128_limit {w : World} {t : Trainer} {n b : Nat} {m : Mlp} {N D : Nat} {x y : Nat → Row} (h : FitSetup w t n b m N D x y) (hm : m.Regression t.loss)
    (ho : t.optName = "SGD") (hb : t.batchSize = 0 ∨ (N : Int) ≤ t.batchSize) (hk : t.keepBest = false) (hp : t.patience = -1)
    (hs : t.loss = "CategoricalCrossEntropy" → ∀ i, i < N → ∑ j ∈ range (m.width 1), y i j = 1) {lr lam : ℝ}
    (hlr : lr = if t.lr = -1 then 0.01 else t.lr) (h0 : 0 < lr) (hlam : 0 < lam) (h1 : lr * (errorCurvature t.loss N (m.width 0) (m.width 1) x + lam) ≤ 1) :
    ∃ o : Mlp, Mlp.Like m o ∧ o.RidgeBest lam t.loss N x y ∧
      (∀ o' : Mlp, Mlp.Like m o' → lam / 2 * o'.distSq o ≤ o'.ridge lam t.loss N x y - o.ridge lam t.loss N x y) ∧
      (t.loss ∈ smoothLosses → ∀ (E : Nat) (eps : ℝ), 0 < eps → ∀ e : FitEnv, ∃ (w' : World) (t' : Trainer) (seen : List (List (Option Layer))) (m' : Mlp),
        fit (fun x => |x|) eps e w { t with reg := some ⟨.l2, lam⟩, epochs := E } n b = .ok (w', t', seen) ∧ Represents w' n m' ∧
          m'.distSq o ≤ (1 - lr * lam) ^ E * m.distSq o) := by
  obtain ⟨o, o1, o2, o3⟩ := hm.best h.net.ok (hm.truths h hs) hlam
  refine ⟨o, o1, o2, o3, fun hl E eps heps e => ?_⟩
  have h' : FitSetup w { t with epochs := E } n b m N D x y := { h with patience := .inl hp, valid := h.valid }
  obtain ⟨w', t', seen, ms, k1, k2, -, k3, k4⟩ := C128_converges h' hm ho hb hk hs hlr h0 hlam.le h1 heps e
  have : ∀ s ∈ smoothLosses, s ∉ crossEntropies := by decide
  exact ⟨w', t', seen, ms E, k1, k3, ((k4 fun hc => absurd hc (this _ hl)).2 o o1).2 o2⟩

/-- C128: the same for any start: as the epochs go on, training forgets the weights and biases it started with. -/
theorem C128_forgets {w₁ w₂ : World} {t : Trainer} {n b : Nat} {m₁ m₂ : Mlp} {N D : Nat} {x y : Nat → Row} (h₁ : FitSetup w₁ t n b m₁ N D x y)
    (h₂ : FitSetup w₂ t n b m₂ N D x y) (hlike : Mlp.Like m₁ m₂) (hm : m₁.Regression t.loss) (hsm : t.loss ∈ smoothLosses)
    (ho : t.optName = "SGD") (hb : t.batchSize = 0 ∨ (N : Int) ≤ t.batchSize) (hk : t.keepBest = false) {lr lam : ℝ}
    (hlr : lr = if t.lr = -1 then 0.01 else t.lr) (h0 : 0 < lr) (hlam : 0 < lam) (h1 : lr * (errorCurvature t.loss N (m₁.width 0) (m₁.width 1) x + lam) ≤ 1)
    {eps : ℝ} (heps : 0 < eps) (e₁ e₂ : FitEnv) :
    ∃ (w₁' w₂' : World) (t₁' t₂' : Trainer) (seen₁ seen₂ : List (List (Option Layer))) (m₁' m₂' o : Mlp),
      fit (fun x => |x|) eps e₁ w₁ { t with reg := some ⟨.l2, lam⟩ } n b = .ok (w₁', t₁', seen₁) ∧ Represents w₁' n m₁' ∧
      fit (fun x => |x|) eps e₂ w₂ { t with reg := some ⟨.l2, lam⟩ } n b = .ok (w₂', t₂', seen₂) ∧ Represents w₂' n m₂' ∧
      o.RidgeBest lam t.loss N x y ∧
      m₁'.distSq m₂' ≤ (1 - lr * lam) ^ t.epochs.toNat * (2 * m₁.distSq o + 2 * m₂.distSq o) := by
  have hne : ∀ s ∈ smoothLosses, s ∉ crossEntropies ∧ s ≠ "CategoricalCrossEntropy" := by decide
  have hs₁ : t.loss = "CategoricalCrossEntropy" → ∀ i, i < N → ∑ j ∈ range (m₁.width 1), y i j = 1 := fun hl => absurd hl (hne _ hsm).2
  have hs₂ : t.loss = "CategoricalCrossEntropy" → ∀ i, i < N → ∑ j ∈ range (m₂.width 1), y i j = 1 := fun hl => absurd hl (hne _ hsm).2
  obtain ⟨o, o1, o2, -⟩ := hm.best h₁.net.ok (hm.truths h₁ hs₁) hlam
  obtain ⟨w₁', t₁', seen₁, ms₁, a1, a2, al, a3, a4⟩ := C128_converges h₁ hm ho hb hk hs₁ hlr h0 hlam.le h1 heps e₁
  obtain ⟨w₂', t₂', seen₂, ms₂, b1, b2, bl, b3, b4⟩ := C128_converges h₂ (hm.like hlike) ho hb hk hs₂ hlr h0 hlam.le (by rw [hlike.width]; exact h1) heps e₂
  have p1 := ((a4 fun hc => absurd hc (hne _ hsm).1).2 o o1).2 o2
  have p2 := ((b4 fun hc => absurd hc (hne _ hsm).1).2 o ⟨o1.depth.trans hlike.depth.symm, o1.width.trans hlike.width.symm, fun l => (o1.kind l).trans (hlike.kind l).symm⟩).2 o2
  refine ⟨w₁', w₂', t₁', t₂', seen₁, seen₂, ms₁ t.epochs.toNat, ms₂ t.epochs.toNat, o, a1, a3, b1, b3, o2, ?_⟩
  have tri : (ms₁ t.epochs.toNat).distSq (ms₂ t.epochs.toNat) ≤ 2 * (ms₁ t.epochs.toNat).distSq o + 2 * (ms₂ t.epochs.toNat).distSq o := by
    have hw : (ms₂ t.epochs.toNat).width = (ms₁ t.epochs.toNat).width := by rw [(al _ le_rfl).width, (bl _ le_rfl).width, hlike.width]
    have sq : ∀ a b c : ℝ, (a - b) ^ 2 ≤ 2 * (a - c) ^ 2 + 2 * (b - c) ^ 2 := fun a b c => by nlinarith [sq_nonneg (a - c + (b - c))]
    unfold Mlp.distSq
    rw [hw, mul_add, mul_add, add_add_add_comm, mul_sum, mul_sum, ← sum_add_distrib, mul_sum, mul_sum, ← sum_add_distrib]
    refine add_le_add (sum_le_sum fun k _ => ?_) (sum_le_sum fun j _ => sq _ _ _)
    rw [mul_sum, mul_sum, ← sum_add_distrib]
    exact sum_le_sum fun j _ => sq _ _ _
  linarith

/-! ## Cases -/

theorem line_ridge_rate : (1 / 8 : ℝ) * (errorCurvature "Huber" 3 1 1 (fun i _ => (i : ℝ)) + 1 / 10) ≤ 1 := by
  simp [errorCurvature, lossCurvature, classLosses, sum_range_succ]
  norm_num

/-- The straight line of C116 with the loss of Huber and a penalty. -/
theorem huber_ridge : FitSetup lineWorld { huberTrainer with lr := 1 / 8 } 0 1 lineNet 3 1 (fun i _ => (i : ℝ)) (fun i _ => 2 * (i : ℝ) + 1) :=
  { huberTrainer_setup with valid := fun d h => by cases h }

example {eps : ℝ} (heps : 0 < eps) (e : FitEnv) := C128_converges huber_ridge (.inl ⟨lineNet_single, by show "Huber" ∈ smoothLosses; decide⟩) rfl (.inl rfl) rfl
  (fun h => absurd (show "Huber" = _ from h) (by decide)) (lr := 1 / 8) (lam := 1 / 10) (by show (1 / 8 : ℝ) = if (1 / 8 : ℝ) = -1 then 0.01 else 1 / 8; norm_num) (by norm_num)
  (by norm_num) line_ridge_rate heps e

example := C128_limit huber_ridge (.inl ⟨lineNet_single, by show "Huber" ∈ smoothLosses; decide⟩) rfl (.inl rfl) rfl rfl
  (fun h => absurd (show "Huber" = _ from h) (by decide)) (lr := 1 / 8) (lam := 1 / 10) (by show (1 / 8 : ℝ) = if (1 / 8 : ℝ) = -1 then 0.01 else 1 / 8; norm_num) (by norm_num)
  (by norm_num) line_ridge_rate

example {eps : ℝ} (heps : 0 < eps) (e₁ e₂ : FitEnv) := C128_forgets huber_ridge huber_ridge ⟨rfl, rfl, fun _ => rfl⟩ (.inl ⟨lineNet_single, by show "Huber" ∈ smoothLosses; decide⟩)
  (by show "Huber" ∈ smoothLosses; decide) rfl (.inl rfl) rfl (lr := 1 / 8) (lam := 1 / 10) (by show (1 / 8 : ℝ) = if (1 / 8 : ℝ) = -1 then 0.01 else 1 / 8; norm_num) (by norm_num)
  (by norm_num) line_ridge_rate heps e₁ e₂

end BeeDNN
