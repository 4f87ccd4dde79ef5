import Verif.Props.MlpRule

/-! # Training with a regularizer: C127 -/

namespace BeeDNN
open Finset Trainer

/-- `fit` with a regularizer is a training with it; `ok` is what is known of the samples. -/
theorem fit_reg_training {w : World} {t : Trainer} {n b : Nat} {m : Mlp} {N D : Nat} {x y : Nat → Row} (h : FitSetup w t n b m N D x y) (r : Option Reg)
    {k : OptKind} (hk : createOptimizer t.optName = some k) (hre : t.reboostEvery = -1) {eps : ℝ} (heps : 0 < eps) (e : FitEnv)
    {ok : Mlp → Row → Row → Prop} (hok : ∀ (m₁ : Mlp) (v : Row) (j : Nat), Mlp.Like m m₁ → j < N → ok m₁ v (y j) → m₁.Regular eps t.loss v (y j)) :
    ∃ (w' : World) (t' : Trainer) (seen : List (List (Option Layer))) (ms : Nat → Nat → Mlp) (j : Nat),
      fit (fun x => |x|) eps e w { t with reg := r } n b = .ok (w', t', seen) ∧
      Mlp.RegTraining r ok t.loss k (bookSettings t.optName t.lr t.mom t.decay) N (if t.batchSize = 0 then N else min t.batchSize.toNat N)
        t.epochs.toNat x y m ms ∧
      Represents w' n (ms j 0) ∧ j ≤ t.epochs.toNat ∧ (t.keepBest = false → j = t.epochs.toNat) := by
  obtain ⟨ψ, l1, l2⟩ := lossOk_of_mem eps h.loss (h.net.ok.pos _ (Nat.le_refl m.depth)) D
  obtain ⟨w', t', seen, ms, mems, j, h1, h2, h3, h4, h5, h6, h7, h8⟩ := fit_rule (e := e) (t := { t with reg := r }) h.net h.owned h.slot h.fresh h.inOut h.gradient
    hk h.samples x y h.train h.truth h.valid h.valBatch h.batchSize h.balancing h.patience h.loss l1 hre
  obtain ⟨b1, b2⟩ := started_book hk e.g t.lr t.decay t.mom
  have wf0 : ((Opt.new k : Opt ℝ).setParams e.g t.lr t.decay t.mom).WF :=
    Opt.init_WF e.g (o := { (Opt.new k : Opt ℝ) with lr := t.lr, decay := t.decay, mom := t.mom }) ⟨Mat.WF_empty, Mat.WF_empty, Mat.WF_empty⟩
  obtain ⟨M, c1, c2⟩ := training_of_reg_rules h.nbBatches_pos h2 h7 (Opt.init_WF e.g wf0) (Opt.init_fresh e.g wf0) h3 h8
    (ok := ok) (loss := t.loss) (fun m₁ N' x' y' lk hsub hreg bb i hi hb => ⟨_, Mlp.grad_error (lk.ok h.net.ok) heps h.loss (ψ := ψ)
      (by rw [lk.depth, lk.width]; exact l2) _ _ _ (D := D) (by rw [lk.depth, lk.width]; exact h.truth.sub fun i hi => (hsub i hi).imp fun j hj => ⟨hj.1, hj.2.2⟩)
      (fun i hi => by
        obtain ⟨j, j1, -, j2⟩ := hsub i hi
        have := hreg i hi
        rw [j2] at this ⊢
        exact hok m₁ _ j lk j1 this) bb hi hb, fun p q => rfl⟩)
  rw [b1, b2, ← adjustBatch_toNat h.batchSize] at c1
  exact ⟨w', t', seen, M, j, h1, c1, by rw [c2 j h4]; exact h6, h4, h5⟩

/-- C127: `fit` of any feed-forward network of the fifteen kinds of layers, with any of the fifteen optimizers, any of the
twelve losses and any of the seven regularizers, runs to the end without fault and trains by the rule of the optimizer: at any time in any epoch, every
weight and every bias is what the rule for one number makes of its first value and of what the regularizer has made of the gradients of the errors of all
batches so far (times the rate of the layer, see C95), as long as the samples are regular. -/
theorem C127_fit {w : World} {t : Trainer} {n b : Nat} {m : Mlp} {N D : Nat} {x y : Nat → Row} (h : FitSetup w t n b m N D x y) {r : Option Reg} (_hr : RegFits r)
    {k : OptKind} (hk : createOptimizer t.optName = some k) (hre : t.reboostEvery = -1) {eps : ℝ} (heps : 0 < eps) (e : FitEnv) :
    ∃ (w' : World) (t' : Trainer) (seen : List (List (Option Layer))) (ms : Nat → Nat → Mlp) (j : Nat),
      fit (fun x => |x|) eps e w { t with reg := r } n b = .ok (w', t', seen) ∧
      Mlp.RegTraining r (fun m => m.Regular eps t.loss) t.loss k (bookSettings t.optName t.lr t.mom t.decay) N
        (if t.batchSize = 0 then N else min t.batchSize.toNat N) t.epochs.toNat x y m ms ∧
      Represents w' n (ms j 0) ∧ j ≤ t.epochs.toNat ∧ (t.keepBest = false → j = t.epochs.toNat) :=
  fit_reg_training h r hk hre heps e fun _ _ _ _ _ h => h

/-- C127: with smooth activations and a loss without kink nothing is asked of the samples. -/
theorem C127_smooth {w : World} {t : Trainer} {n b : Nat} {m : Mlp} {N D : Nat} {x y : Nat → Row} (h : FitSetup w t n b m N D x y) {r : Option Reg} (_hr : RegFits r)
    {k : OptKind} (hk : createOptimizer t.optName = some k) (hre : t.reboostEvery = -1) (hm : m.Smooth) (hl : t.loss ∈ distanceLosses)
    (hkink : t.loss ∉ kinkAtZero) {eps : ℝ} (heps : 0 < eps) (e : FitEnv) :
    ∃ (w' : World) (t' : Trainer) (seen : List (List (Option Layer))) (ms : Nat → Nat → Mlp) (j : Nat),
      fit (fun x => |x|) eps e w { t with reg := r } n b = .ok (w', t', seen) ∧
      Mlp.RegTraining r (fun _ _ _ => True) t.loss k (bookSettings t.optName t.lr t.mom t.decay) N
        (if t.batchSize = 0 then N else min t.batchSize.toNat N) t.epochs.toNat x y m ms ∧
      Represents w' n (ms j 0) ∧ j ≤ t.epochs.toNat ∧ (t.keepBest = false → j = t.epochs.toNat) :=
  fit_reg_training h r hk hre heps e (ok := fun _ _ _ => True) (fun m₁ v j lk _ _ => by
    rw [Mlp.Regular, if_neg (by rintro (h | h) <;> rw [h] at hl <;> exact absurd hl (by decide))]
    exact ⟨(hm.like lk).at _, fun h => absurd (by simpa [kinkAtZero] using h) hkink, fun h => by rw [h] at hl; exact absurd hl (by decide)⟩)

/-! ## What it means -/

section
variable {ok : Mlp → Row → Row → Prop} {loss : String} {h : Hyper ℝ} {N B E : Nat} {x y : Nat → Row} {m : Mlp} {ms : Nat → Nat → Mlp}

/-- One step of plain gradient descent. -/
theorem Mlp.RegTraining.sgd {r : Option Reg} (ht : Mlp.RegTraining r ok loss .sgd h N B E x y m ms) :
    ∃ (σ : Nat → Nat → Nat) (d : Nat → Nat → Bool → Nat → Nat → Nat → ℝ), (∀ i, i < E → ((List.range N).map (σ i)).Perm (List.range N)) ∧
    (∀ i j, i < E → j < nbBatches N B → Mlp.IsDrive ok loss (batchEnd N B j - batchStart B j) (fun s => x (σ i (batchStart B j + s)))
      (fun s => y (σ i (batchStart B j + s))) (ms i j) (d i j)) ∧
    ∀ i j, i < E → j < nbBatches N B → ∀ b l, l < m.depth → (m.ply l).has b = true → ∀ p q, p < (m.shape b l).1 → q < (m.shape b l).2 →
      ((ms i (j + 1)).ply l).par b p q = ((ms i j).ply l).par b p q -
        h.lr * regGrad r (m.shape b l).1 (m.shape b l).2 (((ms i j).ply l).par b) (d i j b l) p q := by
  obtain ⟨σ, d, d', h1, h2, h3, h4⟩ := ht.rule
  refine ⟨σ, fun i j => d (i * nbBatches N B + j), h1, h2, fun i j hi hj b l hl hb p q hp hq => ?_⟩
  rw [← h3 i j hi hj, h4 i (j + 1) (.inl ⟨hi, hj⟩) b l hl hb p q hp hq, h4 i j (.inl ⟨hi, hj.le⟩) b l hl hb p q hp hq]
  rfl

/-- What holds of the network at the start and is kept by every batch, holds at the end. -/
theorem Mlp.RegTraining.induct {r : Option Reg} (ht : Mlp.RegTraining r ok loss .sgd h N B E x y m ms) (P : Nat → Mlp → Prop) (h0 : P 0 m)
    (hs : ∀ i j, i < E → j < nbBatches N B → P (i * nbBatches N B + j) (ms i j) → P (i * nbBatches N B + j + 1) (ms i (j + 1))) :
    ∀ i, i ≤ E → P (i * nbBatches N B) (ms i 0) := by
  intro i
  induction i with
  | zero => intro _; rw [Nat.zero_mul, ht.first]; exact h0
  | succ i ih =>
    intro hi
    have : ∀ j, j ≤ nbBatches N B → P (i * nbBatches N B + j) (ms i j) := by
      intro j
      induction j with
      | zero => intro _; exact ih (by omega)
      | succ j ihj => intro hj; exact hs i j (by omega) (by omega) (ihj (by omega))
    rw [ht.next i (by omega), Nat.succ_mul]
    exact this _ le_rfl

/-- C127: `None` is as good as no regularizer. -/
theorem C127_none {p : ℝ} {k : OptKind} : Mlp.RegTraining (some ⟨.none, p⟩) ok loss k h N B E x y m ms ↔ Mlp.Training ok loss k h N B E x y m ms := by
  constructor
  · intro ht
    obtain ⟨σ, d, d', h1, h2, h3, h4⟩ := ht.rule
    refine ⟨ht.first, ht.next, ht.like, σ, d', h1, fun i j hi hj => ?_, h4⟩
    have : d' (i * nbBatches N B + j) = d (i * nbBatches N B + j) := by
      funext b l
      exact h3 i j hi hj b l
    rw [this]
    exact h2 i j hi hj
  · intro ht
    obtain ⟨σ, d, h1, h2, h3⟩ := ht.rule
    exact ⟨ht.first, ht.next, ht.like, σ, d, d, h1, h2, fun _ _ _ _ _ _ => rfl, h3⟩

/-- The three ways of clipping. -/
def RegKind.Clips (k : RegKind) : Prop := k = .gradientClip ∨ k = .gradientNormClip ∨ k = .gradientClipTanh

theorem abs_le_frobenius {R C : Nat} (D : Nat → Nat → ℝ) {i j : Nat} (hi : i < R) (hj : j < C) : |D i j| ≤ frobenius R C D := by
  unfold frobenius
  refine Real.abs_le_sqrt ?_
  have h1 : D i j ^ 2 ≤ ∑ j ∈ range C, D i j ^ 2 := single_le_sum (f := fun j => D i j ^ 2) (fun _ _ => sq_nonneg _) (mem_range.2 hj)
  have h2 : ∑ j ∈ range C, D i j ^ 2 ≤ ∑ i ∈ range R, ∑ j ∈ range C, D i j ^ 2 :=
    single_le_sum (f := fun i => ∑ j ∈ range C, D i j ^ 2) (fun _ _ => sum_nonneg fun _ _ => sq_nonneg _) (mem_range.2 hi)
  exact h1.trans h2

theorem normClip_le {p : ℝ} (hp : 0 < p) (R C : Nat) (W D : Nat → Nat → ℝ) : frobenius R C (regGrad (some ⟨.gradientNormClip, p⟩) R C W D) ≤ p := by
  obtain ⟨e, h1, h2, -⟩ := C69_norm_clip (fun _ => 0) hp (Mat.ofFn R C W) R C D
  rw [Reg.apply_ofFn] at h1
  injection h1 with h1
  obtain ⟨-, h1⟩ := Prod.mk.inj h1
  have : frobenius R C (regGrad (some ⟨.gradientNormClip, p⟩) R C W D) = frobenius R C e := by
    unfold frobenius
    congr 1
    refine sum_congr rfl fun i hi => sum_congr rfl fun j hj => ?_
    rw [Mat.ofFn_inj h1 i j (mem_range.1 hi) (mem_range.1 hj)]
  rw [this]
  exact h2

theorem clipped {r : Reg} (hc : r.kind.Clips) (hp : 0 < r.param) {R C : Nat} (W D : Nat → Nat → ℝ) {i j : Nat} (hi : i < R) (hj : j < C) :
    |regGrad (some r) R C W D i j| ≤ r.param := by
  obtain ⟨k, p⟩ := r
  rcases hc with rfl | rfl | rfl
  · dsimp only [regGrad] at *
    rw [abs_le]
    split
    · constructor <;> linarith
    · split
      · constructor <;> linarith
      · constructor <;> linarith
  · exact (abs_le_frobenius _ hi hj).trans (normClip_le hp R C W D)
  · dsimp only [regGrad] at *
    rw [abs_mul, abs_of_pos hp]
    have h1 := Real.tanh_lt_one (D i j * (1 / p))
    have h2 := Real.neg_one_lt_tanh (D i j * (1 / p))
    have : |Real.tanh (D i j * (1 / p))| ≤ 1 := abs_le.2 ⟨h2.le, h1.le⟩
    nlinarith

/-- C127: with plain gradient descent and one of the three ways of clipping, no parameter moves further in a batch than the learning rate
times the parameter of the regularizer, whatever the samples; and hence not further than that times the number of batches in the whole training. -/
theorem C127_clip {r : Reg} (hc : r.kind.Clips) (hp : 0 < r.param) (ht : Mlp.RegTraining (some r) ok loss .sgd h N B E x y m ms) (hlr : 0 ≤ h.lr)
    (b : Bool) (l : Nat) (hl : l < m.depth) (hb : (m.ply l).has b = true) (p q : Nat) (hpR : p < (m.shape b l).1) (hq : q < (m.shape b l).2) :
    (∀ i j, i < E → j < nbBatches N B → |((ms i (j + 1)).ply l).par b p q - ((ms i j).ply l).par b p q| ≤ h.lr * r.param) ∧
    ∀ i, i ≤ E → |((ms i 0).ply l).par b p q - (m.ply l).par b p q| ≤ h.lr * r.param * (i * nbBatches N B : Nat) := by
  obtain ⟨σ, d, -, -, h3⟩ := ht.sgd
  have hs : ∀ i j, i < E → j < nbBatches N B → |((ms i (j + 1)).ply l).par b p q - ((ms i j).ply l).par b p q| ≤ h.lr * r.param := by
    intro i j hi hj
    rw [h3 i j hi hj b l hl hb p q hpR hq, sub_sub_cancel_left, abs_neg, abs_mul, abs_of_nonneg hlr]
    exact mul_le_mul_of_nonneg_left (clipped hc hp _ _ hpR hq) hlr
  refine ⟨hs, ht.induct (fun T m' => |(m'.ply l).par b p q - (m.ply l).par b p q| ≤ h.lr * r.param * T) (by simp) fun i j hi hj ih => ?_⟩
  calc |_| ≤ _ + _ := abs_sub_le _ (((ms i j).ply l).par b p q) _
    _ ≤ h.lr * r.param + h.lr * r.param * (i * nbBatches N B + j : Nat) := add_le_add (hs i j hi hj) ih
    _ = _ := by push_cast; ring

/-- C127: with `GradientNormClip`, a whole matrix of weights does not move further than that in a batch. -/
theorem C127_norm_clip {c : ℝ} (hc : 0 < c) (ht : Mlp.RegTraining (some ⟨.gradientNormClip, c⟩) ok loss .sgd h N B E x y m ms) (hlr : 0 ≤ h.lr)
    (b : Bool) (l : Nat) (hl : l < m.depth) (hb : (m.ply l).has b = true) (i j : Nat) (hi : i < E) (hj : j < nbBatches N B) :
    frobenius (m.shape b l).1 (m.shape b l).2 (fun p q => ((ms i (j + 1)).ply l).par b p q - ((ms i j).ply l).par b p q) ≤ h.lr * c := by
  obtain ⟨σ, d, -, -, h3⟩ := ht.sgd
  have e1 : frobenius (m.shape b l).1 (m.shape b l).2 (fun p q => ((ms i (j + 1)).ply l).par b p q - ((ms i j).ply l).par b p q) =
      h.lr * frobenius (m.shape b l).1 (m.shape b l).2
        (regGrad (some ⟨.gradientNormClip, c⟩) (m.shape b l).1 (m.shape b l).2 (((ms i j).ply l).par b) (d i j b l)) := by
    unfold frobenius
    conv_rhs => rw [← Real.sqrt_sq hlr, ← Real.sqrt_mul (sq_nonneg _)]
    congr 1
    rw [mul_sum]
    refine sum_congr rfl fun p hp => ?_
    rw [mul_sum]
    refine sum_congr rfl fun q hq => ?_
    dsimp only
    rw [h3 i j hi hj b l hl hb p q (mem_range.1 hp) (mem_range.1 hq)]
    ring
  rw [e1]
  exact mul_le_mul_of_nonneg_left (normClip_le hc _ _ _ _) hlr

/-- C127: with `L2` and plain gradient descent, the weights decay: the network after `i` epochs is the first one times a power of `1 - lr λ`, minus the
gradients with their own powers. -/
theorem C127_decay {c : ℝ} (ht : Mlp.RegTraining (some ⟨.l2, c⟩) ok loss .sgd h N B E x y m ms) : ∃ (σ : Nat → Nat → Nat) (d : Nat → Bool → Nat → Nat → Nat → ℝ),
    (∀ i, i < E → ((List.range N).map (σ i)).Perm (List.range N)) ∧
    (∀ i j, i < E → j < nbBatches N B → Mlp.IsDrive ok loss (batchEnd N B j - batchStart B j) (fun s => x (σ i (batchStart B j + s)))
      (fun s => y (σ i (batchStart B j + s))) (ms i j) (d (i * nbBatches N B + j))) ∧
    ∀ i, i ≤ E → ∀ b l, l < m.depth → (m.ply l).has b = true → ∀ p q, p < (m.shape b l).1 → q < (m.shape b l).2 →
      ((ms i 0).ply l).par b p q = (1 - h.lr * c) ^ (i * nbBatches N B) * (m.ply l).par b p q -
        h.lr * ∑ t ∈ range (i * nbBatches N B), (1 - h.lr * c) ^ (i * nbBatches N B - 1 - t) * d t b l p q := by
  obtain ⟨σ, d, d', h1, h2, h3, h4⟩ := ht.rule
  refine ⟨σ, d, h1, h2, fun i hi b l hl hb p q hp hq => ?_⟩
  refine ht.induct (fun T m' => (m'.ply l).par b p q = (1 - h.lr * c) ^ T * (m.ply l).par b p q -
    h.lr * ∑ t ∈ range T, (1 - h.lr * c) ^ (T - 1 - t) * d t b l p q) (by simp) (fun i j hi hj ih => ?_) i hi
  have e1 : ((ms i (j + 1)).ply l).par b p q = ((ms i j).ply l).par b p q - h.lr * d' (i * nbBatches N B + j) b l p q := by
    rw [h4 i (j + 1) (.inl ⟨hi, hj⟩) b l hl hb p q hp hq, h4 i j (.inl ⟨hi, hj.le⟩) b l hl hb p q hp hq]
    rfl
  have e2 : d' (i * nbBatches N B + j) b l p q = d (i * nbBatches N B + j) b l p q + ((ms i j).ply l).par b p q * c := by rw [h3 i j hi hj]; rfl
  rw [e1, e2, ih]
  generalize i * nbBatches N B + j = T
  rw [sum_range_succ, Nat.add_sub_cancel, Nat.sub_self, pow_zero, one_mul]
  have e3 : ∑ t ∈ range T, (1 - h.lr * c) ^ (T - t) * d t b l p q = (1 - h.lr * c) * ∑ t ∈ range T, (1 - h.lr * c) ^ (T - 1 - t) * d t b l p q := by
    rw [mul_sum]
    refine sum_congr rfl fun t htT => ?_
    have := mem_range.1 htT
    rw [show T - t = T - 1 - t + 1 by omega, pow_succ]
    ring
  rw [e3, pow_succ]
  ring

theorem Mlp.parSum_setPar (m : Mlp) (f : ℝ → ℝ) (b : Bool) (l : Nat) (hl : l < m.depth) (hb : (m.ply l).has b = true) :
    ∃ K, ∀ P, (m.setPar b l P).parSum f = K + ∑ p ∈ range (m.shape b l).1, ∑ q ∈ range (m.shape b l).2, f (P p q) := by
  refine ⟨m.parSum f - ∑ p ∈ range (m.shape b l).1, ∑ q ∈ range (m.shape b l).2, f ((m.ply l).par b p q), fun P => ?_⟩
  have key : ∀ k c, (if ((m.setPar b l P).ply k).has c then ∑ p ∈ range ((m.setPar b l P).shape c k).1, ∑ q ∈ range ((m.setPar b l P).shape c k).2,
      f (((m.setPar b l P).ply k).par c p q) else 0) = (if (m.ply k).has c then ∑ p ∈ range (m.shape c k).1, ∑ q ∈ range (m.shape c k).2,
      f ((m.ply k).par c p q) else 0) + if k = l then (if c = b then ∑ p ∈ range (m.shape b l).1, ∑ q ∈ range (m.shape b l).2, f (P p q) -
        ∑ p ∈ range (m.shape b l).1, ∑ q ∈ range (m.shape b l).2, f ((m.ply l).par b p q) else 0) else 0 := by
    intro k c
    have hk : ((m.setPar b l P).ply k).kind = (m.ply k).kind := by
      unfold Mlp.setPar
      dsimp only
      split
      · next h => subst h; cases b <;> rfl
      · rfl
    have hs : (m.setPar b l P).shape c k = m.shape c k := by
      unfold Mlp.shape
      rw [hk]
      rfl
    have hh : ((m.setPar b l P).ply k).has c = (m.ply k).has c := by
      unfold Ply.has
      rw [hk]
    rw [hs, hh]
    by_cases hkl : k = l
    · subst hkl
      rw [if_pos rfl]
      by_cases hcb : c = b
      · subst hcb
        rw [if_pos hb, if_pos hb, if_pos rfl, add_sub_cancel]
        refine sum_congr rfl fun p _ => sum_congr rfl fun q _ => ?_
        unfold Mlp.setPar
        dsimp only
        rw [if_pos rfl]
        cases c <;> rfl
      · rw [if_neg hcb, add_zero]
        have : ((m.setPar b k P).ply k).par c = (m.ply k).par c := by
          unfold Mlp.setPar
          dsimp only
          rw [if_pos rfl]
          cases b <;> cases c <;> first | rfl | exact absurd rfl hcb
        rw [this]
    · rw [if_neg hkl, add_zero]
      have : (m.setPar b l P).ply k = m.ply k := if_neg hkl
      rw [this]
  unfold Mlp.parSum
  rw [show (m.setPar b l P).depth = m.depth from rfl]
  rw [sum_congr rfl fun k _ => (sum_congr rfl fun c _ => key k c)]
  rw [sum_congr rfl fun k _ => (sum_add_distrib)]
  rw [sum_add_distrib]
  have : ∑ k ∈ range m.depth, ∑ c : Bool, (if k = l then (if c = b then ∑ p ∈ range (m.shape b l).1, ∑ q ∈ range (m.shape b l).2, f (P p q) -
        ∑ p ∈ range (m.shape b l).1, ∑ q ∈ range (m.shape b l).2, f ((m.ply l).par b p q) else 0) else 0) =
      ∑ p ∈ range (m.shape b l).1, ∑ q ∈ range (m.shape b l).2, f (P p q) -
        ∑ p ∈ range (m.shape b l).1, ∑ q ∈ range (m.shape b l).2, f ((m.ply l).par b p q) := by
    rw [sum_eq_single l]
    · rw [sum_eq_single b]
      · rw [if_pos rfl, if_pos rfl]
      · intro c _ hc; rw [if_pos rfl, if_neg hc]
      · intro h; exact absurd (mem_univ b) h
    · intro k _ hk
      exact sum_eq_zero fun c _ => if_neg hk
    · intro h; exact absurd (mem_range.2 hl) h
  rw [this]
  ring

theorem isGrad_sum {R C : Nat} {f g : ℝ → ℝ} {W : Nat → Nat → ℝ} (hf : ∀ p q, p < R → q < C → HasDerivAt f (g (W p q)) (W p q)) :
    IsGrad R C (fun P => ∑ p ∈ range R, ∑ q ∈ range C, f (P p q)) W (fun p q => g (W p q)) := by
  intro V
  unfold dotM
  refine HasDerivAt.fun_sum fun p hp => HasDerivAt.fun_sum fun q hq => ?_
  have h1 : HasDerivAt (fun t : ℝ => W p q + t * V p q) (V p q) 0 := by
    simpa using ((hasDerivAt_id (0 : ℝ)).mul_const (V p q)).const_add (W p q)
  have h2 : HasDerivAt f (g (W p q)) (W p q + 0 * V p q) := by
    rw [zero_mul, add_zero]
    exact hf p q (mem_range.1 hp) (mem_range.1 hq)
  exact h2.comp (0 : ℝ) h1

/-- What `L1`, `L2` and `L1L2` add to the gradient is the derivative of the penalty. -/
theorem penalty_grad {r : Reg} (hk : r.kind = .l1 ∨ r.kind = .l2 ∨ r.kind = .l1l2) {w : ℝ} (hw : r.kind ≠ .l2 → w ≠ 0) :
    ∃ g : ℝ, HasDerivAt r.penalty g w ∧ ∀ R C W D p q, W p q = w → regGrad (some r) R C W D p q = D p q + g := by
  obtain ⟨k, c⟩ := r
  have habs : w ≠ 0 → HasDerivAt (fun w : ℝ => c * |w|) ((if w < 0 then -1 else 1) * c) w := by
    intro h
    have h1 := (hasDerivAt_abs h).const_mul c
    rcases lt_or_gt_of_ne h with h | h
    · rw [if_pos h]
      simpa [sign_neg h] using h1
    · rw [if_neg h.not_gt]
      simpa [sign_pos h] using h1
  have hsq : HasDerivAt (fun w : ℝ => c / 2 * w ^ 2) (w * c) w := by
    have h1 := (hasDerivAt_pow 2 w).const_mul (c / 2)
    have h2 : c / 2 * (((2 : Nat) : ℝ) * w ^ (2 - 1)) = w * c := by norm_num; ring
    rwa [h2] at h1
  rcases hk with hk | hk | hk <;> dsimp only at hk <;> subst hk
  · refine ⟨_, habs (hw nofun), fun R C W D p q h => ?_⟩
    rw [← h]
    rfl
  · refine ⟨_, hsq, fun R C W D p q h => ?_⟩
    rw [← h]
    rfl
  · refine ⟨_, (habs (hw nofun)).add hsq, fun R C W D p q h => ?_⟩
    rw [← h]
    dsimp only [regGrad]
    ring

/-- C127: with plain gradient descent and `L1`, `L2` or `L1L2`, every batch is a step of gradient descent for the error on the batch plus the penalty for all
weights and all biases: with `L1` and `L1L2`, as long as no parameter is zero, where the absolute value has no derivative. -/
theorem C127_penalty {r : Reg} (hk : r.kind = .l1 ∨ r.kind = .l2 ∨ r.kind = .l1l2) (ht : Mlp.RegTraining (some r) ok loss .sgd h N B E x y m ms) (hx : m.Exact) :
    ∃ σ : Nat → Nat → Nat, (∀ i, i < E → ((List.range N).map (σ i)).Perm (List.range N)) ∧ ∀ i j, i < E → j < nbBatches N B →
      (∀ s, s < batchEnd N B j - batchStart B j → ok (ms i j) (x (σ i (batchStart B j + s))) (y (σ i (batchStart B j + s)))) →
      (r.kind ≠ .l2 → ∀ b l p q, l < m.depth → (m.ply l).has b = true → p < (m.shape b l).1 → q < (m.shape b l).2 → ((ms i j).ply l).par b p q ≠ 0) →
      Mlp.DescendsOn (fun m' => m'.error loss (batchEnd N B j - batchStart B j) (fun s => x (σ i (batchStart B j + s))) (fun s => y (σ i (batchStart B j + s))) +
        m'.parSum r.penalty) h.lr (ms i j) (ms i (j + 1)) := by
  obtain ⟨σ, d, h1, h2, h3⟩ := ht.sgd
  refine ⟨σ, h1, fun i j hi hj hok hnz => ?_⟩
  have lk := ht.like i j (.inl ⟨hi, hj.le⟩)
  have lk' := ht.like i (j + 1) (.inl ⟨hi, hj⟩)
  refine ⟨⟨lk'.depth.trans lk.depth.symm, lk'.width.trans lk.width.symm, fun l => (lk'.kind l).trans (lk.kind l).symm⟩, fun b l hl hb => ?_⟩
  obtain ⟨G, g1, g2⟩ := h2 i j hi hj hok b l hl hb
  have hs : (ms i j).shape b l = m.shape b l := by
    unfold Mlp.shape
    rw [lk.kind, lk.width]
  have hl' : l < m.depth := lk.depth ▸ hl
  have hb' : (m.ply l).has b = true := by
    unfold Ply.has at hb ⊢
    rw [← lk.kind]
    exact hb
  obtain ⟨K, hK⟩ := (ms i j).parSum_setPar r.penalty b l hl hb
  rw [hs] at hK g1 ⊢
  have hg : ∀ w, ∃ g : ℝ, (r.kind ≠ .l2 → w ≠ 0) → HasDerivAt r.penalty g w ∧ ∀ R C W D p q, W p q = w → regGrad (some r) R C W D p q = D p q + g := by
    intro w
    by_cases h : r.kind ≠ .l2 → w ≠ 0
    · obtain ⟨g, hg⟩ := penalty_grad hk h
      exact ⟨g, fun _ => hg⟩
    · exact ⟨0, fun h' => absurd h' h⟩
  choose g hg using hg
  have hnz' : ∀ p q, p < (m.shape b l).1 → q < (m.shape b l).2 → r.kind ≠ .l2 → ((ms i j).ply l).par b p q ≠ 0 := fun p q hp hq hne => hnz hne b l p q hl' hb' hp hq
  have hpen := isGrad_sum (R := (m.shape b l).1) (C := (m.shape b l).2) (W := ((ms i j).ply l).par b) fun p q hp hq => (hg _ (hnz' p q hp hq)).1
  refine ⟨fun p q => G p q + g (((ms i j).ply l).par b p q), fun V => ?_, fun p q hp hq => ?_⟩
  · have hsum := (g1 V).add ((hpen V).const_add K)
    have e1 : dotM (m.shape b l).1 (m.shape b l).2 (fun p q => G p q + g (((ms i j).ply l).par b p q)) V =
        dotM (m.shape b l).1 (m.shape b l).2 G V + dotM (m.shape b l).1 (m.shape b l).2 (fun p q => g (((ms i j).ply l).par b p q)) V := by
      unfold dotM
      rw [← sum_add_distrib]
      refine sum_congr rfl fun p _ => ?_
      rw [← sum_add_distrib]
      exact sum_congr rfl fun q _ => by ring
    rw [e1]
    refine hsum.congr_of_eventuallyEq (.of_forall fun t => ?_)
    dsimp only
    rw [hK]
    rfl
  · rw [h3 i j hi hj b l hl' hb' p q hp hq, (hg _ (hnz' p q hp hq)).2 _ _ _ _ p q rfl, g2, (hx.like lk).rate _ b hl, one_mul]

end

/-! ## A witness -/

example {eps : ℝ} (heps : 0 < eps) (e : FitEnv) := C127_fit (anyTrainer_setup "Adam") (r := some ⟨.gradientNormClip, 1 / 10⟩)
  (show (0 : ℝ) ≤ 1 / 10 by norm_num) (k := .adam) rfl rfl heps e
example {eps : ℝ} (heps : 0 < eps) (e : FitEnv) := C127_fit convTrainer_setup (r := some ⟨.gradientClipTanh, 1⟩)
  (show (1 : ℝ) ≠ 0 by norm_num) (k := .sgd) rfl rfl heps e

/-- The training that the other theorems speak of, for any optimizer and any regularizer. -/
theorem regTraining_exists {o : String} {k : OptKind} (hk : createOptimizer o = some k) {r : Option Reg} (hr : RegFits r) (e : FitEnv) :
    ∃ ms, Mlp.RegTraining r (fun _ _ _ => True) "MeanSquaredError" k (bookSettings o (-1) (-1) (-1)) 4 3 10 (fun i j => (i : ℝ) + j) (fun i _ => (i : ℝ)) mlpWitness ms := by
  obtain ⟨w', t', seen, ms, j, -, h2, -⟩ := C127_smooth (anyTrainer_setup o) hr hk rfl mlpWitness_smooth
    (show "MeanSquaredError" ∈ distanceLosses by decide) (show "MeanSquaredError" ∉ kinkAtZero by decide) one_pos e
  exact ⟨ms, h2⟩

/-- Weights decay, and every batch descends the error with the penalty. -/
example (e : FitEnv) :=
  have h := (regTraining_exists (o := "SGD") (k := .sgd) rfl (r := some ⟨.l2, 1 / 100⟩) trivial e).choose_spec
  And.intro (C127_decay h) (C127_penalty (.inr (.inl rfl)) h mlpWitness_exact)

example (e : FitEnv) :=
  have h := (regTraining_exists (o := "SGD") (k := .sgd) rfl (r := some ⟨.l1l2, 1 / 100⟩) trivial e).choose_spec
  C127_penalty (.inr (.inr rfl)) h mlpWitness_exact

/-- Clipped to a tenth. -/
example (e : FitEnv) :=
  have h := (regTraining_exists (o := "SGD") (k := .sgd) rfl (r := some ⟨.gradientNormClip, 1 / 10⟩) (show (0 : ℝ) ≤ 1 / 10 by norm_num) e).choose_spec
  have hlr : 0 ≤ (bookSettings "SGD" (-1) (-1) (-1) : Hyper ℝ).lr := by
    rw [show (bookSettings "SGD" (-1) (-1) (-1) : Hyper ℝ).lr = 1 / 100 by simp [bookSettings, givenOr, bookRate]]
    norm_num
  have hp : (0 : ℝ) < 1 / 10 := by norm_num
  And.intro (C127_clip (r := ⟨.gradientNormClip, 1 / 10⟩) (.inr (.inl rfl)) hp h hlr) (C127_norm_clip hp h hlr)

end BeeDNN
