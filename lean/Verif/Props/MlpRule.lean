import Verif.Lemmas.MlpRule
import Verif.Props.MlpFit
import Verif.Props.Settings

/-! # Training with any optimizer is the rule of that optimizer: C122 -/

namespace BeeDNN
open Finset Trainer

theorem FitSetup.nbBatches_pos {w : World} {t : Trainer} {n b : Nat} {m : Mlp} {N D : Nat} {x y : Nat → Row} (h : FitSetup w t n b m N D x y) :
    0 < nbBatches N (adjustBatch t.batchSize N).toNat := by
  obtain ⟨B, q1, q2, q3, -⟩ := C50_adjusted t.batchSize N h.batchSize h.samples
  rw [q1, Int.toNat_natCast]
  exact (nbBatches_lt q2).2 (by have := h.samples; omega)

theorem started_book {s : String} {k : OptKind} (hk : createOptimizer s = some k) (g : Nat → ℝ) (lr decay mom : ℝ) :
    (((Opt.new k).setParams g lr decay mom).init g).kind = k ∧ (((Opt.new k).setParams g lr decay mom).init g).hyper = bookSettings s lr mom decay := by
  obtain ⟨h1, h2, h3⟩ := setParams_book hk g lr decay mom
  obtain ⟨-, c2, c3⟩ := (SetAs.of (p := True) (s := s) (lr := lr) (mom := mom) (decay := decay) ⟨by rw [h1]; exact h2, h3⟩).init g
  refine ⟨by rw [Opt.init_kind]; exact h1, ?_⟩
  rw [c2, c3 trivial]

/-- `fit` is a training; `ok` is what is known of the samples. -/
theorem fit_training {w : World} {t : Trainer} {n b : Nat} {m : Mlp} {N D : Nat} {x y : Nat → Row} (h : FitSetup w t n b m N D x y)
    {k : OptKind} (hk : createOptimizer t.optName = some k) (hre : t.reboostEvery = -1) {eps : ℝ} (heps : 0 < eps) (e : FitEnv)
    {ok : Mlp → Row → Row → Prop} (hok : ∀ (m₁ : Mlp) (v : Row) (j : Nat), Mlp.Like m m₁ → j < N → ok m₁ v (y j) → m₁.Regular eps t.loss v (y j)) :
    ∃ (w' : World) (t' : Trainer) (seen : List (List (Option Layer))) (ms : Nat → Nat → Mlp) (j : Nat),
      fit (fun x => |x|) eps e w t n b = .ok (w', t', seen) ∧
      Mlp.Training ok t.loss k (bookSettings t.optName t.lr t.mom t.decay) N (if t.batchSize = 0 then N else min t.batchSize.toNat N)
        t.epochs.toNat x y m ms ∧
      Represents w' n (ms j 0) ∧ j ≤ t.epochs.toNat ∧ (t.keepBest = false → j = t.epochs.toNat) := by
  obtain ⟨ψ, l1, l2⟩ := lossOk_of_mem eps h.loss (h.net.ok.pos _ (Nat.le_refl m.depth)) D
  obtain ⟨w', t', seen, ms, mems, j, h1, h2, h3, h4, h5, h6, h7, h8⟩ := fit_rule (e := e) h.net h.owned h.slot h.fresh h.inOut h.gradient hk
    h.samples x y h.train h.truth h.valid h.valBatch h.batchSize h.balancing h.patience h.loss l1 hre
  obtain ⟨b1, b2⟩ := started_book hk e.g t.lr t.decay t.mom
  have wf0 : ((Opt.new k : Opt ℝ).setParams e.g t.lr t.decay t.mom).WF :=
    Opt.init_WF e.g (o := { (Opt.new k : Opt ℝ) with lr := t.lr, decay := t.decay, mom := t.mom }) ⟨Mat.WF_empty, Mat.WF_empty, Mat.WF_empty⟩
  rw [h.reg] at h8
  obtain ⟨M, c1, c2⟩ := training_of_rules h.nbBatches_pos h2 h7 (Opt.init_WF e.g wf0) (Opt.init_fresh e.g wf0) h3 h8
    (ok := ok) (loss := t.loss) (fun m₁ N' x' y' lk hsub hreg bb i hi hb => ⟨_, Mlp.grad_error (lk.ok h.net.ok) heps h.loss (ψ := ψ)
      (by rw [lk.depth, lk.width]; exact l2) _ _ _ (D := D) (by rw [lk.depth, lk.width]; exact h.truth.sub fun i hi => (hsub i hi).imp fun j hj => ⟨hj.1, hj.2.2⟩)
      (fun i hi => by
        obtain ⟨j, j1, -, j2⟩ := hsub i hi
        have := hreg i hi
        rw [j2] at this ⊢
        exact hok m₁ _ j lk j1 this) bb hi hb, fun p q => rfl⟩)
  rw [b1, b2, ← adjustBatch_toNat h.batchSize] at c1
  exact ⟨w', t', seen, M, j, h1, c1, by rw [c2 j h4]; exact h6, h4, h5⟩

/-- C122: `fit` of any feed-forward network of the fifteen kinds of layers, with any of the fifteen optimizers and any of the twelve
losses, trains by the rule of the optimizer: at any time in any epoch, every weight and every bias is what the rule
for one number, with the settings of the trainer or the defaults of the optimizer, makes of its first value and the
gradients of the errors of all batches so far (times the rate of its layer, see C95), as long as the samples are regular.
The optimizers are not reset in between (`set_reboost_every_epochs` is off, as by default). -/
theorem C122_fit {w : World} {t : Trainer} {n b : Nat} {m : Mlp} {N D : Nat} {x y : Nat → Row} (h : FitSetup w t n b m N D x y)
    {k : OptKind} (hk : createOptimizer t.optName = some k) (hre : t.reboostEvery = -1) {eps : ℝ} (heps : 0 < eps) (e : FitEnv) :
    ∃ (w' : World) (t' : Trainer) (seen : List (List (Option Layer))) (ms : Nat → Nat → Mlp) (j : Nat),
      fit (fun x => |x|) eps e w t n b = .ok (w', t', seen) ∧
      Mlp.Training (fun m => m.Regular eps t.loss) t.loss k (bookSettings t.optName t.lr t.mom t.decay) N
        (if t.batchSize = 0 then N else min t.batchSize.toNat N) t.epochs.toNat x y m ms ∧
      Represents w' n (ms j 0) ∧ j ≤ t.epochs.toNat ∧ (t.keepBest = false → j = t.epochs.toNat) :=
  fit_training h hk hre heps e fun _ _ _ _ _ h => h

/-- C122: with layers that compute their gradients right, smooth activations and a loss without kink, the rates are 1 and nothing is asked of the samples. -/
theorem C122_smooth {w : World} {t : Trainer} {n b : Nat} {m : Mlp} {N D : Nat} {x y : Nat → Row} (h : FitSetup w t n b m N D x y)
    {k : OptKind} (hk : createOptimizer t.optName = some k) (hre : t.reboostEvery = -1) (hx : m.Exact) (hm : m.Smooth) (hl : t.loss ∈ distanceLosses)
    (hkink : t.loss ∉ kinkAtZero) {eps : ℝ} (heps : 0 < eps) (e : FitEnv) :
    ∃ (w' : World) (t' : Trainer) (seen : List (List (Option Layer))) (ms : Nat → Nat → Mlp) (j : Nat),
      fit (fun x => |x|) eps e w t n b = .ok (w', t', seen) ∧
      Mlp.Training (fun _ _ _ => True) t.loss k (bookSettings t.optName t.lr t.mom t.decay) N
        (if t.batchSize = 0 then N else min t.batchSize.toNat N) t.epochs.toNat x y m ms ∧
      (∀ i j, i < t.epochs.toNat → j < nbBatches N (if t.batchSize = 0 then N else min t.batchSize.toNat N) →
        ∀ N' b l, l < m.depth → (ms i j).rate N' b l = 1) ∧
      Represents w' n (ms j 0) ∧ j ≤ t.epochs.toNat ∧ (t.keepBest = false → j = t.epochs.toNat) := by
  obtain ⟨w', t', seen, ms, j, h1, h2, h3⟩ := fit_training h hk hre heps e (ok := fun _ _ _ => True) (fun m₁ v j lk _ _ => by
    rw [Mlp.Regular, if_neg (by rintro (h | h) <;> rw [h] at hl <;> exact absurd hl (by decide))]
    exact ⟨(hm.like lk).at _, fun h => absurd (by simpa [kinkAtZero] using h) hkink, fun h => by rw [h] at hl; exact absurd hl (by decide)⟩)
  refine ⟨w', t', seen, ms, j, h1, h2, fun i j hi hj N' b l hlt => ?_, h3⟩
  have lk := h2.like i j (.inl ⟨hi, hj.le⟩)
  exact (hx.like lk).rate N' b (by rw [lk.depth]; exact hlt)

/-! ## What the rules mean for the whole training -/

/-- C122: the optimizer `None` leaves the network as it is. -/
theorem C122_none {ok : Mlp → Row → Row → Prop} {loss : String} {h : Hyper ℝ} {N B E : Nat} {x y : Nat → Row} {m : Mlp} {ms : Nat → Nat → Mlp}
    (ht : Mlp.Training ok loss .none h N B E x y m ms) (j : Nat) (hj : j ≤ E) (b : Bool) (l : Nat) (hl : l < m.depth) (hb : (m.ply l).has b = true)
    (p q : Nat) (hp : p < (m.shape b l).1) (hq : q < (m.shape b l).2) : ((ms j 0).ply l).par b p q = (m.ply l).par b p q := by
  obtain ⟨σ, d, -, -, h3⟩ := ht.rule
  rw [h3 j 0 (by omega) b l hl hb p q hp hq]
  generalize j * nbBatches N B + 0 = T
  induction T with
  | zero => rfl
  | succ T ih => exact ih

/-- C122: with `SGD`, the network after any number of epochs differs from the first one by the learning rate times the sum of the gradients. -/
theorem C122_sgd {ok : Mlp → Row → Row → Prop} {loss : String} {h : Hyper ℝ} {N B E : Nat} {x y : Nat → Row} {m : Mlp} {ms : Nat → Nat → Mlp}
    (ht : Mlp.Training ok loss .sgd h N B E x y m ms) : ∃ (σ : Nat → Nat → Nat) (d : Nat → Nat → Bool → Nat → Nat → Nat → ℝ),
    (∀ i, i < E → ((List.range N).map (σ i)).Perm (List.range N)) ∧
    (∀ i j, i < E → j < nbBatches N B → Mlp.IsDrive ok loss (batchEnd N B j - batchStart B j) (fun s => x (σ i (batchStart B j + s)))
      (fun s => y (σ i (batchStart B j + s))) (ms i j) (d i j)) ∧
    ∀ j, j ≤ E → ∀ b l, l < m.depth → (m.ply l).has b = true → ∀ p q, p < (m.shape b l).1 → q < (m.shape b l).2 →
      ((ms j 0).ply l).par b p q = (m.ply l).par b p q - h.lr * ∑ i ∈ range j, ∑ k ∈ range (nbBatches N B), d i k b l p q := by
  obtain ⟨σ, d, h1, h2, h3⟩ := ht.rule
  refine ⟨σ, fun i j => d (i * nbBatches N B + j), h1, h2, fun j hj b l hl hb p q hp hq => ?_⟩
  rw [h3 j 0 (by omega) b l hl hb p q hp hq, Nat.add_zero]
  have e1 : ∀ T, (Coord.run Real.sqrt (fun x => |x|) h .sgd ((m.ply l).par b p q) (fun t => d t b l p q) T).w =
      (m.ply l).par b p q - h.lr * ∑ t ∈ range T, d t b l p q := by
    intro T
    induction T with
    | zero => simp [Coord.run, Coord.fresh]
    | succ T ih =>
      rw [sum_range_succ, Coord.run, Coord.step]
      dsimp only
      rw [ih]
      ring
  rw [e1]
  congr 2
  clear hj
  induction j with
  | zero => simp
  | succ j ih => rw [sum_range_succ, ← ih, Nat.succ_mul, sum_range_add]

/-- C122: with `Step`, no parameter moves further than the learning rate times the number of batches. -/
theorem C122_step {ok : Mlp → Row → Row → Prop} {loss : String} {h : Hyper ℝ} {N B E : Nat} {x y : Nat → Row} {m : Mlp} {ms : Nat → Nat → Mlp}
    (ht : Mlp.Training ok loss .step h N B E x y m ms) (hlr : 0 ≤ h.lr) (j : Nat) (hj : j ≤ E) (b : Bool) (l : Nat) (hl : l < m.depth)
    (hb : (m.ply l).has b = true) (p q : Nat) (hp : p < (m.shape b l).1) (hq : q < (m.shape b l).2) :
    |((ms j 0).ply l).par b p q - (m.ply l).par b p q| ≤ h.lr * (j * nbBatches N B : Nat) := by
  obtain ⟨σ, d, -, -, h3⟩ := ht.rule
  rw [h3 j 0 (by omega) b l hl hb p q hp hq, Nat.add_zero]
  generalize j * nbBatches N B = T
  induction T with
  | zero => simp [Coord.run, Coord.fresh]
  | succ T ih =>
    have hs : |(Coord.run Real.sqrt (fun x => |x|) h .step ((m.ply l).par b p q) (fun t => d t b l p q) (T + 1)).w -
        (Coord.run Real.sqrt (fun x => |x|) h .step ((m.ply l).par b p q) (fun t => d t b l p q) T).w| ≤ h.lr := by
      rw [Coord.run, Coord.step]
      dsimp only
      rw [sub_sub_cancel_left, abs_neg, abs_mul, abs_of_nonneg hlr]
      split <;> simp
    calc |_| ≤ _ + _ := abs_sub_le _ (Coord.run Real.sqrt (fun x => |x|) h .step ((m.ply l).par b p q) (fun t => d t b l p q) T).w _
      _ ≤ h.lr + h.lr * T := add_le_add hs ih
      _ = _ := by push_cast; ring

/-- The perceptron of C91 and any optimizer. -/
theorem anyTrainer_setup (o : String) :
    FitSetup mlpWorld { fitWitness with optName := o } 0 1 mlpWitness 4 1 (fun i j => (i : ℝ) + j) (fun i _ => (i : ℝ)) :=
  { fitWitness_setup with }

example {eps : ℝ} (heps : 0 < eps) (e : FitEnv) := C122_fit (anyTrainer_setup "Adam") (k := .adam) rfl rfl heps e
example {eps : ℝ} (heps : 0 < eps) (e : FitEnv) := C122_smooth (anyTrainer_setup "Nesterov") (k := .nesterov) rfl rfl mlpWitness_exact mlpWitness_smooth
  (by decide) (by decide) heps e

/-- The training that C122_none, C122_sgd and C122_step speak of, for any optimizer. -/
example {o : String} {k : OptKind} (hk : createOptimizer o = some k) (e : FitEnv) : ∃ ms, Mlp.Training (fun _ _ _ => True) "MeanSquaredError" k
    (bookSettings o (-1) (-1) (-1)) 4 3 10 (fun i j => (i : ℝ) + j) (fun i _ => (i : ℝ)) mlpWitness ms := by
  obtain ⟨w', t', seen, ms, j, -, h2, -⟩ := C122_smooth (anyTrainer_setup o) hk rfl mlpWitness_exact mlpWitness_smooth
    (show "MeanSquaredError" ∈ distanceLosses by decide) (show "MeanSquaredError" ∉ kinkAtZero by decide) one_pos e
  exact ⟨ms, h2⟩

end BeeDNN
