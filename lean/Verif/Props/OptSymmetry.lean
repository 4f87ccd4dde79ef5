import Verif.Props.Optimizer
import Verif.Lemmas.OptSymmetry

/-!
# Symmetries of the optimizers (claim C121)

Gradients of `n` steps on an `R × C` weight matrix are `D t i j`; `sq` is the square root, `ab` what `::abs` denotes.
-/

namespace BeeDNN

section
variable {α : Type} [Field α] [LinearOrder α] [IsStrictOrderedRing α] (g : Nat → α) (sq ab : α → α)

/-- C121: Step, RPROP- and iRPROP- look at the signs of the gradients only. -/
theorem C121_signs {o : Opt α} (h : o.WF) (hk : o.kind = .step ∨ o.kind = .rpropm ∨ o.kind = .irpropm) (R C : Nat)
    (w : Nat → Nat → α) (D D' : Nat → Nat → Nat → α)
    (hD : ∀ t i j, i < R → j < C → (D t i j < 0 ↔ D' t i j < 0) ∧ (0 < D t i j ↔ 0 < D' t i j)) (n : Nat) :
    ∃ W, (o.init g).weights g sq ab (Mat.ofFn R C w) (fun t => Mat.ofFn R C (D t)) n = .ok (Mat.ofFn R C W) ∧
      (o.init g).weights g sq ab (Mat.ofFn R C w) (fun t => Mat.ofFn R C (D' t)) n = .ok (Mat.ofFn R C W) := by
  refine ⟨_, C64_rule g sq ab h R C w D n, ?_⟩
  rw [C64_rule g sq ab h R C w D' n]
  refine congrArg Except.ok (Mat.ofFn_congr fun i j hi hj => ?_)
  refine (Coord.run_sign sq ab _ hk (w i j) (fun t => ?_) n).1.symm
  obtain ⟨h1, h2⟩ := hD t i j hi hj
  rcases lt_trichotomy (D t i j) 0 with h' | h' | h'
  · rw [sign_neg h', sign_neg (h1.1 h')]
  · have : D' t i j = 0 := le_antisymm (not_lt.1 fun q => absurd (h2.2 q) (by simp [h'])) (not_lt.1 fun q => absurd (h1.2 q) (by simp [h']))
    rw [h', this]
  · rw [sign_pos h', sign_pos (h2.1 h')]

/-- C121: no optimizer but AdamW has a preferred origin: shifted weights are shifted in the same way after training with
the same gradients. -/
theorem C121_shift {o : Opt α} (h : o.WF) (hk : o.kind ≠ .adamW) (R C : Nat) (w c : Nat → Nat → α)
    (D : Nat → Nat → Nat → α) (n : Nat) :
    ∃ W, (o.init g).weights g sq ab (Mat.ofFn R C w) (fun t => Mat.ofFn R C (D t)) n = .ok (Mat.ofFn R C W) ∧
      (o.init g).weights g sq ab (Mat.ofFn R C (fun i j => w i j + c i j)) (fun t => Mat.ofFn R C (D t)) n =
        .ok (Mat.ofFn R C (fun i j => W i j + c i j)) := by
  refine ⟨_, C64_rule g sq ab h R C w D n, ?_⟩
  rw [C64_rule g sq ab h R C _ D n]
  refine congrArg Except.ok (Mat.ofFn_congr fun i j hi hj => ?_)
  rw [Coord.run_shift sq ab _ hk]

/-- C121, the part that holds: the mirror image of weights and gradients is trained to the mirror image, by every optimizer.
Missing (violated, see `C121_step_violated`): Step with a zero gradient; for Step the claim is shown if
no gradient is zero. -/
theorem C121_mirror_partial {o : Opt α} (h : o.WF) (hab : ∀ x, ab (-x) = ab x) (R C : Nat) (w : Nat → Nat → α)
    (D : Nat → Nat → Nat → α) (hk : o.kind = .step → ∀ t i j, i < R → j < C → D t i j ≠ 0) (n : Nat) :
    ∃ W, (o.init g).weights g sq ab (Mat.ofFn R C w) (fun t => Mat.ofFn R C (D t)) n = .ok (Mat.ofFn R C W) ∧
      (o.init g).weights g sq ab (Mat.ofFn R C (fun i j => -w i j)) (fun t => Mat.ofFn R C (fun i j => -D t i j)) n =
        .ok (Mat.ofFn R C (fun i j => -W i j)) := by
  refine ⟨_, C64_rule g sq ab h R C w D n, ?_⟩
  rw [C64_rule g sq ab h R C _ (fun t i j => -D t i j) n]
  refine congrArg Except.ok (Mat.ofFn_congr fun i j hi hj => ?_)
  exact (Coord.run_neg sq ab hab _ (w i j) (fun t => D t i j) (fun hk' t => hk hk' t i j hi hj) n).1

end

/-- C121, violated by Step: a zero gradient counts as positive, so weight 0 with gradients 0 moves, and its mirror image,
which is itself, does not move to the mirror image. -/
theorem C121_step_violated : ∃ (w D : Nat → Nat → ℚ) (W : Nat → Nat → ℚ),
    ((Opt.new .step).setLearningRate (fun _ => 0) 1).weights (fun _ => 0) id id (Mat.ofFn 1 1 w) (fun _ => Mat.ofFn 1 1 D) 1 =
      .ok (Mat.ofFn 1 1 W) ∧
    ((Opt.new .step).setLearningRate (fun _ => 0) 1).weights (fun _ => 0) id id (Mat.ofFn 1 1 (fun i j => -w i j))
        (fun _ => Mat.ofFn 1 1 (fun i j => -D i j)) 1 ≠ .ok (Mat.ofFn 1 1 (fun i j => -W i j)) := by
  refine ⟨fun _ _ => 0, fun _ _ => 0, fun _ _ => -1, ?_, ?_⟩ <;> decide +kernel

/-- C121: with gradients of at least `1e-6` in size, and decay rates of at most 0.999, the units of the gradient do not
matter to Adagrad, RMSProp, Adam, AdamW, AMSGrad, Nadam and Adamax: gradients multiplied by a common positive factor give
the same weights.  (Over the reals, with the absolute value of real numbers in Adamax.) -/
theorem C121_scale (g : Nat → ℝ) {o : Opt ℝ} (h : o.WF)
    (hk : o.kind = .adagrad ∨ o.kind = .rmsprop ∨ o.kind = .adam ∨ o.kind = .adamW ∨ o.kind = .amsgrad ∨ o.kind = .nadam ∨
      o.kind = .adamax)
    (hb : 0 ≤ o.beta2 ∧ o.beta2 ≤ 0.999)
    (hdec : o.kind = .rmsprop → 0 ≤ (o.init g).decay ∧ (o.init g).decay ≤ 0.999) (R C : Nat) (w : Nat → Nat → ℝ) (D : Nat → Nat → Nat → ℝ) (c : ℝ) (hc : 0 < c)
    (hD : ∀ t i j, i < R → j < C → 1e-6 ≤ |D t i j| ∧ 1e-6 ≤ |c * D t i j|) (n : Nat) :
    ∃ W, (o.init g).weights g Real.sqrt abs (Mat.ofFn R C w) (fun t => Mat.ofFn R C (D t)) n = .ok (Mat.ofFn R C W) ∧
      (o.init g).weights g Real.sqrt abs (Mat.ofFn R C w) (fun t => Mat.ofFn R C (fun i j => c * D t i j)) n =
        .ok (Mat.ofFn R C W) := by
  refine ⟨_, C64_rule g Real.sqrt abs h R C w D n, ?_⟩
  rw [C64_rule g Real.sqrt abs h R C _ (fun t i j => c * D t i j) n]
  refine congrArg Except.ok (Mat.ofFn_congr fun i j hi hj => ?_)
  have hk' : o.kind.normalised := by
    rcases hk with hk | hk | hk | hk | hk | hk | hk <;> rw [hk] <;> trivial
  refine (Coord.run_scale _ hk' ?_ hdec (w i j) c hc (fun t => D t i j) (fun t => (hD t i j hi hj).1)
    (fun t => (hD t i j hi hj).2) n).2.1
  show 0 ≤ (o.init g).beta2 ∧ (o.init g).beta2 ≤ 0.999
  rw [(Opt.init_betas g o).2]
  exact hb

/-- The hypotheses of `C121_scale` can be met: Adam with its defaults, gradients 2 and 3 in turn, or 100 times these. -/
example := C121_scale (fun _ => 0) (o := Opt.new .adam) ⟨rfl, rfl, rfl⟩ (by simp [Opt.new])
  (by simp only [Opt.new]; norm_num) (fun h => nomatch h) 1 2 (fun _ _ => 1) (fun t _ _ => 2 + (t % 2 : Nat)) 100 (by norm_num)
  (fun t _ _ _ _ => by
    have : (0:ℝ) ≤ ((t % 2 : Nat) : ℝ) := Nat.cast_nonneg _
    rw [abs_of_nonneg (by positivity), abs_of_nonneg (by positivity)]
    constructor <;> norm_num <;> linarith) 7

/-- RPROP- with gradients 1, -2, 3 and with gradients 10, -1, 0.5 gives the same weight. -/
example : ((Opt.new .rpropm).init (fun _ => (0:ℚ))).weights (fun _ => 0) id id ⟨1, 1, [1]⟩ (fun t => ⟨1, 1, [[1, -2, 3].getD t 0]⟩) 3 =
    ((Opt.new .rpropm).init (fun _ => (0:ℚ))).weights (fun _ => 0) id id ⟨1, 1, [1]⟩ (fun t => ⟨1, 1, [[10, -1, 1/2].getD t 0]⟩) 3 := by
  decide +kernel

end BeeDNN
