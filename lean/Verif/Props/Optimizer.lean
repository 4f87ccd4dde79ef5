import Verif.Lemmas.OptimizerWF
import Verif.Model.Loss
import Mathlib.Algebra.BigOperators.Intervals
import Mathlib.Algebra.BigOperators.Ring.Finset
import Mathlib.Algebra.Order.Field.Basic
import Mathlib.Algebra.Order.Field.Rat
import Mathlib.Analysis.SpecialFunctions.Sqrt
import Mathlib.Tactic.Linarith
import Mathlib.Tactic.NormNum
import Mathlib.Tactic.Positivity

/-!
# Optimizers (claims C63 to C68, the optimizer part of C62)

Gradients of `n` steps on an `R × C` weight matrix are `D t i j`; `sq` is the square root, `ab` what `::abs` denotes.
-/

namespace BeeDNN

open Finset

variable {α : Type} [Field α] [LinearOrder α] (g : Nat → α) (sq ab : α → α)

/-! ## C64: per coordinate, shapes kept -/

/-- C64: on an initialised optimizer, `n` steps are, in every cell, `n` steps of the published scalar rule
(`Coord.run`) on the gradients of that cell; the shape is kept and nothing faults. -/
theorem C64_rule {o : Opt α} (h : o.WF) (R C : Nat) (w : Nat → Nat → α) (D : Nat → Nat → Nat → α) (n : Nat) :
    (o.init g).weights g sq ab (Mat.ofFn R C w) (fun t => Mat.ofFn R C (D t)) n =
      .ok (Mat.ofFn R C (fun i j => (Coord.run sq ab (o.init g).hyper o.kind (w i j) (fun t => D t i j) n).w)) := by
  obtain ⟨o', h', _⟩ := Opt.run_fresh g sq ab (Opt.init_WF g h) (Opt.init_fresh g h) R C w D n
  unfold Opt.weights
  rw [h', Opt.init_kind]
  rfl

/-- The weight of a cell after `n` steps depends only on the initial weight and the first `n` gradients. -/
theorem Coord.run_congr {sq ab : α → α} {h : Hyper α} {k : OptKind} {w : α} {d d' : Nat → α} :
    ∀ {n : Nat}, (∀ t, t < n → d t = d' t) → 0 < n → Coord.run sq ab h k w d n = Coord.run sq ab h k w d' n := by
  intro n
  induction n with
  | zero => intro _ h0; exact absurd h0 (lt_irrefl _)
  | succ n ih =>
    intro hd _
    have hr : Coord.run sq ab h k w d n = Coord.run sq ab h k w d' n := by
      rcases Nat.eq_zero_or_pos n with h0 | h0
      · subst h0
        simp only [Coord.run, hd 0 (Nat.one_pos)]
      · exact ih (fun t ht => hd t (Nat.lt_succ_of_lt ht)) h0
    simp only [Coord.run, hr, hd n (Nat.lt_succ_self n)]

theorem Coord.fresh_w (k : OptKind) (w d : α) : (Coord.fresh k w d).w = w := by cases k <;> rfl

theorem Coord.run_w_congr {sq ab : α → α} {h : Hyper α} {k : OptKind} {w : α} {d d' : Nat → α} {n : Nat}
    (hd : ∀ t, t < n → d t = d' t) : (Coord.run sq ab h k w d n).w = (Coord.run sq ab h k w d' n).w := by
  rcases Nat.eq_zero_or_pos n with h0 | h0
  · subst h0
    simp only [Coord.run, Coord.fresh_w]
  · rw [Coord.run_congr hd h0]

/-- C64: coordinate `(i,j)` only depends on its own weight and its own gradients, even between matrices of different
shapes. -/
theorem C64_local {o : Opt α} (h : o.WF) {R C R' C' i j i' j' : Nat} (hi : i < R) (hj : j < C) (hi' : i' < R')
    (hj' : j' < C') (w w' : Nat → Nat → α) (D D' : Nat → Nat → Nat → α) (n : Nat) (hw : w i j = w' i' j')
    (hD : ∀ t, t < n → D t i j = D' t i' j') :
    ∃ W W' x, (o.init g).weights g sq ab (Mat.ofFn R C w) (fun t => Mat.ofFn R C (D t)) n = .ok W ∧
      (o.init g).weights g sq ab (Mat.ofFn R' C' w') (fun t => Mat.ofFn R' C' (D' t)) n = .ok W' ∧
      W.rows = R ∧ W.cols = C ∧ W.get i j = .ok x ∧ W'.get i' j' = .ok x := by
  refine ⟨_, _, _, C64_rule g sq ab h R C w D n, C64_rule g sq ab h R' C' w' D' n, rfl, rfl,
    Mat.get_ofFn hi hj, ?_⟩
  rw [Mat.get_ofFn hi' hj', hw, Coord.run_w_congr hD]

/-- C64: a gradient of another shape is rejected by a failed assertion, by every optimizer but `None`. -/
theorem C64_shape_mismatch {o : Opt α} (h : o.WF) (hk : o.kind ≠ .none) {R C R' C' : Nat} (hs : R ≠ R' ∨ C ≠ C')
    (w d : Nat → Nat → α) :
    (o.init g).optimize g sq ab (Mat.ofFn R C w) (Mat.ofFn R' C' d) = .error .assertFail := by
  have hchk : ∀ f : Unit → Unit → Out (Opt α × Mat α),
      (check ((Mat.ofFn R C w).rows = (Mat.ofFn R' C' d).rows) >>= fun a =>
        check ((Mat.ofFn R C w).cols = (Mat.ofFn R' C' d).cols) >>= fun b => f a b) = .error .assertFail := by
    intro f
    by_cases hr : R = R'
    · rw [check_true (show (Mat.ofFn R C w).rows = (Mat.ofFn R' C' d).rows from hr), bind_ok',
        check_false (show ¬ (Mat.ofFn R C w).cols = (Mat.ofFn R' C' d).cols from fun hc =>
          hs.elim (fun h => h hr) (fun h => h hc)), bind_error']
    · rw [check_false (show ¬ (Mat.ofFn R C w).rows = (Mat.ofFn R' C' d).rows from hr), bind_error']
  have hadd : ∀ e : Nat → Nat → α, (Mat.ofFn R C w).add (Mat.ofFn R' C' e) = .error .assertFail := fun e =>
    Mat.cwise2_shape hs
  have hwf := Opt.init_WF g h
  have hfr := Opt.init_fresh g h
  have hkk := Opt.init_kind g o
  rw [← hkk] at hk
  generalize o.init g = o1 at *
  obtain ⟨kind, lr, mom, decay, beta1, beta2, lambda, p1, p2, v, m, vh⟩ := o1
  obtain ⟨wv, wm, wvh⟩ := hwf
  dsimp only at *
  have : Inhabited α := ⟨0⟩
  have hA : ∀ (c : Nat → Nat → α) (e : Nat → Nat → α), (Mat.ofFn R' C' c).assign g (Mat.ofFn R' C' e) =
      .ok (Mat.ofFn R' C' e) := fun c e => Mat.assign_ofFn g (Mat.ofFn_WF _ _ _) R' C' e
  cases kind
  case none => exact absurd rfl hk
  case nadam =>
    have hv := decide_eq_true (hfr.1 rfl)
    dsimp only at hv
    simp only [Opt.optimize, bind_ok', hv, zeroIf_fresh g wv, zeroIf_fresh g wm, Mat.scale_ofFn, Mat.add_ofFn,
      Mat.cwiseAbs2_ofFn, lerpM_ofFn, ratio_ofFn, Mat.divScalar_ofFn', hadd, bind_error']
  case adamax =>
    have hv := decide_eq_true (hfr.1 rfl)
    dsimp only at hv
    simp only [Opt.optimize, bind_ok', hv, zeroIf_fresh g wv, zeroIf_fresh g wm, Mat.scale_ofFn, Mat.cwise_ofFn,
      Mat.cwiseMaxM_ofFn, Mat.cwiseMaxS_ofFn, hA, Mat.cwiseQuotient_ofFn, lerpM_ofFn, hadd, bind_error']
  all_goals exact hchk _

/-! ## C63: the SGD family in closed form -/

/-- C63: `None` does nothing, for any arguments. -/
theorem C63_none {o : Opt α} (hk : o.kind = .none) (w : Mat α) (D : Nat → Mat α) (n : Nat) :
    o.run g sq ab w D n = .ok (o, w) := by
  unfold Opt.run
  exact forN_const fun i _ => by simp [Opt.optimize, hk]

theorem decayed_succ (mom : α) (d : Nat → α) (n : Nat) : decayed mom d (n + 1) = mom * decayed mom d n + d n := by
  unfold decayed
  rw [sum_range_succ, mul_sum]
  congr 1
  · refine sum_congr rfl fun s hs => ?_
    have : n + 1 - 1 - s = (n - 1 - s) + 1 := by have := mem_range.mp hs; omega
    rw [this, pow_succ]; ring
  · simp

/-- C63: after `n` steps SGD has subtracted `lr` times the sum of the gradients. -/
theorem C63_sgd {o : Opt α} (h : o.WF) (hk : o.kind = .sgd) (R C : Nat) (w : Nat → Nat → α)
    (D : Nat → Nat → Nat → α) (n : Nat) :
    (o.init g).weights g sq ab (Mat.ofFn R C w) (fun t => Mat.ofFn R C (D t)) n =
      .ok (Mat.ofFn R C (fun i j => w i j - (o.init g).lr * ∑ t ∈ range n, D t i j)) := by
  rw [C64_rule g sq ab h, hk]
  refine congrArg Except.ok (Mat.ofFn_congr fun i j _ _ => ?_)
  induction n with
  | zero => simp [Coord.run, Coord.fresh]
  | succ n ih =>
    simp only [Coord.run, Coord.step, ih, sum_range_succ]
    simp only [Opt.hyper]
    ring

/-- C63: `Step` moves every weight by `lr` against the sign of its gradient (a zero gradient counts as positive). -/
theorem C63_step {o : Opt α} (h : o.WF) (hk : o.kind = .step) (R C : Nat) (w : Nat → Nat → α)
    (D : Nat → Nat → Nat → α) (n : Nat) :
    (o.init g).weights g sq ab (Mat.ofFn R C w) (fun t => Mat.ofFn R C (D t)) n =
      .ok (Mat.ofFn R C (fun i j => w i j - (o.init g).lr * ∑ t ∈ range n, if D t i j < 0 then -1 else 1)) := by
  rw [C64_rule g sq ab h, hk]
  refine congrArg Except.ok (Mat.ofFn_congr fun i j _ _ => ?_)
  induction n with
  | zero => simp [Coord.run, Coord.fresh]
  | succ n ih =>
    simp only [Coord.run, Coord.step, ih, sum_range_succ]
    simp only [Opt.hyper]
    ring

/-- C63: Momentum subtracts, at every step, `lr` times the decayed sum of the gradients so far. -/
theorem C63_momentum {o : Opt α} (h : o.WF) (hk : o.kind = .momentum) (R C : Nat) (w : Nat → Nat → α)
    (D : Nat → Nat → Nat → α) (n : Nat) :
    (o.init g).weights g sq ab (Mat.ofFn R C w) (fun t => Mat.ofFn R C (D t)) n =
      .ok (Mat.ofFn R C (fun i j =>
        w i j - (o.init g).lr * ∑ t ∈ range n, decayed (o.init g).mom (fun t => D t i j) (t + 1))) := by
  rw [C64_rule g sq ab h, hk]
  refine congrArg Except.ok (Mat.ofFn_congr fun i j _ _ => ?_)
  have hv : ∀ n, (Coord.run sq ab (o.init g).hyper .momentum (w i j) (fun t => D t i j) n).v =
      (o.init g).lr * decayed (o.init g).mom (fun t => D t i j) n := by
    intro n
    induction n with
    | zero => simp [Coord.run, Coord.fresh, decayed]
    | succ n ih => simp only [Coord.run, Coord.step, ih, decayed_succ]; simp only [Opt.hyper]; ring
  induction n with
  | zero => simp [Coord.run, Coord.fresh]
  | succ n ih =>
    have h1 := hv (n + 1)
    rw [sum_range_succ, mul_add, ← h1]
    simp only [Coord.run, Coord.step] at ih ⊢
    rw [ih]
    ring

/-- C63: Nesterov.  With the velocity `V t = -lr * (decayed sum of the first t gradients)` the position
`X n = w + V 1 + … + V n` is that of classical momentum, and the weights hold the look-ahead point `X n + mom * V n`,
at which the next gradient is taken. -/
theorem C63_nesterov {o : Opt α} (h : o.WF) (hk : o.kind = .nesterov) (R C : Nat) (w : Nat → Nat → α)
    (D : Nat → Nat → Nat → α) (n : Nat) :
    (o.init g).weights g sq ab (Mat.ofFn R C w) (fun t => Mat.ofFn R C (D t)) n =
      .ok (Mat.ofFn R C (fun i j =>
        let V := fun t => -(o.init g).lr * decayed (o.init g).mom (fun t => D t i j) t
        (w i j + ∑ t ∈ range n, V (t + 1)) + (o.init g).mom * V n)) := by
  rw [C64_rule g sq ab h, hk]
  refine congrArg Except.ok (Mat.ofFn_congr fun i j _ _ => ?_)
  dsimp only
  have hv : ∀ n, (Coord.run sq ab (o.init g).hyper .nesterov (w i j) (fun t => D t i j) n).v =
      -(o.init g).lr * decayed (o.init g).mom (fun t => D t i j) n := by
    intro n
    induction n with
    | zero => simp [Coord.run, Coord.fresh, decayed]
    | succ n ih => simp only [Coord.run, Coord.step, ih, decayed_succ]; simp only [Opt.hyper]; ring
  induction n with
  | zero => simp [Coord.run, Coord.fresh, decayed]
  | succ n ih =>
    have h1 := hv (n + 1)
    have h0 := hv n
    rw [sum_range_succ, ← h1]
    rw [← h0] at ih
    simp only [Coord.run, Coord.step] at ih ⊢
    rw [ih]
    simp only [Opt.hyper]
    ring

/-- C63: MomentumNg subtracts, at every step, `lr` times the exponential moving average
`mom^t d 0 + (1-mom) (decayed sum of the first t gradients)`. -/
theorem C63_momentumNg {o : Opt α} (h : o.WF) (hk : o.kind = .momentumNg) (R C : Nat) (w : Nat → Nat → α)
    (D : Nat → Nat → Nat → α) (n : Nat) :
    (o.init g).weights g sq ab (Mat.ofFn R C w) (fun t => Mat.ofFn R C (D t)) n =
      .ok (Mat.ofFn R C (fun i j =>
        w i j - (o.init g).lr * ∑ t ∈ range n, ((o.init g).mom ^ (t + 1) * D 0 i j +
          (1 - (o.init g).mom) * decayed (o.init g).mom (fun t => D t i j) (t + 1)))) := by
  rw [C64_rule g sq ab h, hk]
  refine congrArg Except.ok (Mat.ofFn_congr fun i j _ _ => ?_)
  have hv : ∀ n, (Coord.run sq ab (o.init g).hyper .momentumNg (w i j) (fun t => D t i j) n).v =
      (o.init g).mom ^ n * D 0 i j + (1 - (o.init g).mom) * decayed (o.init g).mom (fun t => D t i j) n := by
    intro n
    induction n with
    | zero => simp [Coord.run, Coord.fresh, decayed]
    | succ n ih => simp only [Coord.run, Coord.step, ih, decayed_succ]; simp only [Opt.hyper]; ring
  induction n with
  | zero => simp [Coord.run, Coord.fresh]
  | succ n ih =>
    have h1 := hv (n + 1)
    rw [sum_range_succ, mul_add, ← h1]
    simp only [Coord.run, Coord.step] at ih ⊢
    rw [ih]
    simp only [Opt.hyper]
    ring

/-- C63: the weights of the moving average of MomentumNg add up to one: equal gradients give plain gradient steps. -/
theorem C63_momentumNg_average (mom d : α) (n : Nat) :
    mom ^ n * d + (1 - mom) * decayed mom (fun _ => d) n = d := by
  induction n with
  | zero => simp [decayed]
  | succ n ih => rw [decayed_succ, pow_succ]; linear_combination mom * ih

/-- Two SGD steps with learning rate 1/2 on a 1 × 2 matrix. -/
example : ((Opt.new .sgd).setLearningRate (fun _ => (0:ℚ)) (1 / 2)).weights (fun _ => 0) id id ⟨1, 2, [1, 2]⟩
    (fun t => ⟨1, 2, [t, 4]⟩) 2 = .ok ⟨1, 2, [1 / 2, -2]⟩ := by decide +kernel

/-- Two Momentum steps, learning rate 1, momentum 1/2. -/
example : ((Opt.new .momentum).setParams (fun _ => (0:ℚ)) 1 (-1) (1 / 2)).weights (fun _ => 0) id id ⟨1, 1, [0]⟩
    (fun _ => ⟨1, 1, [4]⟩) 2 = .ok ⟨1, 1, [-10]⟩ := by decide +kernel

/-- Two Nesterov steps, learning rate 1, momentum 1/2. -/
example : ((Opt.new .nesterov).setParams (fun _ => (0:ℚ)) 1 (-1) (1 / 2)).weights (fun _ => 0) id id ⟨1, 1, [0]⟩
    (fun _ => ⟨1, 1, [4]⟩) 2 = .ok ⟨1, 1, [-13]⟩ := by decide +kernel

/-! ## C65: zero gradients -/

/-- The memory of an optimizer that has only seen zero gradients. -/
theorem Coord.run_zero (h : Hyper α) {k : OptKind} (hk : k ≠ .step) (hk' : k ≠ .adamW) (w : α) (n : Nat) :
    (Coord.run sq ab h k w (fun _ => 0) n).w = w ∧
      (k ≠ .rpropm → k ≠ .irpropm → k ≠ .adamax → (Coord.run sq ab h k w (fun _ => 0) n).v = 0) ∧
      (Coord.run sq ab h k w (fun _ => 0) n).m = 0 := by
  induction n with
  | zero => cases k <;> simp [Coord.run, Coord.fresh]
  | succ n ih =>
    obtain ⟨h1, h2, h3⟩ := ih
    cases k <;> simp_all [Coord.run, Coord.step, againstSign]

/-- C65 (partial): from an initialised optimizer any number of zero-gradient steps leaves the weights unchanged, for
every optimizer but `Step` and `AdamW`.  Missing: those two, for which the claim is false
(`C65_step_violated`, `C65_adamW_violated`). -/
theorem C65_partial {o : Opt α} (h : o.WF) (hk : o.kind ≠ .step) (hk' : o.kind ≠ .adamW) (R C : Nat)
    (w : Nat → Nat → α) (n : Nat) :
    (o.init g).weights g sq ab (Mat.ofFn R C w) (fun _ => Mat.ofFn R C (fun _ _ => 0)) n = .ok (Mat.ofFn R C w) := by
  rw [C64_rule g sq ab h R C w (fun _ _ _ => 0) n]
  exact congrArg Except.ok (Mat.ofFn_congr fun i j _ _ => (Coord.run_zero sq ab _ hk hk' _ n).1)

/-- C65 is false for `Step`: `copysign(1, 0) = 1`, so zero gradients move every weight by `-lr` per step. -/
theorem C65_step_violated {o : Opt α} (h : o.WF) (hk : o.kind = .step) (R C : Nat) (w : Nat → Nat → α) (n : Nat) :
    (o.init g).weights g sq ab (Mat.ofFn R C w) (fun _ => Mat.ofFn R C (fun _ _ => 0)) n =
      .ok (Mat.ofFn R C (fun i j => w i j - n * (o.init g).lr)) := by
  rw [C63_step g sq ab h hk R C w (fun _ _ _ => 0) n]
  refine congrArg Except.ok (Mat.ofFn_congr fun i j _ _ => ?_)
  simp [mul_comm]

/-- C65 is false for `AdamW`: its weight decay is applied whatever the gradient (and is not multiplied by the learning
rate). -/
theorem C65_adamW_violated {o : Opt α} (h : o.WF) (hk : o.kind = .adamW) (R C : Nat) (w : Nat → Nat → α) (n : Nat) :
    (o.init g).weights g sq ab (Mat.ofFn R C w) (fun _ => Mat.ofFn R C (fun _ _ => 0)) n =
      .ok (Mat.ofFn R C (fun i j => w i j * (1 - (o.init g).lambda) ^ n)) := by
  rw [C64_rule g sq ab h R C w (fun _ _ _ => 0) n, hk]
  refine congrArg Except.ok (Mat.ofFn_congr fun i j _ _ => ?_)
  have : ∀ n, (Coord.run sq ab (o.init g).hyper .adamW (w i j) (fun _ => 0) n).m = 0 ∧
      (Coord.run sq ab (o.init g).hyper .adamW (w i j) (fun _ => 0) n).w =
        w i j * (1 - (o.init g).lambda) ^ n := by
    intro n
    induction n with
    | zero => simp [Coord.run, Coord.fresh]
    | succ n ih =>
      simp only [Coord.run, Coord.step, ih.1, ih.2]
      refine ⟨by ring, ?_⟩
      simp only [Opt.hyper]
      ring
  exact (this n).2

example : ((Opt.new .adam).setLearningRate (fun _ => (0:ℚ)) (1 / 2)).weights (fun _ => 0) id id ⟨1, 2, [1, 2]⟩
    (fun _ => ⟨1, 2, [0, 0]⟩) 3 = .ok ⟨1, 2, [1, 2]⟩ := by decide +kernel

/-! ## C66: RPROP -/

theorem rpropSize_bounds [IsStrictOrderedRing α] {mu : α} (h1 : 1e-6 ≤ mu) (h2 : mu ≤ 50) (d old : α) :
    1e-6 ≤ rpropSize mu d old ∧ rpropSize mu d old ≤ 50 := by
  unfold rpropSize
  split
  · refine ⟨le_max_right _ _, max_le ?_ ?_⟩
    · have : mu * 0.5 ≤ 50 * 0.5 := mul_le_mul_of_nonneg_right h2 (by norm_num)
      exact this.trans (by norm_num)
    · norm_num
  · split
    · refine ⟨le_min ?_ (by norm_num), min_le_right _ _⟩
      have : (1e-6 : α) * 1.2 ≤ mu * 1.2 := mul_le_mul_of_nonneg_right h1 (by norm_num)
      exact le_trans (by norm_num) this
    · exact ⟨h1, h2⟩

theorem Coord.rprop_bounds [IsStrictOrderedRing α] (h : Hyper α) {k : OptKind} (hk : k = .rpropm ∨ k = .irpropm)
    (w : α) (d : Nat → α) (n : Nat) :
    1e-6 ≤ (Coord.run sq ab h k w d n).v ∧ (Coord.run sq ab h k w d n).v ≤ 50 := by
  induction n with
  | zero => rcases hk with rfl | rfl <;> simp only [Coord.run, Coord.fresh] <;> constructor <;> norm_num
  | succ n ih =>
    rcases hk with rfl | rfl <;> simp only [Coord.run, Coord.step] <;> exact rpropSize_bounds ih.1 ih.2 _ _

/-- C66: after any number of steps the step sizes `_mu` of RPROP- and iRPROP- are in `[1e-6, 50]`. -/
theorem C66_bounds [IsStrictOrderedRing α] {o : Opt α} (h : o.WF) (hk : o.kind = .rpropm ∨ o.kind = .irpropm)
    (R C : Nat) (w : Nat → Nat → α) (D : Nat → Nat → Nat → α) (n : Nat) (hn : 0 < n) :
    ∃ o' W mu, (o.init g).run g sq ab (Mat.ofFn R C w) (fun t => Mat.ofFn R C (D t)) n = .ok (o', Mat.ofFn R C W) ∧
      o'.v = Mat.ofFn R C mu ∧ ∀ i j, 1e-6 ≤ mu i j ∧ mu i j ≤ 50 := by
  obtain ⟨o', h', _, hk', _, ht⟩ := Opt.run_fresh g sq ab (Opt.init_WF g h) (Opt.init_fresh g h) R C w D n
  rw [Opt.init_kind] at hk' h' ht
  have hu : o'.kind.usesV := by rw [hk']; rcases hk with hk | hk <;> rw [hk] <;> rfl
  exact ⟨o', _, _, h', (ht hn).1 hu, fun i j => Coord.rprop_bounds sq ab _ hk _ _ n⟩

/-- C66: one further step moves a weight by at most 50, and never in the direction of the gradient; RPROP- moves it by
at least 1e-6 against the gradient unless the gradient is zero. -/
theorem C66_moves [IsStrictOrderedRing α] {o : Opt α} (h : o.WF) (hk : o.kind = .rpropm ∨ o.kind = .irpropm)
    (R C : Nat) (w : Nat → Nat → α) (D : Nat → Nat → Nat → α) (n : Nat) :
    ∃ W W', (o.init g).weights g sq ab (Mat.ofFn R C w) (fun t => Mat.ofFn R C (D t)) n = .ok (Mat.ofFn R C W) ∧
      (o.init g).weights g sq ab (Mat.ofFn R C w) (fun t => Mat.ofFn R C (D t)) (n + 1) = .ok (Mat.ofFn R C W') ∧
      ∀ i j, |W' i j - W i j| ≤ 50 ∧ (0 < D n i j → W' i j ≤ W i j) ∧ (D n i j < 0 → W i j ≤ W' i j) ∧
        (D n i j = 0 → W' i j = W i j) ∧
        (o.kind = .rpropm → D n i j ≠ 0 → 1e-6 ≤ |W' i j - W i j| ∧ (W' i j - W i j) * D n i j < 0) := by
  refine ⟨_, _, C64_rule g sq ab h R C w D n, C64_rule g sq ab h R C w D (n + 1), fun i j => ?_⟩
  obtain ⟨b1, b2⟩ := Coord.rprop_bounds sq ab (o.init g).hyper hk (w i j) (fun t => D t i j) (n + 1)
  have hpos : (0:α) < 1e-6 := by norm_num
  have p0 := lt_of_lt_of_le hpos b1
  rcases hk with hk | hk
  · rw [hk] at b1 b2 p0 ⊢
    simp only [Coord.run, Coord.step] at b1 b2 p0 ⊢
    generalize (rpropSize _ _ _ : α) = mu at *
    unfold againstSign
    rcases lt_trichotomy (D n i j) 0 with hd | hd | hd
    · rw [if_neg (not_lt.mpr hd.le), if_pos hd, add_sub_cancel_left, abs_of_pos p0]
      exact ⟨b2, fun h => absurd h (not_lt.mpr hd.le), fun _ => by linarith, fun h => absurd h hd.ne,
        fun _ _ => ⟨b1, mul_neg_of_pos_of_neg p0 hd⟩⟩
    · rw [if_neg (by rw [hd]; exact lt_irrefl _), if_neg (by rw [hd]; exact lt_irrefl _), sub_self, abs_zero]
      exact ⟨by norm_num, fun _ => le_rfl, fun _ => le_rfl, fun _ => rfl, fun _ h => absurd hd h⟩
    · rw [if_pos hd, sub_sub_cancel_left, abs_neg, abs_of_pos p0]
      exact ⟨b2, fun _ => by linarith, fun h => absurd h (not_lt.mpr hd.le), fun h => absurd h hd.ne',
        fun _ _ => ⟨b1, mul_neg_of_neg_of_pos (neg_neg_of_pos p0) hd⟩⟩
  · rw [hk] at b1 b2 p0 ⊢
    simp only [Coord.run, Coord.step] at b1 b2 p0 ⊢
    generalize (rpropSize _ _ _ : α) = mu at *
    refine ⟨?_, ?_, ?_, ?_, fun h => absurd h (by decide)⟩ <;> unfold againstSign <;> split_ifs <;>
      first
      | (rw [sub_self, abs_zero]; norm_num)
      | (rw [add_sub_cancel_left, abs_of_pos p0]; exact b2)
      | (rw [sub_sub_cancel_left, abs_neg, abs_of_pos p0]; exact b2)
      | (intro hd; first | linarith | rfl)
      | (intro hd; exfalso; simp_all)

example : ((Opt.new .rpropm).init (fun _ => (0:ℚ))).weights (fun _ => 0) id id ⟨1, 3, [1, 1, 1]⟩
    (fun t => ⟨1, 3, [if t = 0 then 5 else -5, 3, 0]⟩) 2 =
      .ok ⟨1, 3, [1 - 15 / 1000 + 75 / 10000, 1 - 15 / 1000 - 18 / 1000, 1]⟩ := by decide +kernel

/-! ## C62 (optimizers) -/

theorem createOptimizer_isSome (s : String) : (createOptimizer s).isSome ↔ s ∈ optimizerNames := by
  unfold createOptimizer optimizerNames
  simp only [List.mem_cons, List.not_mem_nil, or_false]
  constructor
  · intro h
    by_contra hn
    simp only [not_or] at hn
    obtain ⟨h1, h2, h3, h4, h5, h6, h7, h8, h9, h10, h11, h12, h13, h14, h15⟩ := hn
    simp [h1, h2, h3, h4, h5, h6, h7, h8, h9, h10, h11, h12, h13, h14, h15] at h
  · rintro (rfl | rfl | rfl | rfl | rfl | rfl | rfl | rfl | rfl | rfl | rfl | rfl | rfl | rfl | rfl) <;> rfl

/-- C62, optimizers: a string creates an optimizer iff it is listed (otherwise a null pointer is returned); the created
optimizer has that name; every class is reached; the listed names are pairwise distinct. -/
theorem C62_optimizer :
    (∀ s, (createOptimizer s).isSome ↔ s ∈ optimizerNames) ∧
    (∀ s k, createOptimizer s = some k → k.name = s) ∧ (∀ k : OptKind, createOptimizer k.name = some k) ∧
    optimizerNames.Nodup := by
  refine ⟨createOptimizer_isSome, ?_, fun k => by cases k <;> rfl, by decide⟩
  intro s k h
  have hs : s ∈ optimizerNames := (createOptimizer_isSome s).mp (by rw [h]; rfl)
  simp only [optimizerNames, List.mem_cons, List.not_mem_nil, or_false] at hs
  rcases hs with rfl | rfl | rfl | rfl | rfl | rfl | rfl | rfl | rfl | rfl | rfl | rfl | rfl | rfl | rfl <;>
    · cases h; rfl

/-! ## C67: adaptive optimizers -/

theorem Opt.init_betas (o : Opt α) : (o.init g).beta1 = o.beta1 ∧ (o.init g).beta2 = o.beta2 := by
  unfold Opt.init
  cases hk : o.kind <;> exact ⟨rfl, rfl⟩

/-- The optimizers with a second moment. -/
def OptKind.hasSecondMoment (k : OptKind) : Prop :=
  k = .adagrad ∨ k = .rmsprop ∨ k = .adam ∨ k = .adamW ∨ k = .amsgrad ∨ k = .nadam

theorem Coord.second_nonneg [IsStrictOrderedRing α] (h : Hyper α) {k : OptKind} (hk : k.hasSecondMoment)
    (h2 : 0 ≤ h.b2 ∧ h.b2 ≤ 1) (hd : k = .rmsprop → 0 ≤ h.decay ∧ h.decay ≤ 1) (w : α) (d : Nat → α) (n : Nat) :
    0 ≤ (Coord.run sq ab h k w d n).v ∧ 0 ≤ (Coord.run sq ab h k w d n).vh := by
  induction n with
  | zero => rcases hk with rfl | rfl | rfl | rfl | rfl | rfl <;> exact ⟨le_rfl, le_rfl⟩
  | succ n ih =>
    obtain ⟨i1, i2⟩ := ih
    have key : 0 ≤ h.b2 * (Coord.run sq ab h k w d n).v + (1 - h.b2) * d n ^ 2 :=
      add_nonneg (mul_nonneg h2.1 i1) (mul_nonneg (sub_nonneg.mpr h2.2) (sq_nonneg _))
    rcases hk with rfl | rfl | rfl | rfl | rfl | rfl <;> simp only [Coord.run, Coord.step]
    · exact ⟨add_nonneg i1 (sq_nonneg _), i2⟩
    · have := hd rfl
      exact ⟨add_nonneg (mul_nonneg this.1 i1) (mul_nonneg (sub_nonneg.mpr this.2) (sq_nonneg _)), i2⟩
    · exact ⟨key, i2⟩
    · exact ⟨key, i2⟩
    · exact ⟨key, key.trans (le_max_left _ _)⟩
    · exact ⟨key, i2⟩

/-- C67: the second moments (and Amsgrad's maximum of them) are never negative, and the bias correction
`1 - beta2^n` that divides them in Adam and AdamW is positive; so every square root is taken of a number ≥ 0.
`beta2` is set by the constructor to 0.999, `decay` is a setting of RMSProp. -/
theorem C67_second_moments [IsStrictOrderedRing α] {o : Opt α} (h : o.WF) (hk : o.kind.hasSecondMoment)
    (h2 : 0 ≤ o.beta2 ∧ o.beta2 < 1) (hd : o.kind = .rmsprop → 0 ≤ (o.init g).decay ∧ (o.init g).decay ≤ 1)
    (R C : Nat) (w : Nat → Nat → α) (D : Nat → Nat → Nat → α) (n : Nat) (hn : 0 < n) :
    ∃ o' W V, (o.init g).run g sq ab (Mat.ofFn R C w) (fun t => Mat.ofFn R C (D t)) n = .ok (o', Mat.ofFn R C W) ∧
      o'.v = Mat.ofFn R C V ∧ (∀ i j, 0 ≤ V i j) ∧ 0 < 1 - o.beta2 ^ n ∧
      (o.kind = .amsgrad → ∃ Vh, o'.vh = Mat.ofFn R C Vh ∧ ∀ i j, 0 ≤ Vh i j ∧ V i j ≤ Vh i j) := by
  obtain ⟨o', h', _, hk', _, ht⟩ := Opt.run_fresh g sq ab (Opt.init_WF g h) (Opt.init_fresh g h) R C w D n
  rw [Opt.init_kind] at hk' h' ht
  have hb : 0 ≤ (o.init g).hyper.b2 ∧ (o.init g).hyper.b2 ≤ 1 := by
    show 0 ≤ (o.init g).beta2 ∧ (o.init g).beta2 ≤ 1
    rw [(Opt.init_betas g o).2]
    exact ⟨h2.1, h2.2.le⟩
  have hu : o'.kind.usesV := by rw [hk']; rcases hk with hk | hk | hk | hk | hk | hk <;> rw [hk] <;> rfl
  have hnn := fun i j => Coord.second_nonneg sq ab (o.init g).hyper hk hb hd (w i j) (fun t => D t i j) n
  refine ⟨o', _, _, h', (ht hn).1 hu, fun i j => (hnn i j).1, ?_, fun ha => ⟨_, (ht hn).2.2.1 ?_, fun i j =>
    ⟨(hnn i j).2, ?_⟩⟩⟩
  · exact sub_pos.mpr (pow_lt_one₀ h2.1 h2.2 hn.ne')
  · rw [hk', ha]; rfl
  · obtain ⟨m, rfl⟩ : ∃ m, n = m + 1 := ⟨n - 1, by omega⟩
    rw [ha]
    simp only [Coord.run, Coord.step]
    exact le_max_left _ _

/-- C67: Adagrad's sums of squares never decrease. -/
theorem C67_adagrad_monotone [IsStrictOrderedRing α] {o : Opt α} (h : o.WF) (hk : o.kind = .adagrad)
    (R C : Nat) (w : Nat → Nat → α) (D : Nat → Nat → Nat → α) (n : Nat) (hn : 0 < n) :
    ∃ o₁ o₂ W₁ W₂ V₁ V₂,
      (o.init g).run g sq ab (Mat.ofFn R C w) (fun t => Mat.ofFn R C (D t)) n = .ok (o₁, Mat.ofFn R C W₁) ∧
      (o.init g).run g sq ab (Mat.ofFn R C w) (fun t => Mat.ofFn R C (D t)) (n + 1) = .ok (o₂, Mat.ofFn R C W₂) ∧
      o₁.v = Mat.ofFn R C V₁ ∧ o₂.v = Mat.ofFn R C V₂ ∧ ∀ i j, V₁ i j ≤ V₂ i j := by
  obtain ⟨o₁, h₁, _, hk₁, _, ht₁⟩ := Opt.run_fresh g sq ab (Opt.init_WF g h) (Opt.init_fresh g h) R C w D n
  obtain ⟨o₂, h₂, _, hk₂, _, ht₂⟩ := Opt.run_fresh g sq ab (Opt.init_WF g h) (Opt.init_fresh g h) R C w D (n + 1)
  rw [Opt.init_kind] at hk₁ h₁ ht₁ hk₂ h₂ ht₂
  refine ⟨o₁, o₂, _, _, _, _, h₁, h₂, (ht₁ hn).1 (by rw [hk₁, hk]; rfl),
    (ht₂ (Nat.succ_pos n)).1 (by rw [hk₂, hk]; rfl), fun i j => ?_⟩
  rw [hk]
  simp only [Coord.run, Coord.step]
  exact le_add_of_nonneg_right (sq_nonneg _)

/-- C67: Amsgrad's second moments never decrease. -/
theorem C67_amsgrad_monotone [IsStrictOrderedRing α] {o : Opt α} (h : o.WF) (hk : o.kind = .amsgrad)
    (R C : Nat) (w : Nat → Nat → α) (D : Nat → Nat → Nat → α) (n : Nat) (hn : 0 < n) :
    ∃ o₁ o₂ W₁ W₂ V₁ V₂,
      (o.init g).run g sq ab (Mat.ofFn R C w) (fun t => Mat.ofFn R C (D t)) n = .ok (o₁, Mat.ofFn R C W₁) ∧
      (o.init g).run g sq ab (Mat.ofFn R C w) (fun t => Mat.ofFn R C (D t)) (n + 1) = .ok (o₂, Mat.ofFn R C W₂) ∧
      o₁.vh = Mat.ofFn R C V₁ ∧ o₂.vh = Mat.ofFn R C V₂ ∧ ∀ i j, V₁ i j ≤ V₂ i j := by
  obtain ⟨o₁, h₁, _, hk₁, _, ht₁⟩ := Opt.run_fresh g sq ab (Opt.init_WF g h) (Opt.init_fresh g h) R C w D n
  obtain ⟨o₂, h₂, _, hk₂, _, ht₂⟩ := Opt.run_fresh g sq ab (Opt.init_WF g h) (Opt.init_fresh g h) R C w D (n + 1)
  rw [Opt.init_kind] at hk₁ h₁ ht₁ hk₂ h₂ ht₂
  refine ⟨o₁, o₂, _, _, _, _, h₁, h₂, (ht₁ hn).2.2.1 (by rw [hk₁, hk]; rfl),
    (ht₂ (Nat.succ_pos n)).2.2.1 (by rw [hk₂, hk]; rfl), fun i j => ?_⟩
  rw [hk]
  simp only [Coord.run, Coord.step]
  exact le_max_right _ _

/-- C67: with the true absolute value, Adamax's infinity norm is at least the absolute value of the last gradient, and
at least `beta2` times its old value. -/
theorem C67_adamax [IsStrictOrderedRing α] {o : Opt α} (h : o.WF) (hk : o.kind = .adamax) (R C : Nat)
    (w : Nat → Nat → α) (D : Nat → Nat → Nat → α) (n : Nat) :
    ∃ o' W U, (o.init g).run g sq abs (Mat.ofFn R C w) (fun t => Mat.ofFn R C (D t)) (n + 1) =
        .ok (o', Mat.ofFn R C W) ∧ o'.v = Mat.ofFn R C U ∧ ∀ i j, |D n i j| ≤ U i j := by
  obtain ⟨o', h', _, hk', _, ht⟩ := Opt.run_fresh g sq abs (Opt.init_WF g h) (Opt.init_fresh g h) R C w D (n + 1)
  rw [Opt.init_kind] at hk' h' ht
  refine ⟨o', _, _, h', (ht (Nat.succ_pos n)).1 (by rw [hk', hk]; rfl), fun i j => ?_⟩
  rw [hk]
  simp only [Coord.run, Coord.step]
  exact le_max_right _ _

/-- C67 fails for Adamax where `::abs` is the C function `int abs(int)`: a gradient of 1/2 leaves the norm at 0. -/
theorem C67_adamax_intabs_violated (g : Nat → ℝ) (sq : ℝ → ℝ) :
    ∃ o' W, ((Opt.new .adamax : Opt ℝ).init g).run g sq intAbs (Mat.ofFn 1 1 (fun _ _ => 0))
      (fun _ => Mat.ofFn 1 1 (fun _ _ => 1 / 2)) 1 = .ok (o', W) ∧ o'.v = Mat.ofFn 1 1 (fun _ _ => 0) := by
  have hw : (Opt.new .adamax : Opt ℝ).WF := ⟨rfl, rfl, rfl⟩
  obtain ⟨o', h', _, hk', _, ht⟩ := Opt.run_fresh g sq intAbs (Opt.init_WF g hw) (Opt.init_fresh g hw) 1 1
    (fun _ _ => 0) (fun _ _ _ => 1 / 2) 1
  rw [Opt.init_kind] at hk'
  refine ⟨o', _, h', ?_⟩
  rw [(ht Nat.one_pos).1 (by rw [hk']; rfl)]
  refine Mat.ofFn_congr fun i j _ _ => ?_
  rw [Opt.init_kind]
  have : intAbs (1 / 2) = 0 := by
    unfold intAbs
    rw [if_pos (by norm_num)]
    norm_num
  simp [Opt.new, Coord.run, Coord.step, Coord.fresh]
  rw [one_div] at this
  exact this.le

/-- C67: the first Adam step moves no weight by more than the learning rate. -/
theorem C67_adam_first_step (g : Nat → ℝ) (ab : ℝ → ℝ) {o : Opt ℝ} (h : o.WF) (hk : o.kind = .adam)
    (h1 : 0 ≤ o.beta1 ∧ o.beta1 < 1) (h2 : 0 ≤ o.beta2 ∧ o.beta2 < 1) (hlr : 0 ≤ (o.init g).lr) (R C : Nat)
    (w D : Nat → Nat → ℝ) :
    ∃ W, (o.init g).weights g Real.sqrt ab (Mat.ofFn R C w) (fun _ => Mat.ofFn R C D) 1 = .ok (Mat.ofFn R C W) ∧
      ∀ i j, |W i j - w i j| ≤ (o.init g).lr := by
  refine ⟨_, C64_rule g Real.sqrt ab h R C w (fun _ => D) 1, fun i j => ?_⟩
  have hb := Opt.init_betas g o
  rw [hk]
  simp only [Coord.run, Coord.step, Coord.fresh, mul_zero, zero_add, pow_one]
  rw [show (o.init g).hyper.b1 = o.beta1 from hb.1, show (o.init g).hyper.b2 = o.beta2 from hb.2,
    show (o.init g).hyper.lr = (o.init g).lr from rfl]
  have e1 : (1 - o.beta1) ≠ 0 := by linarith [h1.2]
  have e2 : (1 - o.beta2) ≠ 0 := by linarith [h2.2]
  rw [mul_div_cancel_left₀ _ e1, mul_div_cancel_left₀ _ e2, Real.sqrt_sq_eq_abs, sub_sub_cancel_left, abs_neg,
    abs_div, abs_mul, abs_of_nonneg hlr]
  have hpos : (0:ℝ) < max |D i j| 1e-8 := lt_of_lt_of_le (by norm_num) (le_max_right _ _)
  rw [abs_of_pos hpos, div_le_iff₀ hpos]
  exact mul_le_mul_of_nonneg_left (le_max_left _ _) hlr

/-- First and second moment of Adam. -/
theorem Coord.adam_moments (sq ab : ℝ → ℝ) (h : Hyper ℝ) (h1 : h.b1 = 0.9) (h2 : h.b2 = 0.999) (w : ℝ) (d : Nat → ℝ)
    (n : Nat) : (Coord.run sq ab h .adam w d n).m ^ 2 ≤ 7.28 ^ 2 * (Coord.run sq ab h .adam w d n).v := by
  induction n with
  | zero => simp [Coord.run, Coord.fresh]
  | succ n ih =>
    simp only [Coord.run, Coord.step, h1, h2]
    generalize (Coord.run sq ab h .adam w d n).m = m at *
    generalize (Coord.run sq ab h .adam w d n).v = v at *
    nlinarith [sq_nonneg (m - 5 * d n), sq_nonneg (m - 4.7 * d n), sq_nonneg (d n), sq_nonneg m,
      sq_nonneg (0.9 * m * 0.19 - 0.81 * 0.1 * d n)]

theorem adam_powers (n : Nat) : 1 - (0.999:ℝ) ^ n ≤ (1 - 0.9 ^ n) ^ 2 := by
  induction n with
  | zero => norm_num
  | succ n ih =>
    have hx0 : (0:ℝ) ≤ 0.9 ^ n := by positivity
    have hx1 : (0.9:ℝ) ^ n ≤ 1 := pow_le_one₀ (by norm_num) (by norm_num)
    rw [pow_succ (0.999:ℝ), pow_succ (0.9:ℝ)]
    nlinarith [mul_nonneg hx0 (sub_nonneg.mpr hx1)]

/-- C67: no Adam step whatsoever, after whatever gradients, moves a weight by more than 7.28 times the learning rate
(with the constructor's beta1 = 0.9 and beta2 = 0.999). -/
theorem C67_adam_every_step (g : Nat → ℝ) (ab : ℝ → ℝ) {o : Opt ℝ} (h : o.WF) (hk : o.kind = .adam)
    (h1 : o.beta1 = 0.9) (h2 : o.beta2 = 0.999) (hlr : 0 ≤ (o.init g).lr) (R C : Nat)
    (w : Nat → Nat → ℝ) (D : Nat → Nat → Nat → ℝ) (n : Nat) :
    ∃ W W', (o.init g).weights g Real.sqrt ab (Mat.ofFn R C w) (fun t => Mat.ofFn R C (D t)) n = .ok (Mat.ofFn R C W) ∧
      (o.init g).weights g Real.sqrt ab (Mat.ofFn R C w) (fun t => Mat.ofFn R C (D t)) (n + 1) =
        .ok (Mat.ofFn R C W') ∧
      ∀ i j, |W' i j - W i j| ≤ 7.28 * (o.init g).lr := by
  refine ⟨_, _, C64_rule g Real.sqrt ab h R C w D n, C64_rule g Real.sqrt ab h R C w D (n + 1), fun i j => ?_⟩
  have hb1 : (o.init g).hyper.b1 = 0.9 := (Opt.init_betas g o).1.trans h1
  have hb2 : (o.init g).hyper.b2 = 0.999 := (Opt.init_betas g o).2.trans h2
  rw [hk]
  have hm := Coord.adam_moments Real.sqrt ab (o.init g).hyper hb1 hb2 (w i j) (fun t => D t i j) (n + 1)
  have hp := adam_powers (n + 1)
  simp only [Coord.run, Coord.step, hb1, hb2] at hm ⊢
  rw [show (o.init g).hyper.lr = (o.init g).lr from rfl]
  generalize (0.9 : ℝ) * _ + _ = m at *
  generalize (0.999 : ℝ) * _ + _ = v at *
  have q1 : (0:ℝ) < 1 - 0.9 ^ (n + 1) := sub_pos.mpr (pow_lt_one₀ (by norm_num) (by norm_num) (Nat.succ_ne_zero n))
  have q2 : (0:ℝ) < 1 - 0.999 ^ (n + 1) := sub_pos.mpr (pow_lt_one₀ (by norm_num) (by norm_num) (Nat.succ_ne_zero n))
  generalize (1:ℝ) - 0.9 ^ (n + 1) = a at *
  generalize (1:ℝ) - 0.999 ^ (n + 1) = b at *
  have hv : 0 ≤ v := by nlinarith [sq_nonneg m]
  have hpos : (0:ℝ) < max (Real.sqrt (v / b)) 1e-8 := lt_of_lt_of_le (by norm_num) (le_max_right _ _)
  have hvb : 0 ≤ v / b := div_nonneg hv q2.le
  have hs : Real.sqrt (v / b) ^ 2 = v / b := Real.sq_sqrt hvb
  have hms : |m| ≤ 7.28 * (max (Real.sqrt (v / b)) 1e-8 * a) := by
    have : |m| ≤ 7.28 * (Real.sqrt (v / b) * a) := by
      apply abs_le_of_sq_le_sq _ (by positivity)
      rw [mul_pow, mul_pow, hs]
      have : v ≤ v / b * a ^ 2 := by
        rw [div_mul_eq_mul_div, le_div_iff₀ q2]
        exact mul_le_mul_of_nonneg_left hp hv
      nlinarith
    exact this.trans (mul_le_mul_of_nonneg_left (mul_le_mul_of_nonneg_right (le_max_left _ _) q1.le) (by norm_num))
  rw [sub_sub_cancel_left, abs_neg, abs_div, abs_mul, abs_div, abs_of_nonneg hlr, abs_of_pos q1, abs_of_pos hpos,
    div_le_iff₀ hpos]
  rw [← mul_div_assoc, div_le_iff₀ q1]
  nlinarith [mul_le_mul_of_nonneg_left hms hlr]

example : (Opt.new .adam : Opt ℝ).WF ∧ (Opt.new .adam : Opt ℝ).kind = .adam ∧
    (Opt.new .adam : Opt ℝ).beta1 = 0.9 ∧ (Opt.new .adam : Opt ℝ).beta2 = 0.999 ∧
    0 ≤ ((Opt.new .adam : Opt ℝ).init (fun _ => 0)).lr := by
  refine ⟨⟨rfl, rfl, rfl⟩, rfl, rfl, rfl, ?_⟩
  simp [Opt.init, Opt.new, orDefault, Opt.defaultLr]
  norm_num

/-! ## C68: initialisation and clones -/

/-- The settings that matter for a kind. -/
def Hyper.Same (k : OptKind) (h h' : Hyper α) : Prop := ∀ sq ab : α → α, ∀ t s d,
  Coord.step sq ab h k t s d = Coord.step sq ab h' k t s d

theorem Coord.run_same {sq ab : α → α} {k : OptKind} {h h' : Hyper α} (hs : h.Same k h') (w : α) (d : Nat → α)
    (n : Nat) : Coord.run sq ab h k w d n = Coord.run sq ab h' k w d n := by
  induction n with
  | zero => rfl
  | succ n ih => simp only [Coord.run, ih, hs sq ab]

theorem Opt.init_hyper_congr {o o' : Opt α} (hk : o'.kind = o.kind) (hh : o'.hyper = o.hyper) :
    (o'.init g).hyper = (o.init g).hyper := by
  obtain ⟨k, a1, a2, a3, a4, a5, a6, a7, a8, a9, a10, a11⟩ := o
  obtain ⟨k', b1, b2, b3, b4, b5, b6, b7, b8, b9, b10, b11⟩ := o'
  dsimp only at hk
  subst hk
  simp only [Opt.hyper, Hyper.mk.injEq] at hh
  obtain ⟨rfl, rfl, rfl, rfl, rfl, rfl⟩ := hh
  cases k' <;> rfl

/-- C68: `init` forgets history.  Whatever an optimizer did before (any number of steps on weights and gradients of any
shapes), after `init` it behaves like the optimizer it was before, initialised. -/
theorem C68_init_forgets {o o' : Opt α} (h : o.WF) {w0 w0' : Mat α} (hw0 : w0.WF) {D0 : Nat → Mat α} {n0 : Nat}
    (hist : o.run g sq ab w0 D0 n0 = .ok (o', w0')) (R C : Nat) (w : Nat → Nat → α) (D : Nat → Nat → Nat → α)
    (n : Nat) :
    (o'.init g).weights g sq ab (Mat.ofFn R C w) (fun t => Mat.ofFn R C (D t)) n =
      (o.init g).weights g sq ab (Mat.ofFn R C w) (fun t => Mat.ofFn R C (D t)) n := by
  obtain ⟨h', _, hk, hh⟩ := Opt.run_WF h hw0 hist
  rw [C64_rule g sq ab h', C64_rule g sq ab h, hk, Opt.init_hyper_congr g hk hh]

/-- C68: the settings after `set_params`; −1 stands for the default value of the optimizer. -/
theorem C68_set_params (o : Opt α) (lr decay mom : α) (hlr : lr ≠ -1) (hd : decay ≠ -1) (hm : mom ≠ -1) :
    (o.setParams g lr decay mom).kind = o.kind ∧ (o.setParams g lr decay mom).lr = lr ∧
      (o.setParams g lr decay mom).decay = decay ∧ (o.setParams g lr decay mom).mom = mom := by
  unfold Opt.setParams
  rw [Opt.init_kind]
  unfold Opt.init
  cases hk : o.kind <;> simp [hk, orDefault, Opt.defaultLr, hlr, hd, hm]

/-- C68: default settings, of every optimizer that has a learning rate. -/
theorem C68_defaults (o : Opt α) :
    (o.kind = .step ∨ o.kind = .momentumNg → (o.setParams g (-1) (-1) (-1)).lr = 0.1) ∧
      (o.kind = .sgd ∨ o.kind = .momentum ∨ o.kind = .nesterov ∨ o.kind = .rmsprop ∨ o.kind = .amsgrad → (o.setParams g (-1) (-1) (-1)).lr = 0.01) ∧
      (o.kind = .adagrad ∨ o.kind = .adam ∨ o.kind = .adamW ∨ o.kind = .adamax → (o.setParams g (-1) (-1) (-1)).lr = 0.001) ∧
      (o.kind = .nadam → (o.setParams g (-1) (-1) (-1)).lr = 0.002) ∧
      (o.kind = .momentum ∨ o.kind = .momentumNg ∨ o.kind = .nesterov → (o.setParams g (-1) (-1) (-1)).mom = 0.9) ∧
      (o.kind = .rmsprop → (o.setParams g (-1) (-1) (-1)).decay = 0.99) := by
  unfold Opt.setParams Opt.init
  cases hk : o.kind <;> simp [hk, orDefault, Opt.defaultLr]

/-- C68: what the constructors set; `set_params` and `init` keep it. -/
theorem C68_new (k : OptKind) (lr decay mom : α) : ((Opt.new k : Opt α).setParams g lr decay mom).kind = k ∧ ((Opt.new k : Opt α).setParams g lr decay mom).beta1 = 0.9 ∧
    ((Opt.new k : Opt α).setParams g lr decay mom).beta2 = 0.999 ∧ ((Opt.new k : Opt α).setParams g lr decay mom).lambda = 0.000001 := by
  unfold Opt.setParams Opt.init
  cases k <;> simp [Opt.new]

/-- C68 (partial): a clone, once initialised, behaves exactly like the original, initialised, on all weights and gradients,
for every optimizer but iRPROP-.  The betas and the weight decay are those the constructors set; no function changes
them (`Opt.run_WF`, `Opt.init_betas`).  Missing: iRPROP-, for which it is false (`C68_irprop_violated`). -/
theorem C68_clone_partial {o : Opt α} (h : o.WF) (hk : o.kind ≠ .irpropm) (h1 : o.beta1 = 0.9) (h2 : o.beta2 = 0.999)
    (h3 : o.lambda = 0.000001) (R C : Nat) (w : Nat → Nat → α) (D : Nat → Nat → Nat → α) (n : Nat) :
    o.clone.kind = o.kind ∧
    (o.clone.init g).weights g sq ab (Mat.ofFn R C w) (fun t => Mat.ofFn R C (D t)) n =
      (o.init g).weights g sq ab (Mat.ofFn R C w) (fun t => Mat.ofFn R C (D t)) n := by
  have hkk : o.clone.kind = o.kind := by
    unfold Opt.clone
    cases hk' : o.kind <;> simp_all [Opt.new]
  have hwf : o.clone.WF := by
    unfold Opt.clone
    cases hk' : o.kind <;> exact ⟨rfl, rfl, rfl⟩
  refine ⟨hkk, ?_⟩
  rw [C64_rule g sq ab hwf, C64_rule g sq ab h, hkk]
  refine congrArg Except.ok (Mat.ofFn_congr fun i j _ _ => ?_)
  rw [Coord.run_same]
  intro sq ab t s d
  obtain ⟨k, a1, a2, a3, a4, a5, a6, a7, a8, a9, a10, a11⟩ := o
  dsimp only at h1 h2 h3 hk
  subst h1 h2 h3
  cases k <;> first | exact absurd rfl hk | rfl

/-- C68 is false for iRPROP-: its `clone` creates an RPROP- optimizer (Optimizer.cpp:793), which behaves differently
from the second step on. -/
theorem C68_irprop_violated :
    (Opt.new .irpropm : Opt ℚ).clone.kind = .rpropm ∧
    ((Opt.new .irpropm : Opt ℚ).init (fun _ => 0)).weights (fun _ => 0) id id ⟨1, 1, [0]⟩
      (fun t => ⟨1, 1, [if t = 0 then 1 else -1]⟩) 2 = .ok ⟨1, 1, [-15 / 1000]⟩ ∧
    ((Opt.new .irpropm : Opt ℚ).clone.init (fun _ => 0)).weights (fun _ => 0) id id ⟨1, 1, [0]⟩
      (fun t => ⟨1, 1, [if t = 0 then 1 else -1]⟩) 2 = .ok ⟨1, 1, [-75 / 10000]⟩ := by
  refine ⟨rfl, ?_, ?_⟩ <;> decide +kernel

/-- Adam after two steps on a 1 × 2 matrix, then `init`: hypotheses of `C68_init_forgets`. -/
example : ∃ o' w', ((Opt.new .adam : Opt ℚ).init (fun _ => 0)).run (fun _ => 0) id id ⟨1, 2, [1, 2]⟩
    (fun _ => ⟨1, 2, [3, 4]⟩) 2 = .ok (o', w') ∧ o'.p1 = 729 / 1000 := by
  cases h : ((Opt.new .adam : Opt ℚ).init (fun _ => 0)).run (fun _ => 0) id id ⟨1, 2, [1, 2]⟩
    (fun _ => ⟨1, 2, [3, 4]⟩) 2 with
  | error e =>
    have : ((((Opt.new .adam : Opt ℚ).init (fun _ => 0)).run (fun _ => 0) id id ⟨1, 2, [1, 2]⟩
      (fun _ => ⟨1, 2, [3, 4]⟩) 2).map (fun r => r.1.p1)) = .ok (729 / 1000) := by decide +kernel
    rw [h] at this; cases this
  | ok r =>
    have : ((((Opt.new .adam : Opt ℚ).init (fun _ => 0)).run (fun _ => 0) id id ⟨1, 2, [1, 2]⟩
      (fun _ => ⟨1, 2, [3, 4]⟩) 2).map (fun r => r.1.p1)) = .ok (729 / 1000) := by decide +kernel
    rw [h] at this
    exact ⟨r.1, r.2, rfl, Except.ok.inj this⟩

end BeeDNN
