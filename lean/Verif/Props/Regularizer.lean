import Verif.Model.Regularizer
import Verif.Props.LayersMisc
import Verif.Props.Optimizer
import Mathlib.Analysis.Calculus.Deriv.Abs

/-! # Regularizers (claims C69, C70, the regularizer part of C62) -/

namespace BeeDNN

open Finset

/-- The L1 penalty `p Σ |w|`. -/
noncomputable def penaltyL1 (p : ℝ) (R C : Nat) (w : Nat → Nat → ℝ) : ℝ :=
  ∑ i ∈ range R, ∑ j ∈ range C, p * |w i j|

/-- The L2 penalty `p/2 Σ w²`. -/
noncomputable def penaltyL2 (p : ℝ) (R C : Nat) (w : Nat → Nat → ℝ) : ℝ :=
  ∑ i ∈ range R, ∑ j ∈ range C, p / 2 * w i j ^ 2

/-- Euclidean norm of an `R × C` matrix. -/
noncomputable def frobenius (R C : Nat) (d : Nat → Nat → ℝ) : ℝ :=
  Real.sqrt (∑ i ∈ range R, ∑ j ∈ range C, d i j ^ 2)

section closed
variable (g : Nat → ℝ) (p : ℝ) (R C : Nat) (w d : Nat → Nat → ℝ)

theorem reg_l1 : Reg.apply g ⟨.l1, p⟩ (Mat.ofFn R C w) (Mat.ofFn R C d) =
    .ok (Mat.ofFn R C w, Mat.ofFn R C (fun i j => d i j + (if w i j < 0 then -1 else 1) * p)) := by
  simp only [Reg.apply, Mat.cwiseSign_ofFn, Mat.scale_ofFn, Mat.add_ofFn, bind_ok',
    Mat.assign_ofFn g (Mat.ofFn_WF _ _ _), pure_ok]

theorem reg_l2 : Reg.apply g ⟨.l2, p⟩ (Mat.ofFn R C w) (Mat.ofFn R C d) =
    .ok (Mat.ofFn R C w, Mat.ofFn R C (fun i j => d i j + w i j * p)) := by
  simp only [Reg.apply, Mat.scale_ofFn, Mat.add_ofFn, bind_ok',
    Mat.assign_ofFn g (Mat.ofFn_WF _ _ _), pure_ok]

theorem reg_l1l2 : Reg.apply g ⟨.l1l2, p⟩ (Mat.ofFn R C w) (Mat.ofFn R C d) =
    .ok (Mat.ofFn R C w,
      Mat.ofFn R C (fun i j => d i j + w i j * p + (if w i j < 0 then -1 else 1) * p)) := by
  simp only [Reg.apply, Mat.cwiseSign_ofFn, Mat.scale_ofFn, Mat.add_ofFn, bind_ok',
    Mat.assign_ofFn g (Mat.ofFn_WF _ _ _), pure_ok]

theorem Mat.squaredNorm_ofFn : (Mat.ofFn R C d).squaredNorm = .ok (∑ i ∈ range R, ∑ j ∈ range C, d i j ^ 2) := by
  rw [Mat.ofFn_eq_flat, Mat.squaredNorm_flat, accN_eq_sum, ← sum_range_mul]
  refine congrArg Except.ok (sum_congr rfl fun k _ => ?_)
  ring

end closed

/-! ## C70 -/

theorem hasDerivAt_penalty1 (p : ℝ) {x : ℝ} (hx : x ≠ 0) :
    HasDerivAt (fun x => p * |x|) ((if x < 0 then -1 else 1) * p) x := by
  rcases lt_or_gt_of_ne hx with h | h
  · rw [if_pos h]
    have := (hasDerivAt_abs_neg h).const_mul p
    simpa [mul_comm] using this
  · rw [if_neg (not_lt.mpr h.le)]
    have := (hasDerivAt_abs_pos h).const_mul p
    simpa [mul_comm] using this

theorem hasDerivAt_penalty2 (p x : ℝ) : HasDerivAt (fun x => p / 2 * x ^ 2) (x * p) x := by
  have := (hasDerivAt_pow 2 x).const_mul (p / 2)
  refine this.congr_deriv ?_
  simp; ring

/-- C70: L2 adds to the gradient the gradient of the L2 penalty and leaves the weights alone. -/
theorem C70_l2 (g : Nat → ℝ) (p : ℝ) (R C : Nat) (w d : Nat → Nat → ℝ) :
    ∃ G, Reg.apply g ⟨.l2, p⟩ (Mat.ofFn R C w) (Mat.ofFn R C d) =
        .ok (Mat.ofFn R C w, Mat.ofFn R C (fun i j => d i j + G i j)) ∧
      IsGrad R C (penaltyL2 p R C) w G :=
  ⟨_, reg_l2 g p R C w d, isGrad_sep2 fun i j _ _ => hasDerivAt_penalty2 p _⟩

/-- C70: L1, away from zero weights. -/
theorem C70_l1 (g : Nat → ℝ) (p : ℝ) (R C : Nat) (w d : Nat → Nat → ℝ)
    (hw : ∀ i j, i < R → j < C → w i j ≠ 0) :
    ∃ G, Reg.apply g ⟨.l1, p⟩ (Mat.ofFn R C w) (Mat.ofFn R C d) =
        .ok (Mat.ofFn R C w, Mat.ofFn R C (fun i j => d i j + G i j)) ∧
      IsGrad R C (penaltyL1 p R C) w G :=
  ⟨_, reg_l1 g p R C w d, isGrad_sep2 fun i j hi hj => hasDerivAt_penalty1 p (hw i j hi hj)⟩

/-- C70: L1 at any weights, zero included: the added matrix is a subgradient of the penalty. -/
theorem C70_l1_subgradient (g : Nat → ℝ) {p : ℝ} (hp : 0 ≤ p) (R C : Nat) (w d : Nat → Nat → ℝ) :
    ∃ G, Reg.apply g ⟨.l1, p⟩ (Mat.ofFn R C w) (Mat.ofFn R C d) =
        .ok (Mat.ofFn R C w, Mat.ofFn R C (fun i j => d i j + G i j)) ∧
      ∀ w', penaltyL1 p R C w + dotM R C G (fun i j => w' i j - w i j) ≤ penaltyL1 p R C w' := by
  refine ⟨_, reg_l1 g p R C w d, fun w' => ?_⟩
  unfold penaltyL1 dotM
  rw [← sum_add_distrib]
  refine sum_le_sum fun i _ => ?_
  rw [← sum_add_distrib]
  refine sum_le_sum fun j _ => ?_
  dsimp only
  split
  · next h =>
    rw [abs_of_neg h]
    nlinarith [neg_abs_le (w' i j)]
  · next h =>
    rw [abs_of_nonneg (not_lt.mp h)]
    nlinarith [le_abs_self (w' i j)]

/-- C70: L1L2 adds the gradient of the sum of the two penalties (away from zero weights). -/
theorem C70_l1l2 (g : Nat → ℝ) (p : ℝ) (R C : Nat) (w d : Nat → Nat → ℝ)
    (hw : ∀ i j, i < R → j < C → w i j ≠ 0) :
    ∃ G, Reg.apply g ⟨.l1l2, p⟩ (Mat.ofFn R C w) (Mat.ofFn R C d) =
        .ok (Mat.ofFn R C w, Mat.ofFn R C (fun i j => d i j + G i j)) ∧
      IsGrad R C (fun w => penaltyL2 p R C w + penaltyL1 p R C w) w G := by
  refine ⟨fun i j => w i j * p + (if w i j < 0 then -1 else 1) * p, ?_, ?_⟩
  · rw [reg_l1l2]
    refine congrArg Except.ok (congrArg (Prod.mk _) (Mat.ofFn_congr fun i j _ _ => ?_))
    ring
  · have e : (fun w : Nat → Nat → ℝ => penaltyL2 p R C w + penaltyL1 p R C w) =
        fun w => ∑ i ∈ range R, ∑ j ∈ range C, (p / 2 * w i j ^ 2 + p * |w i j|) := by
      funext w
      unfold penaltyL1 penaltyL2
      simp only [sum_add_distrib]
    rw [e]
    exact isGrad_sep2 (f := fun _ _ x => p / 2 * x ^ 2 + p * |x|) fun i j hi hj =>
      (hasDerivAt_penalty2 p _).add (hasDerivAt_penalty1 p (hw i j hi hj))

/-- C70: L1L2 at any weights: the added matrix is a subgradient of the sum of the two penalties. -/
theorem C70_l1l2_subgradient (g : Nat → ℝ) {p : ℝ} (hp : 0 ≤ p) (R C : Nat) (w d : Nat → Nat → ℝ) :
    ∃ G, Reg.apply g ⟨.l1l2, p⟩ (Mat.ofFn R C w) (Mat.ofFn R C d) =
        .ok (Mat.ofFn R C w, Mat.ofFn R C (fun i j => d i j + G i j)) ∧
      ∀ w', penaltyL2 p R C w + penaltyL1 p R C w + dotM R C G (fun i j => w' i j - w i j) ≤
        penaltyL2 p R C w' + penaltyL1 p R C w' := by
  refine ⟨fun i j => w i j * p + (if w i j < 0 then -1 else 1) * p, ?_, fun w' => ?_⟩
  · rw [reg_l1l2]
    refine congrArg Except.ok (congrArg (Prod.mk _) (Mat.ofFn_congr fun i j _ _ => ?_))
    ring
  unfold penaltyL1 penaltyL2 dotM
  simp only [← sum_add_distrib]
  refine sum_le_sum fun i _ => sum_le_sum fun j _ => ?_
  have hsq : p / 2 * w i j ^ 2 + w i j * p * (w' i j - w i j) ≤ p / 2 * w' i j ^ 2 := by
    nlinarith [mul_nonneg hp (sq_nonneg (w' i j - w i j))]
  split
  · next h =>
    rw [abs_of_neg h]
    nlinarith [neg_abs_le (w' i j)]
  · next h =>
    rw [abs_of_nonneg (not_lt.mp h)]
    nlinarith [le_abs_self (w' i j)]

/-- C70: no regularizer changes the weights, whatever the arguments. -/
theorem C70_weights_kept (g : Nat → ℝ) (r : Reg) (w dw w' dw' : Mat ℝ) (h : r.apply g w dw = .ok (w', dw')) :
    w' = w := by
  obtain ⟨k, p⟩ := r
  cases k <;> simp only [Reg.apply] at h
  · cases h; rfl
  · obtain ⟨_, _, h⟩ := ok_bind h
    obtain ⟨_, _, h⟩ := ok_bind h
    obtain ⟨_, _, h⟩ := ok_bind h
    obtain ⟨_, _, h⟩ := ok_bind h
    cases h; rfl
  · obtain ⟨_, _, h⟩ := ok_bind h
    obtain ⟨_, _, h⟩ := ok_bind h
    obtain ⟨_, _, h⟩ := ok_bind h
    cases h; rfl
  · obtain ⟨_, _, h⟩ := ok_bind h
    obtain ⟨_, _, h⟩ := ok_bind h
    obtain ⟨_, _, h⟩ := ok_bind h
    obtain ⟨_, _, h⟩ := ok_bind h
    obtain ⟨_, _, h⟩ := ok_bind h
    obtain ⟨_, _, h⟩ := ok_bind h
    cases h; rfl
  · obtain ⟨_, _, h⟩ := ok_bind h
    cases h; rfl
  · obtain ⟨_, _, h⟩ := ok_bind h
    obtain ⟨_, _, h⟩ := ok_bind h
    cases h; rfl
  · obtain ⟨_, _, h⟩ := ok_bind h
    obtain ⟨_, _, h⟩ := ok_bind h
    obtain ⟨_, _, h⟩ := ok_bind h
    obtain ⟨_, _, h⟩ := ok_bind h
    cases h; rfl

/-- C70: weights and gradients of different shapes are rejected by L1, L2 and L1L2. -/
theorem C70_shape_mismatch (g : Nat → ℝ) (p : ℝ) {k : RegKind} (hk : k = .l1 ∨ k = .l2 ∨ k = .l1l2) {R C R' C' : Nat}
    (hs : R' ≠ R ∨ C' ≠ C) (w d : Nat → Nat → ℝ) :
    Reg.apply g ⟨k, p⟩ (Mat.ofFn R C w) (Mat.ofFn R' C' d) = .error .assertFail := by
  have hadd : ∀ e : Nat → Nat → ℝ, (Mat.ofFn R' C' d).add (Mat.ofFn R C e) = .error .assertFail := fun e =>
    Mat.cwise2_shape hs
  rcases hk with rfl | rfl | rfl <;>
    simp only [Reg.apply, Mat.cwiseSign_ofFn, Mat.scale_ofFn, bind_ok', hadd, bind_error']

example : ∀ i j, i < 2 → j < 2 → (fun i j => if i = j then (-3:ℝ) else 5 : Nat → Nat → ℝ) i j ≠ 0 := by
  intro i j _ _
  dsimp only
  split <;> norm_num

/-! ## C69 -/

/-- C69: `GradientClip` leaves every entry in `[-p, p]`, and unchanged if it was there; larger entries become `p`,
smaller ones `-p`. -/
theorem C69_clip (g : Nat → ℝ) {p : ℝ} (hp : 0 ≤ p) (w : Mat ℝ) (R C : Nat) (d : Nat → Nat → ℝ) :
    ∃ e, Reg.apply g ⟨.gradientClip, p⟩ w (Mat.ofFn R C d) = .ok (w, Mat.ofFn R C e) ∧
      ∀ i j, (-p ≤ e i j ∧ e i j ≤ p) ∧ (|d i j| ≤ p → e i j = d i j) ∧ (p < d i j → e i j = p) ∧
        (d i j < -p → e i j = -p) := by
  refine ⟨fun i j => if p < d i j then p else if d i j < -p then -p else d i j, ?_, fun i j => ?_⟩
  · simp only [Reg.apply, Mat.ofFn_eq_flat, Mat.clamp_flat, bind_ok', pure_ok]
  · dsimp only
    refine ⟨?_, fun h => ?_, fun h => if_pos h, fun h => ?_⟩
    · split
      · exact ⟨by linarith, le_rfl⟩
      · split
        · exact ⟨le_rfl, by linarith⟩
        · constructor <;> linarith
    · obtain ⟨h1, h2⟩ := abs_le.mp h
      rw [if_neg (not_lt.mpr h2), if_neg (not_lt.mpr h1)]
    · rw [if_neg (by linarith), if_pos h]

/-- C69: `GradientClipTanh` leaves every entry strictly between `-p` and `p`, with the sign it had. -/
theorem C69_clip_tanh (g : Nat → ℝ) {p : ℝ} (hp : 0 < p) (w : Mat ℝ) (R C : Nat) (d : Nat → Nat → ℝ) :
    ∃ e, Reg.apply g ⟨.gradientClipTanh, p⟩ w (Mat.ofFn R C d) = .ok (w, Mat.ofFn R C e) ∧
      ∀ i j, (-p < e i j ∧ e i j < p) ∧ (0 < e i j ↔ 0 < d i j) ∧ (e i j < 0 ↔ d i j < 0) := by
  refine ⟨fun i j => Real.tanh (d i j * (1 / p)) * p, ?_, fun i j => ?_⟩
  · simp only [Reg.apply, Mat.scale_ofFn, Mat.cwise_ofFn, bind_ok', Mat.assign_ofFn g (Mat.ofFn_WF _ _ _), pure_ok]
  · dsimp only
    have h1 := Real.tanh_lt_one (d i j * (1 / p))
    have h2 := Real.neg_one_lt_tanh (d i j * (1 / p))
    have hq : 0 < 1 / p := by positivity
    refine ⟨⟨by nlinarith, by nlinarith⟩, ?_, ?_⟩
    · rw [mul_pos_iff_of_pos_right hp, Real.tanh_eq_sinh_div_cosh, div_pos_iff_of_pos_right (Real.cosh_pos _),
        Real.sinh_pos_iff, mul_pos_iff_of_pos_right hq]
    · rw [show Real.tanh (d i j * (1 / p)) * p < 0 ↔ Real.tanh (d i j * (1 / p)) < 0 from
        ⟨fun h => by by_contra hn; exact absurd h (not_lt.mpr (mul_nonneg (not_lt.mp hn) hp.le)),
          fun h => mul_neg_of_neg_of_pos h hp⟩, Real.tanh_eq_sinh_div_cosh, div_neg_iff]
      have hc := Real.cosh_pos (d i j * (1 / p))
      constructor
      · rintro (⟨_, h⟩ | ⟨h, _⟩)
        · linarith
        · have := Real.sinh_neg_iff.mp h
          by_contra hn
          exact absurd this (not_lt.mpr (mul_nonneg (not_lt.mp hn) hq.le))
      · intro h
        exact Or.inr ⟨Real.sinh_neg_iff.mpr (mul_neg_of_neg_of_pos h hq), hc⟩

/-- C69: `GradientNormClip` leaves the norm at most `p`; a gradient of norm at most `p` is unchanged; otherwise it is
multiplied by one number `c`, `0 < c < 1`, and gets norm exactly `p`. -/
theorem C69_norm_clip (g : Nat → ℝ) {p : ℝ} (hp : 0 < p) (w : Mat ℝ) (R C : Nat) (d : Nat → Nat → ℝ) :
    ∃ e, Reg.apply g ⟨.gradientNormClip, p⟩ w (Mat.ofFn R C d) = .ok (w, Mat.ofFn R C e) ∧
      frobenius R C e ≤ p ∧ (frobenius R C d ≤ p → e = d) ∧
      (p < frobenius R C d → frobenius R C e = p ∧ ∃ c, 0 < c ∧ c < 1 ∧ ∀ i j, e i j = c * d i j) := by
  have hrun : Reg.apply g ⟨.gradientNormClip, p⟩ w (Mat.ofFn R C d) =
      (normClip g p (frobenius R C d) (Mat.ofFn R C d)).bind (fun dw => .ok (w, dw)) := by
    simp only [Reg.apply, Mat.squaredNorm_ofFn, bind_ok', pure_ok]
    rfl
  rw [hrun]
  unfold normClip
  by_cases h : p < frobenius R C d
  · have hn : 0 < frobenius R C d := hp.trans h
    have hscale : frobenius R C (fun i j => d i j / frobenius R C d * p) = p := by
      have e1 : (∑ i ∈ range R, ∑ j ∈ range C, (d i j / frobenius R C d * p) ^ 2) =
          (p / frobenius R C d) ^ 2 * ∑ i ∈ range R, ∑ j ∈ range C, d i j ^ 2 := by
        rw [mul_sum]
        refine sum_congr rfl fun i _ => ?_
        rw [mul_sum]
        refine sum_congr rfl fun j _ => ?_
        field_simp
      have e2 : frobenius R C (fun i j => d i j / frobenius R C d * p) =
          Real.sqrt (∑ i ∈ range R, ∑ j ∈ range C, (d i j / frobenius R C d * p) ^ 2) := rfl
      rw [e2, e1, Real.sqrt_mul (sq_nonneg _), Real.sqrt_sq (by positivity)]
      show p / frobenius R C d * frobenius R C d = p
      field_simp
    refine ⟨fun i j => d i j / frobenius R C d * p, ?_, hscale.le, fun h' => absurd h (not_lt.mpr h'), fun _ =>
      ⟨hscale, p / frobenius R C d, by positivity, (div_lt_one hn).mpr h, fun i j => ?_⟩⟩
    · rw [if_pos h]
      simp only [Mat.divScalar_ofFn', Mat.scale_ofFn, bind_ok', Mat.assign_ofFn g (Mat.ofFn_WF _ _ _), bind_ok]
    · ring
  · refine ⟨d, ?_, not_lt.mp h, fun _ => rfl, fun h' => absurd h' h⟩
    rw [if_neg h]
    rfl

/-- C69: the default parameters of the three clippings are positive. -/
theorem C69_defaults (k : RegKind) (hk : k = .gradientClip ∨ k = .gradientNormClip ∨ k = .gradientClipTanh) :
    0 < ((Reg.new k).setParameter (-1)).param := by
  rcases hk with rfl | rfl | rfl <;> simp [Reg.new, Reg.setParameter] <;> norm_num

/-- Without a call of `set_parameter` the parameter is −1 and `GradientClip` puts every gradient at 1 or −1, against its
sign where it is large: the precondition `p ≥ 0` of `C69_clip` is needed. -/
theorem C69_parameter_not_set (g : Nat → ℝ) (w : Mat ℝ) (R C : Nat) (d : Nat → Nat → ℝ) :
    (Reg.new .gradientClip).apply g w (Mat.ofFn R C d) =
      .ok (w, Mat.ofFn R C (fun i j => if -1 < d i j then -1 else 1)) := by
  simp only [Reg.apply, Reg.new, Mat.ofFn_eq_flat, Mat.clamp_flat, bind_ok', pure_ok, neg_neg]
  refine congrArg Except.ok (congrArg (Prod.mk _) (Mat.flat_congr fun i _ => ?_))
  split
  · rfl
  · next h => rw [if_pos (by linarith)]

example : (3:ℝ) < frobenius 1 2 (fun _ j => if j = 0 then 3 else 4) := by
  have : frobenius 1 2 (fun _ j => if j = 0 then 3 else 4) = 5 := by
    unfold frobenius
    rw [Real.sqrt_eq_iff_mul_self_eq_of_pos (by norm_num)]
    simp [sum_range_succ]
    norm_num
  rw [this]
  norm_num

/-! ## C62 (regularizers) -/

/-- C62, regularizers. -/
theorem C62_regularizer :
    (∀ s, (createRegularizer s).isSome ↔ s ∈ regularizerNames) ∧
    (∀ s k, createRegularizer s = some k → k.name = s) ∧ (∀ k : RegKind, createRegularizer k.name = some k) ∧
    regularizerNames.Nodup := by
  have h0 : ∀ s, (createRegularizer s).isSome ↔ s ∈ regularizerNames := by
    intro s
    unfold createRegularizer regularizerNames
    simp only [List.mem_cons, List.not_mem_nil, or_false]
    constructor
    · intro h
      by_contra hn
      simp only [not_or] at hn
      obtain ⟨h1, h2, h3, h4, h5, h6, h7⟩ := hn
      simp [h1, h2, h3, h4, h5, h6, h7] at h
    · rintro (rfl | rfl | rfl | rfl | rfl | rfl | rfl) <;> rfl
  refine ⟨h0, ?_, fun k => by cases k <;> rfl, by decide⟩
  intro s k h
  have hs : s ∈ regularizerNames := (h0 s).mp (by rw [h]; rfl)
  simp only [regularizerNames, List.mem_cons, List.not_mem_nil, or_false] at hs
  rcases hs with rfl | rfl | rfl | rfl | rfl | rfl | rfl <;>
    · cases h; rfl

end BeeDNN
