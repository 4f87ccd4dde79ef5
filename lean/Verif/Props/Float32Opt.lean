import Verif.Lemmas.Float32Opt
import Verif.Lemmas.Optimizer
import Verif.Props.Float32
import Mathlib.Analysis.SpecialFunctions.Pow.Real

/-!
# Optimizers in floating point arithmetic (C102, C103)

Weights, gradients and settings are `float`s; `sq` stands for `::sqrtf`, of which only `SqrtFloat` is assumed.
-/

namespace BeeDNN

/-! ## C102: gradient descent -/

/-- The step of `OptimizerSGD` on matrices, cell by cell. -/
theorem sgd_cell (g : Nat → F32) (sq ab : F32 → F32) {o : Opt F32} (hk : o.kind = .sgd) (R C : Nat)
    (w d : Nat → Nat → F32) :
    o.optimize g sq ab (Mat.ofFn R C w) (Mat.ofFn R C d) = .ok (o, Mat.ofFn R C (fun i j => w i j - d i j * o.lr)) := by
  have hc1 : check ((Mat.ofFn R C w).rows = (Mat.ofFn R C d).rows) = .ok () := check_true rfl
  have hc2 : check ((Mat.ofFn R C w).cols = (Mat.ofFn R C d).cols) = .ok () := check_true rfl
  simp only [Opt.optimize, hk, hc1, hc2, bind_ok', Mat.scale, Mat.sub, Mat.cwise_ofFn, Mat.cwise2_ofFn, pure_ok]

/-- C102: one step.  If weight and step are at most `2^126`, the new weight is a float next to `w - lr·d`.
Partial: the claim also says that a step that is not zero changes the weight, which is false (`C102_stuck`). -/
theorem C102_step_partial (g : Nat → F32) (sq ab : F32 → F32) {o : Opt F32} (hk : o.kind = .sgd) {L : ℝ} (hL : o.lr = .fin L)
    (R C : Nat) (w d : Nat → Nat → ℝ) (hw : ∀ i j, IsFloat (w i j) ∧ |w i j| ≤ 2 ^ 126)
    (hd : ∀ i j, |L * d i j| ≤ 2 ^ 126) :
    ∃ w' : Nat → Nat → ℝ,
      o.optimize g sq ab (Mat.ofFn R C (fun i j => .fin (w i j))) (Mat.ofFn R C (fun i j => .fin (d i j))) =
        .ok (o, Mat.ofFn R C (fun i j => .fin (w' i j))) ∧
      ∀ i j, IsFloat (w' i j) ∧
        |w' i j - (w i j - L * d i j)| ≤ 2 ^ (-24 : ℤ) * |w i j| + 2 ^ (-22 : ℤ) * |L * d i j| + 2 ^ (-149 : ℤ) := by
  have key : ∀ i j, ∃ x, F32.fin (w i j) - F32.fin (d i j) * F32.fin L = .fin x ∧ IsFloat x ∧
      |x - (w i j - L * d i j)| ≤ 2 ^ (-24 : ℤ) * |w i j| + 2 ^ (-22 : ℤ) * |L * d i j| + 2 ^ (-149 : ℤ) := by
    intro i j
    have a1 := F32.mul_le (x := d i j) (y := L) (Z := 2 ^ 126) (by rw [← abs_mul, mul_comm]; exact hd i j)
      (bits_npow _) (by norm_num)
    have a2 := F32.round_le (x := w i j - rnd (d i j * L)) (Z := 2 ^ 127)
      (by
        refine (abs_sub _ _).trans ((add_le_add (hw i j).2 a1.2).trans ?_)
        norm_num) (bits_npow _) (by norm_num)
    refine ⟨rnd (w i j - rnd (d i j * L)), by rw [a1.1, F32.fin_sub, a2.1],
      isFloat_of_bits (bits_rnd _) (a2.2.trans_lt (by norm_num)), ?_⟩
    have h1 := abs_rnd_sub' (d i j * L)
    have hb : Bits24 (-rnd (d i j * L)) := by
      rw [← rnd_neg]
      exact bits_rnd _
    have h2 := acc_step (s := w i j) (t := -rnd (d i j * L)) (x := w i j) (p := -(d i j * L)) (E := 0)
      (D := |d i j * L| * uro + tny) (hw i j).1.bits hb (by rw [sub_self, abs_zero]) (by
        rw [neg_sub_neg, abs_sub_comm]
        exact h1)
    rw [← sub_eq_add_neg, ← sub_eq_add_neg, abs_neg] at h2
    rw [mul_comm L]
    refine h2.trans ?_
    have e22 : (2 : ℝ) ^ (-22 : ℤ) = 4 * uro := by rw [uro_eq]; norm_num
    have e149 : (2 : ℝ) ^ (-149 : ℤ) = 2 * tny := by
      unfold tny
      rw [show (-149 : ℤ) = 1 + -150 by norm_num, zpow_add₀ (by norm_num), zpow_one]
    have e24 : (2 : ℝ) ^ (-24 : ℤ) = uro := rfl
    rw [e22, e149, e24]
    have hu := uro_pos
    have ht : 0 < tny := two_zpow_pos _
    have hu1 : uro ≤ 1 := by rw [uro_eq]; norm_num
    have hp := abs_nonneg (d i j * L)
    nlinarith [mul_nonneg hp hu.le, mul_nonneg ht.le hu.le, mul_nonneg (mul_nonneg hp hu.le) (sub_nonneg.2 hu1),
      mul_nonneg ht.le (sub_nonneg.2 hu1)]
  choose w' h1 h2 h3 using key
  refine ⟨w', ?_, fun i j => ⟨h2 i j, h3 i j⟩⟩
  rw [sgd_cell g sq ab hk, hL]
  simp only [h1]

/-- C102: gradient descent with finite gradients never overflows: with a rate of at most 1 and gradients up to `2^50`,
weights that are at most `2^126` stay so for any number of steps. -/
theorem C102_finite (g : Nat → F32) (sq ab : F32 → F32) {o : Opt F32} (hk : o.kind = .sgd) {L : ℝ} (hL : o.lr = .fin L)
    (hL1 : |L| ≤ 1) (R C : Nat) (w : Nat → Nat → ℝ) (d : Nat → Nat → Nat → ℝ)
    (hw : ∀ i j, IsFloat (w i j) ∧ |w i j| ≤ 2 ^ 126) (hd : ∀ t i j, |d t i j| ≤ 2 ^ 50) (n : Nat) :
    ∃ w' : Nat → Nat → ℝ,
      o.weights g sq ab (Mat.ofFn R C (fun i j => .fin (w i j))) (fun t => Mat.ofFn R C (fun i j => .fin (d t i j))) n =
        .ok (Mat.ofFn R C (fun i j => .fin (w' i j))) ∧
      ∀ i j, IsFloat (w' i j) ∧ |w' i j| ≤ 2 ^ 126 := by
  have key : ∃ w' : Nat → Nat → ℝ,
      o.run g sq ab (Mat.ofFn R C (fun i j => .fin (w i j))) (fun t => Mat.ofFn R C (fun i j => .fin (d t i j))) n =
        .ok (o, Mat.ofFn R C (fun i j => .fin (w' i j))) ∧ ∀ i j, Bits24 (w' i j) ∧ |w' i j| ≤ 2 ^ 126 := by
    induction n with
    | zero => exact ⟨w, rfl, fun i j => ⟨(hw i j).1.bits, (hw i j).2⟩⟩
    | succ n ih =>
      obtain ⟨w1, h1, h2⟩ := ih
      have hc : ∀ i j, ∃ x, F32.fin (w1 i j) - F32.fin (d n i j) * F32.fin L = .fin x ∧ Bits24 x ∧ |x| ≤ 2 ^ 126 := by
        intro i j
        have a1 := F32.mul_le (x := d n i j) (y := L) (Z := 2 ^ 50)
          (by nlinarith [hd n i j, abs_nonneg (d n i j), abs_nonneg L]) (bits_npow _) (by norm_num)
        rw [a1.1]
        exact weight_step (h2 i j).1 (h2 i j).2 (a1.2.trans (by norm_num))
      choose w2 h3 h4 using hc
      refine ⟨w2, ?_, h4⟩
      unfold Opt.run at h1 ⊢
      rw [forN_succ, h1]
      show o.optimize g sq ab _ _ = _
      rw [sgd_cell g sq ab hk, hL]
      simp only [h3]
  obtain ⟨w', h1, h2⟩ := key
  refine ⟨w', ?_, fun i j => ⟨isFloat_of_bits (h2 i j).1 ((h2 i j).2.trans_lt (by norm_num)), (h2 i j).2⟩⟩
  unfold Opt.weights
  rw [h1]
  rfl

/-- C102: a step that is small beside the weight is lost: where every step is at most `2^-27` of the weight, no number
of steps changes the weights. -/
theorem C102_stall (g : Nat → F32) (sq ab : F32 → F32) {o : Opt F32} (hk : o.kind = .sgd) {L : ℝ} (hL : o.lr = .fin L)
    (R C : Nat) (w : Nat → Nat → ℝ) (d : Nat → Nat → Nat → ℝ)
    (hw : ∀ i j, IsFloat (w i j) ∧ 2 ^ (-122 : ℤ) ≤ |w i j|)
    (hd : ∀ t i j, |L * d t i j| ≤ 2 ^ (-27 : ℤ) * |w i j|) (n : Nat) :
    o.weights g sq ab (Mat.ofFn R C (fun i j => .fin (w i j))) (fun t => Mat.ofFn R C (fun i j => .fin (d t i j))) n =
      .ok (Mat.ofFn R C (fun i j => .fin (w i j))) := by
  have cell : ∀ t i j, F32.fin (w i j) - F32.fin (d t i j) * F32.fin L = .fin (w i j) := by
    intro t i j
    have hwl := (hw i j).1.lt
    have hp : |d t i j * L| ≤ 2 ^ (-27 : ℤ) * |w i j| := by rw [mul_comm]; exact hd t i j
    have h1 := abs_rnd_sub' (d t i j * L)
    have h2 : |rnd (d t i j * L)| ≤ |w i j| * 2 ^ (-26 : ℤ) := by
      have h3 : |rnd (d t i j * L)| ≤ |rnd (d t i j * L) - d t i j * L| + |d t i j * L| := by
        have := abs_add_le (rnd (d t i j * L) - d t i j * L) (d t i j * L)
        rwa [sub_add_cancel] at this
      have ht : tny ≤ 2 ^ (-28 : ℤ) * |w i j| := by
        have : tny = 2 ^ (-28 : ℤ) * 2 ^ (-122 : ℤ) := by
          unfold tny
          rw [← zpow_add₀ (by norm_num)]
          norm_num
        rw [this]
        exact mul_le_mul_of_nonneg_left (hw i j).2 (two_zpow_pos _).le
      have e26 : (2 : ℝ) ^ (-26 : ℤ) = 4 * 2 ^ (-28 : ℤ) := by norm_num
      have e27 : (2 : ℝ) ^ (-27 : ℤ) = 2 * 2 ^ (-28 : ℤ) := by norm_num
      have hz : (0 : ℝ) < 2 ^ (-28 : ℤ) := two_zpow_pos _
      rw [e26]
      rw [e27] at hp
      generalize (2 : ℝ) ^ (-28 : ℤ) = z at *
      have hu1 : uro ≤ 1 / 2 := by rw [uro_eq]; norm_num
      have hp0 := abs_nonneg (d t i j * L)
      nlinarith [mul_le_mul_of_nonneg_left hu1 hp0]
    have h5 : |rnd (d t i j * L)| < 2 ^ 128 := by
      refine h2.trans_lt (lt_of_le_of_lt ?_ hwl)
      have : (2 : ℝ) ^ (-26 : ℤ) ≤ 1 := by norm_num
      nlinarith [abs_nonneg (w i j)]
    have h6 : rnd (w i j - rnd (d t i j * L)) = w i j := rnd_absorb (hw i j).1.bits h2
    rw [F32.fin_mul, F32.round_fin h5, F32.fin_sub, F32.round_fin (by rw [h6]; exact hwl), h6]
  have key : o.run g sq ab (Mat.ofFn R C (fun i j => .fin (w i j)))
      (fun t => Mat.ofFn R C (fun i j => .fin (d t i j))) n = .ok (o, Mat.ofFn R C (fun i j => .fin (w i j))) := by
    unfold Opt.run
    apply forN_const
    intro t _
    show o.optimize g sq ab _ _ = _
    rw [sgd_cell g sq ab hk, hL]
    simp only [cell]
  unfold Opt.weights
  rw [key]
  rfl

/-- C102, the claim that fails: a weight with a gradient that is always the same and never zero does not change,
however many steps are taken.  The loss `2^-18·w` goes down by `2^-43` a step in exact arithmetic. -/
theorem C102_stuck (g : Nat → F32) (sq ab : F32 → F32) (o : Opt F32) (hk : o.kind = .sgd)
    (hL : o.lr = .fin (2 ^ (-9 : ℤ))) (n : Nat) :
    o.weights g sq ab (Mat.ofFn 1 1 (fun _ _ => .fin 1)) (fun _ => Mat.ofFn 1 1 (fun _ _ => .fin (2 ^ (-18 : ℤ)))) n =
      .ok (Mat.ofFn 1 1 (fun _ _ => .fin 1)) := by
  refine C102_stall g sq ab hk hL 1 1 (fun _ _ => 1) (fun _ _ _ => 2 ^ (-18 : ℤ)) (fun _ _ => ⟨?_, ?_⟩) (fun _ _ _ => ?_) n
  · exact isFloat_of_bits bits_one (by rw [abs_one]; norm_num)
  · rw [abs_one]; norm_num
  · rw [abs_one, mul_one, ← zpow_add₀ (by norm_num), abs_of_pos (two_zpow_pos _)]
    norm_num

example (g : Nat → F32) (sq ab : F32 → F32) (o : Opt F32) (hk : o.kind = .sgd) (hL : o.lr = .fin 1) :
    ∃ w' : Nat → Nat → ℝ,
      o.optimize g sq ab (Mat.ofFn 2 3 (fun i j => .fin (i + j : ℕ))) (Mat.ofFn 2 3 (fun _ _ => .fin 3)) =
        .ok (o, Mat.ofFn 2 3 (fun i j => .fin (w' i j))) := by
  -- on cells outside the matrix the functions may be anything: here they are cut off
  have e : Mat.ofFn 2 3 (fun i j => F32.fin ((i + j : ℕ) : ℝ)) =
      Mat.ofFn 2 3 (fun i j => F32.fin (((i + j) % 4 : ℕ) : ℝ)) := by
    refine Mat.ofFn_congr fun i j hi hj => ?_
    rw [Nat.mod_eq_of_lt (by omega)]
  rw [e]
  obtain ⟨w', h, -⟩ := C102_step_partial g sq ab hk hL 2 3 (fun i j => (((i + j) % 4 : ℕ) : ℝ)) (fun _ _ => 3)
    (fun i j => by
      have h4 : (i + j) % 4 < 4 := Nat.mod_lt _ (by norm_num)
      have h4' : (((i + j) % 4 : ℕ) : ℝ) < 4 := by exact_mod_cast h4
      have h0 : (0 : ℝ) ≤ (((i + j) % 4 : ℕ) : ℝ) := Nat.cast_nonneg _
      have hle : |(((i + j) % 4 : ℕ) : ℝ)| ≤ 2 ^ 126 := by
        rw [abs_of_nonneg h0]
        exact h4'.le.trans (by norm_num)
      exact ⟨isFloat_of_bits (bits_nat (by omega)) (hle.trans_lt (by norm_num)), hle⟩)
    (fun _ _ => by norm_num)
  exact ⟨w', h⟩

/-! ## C103: Adam -/

/-- C103: Adam with the default `beta1`, `beta2` and a rate of at most 1 never produces an infinity or a NaN: for
gradients up to `2^50`, weights that are at most `2^126` stay so for any number of steps.  In particular `_v` never
overflows, `1 - beta^t` never becomes 0, and nothing is divided by 0. -/
theorem C103_adam (g : Nat → F32) {sq : F32 → F32} (hs : SqrtFloat sq) (ab : F32 → F32) {o : Opt F32} (h : o.WF)
    (hk : o.kind = .adam) (hb1 : o.beta1 = 0.9) (hb2 : o.beta2 = 0.999) {L : ℝ} (hL : (o.init g).lr = .fin L)
    (hL1 : |L| ≤ 1) (R C : Nat) (w : Nat → Nat → ℝ) (d : Nat → Nat → Nat → ℝ)
    (hw : ∀ i j, IsFloat (w i j) ∧ |w i j| ≤ 2 ^ 126) (hd : ∀ t i j, |d t i j| ≤ 2 ^ 50) (n : Nat) :
    ∃ w' : Nat → Nat → ℝ,
      (o.init g).weights g sq ab (Mat.ofFn R C (fun i j => .fin (w i j)))
        (fun t => Mat.ofFn R C (fun i j => .fin (d t i j))) n = .ok (Mat.ofFn R C (fun i j => .fin (w' i j))) ∧
      ∀ i j, IsFloat (w' i j) ∧ |w' i j| ≤ 2 ^ 126 := by
  obtain ⟨b1, b2, c1, c2, eps, e1, e2, e3, e4, e5, K⟩ := adamConst
  have inv : AdamInv g R C (o.init g) b1 b2 L := by
    obtain ⟨kind, lr, mom, decay, beta1, beta2, lambda, p1, p2, v, m, vh⟩ := o
    dsimp only at hk hb1 hb2
    subst hk
    rw [e1] at hb1
    rw [e2] at hb2
    subst hb1 hb2
    obtain ⟨v1, v2⟩ := Mat.resize_zero_WF g h.1
    obtain ⟨m1, m2⟩ := Mat.resize_zero_WF g h.2.1
    refine ⟨rfl, hL, rfl, rfl, ⟨b1, rfl, K.b1_pos, le_refl _⟩, ⟨b2, rfl, K.b2_pos, le_refl _⟩,
      fun _ _ => 0, fun _ _ => 0, fun _ _ => ⟨le_refl _, by norm_num, by norm_num⟩, fun e => ?_⟩
    have hd1 : decide ((v.resize g 0 0).size = 0) = true := decide_eq_true v2
    show zeroIf g (decide ((v.resize g 0 0).size = 0)) (v.resize g 0 0) _ = _ ∧
      zeroIf g (decide ((v.resize g 0 0).size = 0)) (m.resize g 0 0) _ = _
    rw [hd1]
    exact ⟨zeroIf_f v1 R C e, zeroIf_f m1 R C e⟩
  obtain ⟨o', w', h1, -, h2⟩ := adam_run (ab := ab) hs K e3 e4 e5 hL1 inv w d
    (fun i j => ⟨(hw i j).1.bits, (hw i j).2⟩) hd n
  refine ⟨w', ?_, fun i j => ⟨isFloat_of_bits (h2 i j).1 ((h2 i j).2.trans_lt (by norm_num)), (h2 i j).2⟩⟩
  unfold Opt.weights
  rw [h1]
  rfl

/-- A root as required. -/
example : SqrtFloat (fun x => match x with
    | .fin y => .fin (rnd (Real.sqrt y))
    | x => x) := fun x _ => ⟨_, rfl, rnd_nonneg (Real.sqrt_nonneg x)⟩

example (g : Nat → F32) {sq : F32 → F32} (hs : SqrtFloat sq) (ab : F32 → F32) (n : Nat) :
    ∃ w' : Nat → Nat → ℝ,
      (Opt.setLearningRate g (Opt.new .adam) (.fin 1)).weights g sq ab (Mat.ofFn 2 3 (fun _ _ => .fin 1))
        (fun t => Mat.ofFn 2 3 (fun i j => .fin (if t % 2 = i then 1 else -(2 ^ 50)))) n =
        .ok (Mat.ofFn 2 3 (fun i j => .fin (w' i j))) := by
  have hlr : (Opt.init g ({ (Opt.new .adam : Opt F32) with lr := .fin 1 })).lr = .fin 1 := by
    simp only [Opt.init, Opt.new, Opt.defaultLr, orDefault]
    rw [if_neg]
    intro h
    have h' : F32.fin 1 = F32.fin (-1) := h
    injection h' with h'
    norm_num at h'
  obtain ⟨w', h, -⟩ := C103_adam g hs ab (o := { (Opt.new .adam : Opt F32) with lr := .fin 1 }) ⟨rfl, rfl, rfl⟩ rfl rfl rfl
    hlr (by norm_num) 2 3 (fun _ _ => 1) (fun t i j => if t % 2 = i then 1 else -(2 ^ 50))
    (fun _ _ => ⟨isFloat_of_bits bits_one (by norm_num), by norm_num⟩)
    (fun t i j => by split <;> norm_num) n
  exact ⟨w', h⟩

end BeeDNN
