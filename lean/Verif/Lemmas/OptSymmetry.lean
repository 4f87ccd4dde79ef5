import Verif.Spec.Optimizer
import Mathlib.Data.Sign.Basic
import Mathlib.Algebra.Order.Field.Basic
import Mathlib.Analysis.SpecialFunctions.Sqrt
import Mathlib.Tactic.Linarith
import Mathlib.Tactic.Ring
import Mathlib.Tactic.NormNum
import Mathlib.Tactic.Positivity

/-!
# Symmetries of the published update rules
-/

namespace BeeDNN

variable {α : Type} [Field α] [LinearOrder α] [IsStrictOrderedRing α] (sq ab : α → α)

theorem sign_lt {a b : α} (h : SignType.sign a = SignType.sign b) : (a < 0 ↔ b < 0) := by
  rw [← sign_eq_neg_one_iff, ← sign_eq_neg_one_iff, h]

theorem sign_gt {a b : α} (h : SignType.sign a = SignType.sign b) : (0 < a ↔ 0 < b) := by
  rw [← sign_eq_one_iff, ← sign_eq_one_iff, h]

theorem sign_mul_congr {a b a' b' : α} (h : SignType.sign a = SignType.sign a') (h' : SignType.sign b = SignType.sign b') :
    SignType.sign (a * b) = SignType.sign (a' * b') := by
  rw [sign_mul, sign_mul, h, h']

theorem rpropSize_sign {mu d d' o o' : α} (hd : SignType.sign d = SignType.sign d') (ho : SignType.sign o = SignType.sign o') :
    rpropSize mu d o = rpropSize mu d' o' := by
  unfold rpropSize
  simp only [sign_lt (sign_mul_congr hd ho), sign_gt (sign_mul_congr hd ho)]

theorem againstSign_sign {w mu d d' : α} (hd : SignType.sign d = SignType.sign d') : againstSign w mu d = againstSign w mu d' := by
  unfold againstSign
  simp only [sign_lt hd, sign_gt hd]

/-- Same weight, same step size, remembered gradients of the same sign. -/
theorem Coord.run_sign (h : Hyper α) {k : OptKind} (hk : k = .step ∨ k = .rpropm ∨ k = .irpropm) (w : α) {d d' : Nat → α}
    (hd : ∀ t, SignType.sign (d t) = SignType.sign (d' t)) (n : Nat) :
    (Coord.run sq ab h k w d n).w = (Coord.run sq ab h k w d' n).w ∧
      (Coord.run sq ab h k w d n).v = (Coord.run sq ab h k w d' n).v ∧
      SignType.sign (Coord.run sq ab h k w d n).m = SignType.sign (Coord.run sq ab h k w d' n).m := by
  induction n with
  | zero => rcases hk with rfl | rfl | rfl <;> simp [Coord.run, Coord.fresh, hd]
  | succ n ih =>
    obtain ⟨i1, i2, i3⟩ := ih
    rcases hk with rfl | rfl | rfl
    · simp only [Coord.run, Coord.step, i1, i2, i3, sign_lt (hd n), and_self]
    · simp only [Coord.run, Coord.step, i1, i2]
      rw [rpropSize_sign (hd n) i3, againstSign_sign (hd n)]
      exact ⟨rfl, rfl, hd n⟩
    · simp only [Coord.run, Coord.step, i1, i2]
      rw [rpropSize_sign (hd n) i3]
      have e := sign_lt (sign_mul_congr (hd n) i3)
      have hs : SignType.sign (if d n * (Coord.run sq ab h .irpropm w d n).m < 0 then 0 else d n) =
          SignType.sign (if d' n * (Coord.run sq ab h .irpropm w d' n).m < 0 then 0 else d' n) := by
        simp only [e]
        split
        · rfl
        · exact hd n
      exact ⟨againstSign_sign hs, rfl, hs⟩

theorem againstSign_add (w mu d c : α) : againstSign (w + c) mu d = againstSign w mu d + c := by
  unfold againstSign
  split
  · ring
  · split <;> ring

/-- Everything is shifted with the weight, for rules without weight decay. -/
theorem Coord.run_shift (h : Hyper α) {k : OptKind} (hk : k ≠ .adamW) (w c : α) (d : Nat → α) (n : Nat) :
    Coord.run sq ab h k (w + c) d n = { Coord.run sq ab h k w d n with w := (Coord.run sq ab h k w d n).w + c } := by
  induction n with
  | zero => cases k <;> rfl
  | succ n ih =>
    simp only [Coord.run]
    rw [ih]
    cases k <;> simp only [Coord.step, ne_eq, not_true_eq_false, reduceCtorEq] at hk ⊢ <;>
      first
      | (congr 1; exact againstSign_add _ _ _ _)
      | (congr 1; ring1)

theorem rpropSize_neg (mu d o : α) : rpropSize mu (-d) (-o) = rpropSize mu d o := by
  unfold rpropSize
  rw [neg_mul_neg]

theorem againstSign_neg (w mu d : α) : againstSign (-w) mu (-d) = -againstSign w mu d := by
  unfold againstSign
  rcases lt_trichotomy d 0 with h | h | h
  · rw [if_pos (neg_pos.2 h), if_neg h.le.not_gt, if_pos h]
    ring
  · subst h
    simp
  · rw [if_neg (by rw [neg_pos]; exact h.le.not_gt), if_pos (neg_neg_iff_pos.2 h), if_pos h]
    ring

/-- The mirror image of a run: weight, first moment and velocity change sign, second moments do not. -/
theorem Coord.run_neg (hab : ∀ x, ab (-x) = ab x) (h : Hyper α) {k : OptKind} (w : α) (d : Nat → α)
    (hk : k = .step → ∀ t, d t ≠ 0) (n : Nat) :
    (Coord.run sq ab h k (-w) (fun t => -d t) n).w = -(Coord.run sq ab h k w d n).w ∧
    (Coord.run sq ab h k (-w) (fun t => -d t) n).m = -(Coord.run sq ab h k w d n).m ∧
    (Coord.run sq ab h k (-w) (fun t => -d t) n).vh = (Coord.run sq ab h k w d n).vh ∧
    (Coord.run sq ab h k (-w) (fun t => -d t) n).v =
      (match k with
        | .momentum | .momentumNg | .nesterov => -(Coord.run sq ab h k w d n).v
        | _ => (Coord.run sq ab h k w d n).v) := by
  induction n with
  | zero => cases k <;> simp [Coord.run, Coord.fresh]
  | succ n ih =>
    obtain ⟨i1, i2, i3, i4⟩ := ih
    cases k <;> simp only [Coord.run, Coord.step] at i4 ⊢ <;> simp only [i1, i2, i3, i4, neg_sq, hab]
    case step =>
      have := hk rfl n
      refine ⟨?_, trivial, trivial, trivial⟩
      rcases lt_or_gt_of_ne this with h' | h'
      · rw [if_neg (by rw [neg_neg_iff_pos]; exact h'.le.not_gt), if_pos h']
        ring
      · rw [if_pos (neg_neg_iff_pos.2 h'), if_neg h'.le.not_gt]
        ring
    case rpropm => simp only [rpropSize_neg, againstSign_neg, and_self]
    case irpropm =>
      simp only [rpropSize_neg, neg_mul_neg]
      split
      · simp only [← againstSign_neg, neg_zero, and_self]
      · simp only [againstSign_neg, and_self]
    all_goals (refine ⟨?_, ?_, ?_, ?_⟩ <;> first | rfl | trivial | ring)

/-- The rules that divide by the size of the gradients. -/
def OptKind.normalised : OptKind → Prop
  | .adagrad | .rmsprop | .adam | .adamW | .amsgrad | .nadam | .adamax => True
  | _ => False

theorem max_sqrt {v : ℝ} (h : 1e-16 ≤ v) : max (Real.sqrt v) 1e-8 = Real.sqrt v := by
  refine max_eq_left ((Real.le_sqrt' (by norm_num)).2 ?_)
  norm_num at h ⊢
  exact h

theorem ratio_scale {c m v lr : ℝ} (hc : 0 < c) (h1 : 1e-16 ≤ v) (h2 : 1e-16 ≤ c ^ 2 * v) :
    lr * (c * m) / max (Real.sqrt (c ^ 2 * v)) 1e-8 = lr * m / max (Real.sqrt v) 1e-8 := by
  rw [max_sqrt h1, max_sqrt h2, Real.sqrt_mul (by positivity), Real.sqrt_sq hc.le, mul_left_comm,
    mul_div_mul_left _ _ hc.ne']

theorem moment_ge {b v d : ℝ} (hb0 : 0 ≤ b) (hb : b ≤ 0.999) (hv : 0 ≤ v) (hd : 1e-6 ≤ |d|) :
    1e-16 ≤ b * v + (1 - b) * d ^ 2 := by
  have h1 : (1e-6 : ℝ) ^ 2 ≤ d ^ 2 := by
    rw [← sq_abs d]
    exact pow_le_pow_left₀ (by norm_num) hd 2
  have h2 : (0.001 : ℝ) * 1e-6 ^ 2 ≤ (1 - b) * d ^ 2 :=
    mul_le_mul (by linarith) h1 (by norm_num) (by linarith)
  have h3 : 0 ≤ b * v := mul_nonneg hb0 hv
  norm_num at h2 ⊢
  linarith

theorem hat_ge {v b : ℝ} (n : Nat) (hb0 : 0 ≤ b) (hb : b ≤ 0.999) (h : 1e-16 ≤ v) : 1e-16 ≤ v / (1 - b ^ (n + 1)) := by
  have hp : b ^ (n + 1) < 1 := pow_lt_one₀ hb0 (by linarith) (by omega)
  have h0 : 0 ≤ b ^ (n + 1) := by positivity
  refine h.trans (le_div_self ?_ (by linarith) (by linarith))
  exact le_trans (by norm_num) h

/-- Scaling all gradients by `c` scales the moments and leaves the weight alone. -/
theorem Coord.run_scale (h : Hyper ℝ) {k : OptKind} (hk : k.normalised) (hb : 0 ≤ h.b2 ∧ h.b2 ≤ 0.999)
    (hdec : k = .rmsprop → 0 ≤ h.decay ∧ h.decay ≤ 0.999) (w c : ℝ) (hc : 0 < c) (d : Nat → ℝ) (hd : ∀ t, 1e-6 ≤ |d t|)
    (hd' : ∀ t, 1e-6 ≤ |c * d t|) (n : Nat) :
    0 ≤ (Coord.run Real.sqrt abs h k w d n).v ∧
    (Coord.run Real.sqrt abs h k w (fun t => c * d t) n).w = (Coord.run Real.sqrt abs h k w d n).w ∧
    (Coord.run Real.sqrt abs h k w (fun t => c * d t) n).m = c * (Coord.run Real.sqrt abs h k w d n).m ∧
    (Coord.run Real.sqrt abs h k w (fun t => c * d t) n).vh = c ^ 2 * (Coord.run Real.sqrt abs h k w d n).vh ∧
    (Coord.run Real.sqrt abs h k w (fun t => c * d t) n).v =
      (match k with
        | .adamax => c * (Coord.run Real.sqrt abs h k w d n).v
        | _ => c ^ 2 * (Coord.run Real.sqrt abs h k w d n).v) := by
  induction n with
  | zero => cases k <;> simp [Coord.run, Coord.fresh, OptKind.normalised] at hk ⊢
  | succ n ih =>
    obtain ⟨i0, i1, i2, i3, i4⟩ := ih
    have hn := hd n
    have hn' := hd' n
    have em : ∀ m : ℝ, h.b1 * (c * m) + (1 - h.b1) * (c * d n) = c * (h.b1 * m + (1 - h.b1) * d n) := fun m => by ring
    have ev : ∀ b v : ℝ, b * (c ^ 2 * v) + (1 - b) * (c * d n) ^ 2 = c ^ 2 * (b * v + (1 - b) * d n ^ 2) :=
      fun b v => by ring
    have g1 := moment_ge hb.1 hb.2 i0 hn
    have g2 : ∀ b, 0 ≤ b → b ≤ 0.999 → 1e-16 ≤ c ^ 2 * (b * (Coord.run Real.sqrt abs h k w d n).v + (1 - b) * d n ^ 2) := by
      intro b b0 b1
      rw [← ev]
      exact moment_ge b0 b1 (by positivity) hn'
    have g0 : 0 ≤ h.b2 * (Coord.run Real.sqrt abs h k w d n).v + (1 - h.b2) * d n ^ 2 := le_trans (by norm_num) g1
    cases k <;> simp only [OptKind.normalised] at hk <;> simp only [Coord.run, Coord.step] at i4 ⊢ <;>
      simp only [i1, i2, i3, i4, em, ev]
    case adagrad =>
      have hd2 : (1e-6 : ℝ) ^ 2 ≤ d n ^ 2 := by
        rw [← sq_abs (d n)]
        exact pow_le_pow_left₀ (by norm_num) hn 2
      have hd2' : (1e-6 : ℝ) ^ 2 ≤ (c * d n) ^ 2 := by
        rw [← sq_abs (c * d n)]
        exact pow_le_pow_left₀ (by norm_num) hn' 2
      have e : ∀ v : ℝ, c ^ 2 * v + (c * d n) ^ 2 = c ^ 2 * (v + d n ^ 2) := fun v => by ring
      refine ⟨by positivity, ?_, trivial, trivial, e _⟩
      rw [e, ratio_scale hc]
      · norm_num at hd2 ⊢
        linarith
      · rw [← e]
        have : 0 ≤ c ^ 2 * (Coord.run Real.sqrt abs h .adagrad w d n).v := by positivity
        norm_num at hd2' ⊢
        linarith
    case rmsprop =>
      have hdec := hdec rfl
      have q1 := moment_ge hdec.1 hdec.2 i0 hn
      refine ⟨le_trans (by norm_num) q1, ?_, trivial, trivial, trivial⟩
      rw [ratio_scale hc q1 (g2 _ hdec.1 hdec.2)]
    case adam =>
      refine ⟨g0, ?_, trivial, trivial, trivial⟩
      have q := hat_ge n hb.1 hb.2 (g2 _ hb.1 hb.2)
      rw [mul_div_assoc] at q
      rw [mul_div_assoc c, mul_div_assoc (c ^ 2), ratio_scale hc (hat_ge n hb.1 hb.2 g1) q]
    case adamW =>
      refine ⟨g0, ?_, trivial, trivial, trivial⟩
      have q := hat_ge n hb.1 hb.2 (g2 _ hb.1 hb.2)
      rw [mul_div_assoc] at q
      rw [mul_div_assoc c, mul_div_assoc (c ^ 2), ratio_scale hc (hat_ge n hb.1 hb.2 g1) q]
    case amsgrad =>
      have emax : ∀ a b : ℝ, max (c ^ 2 * a) (c ^ 2 * b) = c ^ 2 * max a b := fun a b =>
        (mul_max_of_nonneg a b (by positivity)).symm
      refine ⟨g0, ?_, trivial, emax _ _, trivial⟩
      rw [emax, ratio_scale hc (le_max_of_le_left g1)]
      rw [← emax]
      exact le_max_of_le_left (g2 _ hb.1 hb.2)
    case nadam =>
      refine ⟨g0, ?_, trivial, trivial, trivial⟩
      have e : ∀ m : ℝ, h.b1 * (c * m) + (1 - h.b1) * (c * d n) / (1 - h.b1 ^ (n + 1)) =
          c * (h.b1 * m + (1 - h.b1) * d n / (1 - h.b1 ^ (n + 1))) := fun m => by ring
      rw [e, ratio_scale hc g1 (g2 _ hb.1 hb.2)]
    case adamax =>
      have emax : max (h.b2 * (c * (Coord.run Real.sqrt abs h .adamax w d n).v)) |c * d n| =
          c * max (h.b2 * (Coord.run Real.sqrt abs h .adamax w d n).v) |d n| := by
        rw [abs_mul, abs_of_pos hc, mul_left_comm, mul_max_of_nonneg _ _ hc.le]
      refine ⟨le_max_of_le_right (abs_nonneg _), ?_, trivial, trivial, emax⟩
      have q1 : (1e-8 : ℝ) ≤ max (h.b2 * (Coord.run Real.sqrt abs h .adamax w d n).v) |d n| :=
        le_max_of_le_right (le_trans (by norm_num) hn)
      have q2 : (1e-8 : ℝ) ≤ c * max (h.b2 * (Coord.run Real.sqrt abs h .adamax w d n).v) |d n| := by
        rw [← emax]
        exact le_max_of_le_right (le_trans (by norm_num) hn')
      rw [emax, max_eq_left q1, max_eq_left q2, mul_left_comm, mul_div_mul_left _ _ hc.ne']

end BeeDNN
