import Verif.Model.Float32
import Mathlib.Tactic.Linarith
import Mathlib.Tactic.Positivity
import Mathlib.Tactic.NormNum
import Mathlib.Tactic.Ring
import Mathlib.Tactic.FieldSimp
import Mathlib.Tactic.Push
import Mathlib.Algebra.Order.Field.Power

/-! # Rounding to 24 bits: lemmas -/

namespace BeeDNN

/-! ## The nearest integer -/

theorem abs_nearestEven_sub (y : ℝ) : |(nearestEven y : ℝ) - y| ≤ 1 / 2 := by
  have h1 := Int.floor_le y
  have h2 := Int.lt_floor_add_one y
  unfold nearestEven
  rw [abs_le]
  split_ifs <;> push_cast <;> constructor <;> linarith

theorem nearestEven_intCast (n : ℤ) : nearestEven (n : ℝ) = n := by
  unfold nearestEven
  rw [Int.floor_intCast, if_pos (by norm_num)]

theorem floor_le_nearestEven (y : ℝ) : ⌊y⌋ ≤ nearestEven y := by
  unfold nearestEven
  split_ifs <;> omega

theorem nearestEven_le (y : ℝ) : nearestEven y ≤ ⌊y⌋ + 1 := by
  unfold nearestEven
  split_ifs <;> omega

theorem nearestEven_mono {y z : ℝ} (h : y ≤ z) : nearestEven y ≤ nearestEven z := by
  rcases lt_or_eq_of_le (Int.floor_mono h) with hf | hf
  · exact (nearestEven_le y).trans (le_trans (by omega) (floor_le_nearestEven z))
  · unfold nearestEven
    rw [hf]
    split_ifs <;> first | omega | (exfalso; linarith)

theorem nearestEven_neg (y : ℝ) : nearestEven (-y) = -nearestEven y := by
  by_cases hy : (⌊y⌋ : ℝ) = y
  · rw [← hy, ← Int.cast_neg, nearestEven_intCast, nearestEven_intCast]
  · have hlt : (⌊y⌋ : ℝ) < y := lt_of_le_of_ne (Int.floor_le y) hy
    have hlt2 := Int.lt_floor_add_one y
    have hf : ⌊-y⌋ = -⌊y⌋ - 1 := by
      rw [Int.floor_eq_iff]
      push_cast
      constructor <;> linarith
    have he : Even (-⌊y⌋ - 1) ↔ ¬ Even ⌊y⌋ := by
      rw [Int.even_sub_one, even_neg]
    unfold nearestEven
    rw [hf]
    push_cast
    simp only [he]
    split_ifs <;> first | omega | (exfalso; linarith)

/-! ## Rounding -/

theorem two_zpow_pos (e : ℤ) : (0 : ℝ) < 2 ^ e := zpow_pos (by norm_num) e

theorem lastBit_neg (x : ℝ) : lastBit (-x) = lastBit x := by unfold lastBit; rw [abs_neg]

theorem rnd_neg (x : ℝ) : rnd (-x) = -rnd x := by
  unfold rnd
  rw [lastBit_neg, neg_div, nearestEven_neg]
  push_cast
  ring

theorem rnd_zero : rnd 0 = 0 := by
  unfold rnd
  rw [zero_div]
  have : nearestEven 0 = 0 := by simpa using nearestEven_intCast 0
  rw [this]
  simp

theorem le_lastBit (x : ℝ) : -149 ≤ lastBit x := le_max_right _ _

theorem zpow_le_zpow_two {a b : ℤ} (h : a ≤ b) : (2 : ℝ) ^ a ≤ 2 ^ b :=
  zpow_le_zpow_right₀ (by norm_num) h

theorem log_le {x : ℝ} (h : x ≠ 0) : (2 : ℝ) ^ Int.log 2 |x| ≤ |x| := by
  have := Int.zpow_log_le_self (R := ℝ) (b := 2) (by norm_num) (abs_pos.2 h)
  simpa using this

theorem lt_log (x : ℝ) : |x| < (2 : ℝ) ^ (Int.log 2 |x| + 1) := by
  have := Int.lt_zpow_succ_log_self (R := ℝ) (b := 2) (by norm_num) |x|
  simpa using this

theorem zpow_sub_one_two (e : ℤ) : (2 : ℝ) ^ (e - 1) = 2 ^ e / 2 := by
  rw [zpow_sub₀ (by norm_num), zpow_one]

/-- The error of rounding is at most half of the last bit. -/
theorem abs_rnd_sub_half (x : ℝ) : |rnd x - x| ≤ 2 ^ lastBit x / 2 := by
  have hp := two_zpow_pos (lastBit x)
  have h := abs_nearestEven_sub (x / 2 ^ lastBit x)
  have : rnd x - x = (nearestEven (x / 2 ^ lastBit x) - x / 2 ^ lastBit x) * 2 ^ lastBit x := by
    unfold rnd
    rw [sub_mul, div_mul_cancel₀ _ hp.ne']
  rw [this, abs_mul, abs_of_pos hp]
  nlinarith

theorem lastBit_le (x : ℝ) : (2 : ℝ) ^ lastBit x ≤ |x| * 2 ^ (-23 : ℤ) ∨ (2 : ℝ) ^ lastBit x ≤ 2 ^ (-149 : ℤ) ∨ x = 0 := by
  by_cases hx : x = 0
  · exact .inr (.inr hx)
  rcases le_total (Int.log 2 |x| - 23) (-149) with h | h
  · right; left
    unfold lastBit
    rw [max_eq_right h]
  · left
    unfold lastBit
    rw [max_eq_left h, sub_eq_add_neg, zpow_add₀ (by norm_num)]
    exact mul_le_mul_of_nonneg_right (log_le hx) (two_zpow_pos _).le

/-- The error of rounding: relative `2^-24`, and absolute `2^-150` in the range of gradual underflow. -/
theorem abs_rnd_sub (x : ℝ) : |rnd x - x| ≤ |x| * 2 ^ (-24 : ℤ) + 2 ^ (-150 : ℤ) := by
  have h := abs_rnd_sub_half x
  have e1 : (2 : ℝ) ^ (-24 : ℤ) = 2 ^ (-23 : ℤ) / 2 := by rw [← zpow_sub_one_two]; norm_num
  have e2 : (2 : ℝ) ^ (-150 : ℤ) = 2 ^ (-149 : ℤ) / 2 := by rw [← zpow_sub_one_two]; norm_num
  have p1 := two_zpow_pos (-23)
  have p2 := two_zpow_pos (-149)
  have hx := abs_nonneg x
  have hl := lastBit_le x
  rw [e1, e2]
  generalize (2 : ℝ) ^ (-23 : ℤ) = u at *
  generalize (2 : ℝ) ^ (-149 : ℤ) = v at *
  rcases hl with h1 | h1 | h1
  · linarith
  · have := mul_nonneg hx p1.le
    linarith
  · subst h1
    rw [rnd_zero]
    simp only [sub_zero, abs_zero, zero_mul, zero_add]
    positivity

/-- Numbers with 24 significant bits and no bit below `2^-149`. -/
def Bits24 (x : ℝ) : Prop := ∃ n e : ℤ, |n| ≤ 2 ^ 24 ∧ -149 ≤ e ∧ x = n * 2 ^ e

theorem Bits24.neg {x : ℝ} (h : Bits24 x) : Bits24 (-x) := by
  obtain ⟨n, e, h1, h2, h3⟩ := h
  exact ⟨-n, e, by rwa [abs_neg], h2, by rw [h3]; push_cast; ring⟩

theorem bits24_strict {x : ℝ} (h : Bits24 x) : ∃ n e : ℤ, |n| < 2 ^ 24 ∧ -149 ≤ e ∧ x = n * 2 ^ e := by
  obtain ⟨n, e, h1, h2, h3⟩ := h
  rcases lt_or_eq_of_le h1 with h | h
  · exact ⟨n, e, h, h2, h3⟩
  · have key : ∀ s : ℤ, n = s * 2 ^ 24 → |s| = 1 → ∃ n e : ℤ, |n| < 2 ^ 24 ∧ -149 ≤ e ∧ x = n * 2 ^ e := by
      intro s hs hs1
      refine ⟨s * 2 ^ 23, e + 1, ?_, by omega, ?_⟩
      · rw [abs_mul, hs1]; norm_num
      · rw [h3, hs, zpow_add₀ (by norm_num)]
        push_cast
        ring
    rcases abs_choice n with hn | hn
    · exact key 1 (by omega) (by norm_num)
    · exact key (-1) (by omega) (by norm_num)

theorem lastBit_le_of {x : ℝ} {n e : ℤ} (hn : |n| < 2 ^ 24) (he : -149 ≤ e) (hx : x = n * 2 ^ e) (h0 : x ≠ 0) :
    lastBit x ≤ e := by
  unfold lastBit
  rw [max_le_iff]
  refine ⟨?_, he⟩
  have h1 := log_le h0
  have h2 : |x| < (2 : ℝ) ^ (24 + e) := by
    rw [hx, abs_mul, abs_of_pos (two_zpow_pos e), zpow_add₀ (by norm_num)]
    refine mul_lt_mul_of_pos_right ?_ (two_zpow_pos e)
    have : ((|n| : ℤ) : ℝ) < ((2 ^ 24 : ℤ) : ℝ) := Int.cast_lt.2 hn
    rw [Int.cast_abs] at this
    calc |(n : ℝ)| < ((2 ^ 24 : ℤ) : ℝ) := this
      _ = 2 ^ (24 : ℤ) := by norm_num
  have h3 := (zpow_lt_zpow_iff_right₀ (by norm_num : (1 : ℝ) < 2)).1 (h1.trans_lt h2)
  omega

/-- Multiples of a power of two that is at least the last bit are not changed by rounding. -/
theorem rnd_of_mul {x : ℝ} {n e : ℤ} (hq : lastBit x ≤ e) (hx : x = n * 2 ^ e) : rnd x = x := by
  obtain ⟨k, hk⟩ := Int.le.dest hq
  have hd : x / 2 ^ lastBit x = ((n * 2 ^ k : ℤ) : ℝ) := by
    have hp := (two_zpow_pos (lastBit x)).ne'
    have h2 : (2 : ℝ) ^ e = 2 ^ lastBit x * 2 ^ k := by rw [← hk, zpow_add₀ (by norm_num), zpow_natCast]
    rw [div_eq_iff hp]
    push_cast
    calc x = n * 2 ^ e := hx
      _ = _ := by rw [h2]; ring
  unfold rnd
  rw [hd, nearestEven_intCast, ← hd, div_mul_cancel₀ _ (two_zpow_pos _).ne']

theorem rnd_of_bits {x : ℝ} (h : Bits24 x) : rnd x = x := by
  obtain ⟨n, e, h1, h2, h3⟩ := bits24_strict h
  by_cases h0 : x = 0
  · rw [h0, rnd_zero]
  exact rnd_of_mul (lastBit_le_of h1 h2 h3 h0) h3

theorem abs_quot_lt (x : ℝ) : |x / 2 ^ lastBit x| < 2 ^ 24 := by
  have hp := two_zpow_pos (lastBit x)
  rw [abs_div, abs_of_pos hp, div_lt_iff₀ hp]
  have h1 := lt_log x
  have h2 : Int.log 2 |x| + 1 ≤ 24 + lastBit x := by
    have := le_max_left (Int.log 2 |x| - 23) (-149)
    unfold lastBit
    omega
  have h3 := zpow_le_zpow_two h2
  refine (h1.trans_le h3).trans_eq ?_
  rw [zpow_add₀ (by norm_num)]
  norm_num

theorem bits_rnd (x : ℝ) : Bits24 (rnd x) := by
  refine ⟨nearestEven (x / 2 ^ lastBit x), lastBit x, ?_, le_lastBit x, rfl⟩
  have h := abs_lt.1 (abs_quot_lt x)
  rw [abs_le]
  constructor
  · have := nearestEven_mono (y := ((-(2 ^ 24) : ℤ) : ℝ)) (z := x / 2 ^ lastBit x) (by push_cast; linarith)
    rwa [nearestEven_intCast] at this
  · have := nearestEven_mono (z := ((2 ^ 24 : ℤ) : ℝ)) (y := x / 2 ^ lastBit x) (by push_cast; linarith)
    rwa [nearestEven_intCast] at this

theorem rnd_nonneg {x : ℝ} (h : 0 ≤ x) : 0 ≤ rnd x := by
  unfold rnd
  refine mul_nonneg ?_ (two_zpow_pos _).le
  have := nearestEven_mono (y := ((0 : ℤ) : ℝ)) (z := x / 2 ^ lastBit x)
    (by push_cast; exact div_nonneg h (two_zpow_pos _).le)
  rw [nearestEven_intCast] at this
  exact_mod_cast this

theorem rnd_mono_nonneg {x y : ℝ} (hx : 0 ≤ x) (h : x ≤ y) : rnd x ≤ rnd y := by
  have hy := hx.trans h
  rcases hx.eq_or_lt with h0 | h0
  · rw [← h0, rnd_zero]; exact rnd_nonneg hy
  have hy0 : 0 < y := h0.trans_le h
  by_cases hq : lastBit x = lastBit y
  · unfold rnd
    rw [hq]
    refine mul_le_mul_of_nonneg_right ?_ (two_zpow_pos _).le
    exact_mod_cast nearestEven_mono (div_le_div_of_nonneg_right h (two_zpow_pos _).le)
  · have hl : Int.log 2 |x| ≤ Int.log 2 |y| := by
      rw [abs_of_pos h0, abs_of_pos hy0]
      exact Int.log_mono_right h0 h
    have hlt : Int.log 2 |x| < Int.log 2 |y| ∧ lastBit y = Int.log 2 |y| - 23 ∧ lastBit x + 1 ≤ lastBit y := by
      unfold lastBit at hq ⊢
      rcases max_cases (Int.log 2 |x| - 23) (-149) with ⟨a, b⟩ | ⟨a, b⟩ <;>
        rcases max_cases (Int.log 2 |y| - 23) (-149) with ⟨c, d⟩ | ⟨c, d⟩ <;> rw [a, c] at hq ⊢ <;>
        refine ⟨by omega, by omega, by omega⟩
    obtain ⟨h1, h2, h3⟩ := hlt
    have hp : (2 : ℝ) ^ Int.log 2 |y| = 2 ^ 23 * 2 ^ lastBit y := by
      have : Int.log 2 |y| = 23 + lastBit y := by omega
      rw [this, zpow_add₀ (by norm_num)]
      norm_num
    have hlow : (2 : ℝ) ^ Int.log 2 |y| ≤ rnd y := by
      rw [hp]
      unfold rnd
      refine mul_le_mul_of_nonneg_right ?_ (two_zpow_pos _).le
      have hge : (2 : ℝ) ^ 23 ≤ y / 2 ^ lastBit y := by
        rw [le_div_iff₀ (two_zpow_pos _), ← hp]
        have := log_le hy0.ne'
        rwa [abs_of_pos hy0] at this ⊢
      have := nearestEven_mono (y := ((2 ^ 23 : ℤ) : ℝ)) (z := y / 2 ^ lastBit y) (by push_cast; linarith)
      rw [nearestEven_intCast] at this
      have h' : (((2 : ℤ) ^ 23 : ℤ) : ℝ) ≤ (nearestEven (y / 2 ^ lastBit y) : ℝ) := Int.cast_le.2 this
      norm_num at h' ⊢
      exact h'
    have hup : rnd x ≤ 2 ^ 24 * 2 ^ lastBit x := by
      unfold rnd
      refine mul_le_mul_of_nonneg_right ?_ (two_zpow_pos _).le
      have h4 := abs_lt.1 (abs_quot_lt x)
      have := nearestEven_mono (z := ((2 ^ 24 : ℤ) : ℝ)) (y := x / 2 ^ lastBit x) (by push_cast; linarith)
      rw [nearestEven_intCast] at this
      have h' : (nearestEven (x / 2 ^ lastBit x) : ℝ) ≤ (((2 : ℤ) ^ 24 : ℤ) : ℝ) := Int.cast_le.2 this
      norm_num at h' ⊢
      exact h'
    have hle := zpow_le_zpow_two h3
    rw [zpow_add₀ (by norm_num), zpow_one] at hle
    rw [hp] at hlow
    linarith

/-- Rounding keeps the order. -/
theorem rnd_mono {x y : ℝ} (h : x ≤ y) : rnd x ≤ rnd y := by
  rcases le_total 0 x with h0 | h0
  · exact rnd_mono_nonneg h0 h
  · rcases le_total 0 y with h1 | h1
    · have := rnd_nonneg (x := -x) (by linarith)
      rw [rnd_neg] at this
      have := rnd_nonneg h1
      linarith
    · have := rnd_mono_nonneg (x := -y) (y := -x) (by linarith) (by linarith)
      rw [rnd_neg, rnd_neg] at this
      linarith

theorem rnd_le {x a : ℝ} (ha : Bits24 a) (h : x ≤ a) : rnd x ≤ a := by
  rw [← rnd_of_bits ha]; exact rnd_mono h

theorem le_rnd {x a : ℝ} (ha : Bits24 a) (h : a ≤ x) : a ≤ rnd x := by
  rw [← rnd_of_bits ha]; exact rnd_mono h

theorem bits_zero : Bits24 0 := ⟨0, 0, by norm_num, by norm_num, by norm_num⟩

theorem bits_int {n : ℤ} (h : |n| ≤ 2 ^ 24) : Bits24 (n : ℝ) := ⟨n, 0, h, by norm_num, by simp⟩

theorem bits_nat {n : ℕ} (h : n ≤ 2 ^ 24) : Bits24 (n : ℝ) := by
  have := bits_int (n := (n : ℤ)) (by rw [Nat.abs_cast]; exact_mod_cast h)
  simpa using this

theorem bits_one : Bits24 1 := by simpa using bits_nat (n := 1) (by norm_num)

theorem bits_pow {e : ℤ} (h : -149 ≤ e) : Bits24 (2 ^ e) := ⟨1, e, by norm_num, h, by simp⟩

theorem bits_multiple {x : ℝ} (h : Bits24 x) : ∃ n : ℤ, x = n * 2 ^ (-149 : ℤ) := by
  obtain ⟨n, e, _, he, hx⟩ := h
  obtain ⟨k, hk⟩ := Int.le.dest he
  refine ⟨n * 2 ^ k, ?_⟩
  rw [hx, ← hk, zpow_add₀ (by norm_num), zpow_natCast]
  push_cast
  ring

/-- A sum never underflows: its error is relative. -/
theorem abs_rnd_add_sub {x y : ℝ} (hx : Bits24 x) (hy : Bits24 y) :
    |rnd (x + y) - (x + y)| ≤ |x + y| * 2 ^ (-24 : ℤ) := by
  have hz : 0 ≤ |x + y| * 2 ^ (-24 : ℤ) := mul_nonneg (abs_nonneg _) (two_zpow_pos _).le
  by_cases h0 : x + y = 0
  · rw [h0, rnd_zero, sub_zero, abs_zero, zero_mul]
  rcases le_total (Int.log 2 |x + y| - 23) (-149) with h | h
  · obtain ⟨a, ha⟩ := bits_multiple hx
    obtain ⟨b, hb⟩ := bits_multiple hy
    have : rnd (x + y) = x + y := by
      apply rnd_of_mul (n := a + b) (e := -149)
      · unfold lastBit
        rw [max_eq_right h]
      · rw [ha, hb]; push_cast; ring
    rw [this, sub_self, abs_zero]
    exact hz
  · have e1 : (2 : ℝ) ^ (-24 : ℤ) = 2 ^ (-23 : ℤ) / 2 := by rw [← zpow_sub_one_two]; norm_num
    have h1 := abs_rnd_sub_half (x + y)
    have h2 : (2 : ℝ) ^ lastBit (x + y) ≤ |x + y| * 2 ^ (-23 : ℤ) := by
      unfold lastBit
      rw [max_eq_left h, sub_eq_add_neg, zpow_add₀ (by norm_num)]
      exact mul_le_mul_of_nonneg_right (log_le h0) (two_zpow_pos _).le
    rw [e1]
    generalize (2 : ℝ) ^ (-23 : ℤ) = u at *
    linarith

end BeeDNN
