import Verif.Lemmas.Float32Acc

/-! # Rounding is to nearest, and where it overflows -/

namespace BeeDNN

theorem nearestEven_nearest (y : ℝ) (m : ℤ) : |(nearestEven y : ℝ) - y| ≤ |(m : ℝ) - y| := by
  have h := abs_nearestEven_sub y
  by_cases hm : m = nearestEven y
  · rw [hm]
  · have h1 : (1 : ℝ) ≤ |(m : ℝ) - nearestEven y| := by
      have : (1 : ℤ) ≤ |m - nearestEven y| := Int.one_le_abs (by omega)
      have h' : ((1 : ℤ) : ℝ) ≤ ((|m - nearestEven y| : ℤ) : ℝ) := Int.cast_le.2 this
      rw [Int.cast_abs] at h'
      push_cast at h'
      exact h'
    have h2 : |(m : ℝ) - nearestEven y| ≤ |(m : ℝ) - y| + |(nearestEven y : ℝ) - y| := by
      have : (m : ℝ) - nearestEven y = ((m : ℝ) - y) - (nearestEven y - y) := by ring
      rw [this]
      exact abs_sub _ _
    linarith

/-- Rounding is at least as near as any multiple of the last bit. -/
theorem rnd_nearest_mul (x : ℝ) {n e : ℤ} (h : lastBit x ≤ e) : |rnd x - x| ≤ |n * 2 ^ e - x| := by
  obtain ⟨k, hk⟩ := Int.le.dest h
  have hp := two_zpow_pos (lastBit x)
  have h2 : (2 : ℝ) ^ e = 2 ^ k * 2 ^ lastBit x := by
    rw [← hk, zpow_add₀ (by norm_num), zpow_natCast, mul_comm]
  have e1 : rnd x - x = (nearestEven (x / 2 ^ lastBit x) - x / 2 ^ lastBit x) * 2 ^ lastBit x := by
    unfold rnd
    rw [sub_mul, div_mul_cancel₀ _ hp.ne']
  have e2 : (n : ℝ) * 2 ^ e - x = (((n * 2 ^ k : ℤ) : ℝ) - x / 2 ^ lastBit x) * 2 ^ lastBit x := by
    rw [sub_mul, div_mul_cancel₀ _ hp.ne', h2]
    push_cast
    ring
  rw [e1, e2, abs_mul, abs_mul]
  exact mul_le_mul_of_nonneg_right (nearestEven_nearest _ _) (abs_nonneg _)

theorem rnd_nearest {x z : ℝ} (hz : Bits24 z) : |rnd x - x| ≤ |z - x| := by
  obtain ⟨n, e, h1, h2, h3⟩ := bits24_strict hz
  by_cases he : lastBit x ≤ e
  · rw [h3]; exact rnd_nearest_mul x he
  · by_cases h0 : x = 0
    · subst h0
      rw [rnd_zero]
      simp
    have hq : lastBit x = Int.log 2 |x| - 23 := by
      unfold lastBit at he ⊢
      rcases max_cases (Int.log 2 |x| - 23) (-149) with ⟨a, b⟩ | ⟨a, b⟩
      · exact a
      · rw [a] at he; omega
    have hzlt : |z| < (2 : ℝ) ^ Int.log 2 |x| := by
      have h4 : |z| < (2 : ℝ) ^ (24 + e) := by
        rw [h3, abs_mul, abs_of_pos (two_zpow_pos e), zpow_add₀ (by norm_num)]
        refine mul_lt_mul_of_pos_right ?_ (two_zpow_pos e)
        have : ((|n| : ℤ) : ℝ) < ((2 ^ 24 : ℤ) : ℝ) := Int.cast_lt.2 h1
        rw [Int.cast_abs] at this
        calc |(n : ℝ)| < ((2 ^ 24 : ℤ) : ℝ) := this
          _ = 2 ^ (24 : ℤ) := by norm_num
      exact h4.trans_le (zpow_le_zpow_two (by omega))
    have hxge := log_le h0
    have hl : lastBit x ≤ Int.log 2 |x| := by omega
    rcases lt_or_gt_of_ne h0 with hx | hx
    · have := rnd_nearest_mul x (n := -1) hl
      refine this.trans ?_
      rw [abs_of_neg hx] at hxge
      have h5 := (abs_lt.1 hzlt).1
      rw [abs_of_neg hx] at h5 ⊢
      push_cast
      rw [abs_of_nonneg (by linarith), abs_of_nonneg (by linarith)]
      linarith
    · have := rnd_nearest_mul x (n := 1) hl
      refine this.trans ?_
      rw [abs_of_pos hx] at hxge
      have h5 := (abs_lt.1 hzlt).2
      rw [abs_of_pos hx] at h5 ⊢
      push_cast
      rw [abs_of_nonpos (by linarith), abs_of_nonpos (by linarith)]
      linarith

theorem lastBit_top {x : ℝ} (h1 : (2 : ℝ) ^ 127 ≤ |x|) (h2 : |x| < 2 ^ 128) : lastBit x = 104 := by
  have hx : 0 < |x| := lt_of_lt_of_le (by norm_num) h1
  have hl : Int.log 2 |x| = 127 := by
    apply le_antisymm
    · have h3 := log_le (abs_pos.1 hx)
      have h4 : (2 : ℝ) ^ Int.log 2 |x| < 2 ^ (128 : ℤ) := by
        refine (h3.trans_lt h2).trans_eq ?_
        norm_cast
      have := (zpow_lt_zpow_iff_right₀ (by norm_num : (1 : ℝ) < 2)).1 h4
      omega
    · have h3 := lt_log x
      have h4 : (2 : ℝ) ^ (127 : ℤ) < 2 ^ (Int.log 2 |x| + 1) := by
        refine lt_of_le_of_lt ?_ h3
        refine le_trans (le_of_eq ?_) h1
        norm_cast
      have := (zpow_lt_zpow_iff_right₀ (by norm_num : (1 : ℝ) < 2)).1 h4
      omega
  unfold lastBit
  rw [hl]
  norm_num

theorem rnd_lt_top {x : ℝ} (h : |x| < 2 ^ 128 - 2 ^ 103) : |rnd x| < 2 ^ 128 := by
  rcases lt_or_ge |x| (2 ^ 127) with h1 | h1
  · have hb : Bits24 (2 ^ 127) := by
      have := bits_pow (e := 127) (by norm_num)
      rwa [show (2 : ℝ) ^ (127 : ℤ) = 2 ^ 127 by norm_cast] at this
    have h2 := abs_lt.1 h1
    have a := rnd_le hb h2.2.le
    have b := le_rnd hb.neg h2.1.le
    have : |rnd x| ≤ 2 ^ 127 := abs_le.2 ⟨b, a⟩
    refine this.trans_lt ?_
    norm_num
  · have hq := lastBit_top h1 (h.trans (by norm_num))
    have h2 := abs_rnd_sub_half x
    rw [hq, show (2 : ℝ) ^ (104 : ℤ) / 2 = 2 ^ 103 by rw [show (2 : ℝ) ^ (104 : ℤ) = 2 ^ 104 by norm_cast]; norm_num] at h2
    have h3 : |rnd x| ≤ |rnd x - x| + |x| := by
      have : rnd x = (rnd x - x) + x := by ring
      conv_lhs => rw [this]
      exact abs_add_le _ _
    linarith

theorem rnd_top : rnd (2 ^ 128 - 2 ^ 103) = 2 ^ 128 := by
  have hx : (0 : ℝ) < 2 ^ 128 - 2 ^ 103 := by norm_num
  have hq : lastBit (2 ^ 128 - 2 ^ 103) = 104 := by
    apply lastBit_top <;> rw [abs_of_pos hx] <;> norm_num
  unfold rnd
  rw [hq]
  have e1 : (2 : ℝ) ^ (104 : ℤ) = 2 ^ 104 := by norm_cast
  have e2 : ((2 : ℝ) ^ 128 - 2 ^ 103) / 2 ^ (104 : ℤ) = 16777215 + 1 / 2 := by rw [e1]; norm_num
  have hf : ⌊(16777215 + 1 / 2 : ℝ)⌋ = 16777215 := by
    rw [Int.floor_eq_iff]; norm_num
  have e3 : nearestEven (16777215 + 1 / 2) = 16777216 := by
    unfold nearestEven
    rw [hf, if_neg (by norm_num), if_neg (by norm_num), if_neg (by decide)]
    rfl
  rw [e2, e3, e1]
  norm_num

theorem le_abs_rnd_top {x : ℝ} (h : 2 ^ 128 - 2 ^ 103 ≤ |x|) : 2 ^ 128 ≤ |rnd x| := by
  rcases abs_choice x with hx | hx
  · rw [hx] at h
    have := rnd_mono h
    rw [rnd_top] at this
    exact this.trans (le_abs_self _)
  · rw [hx] at h
    have := rnd_mono h
    rw [rnd_top, rnd_neg] at this
    exact this.trans (neg_le_abs _)

/-- A number is finite after rounding exactly if it is below the overflow threshold. -/
theorem rnd_lt_iff (x : ℝ) : |rnd x| < 2 ^ 128 ↔ |x| < 2 ^ 128 - 2 ^ 103 :=
  ⟨fun h => lt_of_not_ge fun h' => absurd (le_abs_rnd_top h') (not_le.2 h), rnd_lt_top⟩

end BeeDNN
