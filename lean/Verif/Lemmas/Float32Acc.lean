import Verif.Lemmas.Float32
import Verif.Spec.Float32
import Verif.Model.Core
import Mathlib.Algebra.BigOperators.Group.Finset.Basic
import Mathlib.Algebra.Order.BigOperators.Group.Finset

/-! # Sums and products of `float` -/

namespace BeeDNN

open Finset

theorem F32.fin_add (x y : ℝ) : (F32.fin x + F32.fin y : F32) = F32.round (x + y) := rfl
theorem F32.fin_sub (x y : ℝ) : (F32.fin x - F32.fin y : F32) = F32.round (x - y) := by
  rw [sub_eq_add_neg]; rfl
theorem F32.fin_mul (x y : ℝ) : (F32.fin x * F32.fin y : F32) = F32.round (x * y) := rfl
theorem F32.fin_div {x y : ℝ} (h : y ≠ 0) : (F32.fin x / F32.fin y : F32) = F32.round (x / y) := if_neg h
theorem F32.zero_def : (0 : F32) = F32.fin 0 := rfl
theorem F32.one_def : (1 : F32) = F32.fin 1 := rfl
theorem F32.nat_def (n : ℕ) : (n : F32) = F32.round n := rfl
theorem F32.fin_lt (x y : ℝ) : (F32.fin x < F32.fin y) ↔ x < y := Iff.rfl

theorem F32.round_fin {x : ℝ} (h : |rnd x| < 2 ^ 128) : F32.round x = .fin (rnd x) := if_pos h

theorem F32.round_bits {x : ℝ} (hb : Bits24 x) (h : |x| < 2 ^ 128) : F32.round x = .fin x := by
  have := rnd_of_bits hb
  rw [F32.round_fin (by rwa [this]), this]

theorem F32.nat_fin {n : ℕ} (h : n ≤ 2 ^ 24) : (n : F32) = .fin n := by
  rw [F32.nat_def, F32.round_bits (bits_nat h)]
  rw [Nat.abs_cast]
  have : (n : ℝ) ≤ ((2 ^ 24 : ℕ) : ℝ) := Nat.cast_le.2 h
  push_cast at this
  linarith

theorem IsFloat.bits {x : ℝ} (h : IsFloat x) : Bits24 x := by
  obtain ⟨n, e, h1, h2, _, h3⟩ := h
  exact ⟨n, e, h1.le, h2, h3⟩

theorem IsFloat.lt {x : ℝ} (h : IsFloat x) : |x| < 2 ^ 128 := by
  obtain ⟨n, e, h1, _, h2, h3⟩ := h
  rw [h3, abs_mul, abs_of_pos (two_zpow_pos e)]
  have hn : ((|n| : ℤ) : ℝ) < ((2 ^ 24 : ℤ) : ℝ) := Int.cast_lt.2 h1
  rw [Int.cast_abs] at hn
  have he := zpow_le_zpow_two h2
  have e1 : (2 : ℝ) ^ (104 : ℤ) = 2 ^ 104 := by norm_cast
  calc |(n : ℝ)| * 2 ^ e ≤ |(n : ℝ)| * 2 ^ (104 : ℤ) := mul_le_mul_of_nonneg_left he (abs_nonneg _)
    _ < ((2 ^ 24 : ℤ) : ℝ) * 2 ^ (104 : ℤ) := mul_lt_mul_of_pos_right hn (two_zpow_pos _)
    _ = 2 ^ 128 := by rw [e1]; norm_num

theorem isFloat_of_bits {x : ℝ} (h : Bits24 x) (hx : |x| < 2 ^ 128) : IsFloat x := by
  obtain ⟨n, e, h1, h2, h3⟩ := bits24_strict h
  rcases le_or_gt e 104 with he | he
  · exact ⟨n, e, h1, h2, he, h3⟩
  · obtain ⟨k, hk⟩ := Int.le.dest he.le
    have hx' : x = ((n * 2 ^ k : ℤ) : ℝ) * 2 ^ (104 : ℤ) := by
      rw [h3, ← hk, zpow_add₀ (by norm_num), zpow_natCast]
      push_cast
      ring
    refine ⟨n * 2 ^ k, 104, ?_, by norm_num, le_refl _, hx'⟩
    rw [hx', abs_mul, abs_of_pos (two_zpow_pos _)] at hx
    have e1 : (2 : ℝ) ^ 128 = 2 ^ 24 * 2 ^ (104 : ℤ) := by
      rw [show (2 : ℝ) ^ (104 : ℤ) = 2 ^ 104 by norm_cast]; norm_num
    rw [e1] at hx
    have := lt_of_mul_lt_mul_right hx (two_zpow_pos _).le
    rw [← Int.cast_abs] at this
    have h' : ((|n * 2 ^ k| : ℤ) : ℝ) < ((2 ^ 24 : ℤ) : ℝ) := by push_cast at this ⊢; linarith
    exact_mod_cast h'

theorem isFloat_iff {x : ℝ} : IsFloat x ↔ Bits24 x ∧ |x| < 2 ^ 128 :=
  ⟨fun h => ⟨h.bits, h.lt⟩, fun h => isFloat_of_bits h.1 h.2⟩

/-- Unit roundoff. -/
noncomputable def uro : ℝ := 2 ^ (-24 : ℤ)
/-- Half of the smallest positive number. -/
noncomputable def tny : ℝ := 2 ^ (-150 : ℤ)

theorem uro_pos : 0 < uro := two_zpow_pos _
theorem tny_pos : 0 < tny := two_zpow_pos _
theorem uro_eq : uro = 1 / 16777216 := by unfold uro; norm_num

theorem abs_rnd_sub' (x : ℝ) : |rnd x - x| ≤ |x| * uro + tny := abs_rnd_sub x
theorem abs_rnd_add' {x y : ℝ} (hx : Bits24 x) (hy : Bits24 y) : |rnd (x + y) - (x + y)| ≤ |x + y| * uro :=
  abs_rnd_add_sub hx hy

theorem one_le_pow_uro (k : ℕ) : 1 ≤ (1 + uro) ^ k := one_le_pow₀ (by linarith [uro_pos])

theorem pow_uro_le (k : ℕ) (h : k ≤ 2 ^ 23) : (1 + uro) ^ k ≤ 1 + k * (2 * uro) := by
  induction k with
  | zero => simp
  | succ k ih =>
    have h1 := ih (by omega)
    have hk : (k : ℝ) * (2 * uro) ≤ 1 := by
      have : (k : ℝ) ≤ ((2 ^ 23 : ℕ) : ℝ) := Nat.cast_le.2 (by omega)
      rw [uro_eq]
      push_cast at this
      linarith
    have hu := uro_pos
    rw [pow_succ]
    push_cast
    nlinarith

/-- One rounded addition: `s` is off by `E`, the summand by `D`. -/
theorem acc_step {s t x p E D : ℝ} (hs : Bits24 s) (ht : Bits24 t) (h1 : |s - x| ≤ E) (h2 : |t - p| ≤ D) :
    |rnd (s + t) - (x + p)| ≤ (1 + uro) * (E + D) + uro * (|x| + |p|) := by
  have h := abs_rnd_add' hs ht
  have hu := uro_pos
  have h3 : |s + t - (x + p)| ≤ E + D := by
    have : s + t - (x + p) = (s - x) + (t - p) := by ring
    rw [this]
    exact (abs_add_le _ _).trans (add_le_add h1 h2)
  have h4 : |s + t| ≤ |x| + |p| + (E + D) := by
    have : s + t = (x + p) + (s + t - (x + p)) := by ring
    rw [this]
    exact (abs_add_le _ _).trans (add_le_add (abs_add_le _ _) h3)
  have h5 : |rnd (s + t) - (x + p)| ≤ |rnd (s + t) - (s + t)| + |s + t - (x + p)| := by
    have : rnd (s + t) - (x + p) = (rnd (s + t) - (s + t)) + (s + t - (x + p)) := by ring
    rw [this]
    exact abs_add_le _ _
  nlinarith

/-- Summation of `K` numbers `τ k`, each an approximation of `p k`. -/
theorem acc_float (p τ : ℕ → ℝ) (c d : ℝ) (hc0 : 0 ≤ c) (hc : c ≤ uro) (hd : 0 ≤ d) (K : ℕ)
    (hb : ∀ k, k < K → Bits24 (τ k)) (hp : ∀ k, k < K → |τ k - p k| ≤ c * |p k| + d)
    (hfit : (1 + uro) ^ K * (∑ k ∈ range K, |p k| + K * d) < 2 ^ 128) :
    ∃ s, accN K (fun k => F32.fin (τ k)) = .fin s ∧ Bits24 s ∧
      |s - ∑ k ∈ range K, p k| ≤ ((1 + uro) ^ K - 1) * ∑ k ∈ range K, |p k| + (1 + uro) ^ K * (K * d) := by
  induction K with
  | zero => exact ⟨0, rfl, bits_zero, by simp⟩
  | succ K ih =>
    have hu := uro_pos
    have hS : 0 ≤ ∑ k ∈ range K, |p k| := sum_nonneg fun _ _ => abs_nonneg _
    have hpK := abs_nonneg (p K)
    have hKd : 0 ≤ (K : ℝ) * d := mul_nonneg (Nat.cast_nonneg _) hd
    have hP := one_le_pow_uro K
    obtain ⟨s, h1, h2, h3⟩ := ih (fun k hk => hb k (by omega)) (fun k hk => hp k (by omega)) (by
      refine lt_of_le_of_lt ?_ hfit
      rw [sum_range_succ, pow_succ]
      push_cast
      have : (∑ k ∈ range K, |p k| + K * d) ≤ (1 + uro) * (∑ k ∈ range K, |p k| + |p K| + (K + 1) * d) := by
        nlinarith
      rw [mul_assoc]
      exact mul_le_mul_of_nonneg_left this (by linarith))
    have hsum : |∑ k ∈ range K, p k| ≤ ∑ k ∈ range K, |p k| := abs_sum_le_sum_abs _ _
    -- the error
    have herr : |rnd (s + τ K) - ∑ k ∈ range (K + 1), p k| ≤
        ((1 + uro) ^ (K + 1) - 1) * ∑ k ∈ range (K + 1), |p k| + (1 + uro) ^ (K + 1) * ((K + 1 : ℕ) * d) := by
      rcases Nat.eq_zero_or_pos K with h0 | h0
      · subst h0
        have : s = 0 := by
          have : accN 0 (fun k => F32.fin (τ k)) = F32.fin 0 := rfl
          rw [this] at h1
          exact (F32.fin.inj h1).symm
        subst this
        rw [zero_add, rnd_of_bits (hb 0 (by omega))]
        have := hp 0 (by omega)
        simp only [zero_add, range_one, sum_singleton, pow_one, Nat.cast_one, one_mul] at *
        have hp0 := abs_nonneg (p 0)
        nlinarith
      · have hst := acc_step h2 (hb K (by omega)) h3 (hp K (by omega))
        rw [sum_range_succ, sum_range_succ]
        refine hst.trans ?_
        have hsq : (1 + uro) ≤ (1 + uro) ^ K := by
          calc (1 + uro) = (1 + uro) ^ 1 := (pow_one _).symm
            _ ≤ _ := pow_le_pow_right₀ (by linarith) h0
        rw [pow_succ]
        push_cast
        generalize (1 + uro) ^ K = P at *
        generalize (∑ k ∈ range K, |p k|) = S at *
        generalize |∑ k ∈ range K, p k| = T at *
        have a1 : (1 + uro) * (c * |p K|) + uro * |p K| ≤ (P * (1 + uro) - 1) * |p K| := by
          have : (1 + uro) * c + uro ≤ P * (1 + uro) - 1 := by nlinarith
          nlinarith
        have a2 : uro * T ≤ uro * S := mul_le_mul_of_nonneg_left hsum hu.le
        have a3 : (1 + uro) * d ≤ P * (1 + uro) * d := by nlinarith [mul_nonneg (by linarith : (0 : ℝ) ≤ 1 + uro) hd]
        nlinarith
    refine ⟨rnd (s + τ K), ?_, bits_rnd _, herr⟩
    have : accN (K + 1) (fun k => F32.fin (τ k)) = accN K (fun k => F32.fin (τ k)) + F32.fin (τ K) := rfl
    rw [this, h1, F32.fin_add]
    refine F32.round_fin (lt_of_le_of_lt ?_ hfit)
    have h4 : |rnd (s + τ K)| ≤ |rnd (s + τ K) - ∑ k ∈ range (K + 1), p k| + ∑ k ∈ range (K + 1), |p k| := by
      have : rnd (s + τ K) = (rnd (s + τ K) - ∑ k ∈ range (K + 1), p k) + ∑ k ∈ range (K + 1), p k := by ring
      conv_lhs => rw [this]
      exact (abs_add_le _ _).trans (add_le_add le_rfl (abs_sum_le_sum_abs _ _))
    linarith

/-- Products. -/
theorem prod_float (a b : ℝ) : |rnd (a * b) - a * b| ≤ uro * |a * b| + tny := by
  have := abs_rnd_sub' (a * b)
  linarith

theorem abs_rnd_le (x : ℝ) : |rnd x| ≤ (1 + uro) * |x| + tny := by
  have h := abs_rnd_sub' x
  have : rnd x = (rnd x - x) + x := by ring
  have h2 : |rnd x| ≤ |rnd x - x| + |x| := by
    conv_lhs => rw [this]
    exact abs_add_le _ _
  linarith

/-- The scalar product of two vectors. -/
theorem dot_float (a b : ℕ → ℝ) (K : ℕ)
    (hfit : (1 + uro) ^ K * (∑ k ∈ range K, |a k * b k| + K * tny) < 2 ^ 128) :
    ∃ s, accN K (fun k => F32.fin (a k) * F32.fin (b k)) = .fin s ∧ Bits24 s ∧
      |s - ∑ k ∈ range K, a k * b k| ≤
        ((1 + uro) ^ K - 1) * ∑ k ∈ range K, |a k * b k| + (1 + uro) ^ K * (K * tny) := by
  obtain ⟨s, h1, h2, h3⟩ := acc_float (fun k => a k * b k) (fun k => rnd (a k * b k)) uro tny uro_pos.le le_rfl
    tny_pos.le K (fun k _ => bits_rnd _) (fun k _ => prod_float _ _) hfit
  refine ⟨s, ?_, h2, h3⟩
  rw [← h1]
  have : ∀ n, n ≤ K → accN n (fun k => F32.fin (a k) * F32.fin (b k)) = accN n (fun k => F32.fin (rnd (a k * b k))) := by
    intro n
    induction n with
    | zero => intro _; rfl
    | succ n ih =>
      intro hn
      show accN n _ + F32.fin (a n) * F32.fin (b n) = accN n _ + F32.fin (rnd (a n * b n))
      rw [ih (by omega), F32.fin_mul, F32.round_fin]
      refine lt_of_le_of_lt (abs_rnd_le _) (lt_of_le_of_lt ?_ hfit)
      have m1 : |a n * b n| ≤ ∑ k ∈ range K, |a k * b k| :=
        single_le_sum (f := fun k => |a k * b k|) (fun _ _ => abs_nonneg _) (mem_range.2 (by omega))
      have m2 : (1 + uro) ≤ (1 + uro) ^ K := by
        calc (1 + uro) = (1 + uro) ^ 1 := (pow_one _).symm
          _ ≤ _ := pow_le_pow_right₀ (by linarith [uro_pos]) (by omega)
      have m3 : tny ≤ K * tny := by
        have : (1 : ℝ) ≤ K := by exact_mod_cast (by omega : 1 ≤ K)
        nlinarith [tny_pos]
      have m4 := abs_nonneg (a n * b n)
      have m5 := tny_pos
      have m6 := uro_pos
      have m7 : (1 + uro) * (|a n * b n| + tny) ≤ (1 + uro) ^ K * (∑ k ∈ range K, |a k * b k| + K * tny) :=
        mul_le_mul m2 (add_le_add m1 m3) (by positivity) (by positivity)
      nlinarith
  exact this K le_rfl

theorem acc_fit {S : ℝ} {K : ℕ} (h0 : 0 ≤ S) (hK : K ≤ 2 ^ 23) (hS : S ≤ 2 ^ 126) :
    (1 + uro) ^ K * (S + K * tny) < 2 ^ 128 := by
  have h1 := pow_uro_le K hK
  have hKr : (K : ℝ) ≤ 8388608 := by
    have : (K : ℝ) ≤ ((2 ^ 23 : ℕ) : ℝ) := Nat.cast_le.2 hK
    push_cast at this
    linarith
  have hK0 : (0 : ℝ) ≤ K := Nat.cast_nonneg _
  have h2 : (1 + uro) ^ K ≤ 2 := by rw [uro_eq] at h1 ⊢; linarith
  have h3 : tny ≤ 1 / 8388608 := by unfold tny; norm_num
  have h4 : (K : ℝ) * tny ≤ 1 := by
    have : (K : ℝ) * tny ≤ 8388608 * (1 / 8388608) := mul_le_mul hKr h3 tny_pos.le (by norm_num)
    linarith
  have h5 : 0 ≤ (K : ℝ) * tny := mul_nonneg hK0 tny_pos.le
  have h6 : (1 + uro) ^ K * (S + K * tny) ≤ 2 * (2 ^ 126 + 1) := mul_le_mul h2 (by linarith) (by linarith) (by norm_num)
  exact lt_of_le_of_lt h6 (by norm_num)

theorem two_uro : (2 : ℝ) ^ (-23 : ℤ) = 2 * uro := by unfold uro; norm_num
theorem two_tny : (2 : ℝ) ^ (-149 : ℤ) = 2 * tny := by unfold tny; norm_num

/-- The error with numbers. -/
theorem acc_bound {S d : ℝ} {K : ℕ} (h0 : 0 ≤ S) (hd : 0 ≤ d) (hK : K ≤ 2 ^ 23) :
    ((1 + uro) ^ K - 1) * S + (1 + uro) ^ K * d ≤ K * 2 ^ (-23 : ℤ) * S + 2 * d := by
  have h1 := pow_uro_le K hK
  have hKr : (K : ℝ) ≤ 8388608 := by
    have : (K : ℝ) ≤ ((2 ^ 23 : ℕ) : ℝ) := Nat.cast_le.2 hK
    push_cast at this
    linarith
  have h2 : (1 + uro) ^ K ≤ 2 := by rw [uro_eq] at h1 ⊢; linarith
  rw [two_uro]
  exact add_le_add (mul_le_mul_of_nonneg_right (by linarith) h0) (mul_le_mul_of_nonneg_right h2 hd)

/-- A rounded multiple of a computed sum: `s` approximates `x`, `t` approximates `c ≥ 0`. -/
theorem scaled_float {s x t c S D P : ℝ} (hc : 0 ≤ c) (hD : 0 ≤ D) (hx : |x| ≤ S) (hP : 1 ≤ P)
    (h1 : |s - x| ≤ (P - 1) * S + P * D) (h2 : |t - c| ≤ uro * c) :
    |rnd (s * t) - x * c| ≤ (P * (1 + uro) ^ 2 - 1) * (S * c) + P * (1 + uro) ^ 2 * (D * c) + tny := by
  have hu := uro_pos
  have hS := (abs_nonneg x).trans hx
  have h := abs_rnd_sub' (s * t)
  have ht : |t| ≤ (1 + uro) * c := by
    have : t = (t - c) + c := by ring
    rw [this]
    refine (abs_add_le _ _).trans ?_
    rw [abs_of_nonneg hc]
    linarith
  have hs : |s| ≤ P * (S + D) := by
    have : s = (s - x) + x := by ring
    rw [this]
    refine (abs_add_le _ _).trans ?_
    linarith
  have hst : |s * t| ≤ P * (S + D) * ((1 + uro) * c) := by
    rw [abs_mul]
    exact mul_le_mul hs ht (abs_nonneg _) (by positivity)
  have hd : |s * t - x * c| ≤ ((P - 1) * S + P * D) * ((1 + uro) * c) + S * (uro * c) := by
    have : s * t - x * c = (s - x) * t + x * (t - c) := by ring
    rw [this]
    refine (abs_add_le _ _).trans ?_
    rw [abs_mul, abs_mul]
    refine add_le_add (mul_le_mul h1 ht (abs_nonneg _) ?_) (mul_le_mul hx h2 (abs_nonneg _) hS)
    have : 0 ≤ P - 1 := by linarith
    positivity
  have h5 : |rnd (s * t) - x * c| ≤ |rnd (s * t) - s * t| + |s * t - x * c| := by
    have : rnd (s * t) - x * c = (rnd (s * t) - s * t) + (s * t - x * c) := by ring
    rw [this]
    exact abs_add_le _ _
  have h6 : |s * t| * uro ≤ P * (S + D) * ((1 + uro) * c) * uro := mul_le_mul_of_nonneg_right hst hu.le
  have h7 : P * (S + D) * ((1 + uro) * c) * uro + (((P - 1) * S + P * D) * ((1 + uro) * c) + S * (uro * c)) =
      (P * (1 + uro) ^ 2 - 1) * (S * c) + P * (1 + uro) ^ 2 * (D * c) := by ring
  linarith

/-- The inverse of a counter. -/
theorem inv_float {N : ℕ} (h0 : 0 < N) (hN : N ≤ 2 ^ 24) : |rnd (1 / N) - 1 / N| ≤ uro * (1 / N) := by
  have hp : (0 : ℝ) < 1 / N := by positivity
  have hge : (2 : ℝ) ^ (-24 : ℤ) ≤ |1 / (N : ℝ)| := by
    rw [abs_of_pos hp, le_div_iff₀ (by positivity)]
    have : (N : ℝ) ≤ ((2 ^ 24 : ℕ) : ℝ) := Nat.cast_le.2 hN
    push_cast at this
    have h2 : (2 : ℝ) ^ (-24 : ℤ) * N ≤ 2 ^ (-24 : ℤ) * 2 ^ 24 := mul_le_mul_of_nonneg_left (by linarith) (two_zpow_pos _).le
    refine h2.trans_eq ?_
    norm_num
  have h := abs_rnd_sub_half (1 / (N : ℝ))
  have hlog : -24 ≤ Int.log 2 |1 / (N : ℝ)| := by
    have h3 := hge.trans_lt (lt_log (1 / (N : ℝ)))
    have := (zpow_lt_zpow_iff_right₀ (by norm_num : (1 : ℝ) < 2)).1 h3
    omega
  have hq : lastBit (1 / (N : ℝ)) = Int.log 2 |1 / (N : ℝ)| + -23 := by
    unfold lastBit
    rw [max_eq_left (by omega)]
    rfl
  have h4 := log_le hp.ne'
  rw [hq, zpow_add₀ (by norm_num), show (2 : ℝ) ^ (-23 : ℤ) = 2 * uro from two_uro] at h
  rw [abs_of_pos hp] at h4 h
  have hu := uro_pos
  refine h.trans ?_
  have : (2 : ℝ) ^ Int.log 2 (1 / (N : ℝ)) * (2 * uro) / 2 = uro * 2 ^ Int.log 2 (1 / (N : ℝ)) := by ring
  rw [this]
  exact mul_le_mul_of_nonneg_left h4 hu.le

end BeeDNN
