import Verif.Lemmas.Float32Softmax
import Verif.Model.LayersBasic
import Verif.Props.LayersBasic
import Verif.Props.Matrix

/-!
# Floating point arithmetic (C99, C100, C101)

`F32` is the type of `float`; a matrix of finite floats is written `Mat.ofFn R C (fun i j => .fin (A i j))`.
-/

namespace BeeDNN
open Finset

/-! ## C99: products, sums and layers -/

/-- C99: below the overflow threshold the result of an operation is a float, and no float is nearer to the exact
result. -/
theorem C99_nearest (x : ℝ) (h : |x| < 2 ^ 128 - 2 ^ 103) :
    ∃ y, F32.round x = .fin y ∧ IsFloat y ∧ ∀ z, IsFloat z → |y - x| ≤ |z - x| := by
  have hr := rnd_lt_top h
  exact ⟨rnd x, F32.round_fin hr, isFloat_of_bits (bits_rnd x) hr, fun z hz => rnd_nearest hz.bits⟩

/-- C99: above it is an infinity. -/
theorem C99_overflow (x : ℝ) (h : 2 ^ 128 - 2 ^ 103 ≤ |x|) : F32.round x = .inf (decide (x < 0)) := by
  unfold F32.round
  rw [if_neg (not_lt.2 (le_abs_rnd_top h))]

/-- C99: a result that is a float is exact. -/
theorem C99_exact (x : ℝ) (h : IsFloat x) : F32.round x = .fin x := F32.round_bits h.bits h.lt

theorem choose_mat {P : ℕ → ℕ → ℝ → Prop} {n q : ℕ} (h : ∀ i j, i < n → j < q → ∃ c, P i j c) :
    ∃ C : ℕ → ℕ → ℝ, ∀ i j, i < n → j < q → P i j (C i j) := by
  classical
  refine ⟨fun i j => if h' : ∃ c, P i j c then h'.choose else 0, ?_⟩
  intro i j hi hj
  have := h i j hi hj
  simp only [this, dite_true]
  exact this.choose_spec

/-- C99: the matrix product.  If the terms of every scalar product add up to at most `2^126` in absolute value,
then nothing overflows, and every coefficient is within `p·2^-23` of the sum of the absolute values of its terms (and
`p·2^-149` for underflow). -/
theorem C99_mul (g : Nat → F32) (n p q : Nat) (A B : Nat → Nat → ℝ) (hp : p ≤ 2 ^ 23)
    (hfit : ∀ i j, i < n → j < q → ∑ k ∈ range p, |A i k * B k j| ≤ 2 ^ 126) :
    ∃ C : Nat → Nat → ℝ,
      Mat.mul g (Mat.ofFn n p (fun i j => .fin (A i j))) (Mat.ofFn p q (fun i j => .fin (B i j))) =
        .ok (Mat.ofFn n q (fun i j => .fin (C i j))) ∧
      ∀ i j, i < n → j < q → IsFloat (C i j) ∧
        |C i j - ∑ k ∈ range p, A i k * B k j| ≤
          p * 2 ^ (-23 : ℤ) * ∑ k ∈ range p, |A i k * B k j| + p * 2 ^ (-149 : ℤ) := by
  obtain ⟨C, hC⟩ := choose_mat (n := n) (q := q) (P := fun i j c =>
      accN p (fun k => F32.fin (A i k) * F32.fin (B k j)) = .fin c ∧ IsFloat c ∧
        |c - ∑ k ∈ range p, A i k * B k j| ≤
          p * 2 ^ (-23 : ℤ) * ∑ k ∈ range p, |A i k * B k j| + p * 2 ^ (-149 : ℤ)) (by
    intro i j hi hj
    have hS : 0 ≤ ∑ k ∈ range p, |A i k * B k j| := sum_nonneg fun _ _ => abs_nonneg _
    obtain ⟨s, h1, h2, h3⟩ := dot_float (fun k => A i k) (fun k => B k j) p (acc_fit hS hp (hfit i j hi hj))
    refine ⟨s, h1, isFloat_of_bits h2 ?_, ?_⟩
    · have hf := acc_fit hS hp (hfit i j hi hj)
      have h4 : |s| ≤ |s - ∑ k ∈ range p, A i k * B k j| + ∑ k ∈ range p, |A i k * B k j| := by
        have : s = (s - ∑ k ∈ range p, A i k * B k j) + ∑ k ∈ range p, A i k * B k j := by ring
        conv_lhs => rw [this]
        exact (abs_add_le _ _).trans (add_le_add le_rfl (abs_sum_le_sum_abs _ _))
      linarith
    · refine (h3.trans (acc_bound hS (mul_nonneg (Nat.cast_nonneg _) tny_pos.le) hp)).trans_eq ?_
      rw [two_tny]
      ring)
  refine ⟨C, ?_, fun i j hi hj => (hC i j hi hj).2⟩
  rw [C02_mul]
  congr 1
  apply Mat.ofFn_congr
  intro i j hi hj
  exact (hC i j hi hj).1

/-- C99: one neuron in rounded arithmetic. -/
theorem neuron_float (x w : ℕ → ℝ) (b : ℝ) (hb : IsFloat b) (n : ℕ) (hn : n < 2 ^ 23)
    (hfit : ∑ k ∈ range n, |x k * w k| + |b| ≤ 2 ^ 126) :
    ∃ c, accN n (fun k => F32.fin (x k) * F32.fin (w k)) + F32.fin b = .fin c ∧ IsFloat c ∧
      |c - (∑ k ∈ range n, x k * w k + b)| ≤
        (n + 1) * 2 ^ (-23 : ℤ) * (∑ k ∈ range n, |x k * w k| + |b|) + n * 2 ^ (-149 : ℤ) := by
  have hS : 0 ≤ ∑ k ∈ range n, |x k * w k| := sum_nonneg fun _ _ => abs_nonneg _
  have hb0 := abs_nonneg b
  have hu := uro_pos
  have ht := tny_pos
  obtain ⟨s, h1, h2, h3⟩ := dot_float x w n (acc_fit hS hn.le (by linarith))
  have hst := acc_step h2 hb.bits h3 (show |b - b| ≤ 0 by simp)
  have hT : |∑ k ∈ range n, x k * w k| ≤ ∑ k ∈ range n, |x k * w k| := abs_sum_le_sum_abs _ _
  have hP := one_le_pow_uro n
  have herr : |rnd (s + b) - (∑ k ∈ range n, x k * w k + b)| ≤
      ((1 + uro) ^ (n + 1) - 1) * (∑ k ∈ range n, |x k * w k| + |b|) + (1 + uro) ^ (n + 1) * (n * tny) := by
    refine hst.trans ?_
    have h5 : uro ≤ (1 + uro) ^ n * (1 + uro) - 1 := by nlinarith
    have h6 : uro * |∑ k ∈ range n, x k * w k| ≤ uro * ∑ k ∈ range n, |x k * w k| :=
      mul_le_mul_of_nonneg_left hT hu.le
    have h7 : uro * |b| ≤ ((1 + uro) ^ n * (1 + uro) - 1) * |b| := mul_le_mul_of_nonneg_right h5 hb0
    rw [pow_succ]
    nlinarith
  have hfit' := acc_fit (K := n + 1) (by linarith) (by omega) hfit
  have hfin : |rnd (s + b)| < 2 ^ 128 := by
    refine lt_of_le_of_lt ?_ hfit'
    have h4 : |rnd (s + b)| ≤ |rnd (s + b) - (∑ k ∈ range n, x k * w k + b)| + (∑ k ∈ range n, |x k * w k| + |b|) := by
      have : rnd (s + b) = (rnd (s + b) - (∑ k ∈ range n, x k * w k + b)) + (∑ k ∈ range n, x k * w k + b) := by ring
      conv_lhs => rw [this]
      exact (abs_add_le _ _).trans (add_le_add le_rfl ((abs_add_le _ _).trans (add_le_add hT le_rfl)))
    have h5 : (1 + uro) ^ (n + 1) * (n * tny) ≤ (1 + uro) ^ (n + 1) * ((n + 1 : ℕ) * tny) := by
      refine mul_le_mul_of_nonneg_left ?_ (by linarith [one_le_pow_uro (n + 1)])
      push_cast
      linarith
    linarith
  refine ⟨rnd (s + b), ?_, isFloat_of_bits (bits_rnd _) hfin, ?_⟩
  · rw [h1, F32.fin_add, F32.round_fin hfin]
  · have h8 := acc_bound (S := ∑ k ∈ range n, |x k * w k| + |b|) (d := n * tny) (K := n + 1) (by linarith)
      (mul_nonneg (Nat.cast_nonneg _) ht.le) (by omega)
    refine (herr.trans h8).trans_eq ?_
    rw [two_tny]
    push_cast
    ring

/-- C99: the forward pass of a dense layer with bias (`LayerDense`). -/
theorem C99_dense (g : Nat → F32) (N n m : Nat) (x W b : Nat → Nat → ℝ) (mOut : Mat F32) (ho : mOut.WF)
    (hn : n < 2 ^ 23) (hb : ∀ j, j < m → IsFloat (b 0 j))
    (hfit : ∀ s j, s < N → j < m → ∑ k ∈ range n, |x s k * W k j| + |b 0 j| ≤ 2 ^ 126) :
    ∃ y : Nat → Nat → ℝ,
      denseForward g (Mat.ofFn n m (fun i j => .fin (W i j))) (Mat.ofFn 1 m (fun i j => .fin (b i j)))
        (Mat.ofFn N n (fun i j => .fin (x i j))) mOut = .ok (Mat.ofFn N m (fun i j => .fin (y i j))) ∧
      ∀ s j, s < N → j < m → IsFloat (y s j) ∧
        |y s j - (∑ k ∈ range n, x s k * W k j + b 0 j)| ≤
          (n + 1) * 2 ^ (-23 : ℤ) * (∑ k ∈ range n, |x s k * W k j| + |b 0 j|) + n * 2 ^ (-149 : ℤ) := by
  obtain ⟨y, hy⟩ := choose_mat (n := N) (q := m) (fun s j hs hj =>
    neuron_float (fun k => x s k) (fun k => W k j) (b 0 j) (hb j hj) n hn (hfit s j hs hj))
  refine ⟨y, ?_, fun i j hi hj => (hy i j hi hj).2⟩
  rw [C19_dense g N n m _ _ _ mOut ho]
  congr 1
  apply Mat.ofFn_congr
  intro i j hi hj
  exact (hy i j hi hj).1

/-- C99: the sum of all coefficients. -/
theorem sum_float (d : ℕ → ℝ) (K : ℕ) (hK : K ≤ 2 ^ 23) (hd : ∀ k, k < K → IsFloat (d k))
    (hfit : ∑ k ∈ range K, |d k| ≤ 2 ^ 126) :
    ∃ s, accN K (fun k => F32.fin (d k)) = .fin s ∧ Bits24 s ∧
      |s - ∑ k ∈ range K, d k| ≤ ((1 + uro) ^ K - 1) * ∑ k ∈ range K, |d k| ∧ |s| < 2 ^ 128 := by
  have hS : 0 ≤ ∑ k ∈ range K, |d k| := sum_nonneg fun _ _ => abs_nonneg _
  have hf := acc_fit hS hK hfit
  have hKt : 0 ≤ (K : ℝ) * tny := mul_nonneg (Nat.cast_nonneg _) tny_pos.le
  have hP := one_le_pow_uro K
  have hf' : (1 + uro) ^ K * (∑ k ∈ range K, |d k| + K * 0) < 2 ^ 128 := by
    refine lt_of_le_of_lt (mul_le_mul_of_nonneg_left ?_ (by linarith)) hf
    linarith
  obtain ⟨s, h1, h2, h3⟩ := acc_float d d 0 0 le_rfl uro_pos.le le_rfl K (fun k hk => (hd k hk).bits)
    (fun k _ => by simp) hf'
  rw [mul_zero, mul_zero, add_zero] at h3
  refine ⟨s, h1, h2, h3, lt_of_le_of_lt ?_ hf'⟩
  have h4 : |s| ≤ |s - ∑ k ∈ range K, d k| + ∑ k ∈ range K, |d k| := by
    have : s = (s - ∑ k ∈ range K, d k) + ∑ k ∈ range K, d k := by ring
    conv_lhs => rw [this]
    exact (abs_add_le _ _).trans (add_le_add le_rfl (abs_sum_le_sum_abs _ _))
  linarith

/-- C99: `sum()`. -/
theorem C99_sum (R C : Nat) (d : Nat → Nat → ℝ) (hK : R * C ≤ 2 ^ 23)
    (hd : ∀ i j, i < R → j < C → IsFloat (d i j))
    (hfit : ∑ i ∈ range R, ∑ j ∈ range C, |d i j| ≤ 2 ^ 126) :
    ∃ s, (Mat.ofFn R C (fun i j => F32.fin (d i j))).sum = .ok (.fin s) ∧ IsFloat s ∧
      |s - ∑ i ∈ range R, ∑ j ∈ range C, d i j| ≤
        (R * C : ℕ) * 2 ^ (-23 : ℤ) * ∑ i ∈ range R, ∑ j ∈ range C, |d i j| := by
  have hi : ∀ k, k < R * C → IsFloat (d (k / C) (k % C)) := fun k hk =>
    hd _ _ (idx_decomp hk).1 (idx_decomp hk).2.1
  rw [← sum_range_mul] at hfit
  obtain ⟨s, h1, h2, h3, h4⟩ := sum_float (fun k => d (k / C) (k % C)) (R * C) hK hi hfit
  refine ⟨s, ?_, isFloat_of_bits h2 h4, ?_⟩
  · rw [(C04_sum R C _).1, h1]
  · rw [← sum_range_mul, ← sum_range_mul]
    refine h3.trans ?_
    have := acc_bound (S := ∑ k ∈ range (R * C), |d (k / C) (k % C)|) (d := 0) (K := R * C)
      (sum_nonneg fun _ _ => abs_nonneg _) le_rfl hK
    simpa using this

/-- C99: `mean()`. -/
theorem C99_mean (R C : Nat) (d : Nat → Nat → ℝ) (h0 : 0 < R * C) (hK : R * C < 2 ^ 23)
    (hd : ∀ i j, i < R → j < C → IsFloat (d i j))
    (hfit : ∑ i ∈ range R, ∑ j ∈ range C, |d i j| ≤ 2 ^ 126) :
    ∃ s, (Mat.ofFn R C (fun i j => F32.fin (d i j))).mean = .ok (.fin s) ∧ IsFloat s ∧
      |s - (∑ i ∈ range R, ∑ j ∈ range C, d i j) / (R * C : ℕ)| ≤
        (R * C + 1 : ℕ) * 2 ^ (-23 : ℤ) * ((∑ i ∈ range R, ∑ j ∈ range C, |d i j|) / (R * C : ℕ)) +
          2 ^ (-149 : ℤ) := by
  have hi : ∀ k, k < R * C → IsFloat (d (k / C) (k % C)) := fun k hk =>
    hd _ _ (idx_decomp hk).1 (idx_decomp hk).2.1
  rw [← sum_range_mul] at hfit
  obtain ⟨s, h1, h2, h3, h4⟩ := sum_float (fun k => d (k / C) (k % C)) (R * C) hK.le hi hfit
  rw [← sum_range_mul, ← sum_range_mul]
  rw [C04_mean]
  simp only [h1]
  have hS : 0 ≤ ∑ k ∈ range (R * C), |d (k / C) (k % C)| := sum_nonneg fun _ _ => abs_nonneg _
  have hT : |∑ k ∈ range (R * C), d (k / C) (k % C)| ≤ ∑ k ∈ range (R * C), |d (k / C) (k % C)| :=
    abs_sum_le_sum_abs _ _
  generalize ∑ k ∈ range (R * C), |d (k / C) (k % C)| = S at *
  generalize ∑ k ∈ range (R * C), d (k / C) (k % C) = T at *
  generalize hn : R * C = n at *
  rw [F32.nat_fin (by omega)]
  have hnr : (0 : ℝ) < n := by exact_mod_cast h0
  have hn1 : (1 : ℝ) ≤ n := by exact_mod_cast h0
  have hu := uro_pos
  have hP := one_le_pow_uro n
  have hs : |s| ≤ (1 + uro) ^ n * S := by
    have : s = (s - T) + T := by ring
    rw [this]
    refine (abs_add_le _ _).trans ?_
    linarith
  have hfin : |rnd (s / n)| < 2 ^ 128 := by
    apply rnd_lt_top
    rw [abs_div, abs_of_pos hnr, div_lt_iff₀ hnr]
    have hf := pow_uro_le n hK.le
    have hKr : (n : ℝ) ≤ 8388608 := by
      have : (n : ℝ) ≤ ((2 ^ 23 : ℕ) : ℝ) := Nat.cast_le.2 hK.le
      push_cast at this
      linarith
    have h5 : (1 + uro) ^ n ≤ 2 := by rw [uro_eq] at hf ⊢; linarith
    have h6 : (1 + uro) ^ n * S ≤ 2 * 2 ^ 126 := mul_le_mul h5 hfit hS (by norm_num)
    have h7 : (2 : ℝ) * 2 ^ 126 < 2 ^ 128 - 2 ^ 103 := by norm_num
    have h8 : (0 : ℝ) < 2 ^ 128 - 2 ^ 103 := by norm_num
    nlinarith
  refine ⟨rnd (s / n), ?_, isFloat_of_bits (bits_rnd _) hfin, ?_⟩
  · rw [F32.fin_div hnr.ne', F32.round_fin hfin]
  · have h5 := abs_rnd_sub' (s / n)
    have h6 : |s / n - T / n| ≤ ((1 + uro) ^ n - 1) * (S / n) := by
      rw [← sub_div, abs_div, abs_of_pos hnr, ← mul_div_assoc]
      exact div_le_div_of_nonneg_right h3 hnr.le
    have h7 : |s / n| ≤ (1 + uro) ^ n * (S / n) := by
      rw [abs_div, abs_of_pos hnr, ← mul_div_assoc]
      exact div_le_div_of_nonneg_right hs hnr.le
    have h8 : |rnd (s / n) - T / n| ≤ |rnd (s / n) - s / n| + |s / n - T / n| := by
      have : rnd (s / n) - T / n = (rnd (s / n) - s / n) + (s / n - T / n) := by ring
      rw [this]
      exact abs_add_le _ _
    have h9 := acc_bound (S := S / n) (d := 0) (K := n + 1) (div_nonneg hS hnr.le) le_rfl (by omega)
    have h10 : |s / n| * uro ≤ (1 + uro) ^ n * (S / n) * uro := mul_le_mul_of_nonneg_right h7 hu.le
    have h11 : ((1 + uro) ^ (n + 1) - 1) * (S / n) = (1 + uro) ^ n * (S / n) * uro + ((1 + uro) ^ n - 1) * (S / n) := by
      rw [pow_succ]; ring
    rw [two_tny]
    have ht := tny_pos
    linarith

/-- C99: gradient of a weight: `(Σ x·g) * (1/N)`. -/
theorem weightGrad_float (x g : ℕ → ℝ) (N : ℕ) (h0 : 0 < N) (hN : N + 2 ≤ 2 ^ 23)
    (hfit : ∑ k ∈ range N, |x k * g k| ≤ 2 ^ 126) :
    ∃ c, accN N (fun k => F32.fin (x k) * F32.fin (g k)) * (1 / (N : F32)) = .fin c ∧ IsFloat c ∧
      |c - (∑ k ∈ range N, x k * g k) / N| ≤
        (N + 2 : ℕ) * 2 ^ (-23 : ℤ) * ((∑ k ∈ range N, |x k * g k|) / N) + 2 ^ (-148 : ℤ) := by
  have hS : 0 ≤ ∑ k ∈ range N, |x k * g k| := sum_nonneg fun _ _ => abs_nonneg _
  have hu := uro_pos
  have ht := tny_pos
  have hNr : (0 : ℝ) < N := by exact_mod_cast h0
  have hN1 : (1 : ℝ) ≤ N := by exact_mod_cast h0
  obtain ⟨s, h1, h2, h3⟩ := dot_float x g N (acc_fit hS (by omega) hfit)
  have hT : |∑ k ∈ range N, x k * g k| ≤ ∑ k ∈ range N, |x k * g k| := abs_sum_le_sum_abs _ _
  have hinv := inv_float h0 (by omega)
  have hP := one_le_pow_uro N
  have hone : (1 : F32) / (N : F32) = .fin (rnd (1 / N)) := by
    rw [F32.nat_fin (by omega), F32.one_def, F32.fin_div hNr.ne', F32.round_fin]
    have : rnd (1 / (N : ℝ)) ≤ 1 := rnd_le bits_one (by rw [div_le_one hNr]; exact hN1)
    rw [abs_of_nonneg (rnd_nonneg (by positivity))]
    exact lt_of_le_of_lt this (by norm_num)
  rw [h1, hone, F32.fin_mul]
  have hsc := scaled_float (s := s) (x := ∑ k ∈ range N, x k * g k) (t := rnd (1 / N)) (c := 1 / N)
    (S := ∑ k ∈ range N, |x k * g k|) (D := N * tny) (P := (1 + uro) ^ N) (by positivity) (by positivity) hT hP h3 hinv
  generalize ∑ k ∈ range N, |x k * g k| = S at *
  generalize ∑ k ∈ range N, x k * g k = T at *
  rw [← pow_add, mul_one_div, mul_one_div] at hsc
  have h9 := acc_bound (S := S / N) (d := tny) (K := N + 2) (div_nonneg hS hNr.le) ht.le hN
  have hD : (N : ℝ) * tny * (1 / N) = tny := by field_simp
  rw [hD] at hsc
  have h148 : (2 : ℝ) ^ (-148 : ℤ) = 4 * tny := by unfold tny; norm_num
  have hbound : |rnd (s * rnd (1 / N)) - T / N| ≤
      (N + 2 : ℕ) * 2 ^ (-23 : ℤ) * (S / N) + 2 ^ (-148 : ℤ) := by
    rw [h148]
    linarith
  have hfin : |rnd (s * rnd (1 / N))| < 2 ^ 128 := by
    have hTN : |T / N| ≤ S / N := by
      rw [abs_div, abs_of_pos hNr]
      exact div_le_div_of_nonneg_right hT hNr.le
    have hSN : S / N ≤ 2 ^ 126 := (div_le_self hS hN1).trans hfit
    have hSN0 : 0 ≤ S / N := div_nonneg hS hNr.le
    have h4 : |rnd (s * rnd (1 / N))| ≤ |rnd (s * rnd (1 / N)) - T / N| + |T / N| := by
      have : rnd (s * rnd (1 / N)) = (rnd (s * rnd (1 / N)) - T / N) + T / N := by ring
      conv_lhs => rw [this]
      exact abs_add_le _ _
    have h5 : ((N + 2 : ℕ) : ℝ) * 2 ^ (-23 : ℤ) ≤ 1 := by
      have : ((N + 2 : ℕ) : ℝ) ≤ ((2 ^ 23 : ℕ) : ℝ) := Nat.cast_le.2 hN
      rw [two_uro, uro_eq]
      push_cast at this ⊢
      linarith
    have h6 : ((N + 2 : ℕ) : ℝ) * 2 ^ (-23 : ℤ) * (S / N) ≤ 1 * (S / N) := mul_le_mul_of_nonneg_right h5 hSN0
    have h7 : (2 : ℝ) ^ (-148 : ℤ) ≤ 1 := by
      have := zpow_le_zpow_two (show (-148 : ℤ) ≤ 0 by norm_num)
      rwa [zpow_zero] at this
    have h8 : (2 : ℝ) ^ 126 + 2 ^ 126 + 1 < 2 ^ 128 := by norm_num
    linarith
  exact ⟨_, F32.round_fin hfin, isFloat_of_bits (bits_rnd _) hfin, hbound⟩

/-- C99: the weight gradients and the gradient passed down by a dense layer. -/
theorem C99_dense_backward (g : Nat → F32) (N n m : Nat) (x W gr : Nat → Nat → ℝ) (old : Grads F32)
    (h1 : old.gW.WF) (h2 : old.gB.WF) (h3 : old.gIn.WF) (h0 : 0 < N) (hN : N + 2 ≤ 2 ^ 23) (hm : m ≤ 2 ^ 23)
    (hw : ∀ k j, k < n → j < m → ∑ s ∈ range N, |x s k * gr s j| ≤ 2 ^ 126)
    (hi : ∀ s k, s < N → k < n → ∑ j ∈ range m, |gr s j * W k j| ≤ 2 ^ 126) :
    ∃ (dW dx : Nat → Nat → ℝ) (gs : Grads F32),
      denseBackward g false (Mat.ofFn n m (fun i j => .fin (W i j))) (Mat.ofFn N n (fun i j => .fin (x i j)))
        (Mat.ofFn N m (fun i j => .fin (gr i j))) old = .ok gs ∧
      gs.gW = Mat.ofFn n m (fun i j => .fin (dW i j)) ∧ gs.gIn = Mat.ofFn N n (fun i j => .fin (dx i j)) ∧
      (∀ k j, k < n → j < m → IsFloat (dW k j) ∧
        |dW k j - (∑ s ∈ range N, x s k * gr s j) / N| ≤
          (N + 2 : ℕ) * 2 ^ (-23 : ℤ) * ((∑ s ∈ range N, |x s k * gr s j|) / N) + 2 ^ (-148 : ℤ)) ∧
      ∀ s k, s < N → k < n → IsFloat (dx s k) ∧
        |dx s k - ∑ j ∈ range m, gr s j * W k j| ≤
          m * 2 ^ (-23 : ℤ) * ∑ j ∈ range m, |gr s j * W k j| + m * 2 ^ (-149 : ℤ) := by
  obtain ⟨dW, hdW⟩ := choose_mat (n := n) (q := m) (fun k j hk hj =>
    weightGrad_float (fun s => x s k) (fun s => gr s j) N h0 hN (hw k j hk hj))
  obtain ⟨dx, e, hdx⟩ := C99_mul g N m n gr (fun j k => W k j) hm hi
  rw [C02_mul] at e
  refine ⟨dW, dx, _, denseBackward_ofFn g false N n m _ _ _ h1 h2 h3, ?_, ?_, fun k j hk hj => (hdW k j hk hj).2, hdx⟩
  · dsimp only
    apply Mat.ofFn_congr
    intro k j hk hj
    exact (hdW k j hk hj).1
  · simp only [Bool.false_eq_true, if_false]
    exact Except.ok.inj e

/-- C99: rounding makes the result depend on the order: the sum of `2^24, 1, -2^24` is 0, that of `2^24, -2^24, 1`
is 1. -/
theorem C99_order : (Mat.mk 1 3 [F32.fin (2 ^ 24), F32.fin 1, F32.fin (-2 ^ 24)]).sum = .ok (.fin 0) ∧
    (Mat.mk 1 3 [F32.fin (2 ^ 24), F32.fin (-2 ^ 24), F32.fin 1]).sum = .ok (.fin 1) := by
  have b : Bits24 (2 ^ 24) := rnd_tie ▸ bits_rnd _
  have l : |(2 : ℝ) ^ 24| < 2 ^ 128 := by rw [abs_of_pos (by norm_num)]; norm_num
  have e0 : (F32.fin 0 + F32.fin (2 ^ 24) : F32) = .fin (2 ^ 24) := by
    rw [F32.fin_add, zero_add, F32.round_bits b l]
  have e1 : (F32.fin (2 ^ 24) + F32.fin 1 : F32) = .fin (2 ^ 24) := by
    rw [F32.fin_add, F32.round_fin] <;> rw [rnd_tie]
    exact l
  have e2 : (F32.fin (2 ^ 24) + F32.fin (-2 ^ 24) : F32) = .fin 0 := by
    rw [F32.fin_add, add_neg_cancel, F32.round_bits bits_zero (by simp)]
  have e3 : (F32.fin 0 + F32.fin 1 : F32) = .fin 1 := by
    rw [F32.fin_add, zero_add, F32.round_bits bits_one (by norm_num)]
  constructor
  · show (.ok (((F32.fin 0 + F32.fin (2 ^ 24)) + F32.fin 1) + F32.fin (-2 ^ 24)) : Out F32) = _
    rw [e0, e1, e2]
  · show (.ok (((F32.fin 0 + F32.fin (2 ^ 24)) + F32.fin (-2 ^ 24)) + F32.fin 1) : Out F32) = _
    rw [e0, e2, e3]

/-- The hypotheses of `C99_dense` are met by a layer with 3 inputs. -/
example (mOut : Mat F32) (ho : mOut.WF) : ∃ y : Nat → Nat → ℝ,
    denseForward (fun _ => .nan) (Mat.ofFn 3 1 (fun _ _ => .fin 2)) (Mat.ofFn 1 1 (fun _ _ => .fin 1))
      (Mat.ofFn 1 3 (fun _ _ => .fin 5)) mOut = .ok (Mat.ofFn 1 1 (fun i j => .fin (y i j))) ∧
    |y 0 0 - 31| ≤ 4 * 2 ^ (-23 : ℤ) * 31 + 3 * 2 ^ (-149 : ℤ) := by
  obtain ⟨y, h1, h2⟩ := C99_dense (fun _ => .nan) 1 3 1 (fun _ _ => 5) (fun _ _ => 2) (fun _ _ => 1) mOut ho (by norm_num)
    (fun _ _ => isFloat_of_bits bits_one (by norm_num)) (fun _ _ _ _ => by norm_num)
  refine ⟨y, h1, ?_⟩
  have := (h2 0 0 (by norm_num) (by norm_num)).2
  simp only [sum_const, card_range, nsmul_eq_mul] at this
  norm_num at this ⊢
  exact this

/-! ## C100: softmax -/

theorem maxCoeff_fin (C : ℕ) (h : 0 < C) (x : ℕ → ℝ) :
    ∃ k, k < C ∧ (Mat.ofFn 1 C (fun _ j => F32.fin (x j))).maxCoeff = .ok (.fin (x k)) ∧ ∀ j, j < C → x j ≤ x k := by
  obtain ⟨k, h1, h2, h3⟩ := Mat.maxCoeff_row F32.lt_trans' F32.lt_irrefl' C h (fun j => F32.fin (x j))
  exact ⟨k, h1, h2, fun j hj => not_lt.1 fun h => h3 j hj ((F32.fin_lt _ _).2 h)⟩

/-- What every row of the result has to fulfil. -/
def SoftmaxOk (C : ℕ) (x p : ℕ → ℝ) : Prop :=
  (∀ k, k < C → IsFloat (p k) ∧ 0 ≤ p k ∧ p k ≤ 1) ∧ (∃ k, k < C ∧ (∀ j, j < C → x j ≤ x k) ∧ 2 ^ (-24 : ℤ) ≤ p k) ∧
  (∀ i j, i < C → j < C → x i ≤ x j → p i ≤ p j) ∧
  (C ≤ 2 ^ 22 → |∑ k ∈ range C, p k - 1| ≤ (C + 1) * 2 ^ (-22 : ℤ))

theorem softmaxRows_float (g : Nat → F32) {ex : F32 → F32} {e : ℝ → ℝ} (he : ExpFloat ex e) (N C : ℕ) (hC : 0 < C)
    (x : ℕ → ℕ → ℝ) : ∃ p : ℕ → ℕ → ℝ,
      softmaxRows g ex (Mat.ofFn N C (fun i j => .fin (x i j))) = .ok (Mat.ofFn N C (fun i j => .fin (p i j))) ∧
      ∀ s, SoftmaxOk C (x s) (p s) := by
  have h := fun s => maxCoeff_fin C hC (x s)
  choose k0 h1 h2 h3 using h
  have h' := fun s => softmax_row he (x s) C (k0 s) (h1 s) (h3 s)
  choose S p a1 a2 a3 a4 a5 a6 using h'
  refine ⟨p, ?_, fun s => ⟨a3 s, ⟨k0 s, h1 s, h3 s, a4 s⟩, a5 s, a6 s⟩⟩
  rw [softmaxRows_gen g ex N C _ (fun s => .fin (x s (k0 s))) (fun s _ => h2 s)]
  congr 1
  apply Mat.ofFn_congr
  intro s j _ hj
  rw [accN_congr (fun k hk => expF_eq he (h3 s k hk)), a1, expF_eq he (h3 s j hj), a2 s j hj]

/-- C100: softmax of finite floats.  However large the inputs and however many the classes, no intermediate result
overflows or is NaN: the results are floats from `[0, 1]`, they are ordered as the inputs, the largest
input gets a positive probability, and the probabilities add up to 1 up to `(C+1)·2^-22`. -/
theorem C100_softmax (g : Nat → F32) (ex : F32 → F32) (e : ℝ → ℝ) (he : ExpFloat ex e) (N C : ℕ) (hC : 0 < C)
    (x : ℕ → ℕ → ℝ) (mOut : Mat F32) (ho : mOut.WF) : ∃ p : ℕ → ℕ → ℝ,
      softmaxForward g ex (Mat.ofFn N C (fun i j => .fin (x i j))) mOut =
        .ok (Mat.ofFn N C (fun i j => .fin (p i j))) ∧
      ∀ s, SoftmaxOk C (x s) (p s) := by
  obtain ⟨p, h1, h2⟩ := softmaxRows_float g he N C hC x
  refine ⟨p, ?_, h2⟩
  unfold softmaxForward
  rw [Mat.assign_ofFn g ho]
  exact h1

/-- C100: the same for softmin, with the reverse order. -/
theorem C100_softmin (g : Nat → F32) (ex : F32 → F32) (e : ℝ → ℝ) (he : ExpFloat ex e) (N C : ℕ) (hC : 0 < C)
    (x : ℕ → ℕ → ℝ) (mOut : Mat F32) (ho : mOut.WF) : ∃ p : ℕ → ℕ → ℝ,
      softminForward g ex (Mat.ofFn N C (fun i j => .fin (x i j))) mOut =
        .ok (Mat.ofFn N C (fun i j => .fin (p i j))) ∧
      ∀ s, SoftmaxOk C (fun k => -x s k) (p s) := by
  obtain ⟨p, h1, h2⟩ := softmaxRows_float g he N C hC (fun s k => -x s k)
  refine ⟨p, ?_, h2⟩
  unfold softminForward
  rw [Mat.neg_ofFn]
  simp only [bind_ok']
  rw [Mat.assign_ofFn g ho]
  exact h1

/-- C100: the restriction to finite inputs is needed: one infinite input makes all results of its row NaN. -/
theorem C100_infinite (g : Nat → F32) (ex : F32 → F32) (hn : ex .nan = .nan) (N C : ℕ) (x : ℕ → ℕ → F32)
    (h : ∀ s, s < N → ∃ k, k < C ∧ x s k = .inf false) (mOut : Mat F32) (ho : mOut.WF) :
    softmaxForward g ex (Mat.ofFn N C x) mOut = .ok (Mat.ofFn N C (fun _ _ => .nan)) := by
  have hm : ∀ s, ∃ m, s < N → (Mat.ofFn 1 C (fun _ j => x s j)).maxCoeff = .ok m ∧
      ∃ k, k < C ∧ x s k - m = .nan := by
    intro s
    by_cases hs : s < N
    · obtain ⟨k, hk, hx⟩ := h s hs
      obtain ⟨k0, h1, h2, h3⟩ := Mat.maxCoeff_row F32.lt_trans' F32.lt_irrefl' C (by omega) (x s)
      refine ⟨x s k0, fun _ => ⟨h2, ?_⟩⟩
      have h4 := h3 k hk
      rw [hx] at h4
      cases hv : x s k0 with
      | fin v => rw [hv] at h4; exact absurd rfl h4
      | inf b =>
        cases b
        · refine ⟨k, hk, ?_⟩
          rw [hx]
          rfl
        · rw [hv] at h4
          exact absurd (show F32.lt (.inf true) (.inf false) from ⟨rfl, rfl⟩) h4
      | nan =>
        refine ⟨k, hk, ?_⟩
        exact F32.add_nan _
    · exact ⟨0, fun h => absurd h hs⟩
  choose m hm using hm
  rw [softmaxForward_gen g ex N C x m ho (fun s hs => (hm s hs).1)]
  congr 1
  apply Mat.ofFn_congr
  intro s j hs _
  obtain ⟨k, hk, hx⟩ := (hm s hs).2
  rw [accN_nan _ C k hk (by rw [hx, hn]), F32.div_nan]

/-- An exponential as required: 1 at 0 and 0 to the left. -/
example : ExpFloat (fun x => match x with
    | .fin y => if y < 0 then .fin 0 else .fin 1
    | .inf true => .fin 0
    | .inf false => .inf false
    | .nan => .nan) (fun y => if y < 0 then 0 else 1) where
  fin x _ := by dsimp only; split_ifs <;> rfl
  float x _ := by
    split_ifs
    · exact isFloat_of_bits bits_zero (by norm_num)
    · exact isFloat_of_bits bits_one (by norm_num)
  nonneg x _ := by split_ifs <;> norm_num
  mono x y h hy := by split_ifs <;> first | (exfalso; linarith) | norm_num
  zero := by norm_num
  inf := rfl

/-! ## C101: numbers of classes -/

/-- C101: an integer up to `2^24` kept as a `float` keeps its value. -/
theorem C101_exact (n : ℕ) (h : n ≤ 2 ^ 24) : (n : F32) = .fin n := F32.nat_fin h

/-- C101: two of them are the same float only if they are the same number. -/
theorem C101_injective (n m : ℕ) (hn : n ≤ 2 ^ 24) (hm : m ≤ 2 ^ 24) (h : (n : F32) = (m : F32)) : n = m := by
  rw [F32.nat_fin hn, F32.nat_fin hm] at h
  exact_mod_cast F32.fin.inj h

/-- C101: beyond that neighbours fall together. -/
theorem C101_limit : ((2 ^ 24 + 1 : ℕ) : F32) = ((2 ^ 24 : ℕ) : F32) := by
  rw [F32.nat_fin le_rfl, F32.nat_def]
  have e : ((2 ^ 24 + 1 : ℕ) : ℝ) = 2 ^ 24 + 1 := by push_cast; ring
  rw [e, F32.round_fin] <;> rw [rnd_tie]
  · congr 1; norm_num
  · rw [abs_of_pos (by norm_num)]; norm_num

/-- C101: the predicted classes of finite outputs: each is the position of the first largest output, and is kept exactly
in the matrix of `float`. -/
theorem C101_rowsArgmax (g : Nat → F32) (R C : Nat) (h0 : 0 < C) (hC : C ≤ 2 ^ 24) (y : Nat → Nat → ℝ) (o : Mat F32)
    (ho : o.WF) :
    ∃ a : Nat → Nat, (∀ i, IsFirstMax C (y i) (a i)) ∧
      Mat.rowsArgmax g (Mat.ofFn R C (fun i j => .fin (y i j))) o = .ok (Mat.ofFn R 1 (fun i _ => .fin (a i))) := by
  have h := fun i => argmax_fin h0 (y i)
  choose a h1 h2 using h
  refine ⟨a, h2, ?_⟩
  rw [rowsArgmax_gen g _ a (fun i _ => h1 i) ho]
  congr 1
  apply Mat.ofFn_congr
  intro i _ _ _
  exact F32.nat_fin ((h2 i).1.le.trans hC)

/-- C101: a row that starts with a NaN is reported as class 0. -/
theorem C101_nan (g : Nat → F32) (R C : Nat) (y : Nat → Nat → F32) (h : ∀ i, i < R → y i 0 = .nan) (o : Mat F32)
    (ho : o.WF) : Mat.rowsArgmax g (Mat.ofFn R C y) o = .ok (Mat.ofFn R 1 (fun _ _ => .fin 0)) := by
  rw [rowsArgmax_gen g _ (fun _ => 0) (fun i hi => argmax_nan (y i) (h i hi)) ho]
  congr 1
  apply Mat.ofFn_congr
  intro i _ _ _
  have := F32.nat_fin (n := 0) (by norm_num)
  rw [this]
  congr 1
  norm_num

example (g : Nat → F32) : ∃ a : Nat → Nat, (∀ i, IsFirstMax 3 (fun j => (j : ℝ)) (a i)) ∧
    Mat.rowsArgmax g (Mat.ofFn 2 3 (fun _ j => .fin (j : ℝ))) ⟨0, 0, []⟩ = .ok (Mat.ofFn 2 1 (fun i _ => .fin (a i))) :=
  C101_rowsArgmax g 2 3 (by norm_num) (by norm_num) (fun _ j => (j : ℝ)) _ rfl

end BeeDNN
