import Verif.Lemmas.Float32Near
import Verif.Lemmas.Softmax
import Verif.Lemmas.MatrixMore

/-! # Softmax in `float` -/

namespace BeeDNN
open Finset

namespace Mat
variable {α : Type}

/-- `maxCoeff` needs only a transitive and irreflexive comparison. -/
theorem maxCoeff_row [Zero α] [LT α] [DecidableRel (α := α) (· < ·)] (tr : ∀ a b c : α, a < b → b < c → a < c)
    (ir : ∀ a : α, ¬ a < a) (C : Nat) (h : 0 < C) (d : Nat → α) :
    ∃ k, k < C ∧ (ofFn 1 C (fun _ j => d j)).maxCoeff = .ok (d k) ∧ ∀ j, j < C → ¬ d k < d j := by
  have e : (ofFn 1 C (fun _ j => d j)) = flat 1 C d := by
    rw [ofFn_eq_flat]
    unfold flat tab
    congr 1
    apply List.map_congr_left
    intro i hi
    rw [Nat.mod_eq_of_lt (by simpa using hi)]
  unfold maxCoeff
  rw [if_neg (by simp only [ofFn_size]; omega), e, raw_flat (by omega)]
  simp only [bind_ok']
  have hsz : (flat 1 C d).size = C := by unfold flat size; simp
  rw [hsz]
  obtain ⟨s, hs, k0, hk0, h2, h1⟩ := forN_inv (n := C - 1)
    (f := fun i dMax => (do
      let x ← (flat 1 C d).raw (i + 1)
      return if dMax < x then x else dMax : Out α))
    (s := d 0)
    (fun i s => ∃ k, k ≤ i ∧ s = d k ∧ ∀ j, j ≤ i → ¬ s < d j)
    (by
      refine ⟨0, Nat.le_refl _, rfl, ?_⟩
      intro k hk
      have : k = 0 := by omega
      subst this
      exact ir _)
    (by
      rintro i hi s ⟨k0, hk0, h2, h1⟩
      refine ⟨_, by simp only [raw_flat (show i + 1 < 1 * C by omega), bind_ok', pure_ok]; rfl, ?_⟩
      by_cases hlt : s < d (i + 1)
      · simp only [hlt, if_true]
        refine ⟨i + 1, Nat.le_refl _, rfl, ?_⟩
        intro k hk
        rcases Nat.lt_or_eq_of_le hk with h3 | h3
        · intro h4
          exact h1 k (by omega) (tr _ _ _ hlt h4)
        · subst h3; exact ir _
      · simp only [hlt, if_false]
        refine ⟨k0, by omega, h2, ?_⟩
        intro k hk
        rcases Nat.lt_or_eq_of_le hk with h3 | h3
        · exact h1 k (by omega)
        · subst h3; exact hlt)
  subst h2
  exact ⟨k0, by omega, hs, fun j hj => h1 j (by omega)⟩

end Mat

theorem F32.lt_trans' (a b c : F32) (h1 : a < b) (h2 : b < c) : a < c := by
  change F32.lt a b at h1
  change F32.lt b c at h2
  change F32.lt a c
  cases a <;> cases b <;> cases c <;> simp_all [F32.lt]
  exact _root_.lt_trans h1 h2

theorem F32.lt_irrefl' (a : F32) : ¬ a < a := by
  intro h
  change F32.lt a a at h
  cases a <;> simp_all [F32.lt]

/-- Closed form for any scalar type, from the largest coefficient of each row. -/
theorem softmaxRows_gen {α : Type} [Zero α] [Add α] [Sub α] [Div α] [LT α] [DecidableRel (α := α) (· < ·)]
    (g : Nat → α) (ex : α → α) (N C : Nat) (x : Nat → Nat → α) (mx : Nat → α)
    (h : ∀ r, r < N → (Mat.ofFn 1 C (fun _ j => x r j)).maxCoeff = .ok (mx r)) :
    softmaxRows g ex (Mat.ofFn N C x) =
      .ok (Mat.ofFn N C (fun s j => ex (x s j - mx s) / accN C (fun k => ex (x s k - mx s)))) := by
  unfold softmaxRows
  simp only [Mat.ofFn_rows]
  have : Inhabited α := ⟨0⟩
  apply Mat.forN_eachRow
  intro r hr f' hf
  rw [Mat.row_ofFn hr]
  simp only [bind_ok']
  have e : Mat.ofFn 1 C (fun _ j => f' r j) = Mat.ofFn 1 C (fun _ j => x r j) := by
    apply Mat.ofFn_congr
    intro i j _ hj
    exact hf j hj
  rw [e]
  unfold expShifted
  rw [h r hr]
  simp only [bind_ok', Mat.cwise_ofFn]
  rw [Mat.assign_ofFn g (Mat.ofFn_WF ..)]
  simp only [bind_ok', Mat.sum_row, Mat.divScalar_ofFn]
  rw [Mat.rowAssign_ofFn hr]

theorem softmaxForward_gen {α : Type} [Zero α] [Add α] [Sub α] [Div α] [LT α] [DecidableRel (α := α) (· < ·)]
    (g : Nat → α) (ex : α → α) (N C : Nat) (x : Nat → Nat → α) (mx : Nat → α) {mOut : Mat α} (ho : mOut.WF)
    (h : ∀ r, r < N → (Mat.ofFn 1 C (fun _ j => x r j)).maxCoeff = .ok (mx r)) :
    softmaxForward g ex (Mat.ofFn N C x) mOut =
      .ok (Mat.ofFn N C (fun s j => ex (x s j - mx s) / accN C (fun k => ex (x s k - mx s)))) := by
  have : Inhabited α := ⟨0⟩
  unfold softmaxForward
  rw [Mat.assign_ofFn g ho]
  exact softmaxRows_gen g ex N C x mx h

theorem softminForward_gen {α : Type} [Zero α] [Neg α] [Add α] [Sub α] [Div α] [LT α] [DecidableRel (α := α) (· < ·)]
    (g : Nat → α) (ex : α → α) (N C : Nat) (x : Nat → Nat → α) (mx : Nat → α) {mOut : Mat α} (ho : mOut.WF)
    (h : ∀ r, r < N → (Mat.ofFn 1 C (fun _ j => -x r j)).maxCoeff = .ok (mx r)) :
    softminForward g ex (Mat.ofFn N C x) mOut =
      .ok (Mat.ofFn N C (fun s j => ex (-x s j - mx s) / accN C (fun k => ex (-x s k - mx s)))) := by
  have : Inhabited α := ⟨0⟩
  unfold softminForward
  rw [Mat.neg_ofFn]
  simp only [bind_ok']
  rw [Mat.assign_ofFn g ho]
  exact softmaxRows_gen g ex N C (fun s k => -x s k) mx h

/-! ## One row -/

theorem rnd_tie : rnd (2 ^ 24 + 1) = 2 ^ 24 := by
  have hx : (0 : ℝ) < 2 ^ 24 + 1 := by norm_num
  have hl : Int.log 2 |(2 : ℝ) ^ 24 + 1| = 24 := by
    rw [abs_of_pos hx]
    apply le_antisymm
    · have h3 := log_le hx.ne'
      rw [abs_of_pos hx] at h3
      have h4 : (2 : ℝ) ^ Int.log 2 ((2 : ℝ) ^ 24 + 1) < 2 ^ (25 : ℤ) := by
        refine h3.trans_lt ?_
        rw [show (2 : ℝ) ^ (25 : ℤ) = 2 ^ 25 by norm_cast]
        norm_num
      have := (zpow_lt_zpow_iff_right₀ (by norm_num : (1 : ℝ) < 2)).1 h4
      omega
    · have h3 := lt_log ((2 : ℝ) ^ 24 + 1)
      rw [abs_of_pos hx] at h3
      have h4 : (2 : ℝ) ^ (24 : ℤ) < 2 ^ (Int.log 2 ((2 : ℝ) ^ 24 + 1) + 1) := by
        refine lt_of_le_of_lt ?_ h3
        rw [show (2 : ℝ) ^ (24 : ℤ) = 2 ^ 24 by norm_cast]
        norm_num
      have := (zpow_lt_zpow_iff_right₀ (by norm_num : (1 : ℝ) < 2)).1 h4
      omega
  have hq : lastBit (2 ^ 24 + 1) = 1 := by
    unfold lastBit
    rw [hl]
    norm_num
  unfold rnd
  rw [hq, zpow_one]
  have e2 : ((2 : ℝ) ^ 24 + 1) / 2 = 8388608 + 1 / 2 := by norm_num
  have hf : ⌊(8388608 + 1 / 2 : ℝ)⌋ = 8388608 := by
    rw [Int.floor_eq_iff]; norm_num
  have e3 : nearestEven (8388608 + 1 / 2) = 8388608 := by
    unfold nearestEven
    rw [hf, if_neg (by norm_num), if_neg (by norm_num), if_pos (by decide)]
  rw [e2, e3]
  norm_num

/-- A sum of numbers from `[0, 1]` does not overflow, whatever their number, and is not smaller than any of them. -/
theorem acc_unit (y : ℕ → ℝ) (C : ℕ) (h0 : ∀ k, k < C → 0 ≤ y k) (h1 : ∀ k, k < C → y k ≤ 1)
    (hb : ∀ k, k < C → Bits24 (y k)) :
    ∃ s, accN C (fun k => F32.fin (y k)) = .fin s ∧ Bits24 s ∧ 0 ≤ s ∧ s ≤ 2 ^ 24 ∧ ∀ k, k < C → y k ≤ s := by
  induction C with
  | zero => exact ⟨0, rfl, bits_zero, le_rfl, by norm_num, fun k hk => absurd hk (by omega)⟩
  | succ C ih =>
    obtain ⟨s, e, b, p, u, l⟩ := ih (fun k hk => h0 k (by omega)) (fun k hk => h1 k (by omega)) (fun k hk => hb k (by omega))
    have hy0 := h0 C (by omega)
    have hy1 := h1 C (by omega)
    have hup : rnd (s + y C) ≤ 2 ^ 24 := by
      rw [← rnd_tie]
      exact rnd_mono (by linarith)
    have hlo : s ≤ rnd (s + y C) := le_rnd b (by linarith)
    refine ⟨rnd (s + y C), ?_, bits_rnd _, p.trans hlo, hup, ?_⟩
    · show accN C _ + F32.fin (y C) = _
      rw [e, F32.fin_add]
      apply F32.round_fin
      rw [abs_of_nonneg (p.trans hlo)]
      exact lt_of_le_of_lt hup (by norm_num)
    · intro k hk
      rcases Nat.lt_or_eq_of_le (Nat.le_of_lt_succ hk) with h | h
      · exact (l k h).trans hlo
      · subst h
        exact le_rnd (hb k (by omega)) (by linarith)

/-- `exp(x - M)` for `x ≤ M`. -/
noncomputable def expF (e : ℝ → ℝ) (x M : ℝ) : ℝ := if |rnd (x - M)| < 2 ^ 128 then e (rnd (x - M)) else 0

section
variable {ex : F32 → F32} {e : ℝ → ℝ} (he : ExpFloat ex e)
include he

theorem expF_eq {x M : ℝ} (h : x ≤ M) : ex (F32.fin x - F32.fin M) = .fin (expF e x M) := by
  rw [F32.fin_sub]
  unfold expF F32.round
  split_ifs with h1
  · have : rnd (x - M) ≤ 0 := rnd_le bits_zero (by linarith)
    rw [he.fin _ this]
  · have : x - M < 0 := by
      rcases lt_or_eq_of_le (by linarith : x - M ≤ 0) with h2 | h2
      · exact h2
      · rw [h2, rnd_zero] at h1
        exact absurd (by simp) h1
    rw [decide_eq_true this, he.inf]

theorem expF_nonneg {x M : ℝ} (h : x ≤ M) : 0 ≤ expF e x M := by
  unfold expF
  split_ifs
  · exact he.nonneg _ (rnd_le bits_zero (by linarith))
  · exact le_rfl

theorem expF_le_one {x M : ℝ} (h : x ≤ M) : expF e x M ≤ 1 := by
  unfold expF
  split_ifs
  · rw [← he.zero]
    exact he.mono _ _ (rnd_le bits_zero (by linarith)) le_rfl
  · exact zero_le_one

theorem expF_bits {x M : ℝ} (h : x ≤ M) : Bits24 (expF e x M) := by
  unfold expF
  split_ifs
  · exact (he.float _ (rnd_le bits_zero (by linarith))).bits
  · exact bits_zero

theorem expF_self (M : ℝ) : expF e M M = 1 := by
  unfold expF
  rw [sub_self, rnd_zero, if_pos (by simp), he.zero]

theorem expF_mono {x y M : ℝ} (h : x ≤ y) (hy : y ≤ M) : expF e x M ≤ expF e y M := by
  unfold expF
  have hy0 : rnd (y - M) ≤ 0 := rnd_le bits_zero (by linarith)
  have hxy : rnd (x - M) ≤ rnd (y - M) := rnd_mono (by linarith)
  split_ifs with h1 h2 h2
  · exact he.mono _ _ hxy hy0
  · exfalso
    apply h2
    rw [abs_of_nonpos hy0]
    rw [abs_of_nonpos (hxy.trans hy0)] at h1
    linarith
  · exact he.nonneg _ hy0
  · exact le_rfl

/-- One row of softmax. -/
theorem softmax_row (x : ℕ → ℝ) (C k0 : ℕ) (hk0 : k0 < C) (hM : ∀ k, k < C → x k ≤ x k0) :
    ∃ (s : ℝ) (p : ℕ → ℝ),
      accN C (fun k => F32.fin (expF e (x k) (x k0))) = .fin s ∧
      (∀ k, k < C → F32.fin (expF e (x k) (x k0)) / F32.fin s = .fin (p k)) ∧
      (∀ k, k < C → IsFloat (p k) ∧ 0 ≤ p k ∧ p k ≤ 1) ∧ 2 ^ (-24 : ℤ) ≤ p k0 ∧
      (∀ i j, i < C → j < C → x i ≤ x j → p i ≤ p j) ∧
      (C ≤ 2 ^ 22 → |∑ k ∈ range C, p k - 1| ≤ (C + 1) * 2 ^ (-22 : ℤ)) := by
  obtain ⟨s, h1, h2, h3, h4, h5⟩ := acc_unit (fun k => expF e (x k) (x k0)) C
    (fun k hk => expF_nonneg he (hM k hk)) (fun k hk => expF_le_one he (hM k hk)) (fun k hk => expF_bits he (hM k hk))
  have hs1 : 1 ≤ s := by
    have := h5 k0 hk0
    simpa only [expF_self he] using this
  have hs0 : 0 < s := by linarith
  have hq0 : ∀ k, k < C → 0 ≤ expF e (x k) (x k0) / s := fun k hk => div_nonneg (expF_nonneg he (hM k hk)) h3
  have hq1 : ∀ k, k < C → expF e (x k) (x k0) / s ≤ 1 := fun k hk => by
    rw [div_le_one hs0]; exact h5 k hk
  have hp1 : ∀ k, k < C → rnd (expF e (x k) (x k0) / s) ≤ 1 := fun k hk => rnd_le bits_one (hq1 k hk)
  have hp0 : ∀ k, k < C → 0 ≤ rnd (expF e (x k) (x k0) / s) := fun k hk => rnd_nonneg (hq0 k hk)
  have hlt : ∀ k, k < C → |rnd (expF e (x k) (x k0) / s)| < 2 ^ 128 := fun k hk => by
    rw [abs_of_nonneg (hp0 k hk)]
    exact lt_of_le_of_lt (hp1 k hk) (by norm_num)
  refine ⟨s, fun k => rnd (expF e (x k) (x k0) / s), h1, ?_, ?_, ?_, ?_, ?_⟩
  · intro k hk
    rw [F32.fin_div hs0.ne', F32.round_fin (hlt k hk)]
  · intro k hk
    exact ⟨isFloat_of_bits (bits_rnd _) (hlt k hk), hp0 k hk, hp1 k hk⟩
  · apply le_rnd (bits_pow (by norm_num))
    rw [expF_self he, le_div_iff₀ hs0]
    have : (2 : ℝ) ^ (-24 : ℤ) * s ≤ 2 ^ (-24 : ℤ) * 2 ^ 24 := mul_le_mul_of_nonneg_left h4 (two_zpow_pos _).le
    refine this.trans_eq ?_
    norm_num
  · intro i j hi hj hij
    apply rnd_mono
    exact div_le_div_of_nonneg_right (expF_mono he hij (hM j hj)) h3
  · intro hC
    have hu := uro_pos
    have hCr : (C : ℝ) ≤ 4194304 := by
      have : (C : ℝ) ≤ ((2 ^ 22 : ℕ) : ℝ) := Nat.cast_le.2 hC
      push_cast at this
      linarith
    have hC0 : (0 : ℝ) ≤ C := Nat.cast_nonneg _
    set y := fun k => expF e (x k) (x k0) with hy
    have hY : ∑ k ∈ range C, |y k| = ∑ k ∈ range C, y k :=
      sum_congr rfl fun k hk => abs_of_nonneg (expF_nonneg he (hM k (mem_range.1 hk)))
    have hYC : ∑ k ∈ range C, y k ≤ C := by
      calc ∑ k ∈ range C, y k ≤ ∑ k ∈ range C, (1 : ℝ) := sum_le_sum fun k hk => expF_le_one he (hM k (mem_range.1 hk))
        _ = C := by simp
    have hpow := pow_uro_le C (hC.trans (by norm_num))
    have hpow2 : (1 + uro) ^ C ≤ 2 := by rw [uro_eq] at hpow ⊢; linarith
    have hY0 : 0 ≤ ∑ k ∈ range C, y k := sum_nonneg fun k hk => expF_nonneg he (hM k (mem_range.1 hk))
    obtain ⟨s', a1, _, a3⟩ := acc_float y y 0 0 le_rfl hu.le le_rfl C (fun k hk => expF_bits he (hM k hk))
      (fun k _ => by simp) (by
        rw [hY, mul_zero, add_zero]
        have : (1 + uro) ^ C * ∑ k ∈ range C, y k ≤ 2 * C := mul_le_mul hpow2 hYC hY0 (by norm_num)
        refine lt_of_le_of_lt this ?_
        have : (2 : ℝ) * 4194304 < 2 ^ 128 := by norm_num
        linarith)
    have hss : s' = s := by
      rw [h1] at a1
      exact (F32.fin.inj a1).symm
    subst hss
    rw [hY, mul_zero, mul_zero, add_zero] at a3
    set Y := ∑ k ∈ range C, y k with hYdef
    have b1 : |s' - Y| ≤ C * (2 * uro) * Y := a3.trans (mul_le_mul_of_nonneg_right (by linarith) hY0)
    have hCu : C * (2 * uro) ≤ 1 / 2 := by rw [uro_eq]; linarith
    have b2 : Y ≤ 2 * s' := by
      have := (abs_le.1 b1).1
      nlinarith
    -- division
    have c1 : |∑ k ∈ range C, rnd (y k / s') - Y / s'| ≤ uro * (Y / s') + C * tny := by
      rw [hYdef, sum_div, ← sum_sub_distrib, mul_sum]
      refine (abs_sum_le_sum_abs _ _).trans ?_
      have : ∀ k ∈ range C, |rnd (y k / s') - y k / s'| ≤ uro * (y k / s') + tny := by
        intro k hk
        have := abs_rnd_sub' (y k / s')
        rw [abs_of_nonneg (hq0 k (mem_range.1 hk)), mul_comm] at this
        exact this
      refine (sum_le_sum this).trans_eq ?_
      rw [sum_add_distrib]
      simp
    have c2 : |Y / s' - 1| ≤ 2 * (C * (2 * uro)) := by
      have : Y / s' - 1 = -(s' - Y) / s' := by field_simp; ring
      rw [this, abs_div, abs_neg, abs_of_pos hs0, div_le_iff₀ hs0]
      refine b1.trans ?_
      have : 0 ≤ C * (2 * uro) := by positivity
      nlinarith
    have c3 : Y / s' ≤ 2 := by rw [div_le_iff₀ hs0]; exact b2
    have c4 : C * tny ≤ 2 * uro := by
      have : tny ≤ 1 / 4194304 * uro := by
        unfold tny uro
        norm_num
      have hmul : (C : ℝ) * tny ≤ 4194304 * tny := mul_le_mul_of_nonneg_right hCr tny_pos.le
      linarith
    have e22 : (2 : ℝ) ^ (-22 : ℤ) = 4 * uro := by unfold uro; norm_num
    rw [e22]
    have c5 : |∑ k ∈ range C, rnd (y k / s') - 1| ≤
        |∑ k ∈ range C, rnd (y k / s') - Y / s'| + |Y / s' - 1| := by
      have : ∑ k ∈ range C, rnd (y k / s') - 1 = (∑ k ∈ range C, rnd (y k / s') - Y / s') + (Y / s' - 1) := by ring
      rw [this]
      exact abs_add_le _ _
    have c6 : uro * (Y / s') ≤ uro * 2 := mul_le_mul_of_nonneg_left c3 hu.le
    linarith

end

/-! ## Not a number -/

theorem F32.add_nan (a : F32) : a + F32.nan = F32.nan := by cases a <;> rfl
theorem F32.nan_add (a : F32) : F32.nan + a = F32.nan := by cases a <;> rfl
theorem F32.div_nan (a : F32) : a / F32.nan = F32.nan := by cases a <;> rfl

theorem accN_nan (f : ℕ → F32) (C k : ℕ) (hk : k < C) (h : f k = .nan) : accN C f = .nan := by
  induction C with
  | zero => omega
  | succ C ih =>
    show accN C f + f C = _
    rcases Nat.lt_or_eq_of_le (Nat.le_of_lt_succ hk) with h1 | h1
    · rw [ih h1, F32.nan_add]
    · rw [← h1, h, F32.add_nan]

/-! ## The position of the largest coefficient -/

theorem argmax_fin {C : Nat} (hC : 0 < C) (x : Nat → ℝ) :
    ∃ k, Mat.argmax (Mat.ofFn 1 C (fun _ j => F32.fin (x j))) = .ok k ∧ IsFirstMax C x k := by
  unfold Mat.argmax
  have h0 : ¬ C = 0 := by omega
  simp only [Mat.ofFn_rows, Mat.ofFn_cols, check_true, bind_ok', h0, if_false,
    Mat.getI_ofFn_row hC]
  obtain ⟨s, hs, hP⟩ := forN_inv (n := C - 1)
    (f := fun i (s : F32 × Nat) => (do
      let y ← (Mat.ofFn 1 C (fun _ j => F32.fin (x j))).getI (i + 1)
      return if s.1 < y then (y, i + 1) else s : Out (F32 × Nat)))
    (s := (F32.fin (x 0), 0))
    (fun i s => s.2 ≤ i ∧ s.1 = F32.fin (x s.2) ∧ (∀ j, j ≤ i → x j ≤ x s.2) ∧ ∀ j, j < s.2 → x j < x s.2)
    (by
      refine ⟨Nat.le_refl _, rfl, ?_, ?_⟩
      · intro j hj
        have : j = 0 := by omega
        subst this; exact le_refl _
      · intro j hj; exact absurd hj (Nat.not_lt_zero _))
    (by
      rintro i hi ⟨d, k⟩ ⟨h1, h2, h3, h4⟩
      refine ⟨_, by simp only [Mat.getI_ofFn_row (show i + 1 < C by omega), bind_ok', pure_ok]; rfl, ?_⟩
      simp only at h1 h2 h3 h4
      subst h2
      by_cases h : x k < x (i + 1)
      · rw [if_pos (show F32.fin (x k) < F32.fin (x (i + 1)) from h)]
        refine ⟨Nat.le_refl _, rfl, ?_, ?_⟩
        · intro j hj
          rcases Nat.lt_or_eq_of_le hj with h5 | h5
          · exact le_trans (h3 j (by omega)) h.le
          · subst h5; exact le_refl _
        · intro j hj
          exact lt_of_le_of_lt (h3 j (Nat.le_of_lt_succ hj)) h
      · rw [if_neg (show ¬ F32.fin (x k) < F32.fin (x (i + 1)) from h)]
        refine ⟨by simp only; omega, rfl, ?_, h4⟩
        intro j hj
        rcases Nat.lt_or_eq_of_le hj with h5 | h5
        · exact h3 j (by omega)
        · subst h5; exact not_lt.mp h)
  refine ⟨s.2, ?_, ?_⟩
  · rw [hs]; rfl
  · obtain ⟨h1, h2, h3, h4⟩ := hP
    exact ⟨by omega, fun j hj => h3 j (by omega), h4⟩

theorem argmax_nan {C : Nat} (x : Nat → F32) (h : x 0 = .nan) :
    Mat.argmax (Mat.ofFn 1 C (fun _ j => x j)) = .ok 0 := by
  unfold Mat.argmax
  rcases Nat.eq_zero_or_pos C with hC | hC
  · subst hC
    simp only [Mat.ofFn_rows, Mat.ofFn_cols, check_true, bind_ok', if_true]
    rfl
  have h0 : ¬ C = 0 := by omega
  simp only [Mat.ofFn_rows, Mat.ofFn_cols, check_true, bind_ok', h0, if_false, Mat.getI_ofFn_row hC]
  obtain ⟨s, hs, hP⟩ := forN_inv (n := C - 1)
    (f := fun i (s : F32 × Nat) => (do
      let y ← (Mat.ofFn 1 C (fun _ j => x j)).getI (i + 1)
      return if s.1 < y then (y, i + 1) else s : Out (F32 × Nat)))
    (s := (x 0, 0)) (fun _ s => s = (F32.nan, 0)) (by rw [h])
    (by
      rintro i hi s rfl
      refine ⟨_, by simp only [Mat.getI_ofFn_row (show i + 1 < C by omega), bind_ok', pure_ok]; rfl, ?_⟩
      rw [if_neg]
      intro h1
      exact h1)
  rw [hs]
  subst hP
  rfl

theorem rowsArgmax_gen {α : Type} [LT α] [DecidableRel (α := α) (· < ·)] [NatCast α] [Inhabited α] (g : Nat → α) {R C : Nat}
    (m : Nat → Nat → α) (a : Nat → Nat) (ha : ∀ i, i < R → Mat.argmax (Mat.ofFn 1 C (fun _ j => m i j)) = .ok (a i))
    {o : Mat α} (ho : o.WF) :
    Mat.rowsArgmax g (Mat.ofFn R C m) o = .ok (Mat.ofFn R 1 (fun i _ => ((a i : Nat) : α))) := by
  unfold Mat.rowsArgmax
  obtain ⟨d0, hd0⟩ := Mat.resize_exists g ho R 1
  simp only [Mat.ofFn_rows]
  rw [hd0, Mat.flat_eq_ofFn]
  apply Mat.forN_eachRow
  intro r hr f' _
  simp only [Mat.row_ofFn hr, bind_ok', ha r hr, Mat.setI_col hr]

end BeeDNN
