import Verif.Lemmas.Scaler
import Mathlib.Tactic.FieldSimp
import Mathlib.Tactic.NormNum

/-! # Properties of the data scalers (C71, C72) -/

namespace BeeDNN

/-- C71 (without the constant columns, see `C71_constant_wrong`): `fit` on a non-empty data set `x` (`R` rows, `C` columns) succeeds, and from
then on `transform` applies one increasing affine map `v ↦ a j * v + b j` per column, to any data with at most `C` columns.  On a column of
`x` that is not constant the values lie in `[0,1]` and both ends are reached.  What is missing: constant columns are left as they are. -/
theorem C71_min_max_partial (div0 : ℝ) (g : Nat → ℝ) {s : MinMaxScaler} (h1 : s.mn.WF) (h2 : s.mx.WF) {R C : Nat} (hR : 0 < R) (x : Nat → Nat → ℝ) :
    ∃ (s' : _) (a b : Nat → ℝ), s.fit g (Mat.ofFn R C x) = .ok s' ∧ (∀ j, 0 < a j) ∧
      (∀ N D z, D ≤ C → s'.transform div0 (Mat.ofFn N D z) = .ok (Mat.ofFn N D (fun i j => a j * z i j + b j))) ∧
      (∀ j, (∃ i k, i < R ∧ k < R ∧ x i j ≠ x k j) →
        (∀ i, i < R → 0 ≤ a j * x i j + b j ∧ a j * x i j + b j ≤ 1) ∧
        (∃ i, i < R ∧ a j * x i j + b j = 0) ∧ ∃ i, i < R ∧ a j * x i j + b j = 1) ∧
      ∀ j, (∀ i k, i < R → k < R → x i j = x k j) → a j = 1 ∧ b j = 0 := by
  obtain ⟨lo, hi, h3, h4, h5⟩ := MinMaxScaler.fit_ofFn g h1 h2 (C := C) hR x
  have hle : ∀ j, lo j ≤ hi j := fun j => by
    obtain ⟨i, hi', e⟩ := (h3 j).2
    rw [e]
    exact (h4 j).1 i hi'
  have hne : ∀ j, (∃ i k, i < R ∧ k < R ∧ x i j ≠ x k j) → lo j ≠ hi j := by
    rintro j ⟨i, k, hi', hk, hx⟩ he
    apply hx
    have a1 := (h3 j).1 i hi'
    have a2 := (h3 j).1 k hk
    have a3 := (h4 j).1 i hi'
    have a4 := (h4 j).1 k hk
    linarith
  refine ⟨_, fun j => if lo j = hi j then 1 else 1 / (hi j - lo j), fun j => if lo j = hi j then 0 else -lo j / (hi j - lo j), h5, fun j => ?_,
    fun N D z hD => ?_, fun j hj => ?_, fun j hj => ?_⟩
  · by_cases h : lo j = hi j
    · simp only [if_pos h]
      exact one_pos
    · simp only [if_neg h]
      exact one_div_pos.2 (sub_pos.2 (lt_of_le_of_ne (hle j) h))
  · rw [MinMaxScaler.transform_ofFn div0 hD]
    congr 1
    refine Mat.ofFn_congr fun i j _ _ => ?_
    by_cases h : lo j = hi j
    · simp only [if_pos h]
      rw [rdiv_ne (by norm_num)]
      ring
    · simp only [if_neg h]
      rw [rdiv_ne (sub_ne_zero.2 (Ne.symm h))]
      ring
  · have h := hne j hj
    have hd : 0 < hi j - lo j := sub_pos.2 (lt_of_le_of_ne (hle j) h)
    simp only [if_neg h]
    have key : ∀ v, 1 / (hi j - lo j) * v + -lo j / (hi j - lo j) = (v - lo j) / (hi j - lo j) := fun v => by ring
    simp only [key]
    refine ⟨fun i hi' => ⟨div_nonneg (sub_nonneg.2 ((h3 j).1 i hi')) hd.le, (div_le_one hd).2 (by linarith [(h4 j).1 i hi'])⟩, ?_, ?_⟩
    · obtain ⟨i, hi', e⟩ := (h3 j).2
      exact ⟨i, hi', by rw [e, sub_self, zero_div]⟩
    · obtain ⟨i, hi', e⟩ := (h4 j).2
      exact ⟨i, hi', by rw [← e, div_self hd.ne']⟩
  · have h : lo j = hi j := by
      obtain ⟨i, hi', e⟩ := (h3 j).2
      obtain ⟨k, hk', e'⟩ := (h4 j).2
      rw [e, e']
      exact hj i k hi' hk'
    simp only [if_pos h, and_self]

/-- C71: a constant column keeps its value, whatever it is: data that `fit` was given can leave `[0,1]`. -/
theorem C71_constant_wrong (div0 : ℝ) (g : Nat → ℝ) {R C : Nat} (hR : 0 < R) (c : ℝ) (hc : 1 < c) :
    ∃ s', MinMaxScaler.fit g {} (Mat.ofFn R C (fun _ _ => c)) = .ok s' ∧
      s'.transform div0 (Mat.ofFn R C (fun _ _ => c)) = .ok (Mat.ofFn R C (fun _ _ => c)) ∧ ¬ c ≤ 1 := by
  obtain ⟨s', a, b, h1, -, h2, -, h3⟩ := C71_min_max_partial div0 g (s := {}) rfl rfl (C := C) hR (fun _ _ => c)
  refine ⟨s', h1, ?_, not_le.2 hc⟩
  rw [h2 R C _ (le_refl C)]
  congr 1
  refine Mat.ofFn_congr fun i j _ _ => ?_
  obtain ⟨q1, q2⟩ := h3 j (fun _ _ _ _ => rfl)
  rw [q1, q2]
  ring

/-- C71: an empty data set with columns is an assertion, and so is transforming data with more columns than were fitted. -/
theorem C71_preconditions (div0 : ℝ) (g : Nat → ℝ) (s : MinMaxScaler) {C D R : Nat} (hC : 0 < C) (hD : C < D) (hR : 0 < R) (a b x : Nat → Nat → ℝ) :
    s.fit g (Mat.ofFn 0 C x) = .error .assertFail ∧
      MinMaxScaler.transform div0 ⟨Mat.ofFn 1 C a, Mat.ofFn 1 C b⟩ (Mat.ofFn R D x) = .error .assertFail := by
  constructor
  · unfold MinMaxScaler.fit Mat.colWiseMin
    rw [Mat.colWiseSel_empty _ g hC]
    rfl
  · unfold MinMaxScaler.transform
    rw [Mat.ofFn_rows]
    refine forN_error (k := 0) hR rfl ?_
    rw [Mat.ofFn_cols]
    refine forN_error (k := C) (t := Mat.ofFn R D (fun i j => if i = 0 ∧ j < C then rdiv div0 (x i j - a 0 j) (b 0 j - a 0 j) else x i j)) hD ?_ ?_
    · refine Mat.forN_row (r := 0) (e := fun i j => rdiv div0 (x i j - a 0 j) (b 0 j - a 0 j)) (fun c hc f' h1 _ => ?_)
      rw [Mat.get_ofFn hR (hc.trans hD), bind_ok', Mat.getI_ofFn_row hc, bind_ok', Mat.getI_ofFn_row hc, bind_ok', bind_ok', Mat.set_ofFn hR (hc.trans hD),
        h1 c (le_refl c)]
    · rw [Mat.get_ofFn hR hD, bind_ok']
      have : (Mat.ofFn 1 C a).getI C = .error .assertFail := by
        unfold Mat.getI
        rw [check_false (by simp)]
        rfl
      simp only [this, bind_error']

/-- C72: `fit` on a non-empty data set succeeds; from then on `transform` applies one increasing affine map per column.  On the fitted data the
columns that are not constant get mean 0 and variance 1, and the constant ones become 0. -/
theorem C72_standard (div0 : ℝ) (g : Nat → ℝ) {s : StandardScaler} (h1 : s.mean.WF) (h2 : s.std.WF) {R C : Nat} (hR : 0 < R) (x : Nat → Nat → ℝ) :
    ∃ (s' : _) (a b : Nat → ℝ), s.fit div0 g (Mat.ofFn R C x) = .ok s' ∧ (∀ j, 0 < a j) ∧
      (∀ N D z, D ≤ C → s'.transform div0 (Mat.ofFn N D z) = .ok (Mat.ofFn N D (fun i j => a j * z i j + b j))) ∧
      (∀ j, (∃ i k, i < R ∧ k < R ∧ x i j ≠ x k j) →
        (∑ i ∈ Finset.range R, (a j * x i j + b j)) / R = 0 ∧ (∑ i ∈ Finset.range R, (a j * x i j + b j) ^ 2) / R = 1) ∧
      ∀ j, (∀ i k, i < R → k < R → x i j = x k j) → ∀ i, i < R → a j * x i j + b j = 0 := by
  have hR' : (0 : ℝ) < R := Nat.cast_pos.2 hR
  obtain ⟨μ, hμ⟩ : ∃ μ : Nat → ℝ, ∀ j, μ j = (∑ i ∈ Finset.range R, x i j) / R := ⟨_, fun _ => rfl⟩
  obtain ⟨v, hv⟩ : ∃ v : Nat → ℝ, ∀ j, v j = (∑ i ∈ Finset.range R, (x i j - μ j) ^ 2) / R := ⟨_, fun _ => rfl⟩
  have hsum : ∀ j, ∑ i ∈ Finset.range R, x i j = μ j * R := fun j => by
    rw [hμ]
    field_simp
  have hvar : ∀ j, (∑ i ∈ Finset.range R, x i j * x i j) / R - ((∑ i ∈ Finset.range R, x i j) * (∑ i ∈ Finset.range R, x i j)) / ((R : ℝ) * R) = v j := fun j => by
    rw [hv]
    have : ∑ i ∈ Finset.range R, (x i j - μ j) ^ 2 = ∑ i ∈ Finset.range R, x i j * x i j - 2 * μ j * ∑ i ∈ Finset.range R, x i j + R * μ j ^ 2 := by
      rw [Finset.mul_sum, ← Finset.sum_sub_distrib]
      have : (R : ℝ) * μ j ^ 2 = ∑ i ∈ Finset.range R, μ j ^ 2 := by simp
      rw [this, ← Finset.sum_add_distrib]
      exact Finset.sum_congr rfl fun i _ => by ring
    rw [this, hsum]
    field_simp
    ring
  have hv0 : ∀ j, 0 ≤ v j := fun j => by
    rw [hv]
    exact div_nonneg (Finset.sum_nonneg fun i _ => sq_nonneg _) hR'.le
  have hfit := StandardScaler.fit_ofFn div0 g h1 h2 (C := C) (R := R) x
  simp only [rdiv_ne hR'.ne', rdiv_ne (mul_pos hR' hR').ne', hvar] at hfit
  simp only [← hμ] at hfit
  have hconst : ∀ j, v j = 0 → ∀ i, i < R → x i j = μ j := fun j h i hi => by
    rw [hv, div_eq_zero_iff, or_iff_left hR'.ne', Finset.sum_eq_zero_iff_of_nonneg fun i _ => sq_nonneg _] at h
    have := h i (Finset.mem_range.2 hi)
    exact sub_eq_zero.1 (pow_eq_zero_iff (two_ne_zero)|>.1 this)
  obtain ⟨σ, hσ⟩ : ∃ σ : Nat → ℝ, ∀ j, σ j = if v j ≠ 0 then Real.sqrt (v j) else 1 := ⟨_, fun _ => rfl⟩
  simp only [← hσ] at hfit
  have hσ0 : ∀ j, 0 < σ j := fun j => by
    rw [hσ]
    by_cases h : v j ≠ 0
    · rw [if_pos h]
      exact Real.sqrt_pos.2 (lt_of_le_of_ne (hv0 j) (Ne.symm h))
    · rw [if_neg h]
      exact one_pos
  refine ⟨_, fun j => 1 / σ j, fun j => -μ j / σ j, hfit, fun j => one_div_pos.2 (hσ0 j), fun N D z hD => ?_, fun j hj => ?_, fun j hj i hi => ?_⟩
  · rw [StandardScaler.transform_ofFn div0 hD]
    congr 1
    refine Mat.ofFn_congr fun i j _ _ => ?_
    rw [rdiv_ne (hσ0 j).ne']
    ring
  · have key : ∀ u, 1 / σ j * u + -μ j / σ j = (u - μ j) / σ j := fun u => by ring
    simp only [key]
    have hvj : v j ≠ 0 := fun h => by
      obtain ⟨i, k, hi, hk, hne⟩ := hj
      exact hne ((hconst j h i hi).trans (hconst j h k hk).symm)
    constructor
    · rw [← Finset.sum_div, Finset.sum_sub_distrib, hsum]
      simp [mul_comm]
    · have hs : σ j ^ 2 = v j := by
        rw [hσ, if_pos hvj, Real.sq_sqrt (hv0 j)]
      simp only [div_pow, hs]
      rw [← Finset.sum_div, div_right_comm, ← hv, div_self hvj]
  · have : μ j = x i j := by
      rw [hμ, Finset.sum_congr rfl fun k hk => hj k i (Finset.mem_range.1 hk) hi]
      simp only [Finset.sum_const, Finset.card_range, nsmul_eq_mul]
      field_simp
    simp only [this]
    ring

/-- Two rows `(0, 5)` and `(4, 5)`: the first column is not constant, the second is. -/
example : (∃ i k, i < 2 ∧ k < 2 ∧ (fun i j => if j = 0 then 4 * (i : ℝ) else 5 : Nat → Nat → ℝ) i 0 ≠ (fun i j => if j = 0 then 4 * (i : ℝ) else 5 : Nat → Nat → ℝ) k 0) ∧
    ∀ i k, i < 2 → k < 2 → (fun i j => if j = 0 then 4 * (i : ℝ) else 5 : Nat → Nat → ℝ) i 1 = (fun i j => if j = 0 then 4 * (i : ℝ) else 5 : Nat → Nat → ℝ) k 1 :=
  ⟨⟨0, 1, by norm_num, by norm_num, by norm_num⟩, fun _ _ _ _ => by norm_num⟩

end BeeDNN
