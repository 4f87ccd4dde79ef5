import Verif.Lemmas.LossDiff
import Verif.Props.Softmax

/-!
# Losses (claims C60, C61, the loss part of C62, the balancing part of C56)

`g` is fresh memory, `eps` the constant `1.e-8f`, `w` the class weights (empty: no balancing), `o` the matrix
overwritten with the result.  `createLoss g ab eps s` is `create_loss(s)`; `ab` is what `::abs` denotes
(see Model/Loss.lean), `|·|` unless stated otherwise.
-/

namespace BeeDNN
open Finset

/-- The losses that are a distance between prediction and truth. -/
def distanceLosses : List String :=
  ["MeanSquaredError", "MeanAbsoluteError", "MeanCubicError", "L2", "L1", "L3", "LogCosh", "Huber", "PseudoHuber"]

/-! ## C60 -/

theorem diff_zero_iff {ℓ : LossFn} {red : Nat → ℝ} {φ : ℝ → ℝ} {ψ : Nat → ℝ → ℝ} (h : IsDiffLoss ℓ red φ ψ)
    (hφ : ∀ x, 0 ≤ φ x ∧ (φ x = 0 ↔ x = 0)) (hr : ∀ N, 0 < N → 0 < red N) {N C : Nat} (hN : 0 < N)
    (p t : Nat → Nat → ℝ) {w o : Mat ℝ} (hw : w.size = 0) (ho : o.WF) :
    ∃ L, ℓ.compute w (Mat.ofFn N C p) (Mat.ofFn N C t) o = .ok (Mat.ofFn 1 C L) ∧
      ∀ j, j < C → 0 ≤ L 0 j ∧ (L 0 j = 0 ↔ ∀ i, i < N → p i j = t i j) := by
  refine ⟨_, h.compute N C p t w o hw ho, fun j _ => ⟨?_, ?_⟩⟩
  · exact div_nonneg (sum_nonneg fun i _ => (hφ _).1) (hr N hN).le
  · rw [div_eq_zero_iff, or_iff_left (hr N hN).ne', sum_eq_zero_iff_of_nonneg (fun i _ => (hφ _).1)]
    constructor
    · intro hz i hi
      have := ((hφ _).2.mp (hz i (mem_range.mpr hi)))
      linarith
    · intro hz i hi
      rw [(hφ _).2, hz i (mem_range.mp hi), sub_self]

/-- C60: for every distance loss, every batch and every output `j`, the loss entry of output `j` is non-negative
and it is zero exactly when prediction and truth agree on that output in all samples. -/
theorem C60_distance (g : Nat → ℝ) (eps : ℝ) {N C : Nat} (hN : 0 < N) (p t : Nat → Nat → ℝ) (w o : Mat ℝ)
    (hw : w.size = 0) (ho : o.WF) :
    ∀ s ∈ distanceLosses, ∃ ℓ L, createLoss g (fun x => |x|) eps s = some ℓ ∧
      ℓ.compute w (Mat.ofFn N C p) (Mat.ofFn N C t) o = .ok (Mat.ofFn 1 C L) ∧
      ∀ j, j < C → 0 ≤ L 0 j ∧ (L 0 j = 0 ↔ ∀ i, i < N → p i j = t i j) := by
  have hn : ∀ N : Nat, 0 < N → 0 < (N : ℝ) := fun N h => Nat.cast_pos.mpr h
  have h1 : ∀ N : Nat, 0 < N → (0:ℝ) < 1 := fun _ _ => one_pos
  have hsq : ∀ x : ℝ, 0 ≤ x * x ∧ (x * x = 0 ↔ x = 0) := fun x => ⟨mul_self_nonneg x, mul_self_eq_zero⟩
  have habs : ∀ x : ℝ, 0 ≤ |x| ∧ (|x| = 0 ↔ x = 0) := fun x => ⟨abs_nonneg x, abs_eq_zero⟩
  intro s hs
  simp only [distanceLosses, List.mem_cons, List.not_mem_nil, or_false] at hs
  rcases hs with rfl | rfl | rfl | rfl | rfl | rfl | rfl | rfl | rfl
  · obtain ⟨L, h⟩ := diff_zero_iff (isDiff_MSE g) hsq hn hN (C := C) p t hw ho
    exact ⟨_, L, rfl, h⟩
  · obtain ⟨L, h⟩ := diff_zero_iff (isDiff_MAE g _) habs hn hN (C := C) p t hw ho
    exact ⟨_, L, rfl, h⟩
  · obtain ⟨L, h⟩ := diff_zero_iff (isDiff_MCE g _) cube_nonneg hn hN (C := C) p t hw ho
    exact ⟨_, L, rfl, h⟩
  · obtain ⟨L, h⟩ := diff_zero_iff (isDiff_L2 g) hsq h1 hN (C := C) p t hw ho
    exact ⟨_, L, rfl, h⟩
  · obtain ⟨L, h⟩ := diff_zero_iff (isDiff_L1 g _) habs h1 hN (C := C) p t hw ho
    exact ⟨_, L, rfl, h⟩
  · obtain ⟨L, h⟩ := diff_zero_iff (isDiff_L3 g _) cube_nonneg h1 hN (C := C) p t hw ho
    exact ⟨_, L, rfl, h⟩
  · obtain ⟨L, h⟩ := diff_zero_iff (isDiff_LogCosh g) logCosh_nonneg hn hN (C := C) p t hw ho
    exact ⟨_, L, rfl, h⟩
  · obtain ⟨L, h⟩ := diff_zero_iff (isDiff_Huber g _) huber_nonneg hn hN (C := C) p t hw ho
    exact ⟨_, L, rfl, h⟩
  · obtain ⟨L, h⟩ := diff_zero_iff (isDiff_PseudoHuber g) pseudoHuber_nonneg hn hN (C := C) p t hw ho
    exact ⟨_, L, rfl, h⟩

/-- C60: the same nine losses reject matrices of different shapes. -/
theorem C60_mismatch (g : Nat → ℝ) (ab : ℝ → ℝ) (eps : ℝ) (w p t o : Mat ℝ)
    (h : t.cols ≠ p.cols ∨ t.rows ≠ p.rows) :
    ∀ s ∈ distanceLosses, ∃ ℓ, createLoss g ab eps s = some ℓ ∧ ℓ.compute w p t o = .error .assertFail ∧
      ℓ.gradient w p t o = .error .assertFail := by
  intro s hs
  simp only [distanceLosses, List.mem_cons, List.not_mem_nil, or_false] at hs
  rcases hs with rfl | rfl | rfl | rfl | rfl | rfl | rfl | rfl | rfl
  · exact ⟨_, rfl, (isDiff_MSE g).mismatch w p t o h⟩
  · exact ⟨_, rfl, (isDiff_MAE g ab).mismatch w p t o h⟩
  · exact ⟨_, rfl, (isDiff_MCE g ab).mismatch w p t o h⟩
  · exact ⟨_, rfl, (isDiff_L2 g).mismatch w p t o h⟩
  · exact ⟨_, rfl, (isDiff_L1 g ab).mismatch w p t o h⟩
  · exact ⟨_, rfl, (isDiff_L3 g ab).mismatch w p t o h⟩
  · exact ⟨_, rfl, (isDiff_LogCosh g).mismatch w p t o h⟩
  · exact ⟨_, rfl, (isDiff_Huber g ab).mismatch w p t o h⟩
  · exact ⟨_, rfl, (isDiff_PseudoHuber g).mismatch w p t o h⟩

/-- C60 depends on the standard library: if `::abs` denotes the C function on `int`, the mean absolute error
of prediction `1/2` and truth `0` is zero. -/
theorem C60_integer_abs_wrong (g : Nat → ℝ) (eps : ℝ) : ∃ ℓ, createLoss g intAbs eps "MeanAbsoluteError" = some ℓ ∧
    ℓ.compute ⟨0, 0, []⟩ (Mat.ofFn 1 1 (fun _ _ => 1 / 2)) (Mat.ofFn 1 1 (fun _ _ => 0)) ⟨0, 0, []⟩ =
      .ok (Mat.ofFn 1 1 (fun _ _ => 0)) := by
  refine ⟨_, rfl, ?_⟩
  rw [(isDiff_MAE g intAbs).compute 1 1 _ _ ⟨0, 0, []⟩ ⟨0, 0, []⟩ rfl rfl]
  congr 1
  apply Mat.ofFn_congr
  intro i j _ _
  have : intAbs (1 / 2) = 0 := by
    unfold intAbs
    have : ⌊(1 / 2 : ℝ)⌋ = 0 := by rw [Int.floor_eq_zero_iff]; constructor <;> norm_num
    simp only [if_pos (show (0:ℝ) ≤ 1 / 2 by norm_num), this]
    simp
  simp [-one_div, this]

/-- The cross entropies never use the class weights. -/
theorem C60_crossEntropy_unweighted (g : Nat → ℝ) (eps : ℝ) (w w' p t o : Mat ℝ) :
    ∀ ℓ ∈ [lossCCE g eps, lossSparseCCE g eps, lossBCE g eps],
      ℓ.compute w p t o = ℓ.compute w' p t o ∧ ℓ.gradient w p t o = ℓ.gradient w' p t o := by
  intro ℓ h
  simp only [List.mem_cons, List.not_mem_nil, or_false] at h
  rcases h with rfl | rfl | rfl <;> exact ⟨rfl, rfl⟩

theorem log_clamp_nonpos {eps p : ℝ} (h0 : 0 < eps) (h1 : eps < 1) (hp : p ≤ 1) :
    Real.log (max p eps) ≤ 0 ∧ (Real.log (max p eps) = 0 ↔ p = 1) := by
  have hpos : 0 < max p eps := lt_max_of_lt_right h0
  have hle : max p eps ≤ 1 := max_le hp h1.le
  refine ⟨Real.log_nonpos hpos.le hle, ?_⟩
  constructor
  · intro h
    by_contra hne
    have : max p eps < 1 := max_lt (lt_of_le_of_ne hp hne) h1
    have := Real.log_neg hpos this
    linarith
  · rintro rfl
    rw [max_eq_left h1.le, Real.log_one]

/-- C60: categorical cross entropy of predictions at most one and non-negative truths: non-negative, and zero
exactly when every class with positive truth is predicted with probability one. -/
theorem C60_categorical (g : Nat → ℝ) {eps : ℝ} (h0 : 0 < eps) (h1 : eps < 1) (N C : Nat) (p t : Nat → Nat → ℝ)
    (w o : Mat ℝ) (ho : o.WF) (hp : ∀ i j, i < N → j < C → p i j ≤ 1) (ht : ∀ i j, i < N → j < C → 0 ≤ t i j) :
    ∃ ℓ L, createLoss g (fun x => |x|) eps "CategoricalCrossEntropy" = some ℓ ∧
      ℓ.compute w (Mat.ofFn N C p) (Mat.ofFn N C t) o = .ok (Mat.ofFn N 1 L) ∧
      ∀ i, i < N → 0 ≤ L i 0 ∧ (L i 0 = 0 ↔ ∀ j, j < C → 0 < t i j → p i j = 1) := by
  refine ⟨_, _, rfl, cce_compute_ofFn g eps N C p t w ho, fun i hi => ?_⟩
  have hterm : ∀ j ∈ range C, 0 ≤ -(t i j * Real.log (max (p i j) eps)) := by
    intro j hj
    have := mul_nonpos_of_nonneg_of_nonpos (ht i j hi (mem_range.mp hj))
      (log_clamp_nonpos h0 h1 (hp i j hi (mem_range.mp hj))).1
    linarith
  refine ⟨sum_nonneg hterm, ?_⟩
  rw [sum_eq_zero_iff_of_nonneg hterm]
  constructor
  · intro hz j hj htj
    have := neg_eq_zero.mp (hz j (mem_range.mpr hj))
    rcases mul_eq_zero.mp this with h | h
    · exact absurd h htj.ne'
    · exact (log_clamp_nonpos h0 h1 (hp i j hi hj)).2.mp h
  · intro hz j hj
    have hj := mem_range.mp hj
    rcases (ht i j hi hj).lt_or_eq with h | h
    · rw [(log_clamp_nonpos h0 h1 (hp i j hi hj)).2.mpr (hz j hj h)]; simp
    · rw [← h]; simp

/-- C60: sparse categorical cross entropy; the truth is a column of class indices. -/
theorem C60_sparse (g : Nat → ℝ) {eps : ℝ} (h0 : 0 < eps) (h1 : eps < 1) {N C : Nat} (hC : C ≤ 2147483648)
    (p t : Nat → Nat → ℝ) (w o : Mat ℝ) (ho : o.WF) (hp : ∀ i j, i < N → j < C → p i j ≤ 1) (cls : Nat → Nat)
    (ht : ∀ i, i < N → t i 0 = cls i) (hc : ∀ i, i < N → cls i < C) :
    ∃ ℓ L, createLoss g (fun x => |x|) eps "SparseCategoricalCrossEntropy" = some ℓ ∧
      ℓ.compute w (Mat.ofFn N C p) (Mat.ofFn N 1 t) o = .ok (Mat.ofFn N 1 L) ∧
      ∀ i, i < N → 0 ≤ L i 0 ∧ (L i 0 = 0 ↔ p i (cls i) = 1) := by
  refine ⟨_, _, rfl, sparse_compute_ofFn g eps p t w ho ht hc hC, fun i hi => ?_⟩
  have h := log_clamp_nonpos h0 h1 (hp i (cls i) hi (hc i hi))
  exact ⟨by linarith [h.1], by rw [neg_eq_zero]; exact h.2⟩

/-- C60: sparse and dense categorical cross entropy agree on one-hot truths. -/
theorem C60_sparse_eq_onehot (g : Nat → ℝ) (eps : ℝ) {N C : Nat} (hC : C ≤ 2147483648)
    (p t : Nat → Nat → ℝ) (w o : Mat ℝ) (ho : o.WF) (cls : Nat → Nat)
    (ht : ∀ i, i < N → t i 0 = cls i) (hc : ∀ i, i < N → cls i < C) :
    (lossSparseCCE g eps).compute w (Mat.ofFn N C p) (Mat.ofFn N 1 t) o =
      (lossCCE g eps).compute w (Mat.ofFn N C p) (Mat.ofFn N C (fun i j => if j = cls i then 1 else 0)) o ∧
    (lossSparseCCE g eps).gradient w (Mat.ofFn N C p) (Mat.ofFn N 1 t) o =
      (lossCCE g eps).gradient w (Mat.ofFn N C p) (Mat.ofFn N C (fun i j => if j = cls i then 1 else 0)) o := by
  constructor
  · rw [sparse_compute_ofFn g eps p t w ho ht hc hC, cce_compute_ofFn g eps N C p _ w ho]
    congr 1
    apply Mat.ofFn_congr
    intro i j hi _
    rw [sum_eq_single (cls i)]
    · simp
    · intro b _ hb; simp [hb]
    · intro h; exact absurd (mem_range.mpr (hc i hi)) h
  · rw [sparse_gradient_ofFn g eps p t w ho ht (fun i hi => lt_of_lt_of_le (hc i hi) hC),
      cce_gradient_ofFn g eps N C p _ w ho]
    congr 1
    apply Mat.ofFn_congr
    intro i j _ _
    by_cases h : cls i = j
    · subst h; simp
    · have h' : ¬ j = cls i := fun e => h e.symm
      simp [h, h']

/-- A class index outside the columns of the prediction is never read silently as a column: too large an
index fails an assertion. -/
theorem C60_sparse_out_of_range (g : Nat → ℝ) (eps : ℝ) {N C k : Nat} (hk : C ≤ k) (hk2 : k < 2147483648)
    (p t : Nat → Nat → ℝ) (w o : Mat ℝ) (ho : o.WF) (hN : 0 < N) (ht : t 0 0 = k) :
    (lossSparseCCE g eps).compute w (Mat.ofFn N C p) (Mat.ofFn N 1 t) o = .error .assertFail := by
  obtain ⟨d, hd⟩ := Mat.resize_ofFn g ho N 1
  simp only [lossSparseCCE, Mat.ofFn_rows, Mat.ofFn_cols, check_true, bind_ok', hd]
  refine forN_error (k := 0) hN rfl ?_
  rw [Mat.getI_ofFn_col hN, ht]
  simp only [bind_ok']
  rw [toInt_nat hk2]
  simp only [bind_ok', Mat.getColInt]
  have h1 : ¬ ((k : Int) < ((Mat.ofFn N C p).cols : Int)) := by rw [Mat.ofFn_cols]; omega
  rw [check_true (show 0 < (Mat.ofFn N C p).rows from hN), check_false h1]
  rfl

/-- C60: binary cross entropy for predictions and truths in `[0,1]`. -/
theorem C60_binary (g : Nat → ℝ) {eps : ℝ} (h0 : 0 < eps) (h1 : eps < 1) (N : Nat) (p t : Nat → Nat → ℝ)
    (w o : Mat ℝ) (ho : o.WF) (hp : ∀ i, i < N → 0 ≤ p i 0 ∧ p i 0 ≤ 1) (ht : ∀ i, i < N → 0 ≤ t i 0 ∧ t i 0 ≤ 1) :
    ∃ ℓ L, createLoss g (fun x => |x|) eps "BinaryCrossEntropy" = some ℓ ∧
      ℓ.compute w (Mat.ofFn N 1 p) (Mat.ofFn N 1 t) o = .ok (Mat.ofFn N 1 L) ∧
      ∀ i, i < N → 0 ≤ L i 0 ∧ (L i 0 = 0 ↔ (0 < t i 0 → p i 0 = 1) ∧ (t i 0 < 1 → p i 0 = 0)) := by
  refine ⟨_, _, rfl, bce_compute_ofFn g eps N p t w ho, fun i hi => ?_⟩
  have ha := log_clamp_nonpos h0 h1 (hp i hi).2
  have hb := log_clamp_nonpos (p := 1 - p i 0) h0 h1 (by linarith [(hp i hi).1])
  have ha' := mul_nonpos_of_nonneg_of_nonpos (ht i hi).1 ha.1
  have hb' := mul_nonpos_of_nonneg_of_nonpos (show 0 ≤ 1 - t i 0 by linarith [(ht i hi).2]) hb.1
  refine ⟨by linarith, ?_⟩
  have hsplit : -(t i 0 * Real.log (max (p i 0) eps) + (1 - t i 0) * Real.log (max (1 - p i 0) eps)) = 0 ↔
      t i 0 * Real.log (max (p i 0) eps) = 0 ∧ (1 - t i 0) * Real.log (max (1 - p i 0) eps) = 0 := by
    constructor
    · intro h; constructor <;> linarith
    · rintro ⟨e1, e2⟩; rw [e1, e2]; simp
  rw [hsplit, mul_eq_zero, mul_eq_zero, ha.2, hb.2]
  constructor
  · rintro ⟨h3, h4⟩
    constructor
    · intro h
      rcases h3 with h3 | h3
      · exact absurd h3 h.ne'
      · exact h3
    · intro h
      rcases h4 with h4 | h4
      · linarith
      · linarith
  · rintro ⟨h3, h4⟩
    constructor
    · rcases (ht i hi).1.lt_or_eq with h | h
      · exact Or.inr (h3 h)
      · exact Or.inl h.symm
    · rcases (ht i hi).2.lt_or_eq with h | h
      · right; have := h4 h; linarith
      · left; linarith

/-- Hypotheses of the cross entropy theorems on a concrete case. -/
example : (0:ℝ) < 1e-8 ∧ (1e-8:ℝ) < 1 ∧ (∀ i j, i < 1 → j < 2 → (fun _ j => if j = 0 then (0.75:ℝ) else 0.25 : Nat → Nat → ℝ) i j ≤ 1) := by
  refine ⟨by norm_num, by norm_num, fun i j _ _ => ?_⟩
  dsimp only
  split <;> norm_num

/-! ## C61 -/

/-- The constants of C61: `compute_gradient` is this multiple of the gradient of the loss of the sample. -/
noncomputable def gradFactor (s : String) (C : Nat) : ℝ :=
  if s = "MeanSquaredError" then 1 / (2 * C) else if s = "L2" then 1 / 2 else if s = "L1" then 1 / C else 1

/-- Losses with a kink at equality of prediction and truth. -/
def kinkAtZero : List String := ["MeanAbsoluteError", "L1"]

theorem gradFactor_pos (s : String) {C : Nat} (hC : 0 < C) : 0 < gradFactor s C := by
  have : (0:ℝ) < C := Nat.cast_pos.mpr hC
  unfold gradFactor
  split
  · positivity
  · split
    · norm_num
    · split
      · positivity
      · norm_num

theorem diff_grad {ℓ : LossFn} {red : Nat → ℝ} {φ : ℝ → ℝ} {ψ : Nat → ℝ → ℝ} (h : IsDiffLoss ℓ red φ ψ)
    (hr : red 1 = 1) {N C : Nat} {c : ℝ} {φ' : ℝ → ℝ} (p t : Nat → Nat → ℝ) {w o : Mat ℝ} (hw : w.size = 0)
    (ho : o.WF) (hφ : ∀ i j, i < N → j < C → HasDerivAt φ (φ' (p i j - t i j)) (p i j - t i j))
    (hψ : ∀ i j, i < N → j < C → ψ C (p i j - t i j) = c * φ' (p i j - t i j)) :
    ∃ G, ℓ.gradient w (Mat.ofFn N C p) (Mat.ofFn N C t) o = .ok (Mat.ofFn N C G) ∧
      ∀ i, i < N → ∃ (F : (Nat → Nat → ℝ) → ℝ) (D : Nat → ℝ),
        (∀ y, (do let L ← ℓ.compute w (Mat.ofFn 1 C y) (Mat.ofFn 1 C (fun _ j => t i j)) o
                  L.sum) = .ok (F y)) ∧
        IsGrad 1 C F (fun _ j => p i j) (fun _ j => D j) ∧ ∀ j, j < C → G i j = c * D j := by
  refine ⟨_, h.gradient N C p t w o hw ho, fun i hi => ?_⟩
  refine ⟨fun y => ∑ j ∈ range C, φ (y 0 j - t i j), fun j => φ' (p i j - t i j), ?_, ?_, ?_⟩
  · intro y
    rw [h.compute 1 C y _ w o hw ho]
    simp only [bind_ok']
    rw [Mat.sum_row, accN_eq_sum]
    simp [hr]
  · refine isGrad_sep (f := fun j y => φ (y - t i j)) (fun j hj => ?_)
    have h1 : HasDerivAt (fun y : ℝ => y - t i j) 1 (p i j) := (hasDerivAt_id _).sub_const _
    have := (hφ i j hi hj).comp (p i j) h1
    exact this.congr_deriv (by simp)
  · intro j hj
    exact hψ i j hi hj

/-- C61: for every distance loss and every batch (for the absolute errors: off the kink) `compute_gradient`
succeeds, and its row `i` is `gradFactor s C > 0` times the gradient of the loss of sample `i`, which is the sum
`F` of the loss matrix that `compute` gives for this sample alone. -/
theorem C61_distance (g : Nat → ℝ) (eps : ℝ) {N C : Nat} (hC : 0 < C) (p t : Nat → Nat → ℝ) (w o : Mat ℝ)
    (hw : w.size = 0) (ho : o.WF) :
    ∀ s ∈ distanceLosses, (s ∈ kinkAtZero → ∀ i j, i < N → j < C → p i j ≠ t i j) →
      0 < gradFactor s C ∧ ∃ ℓ G, createLoss g (fun x => |x|) eps s = some ℓ ∧
      ℓ.gradient w (Mat.ofFn N C p) (Mat.ofFn N C t) o = .ok (Mat.ofFn N C G) ∧
      ∀ i, i < N → ∃ (F : (Nat → Nat → ℝ) → ℝ) (D : Nat → ℝ),
        (∀ y, (do let L ← ℓ.compute w (Mat.ofFn 1 C y) (Mat.ofFn 1 C (fun _ j => t i j)) o
                  L.sum) = .ok (F y)) ∧
        IsGrad 1 C F (fun _ j => p i j) (fun _ j => D j) ∧ ∀ j, j < C → G i j = gradFactor s C * D j := by
  have hC' : (C:ℝ) ≠ 0 := Nat.cast_ne_zero.mpr hC.ne'
  intro s hs hk
  refine ⟨gradFactor_pos s hC, ?_⟩
  simp only [distanceLosses, List.mem_cons, List.not_mem_nil, or_false] at hs
  have hone : ((1 : Nat) : ℝ) = 1 := Nat.cast_one
  rcases hs with rfl | rfl | rfl | rfl | rfl | rfl | rfl | rfl | rfl
  · obtain ⟨G, h⟩ := diff_grad (isDiff_MSE g) hone (c := gradFactor "MeanSquaredError" C) (N := N) (C := C) p t hw ho
      (fun i j _ _ => hasDerivAt_mulSelf _) (fun i j _ _ => by simp [gradFactor]; field_simp)
    exact ⟨_, G, rfl, h⟩
  · have hk := hk (by decide)
    obtain ⟨G, h⟩ := diff_grad (isDiff_MAE g (fun x => |x|)) hone (c := gradFactor "MeanAbsoluteError" C) (N := N) (C := C) p t hw ho
      (fun i j hi hj => hasDerivAt_absR (sub_ne_zero.mpr (hk i j hi hj))) (fun i j _ _ => by simp [gradFactor])
    exact ⟨_, G, rfl, h⟩
  · obtain ⟨G, h⟩ := diff_grad (isDiff_MCE g (fun x => |x|)) hone (c := gradFactor "MeanCubicError" C) (φ' := fun x => 3 * x * x * (if x > 0 then 1 else -1)) (N := N) (C := C) p t hw ho
      (fun i j _ _ => hasDerivAt_absCube _) (fun i j _ _ => by simp only [gradFactor]; simp)
    exact ⟨_, G, rfl, h⟩
  · obtain ⟨G, h⟩ := diff_grad (isDiff_L2 g) rfl (c := gradFactor "L2" C) (N := N) (C := C) p t hw ho
      (fun i j _ _ => hasDerivAt_mulSelf _) (fun i j _ _ => by simp [gradFactor])
    exact ⟨_, G, rfl, h⟩
  · have hk := hk (by decide)
    obtain ⟨G, h⟩ := diff_grad (isDiff_L1 g (fun x => |x|)) rfl (c := gradFactor "L1" C) (N := N) (C := C) p t hw ho
      (fun i j hi hj => hasDerivAt_absR (sub_ne_zero.mpr (hk i j hi hj)))
      (fun i j _ _ => by simp [gradFactor]; field_simp)
    exact ⟨_, G, rfl, h⟩
  · obtain ⟨G, h⟩ := diff_grad (isDiff_L3 g (fun x => |x|)) rfl (c := gradFactor "L3" C) (φ' := fun x => 3 * x * x * (if x > 0 then 1 else -1)) (N := N) (C := C) p t hw ho
      (fun i j _ _ => hasDerivAt_absCube _) (fun i j _ _ => by simp only [gradFactor]; simp)
    exact ⟨_, G, rfl, h⟩
  · obtain ⟨G, h⟩ := diff_grad (isDiff_LogCosh g) hone (c := gradFactor "LogCosh" C) (N := N) (C := C) p t hw ho
      (fun i j _ _ => hasDerivAt_logCosh _) (fun i j _ _ => by simp [gradFactor])
    exact ⟨_, G, rfl, h⟩
  · obtain ⟨G, h⟩ := diff_grad (isDiff_Huber g (fun x => |x|)) hone (c := gradFactor "Huber" C) (φ' := fun x => if x > 1 then 1 else if x < -1 then -1 else x) (N := N) (C := C) p t hw ho
      (fun i j _ _ => hasDerivAt_huber _) (fun i j _ _ => by simp only [gradFactor]; simp)
    exact ⟨_, G, rfl, h⟩
  · obtain ⟨G, h⟩ := diff_grad (isDiff_PseudoHuber g) hone (c := gradFactor "PseudoHuber" C) (φ' := fun x => x / Real.sqrt (x * x * 1 + 1)) (N := N) (C := C) p t hw ho
      (fun i j _ _ => hasDerivAt_pseudoHuber _) (fun i j _ _ => by simp only [gradFactor]; simp)
    exact ⟨_, G, rfl, h⟩

theorem hasDerivAt_clampLog {eps x : ℝ} (h0 : 0 < eps) (hx : eps < x) :
    HasDerivAt (fun y : ℝ => Real.log (max y eps)) (1 / x) x := by
  have h := Real.hasDerivAt_log (show x ≠ 0 by linarith)
  rw [← one_div] at h
  refine h.congr_of_eventuallyEq ?_
  filter_upwards [eventually_gt_nhds hx] with y hy
  rw [max_eq_left (show eps ≤ y from le_of_lt hy)]

theorem hasDerivAt_clampLogSub {eps x : ℝ} (h0 : 0 < eps) (hx : eps < 1 - x) :
    HasDerivAt (fun y : ℝ => Real.log (max (1 - y) eps)) (-(1 / (1 - x))) x := by
  have h := hasDerivAt_clampLog h0 hx
  have h1 : HasDerivAt (fun y : ℝ => 1 - y) (-1) x := (hasDerivAt_id x).const_sub 1
  have := h.comp x h1
  refine this.congr_deriv ?_
  ring

/-- C61: the binary cross entropy gradient is the gradient of the loss, strictly inside the clamping limits. -/
theorem C61_binary (g : Nat → ℝ) {eps : ℝ} (h0 : 0 < eps) {N : Nat} (p t : Nat → Nat → ℝ) (w o : Mat ℝ) (ho : o.WF)
    (hp : ∀ i, i < N → eps < p i 0 ∧ p i 0 < 1 - eps) :
    ∃ ℓ G, createLoss g (fun x => |x|) eps "BinaryCrossEntropy" = some ℓ ∧
      ℓ.gradient w (Mat.ofFn N 1 p) (Mat.ofFn N 1 t) o = .ok (Mat.ofFn N 1 G) ∧
      ∀ i, i < N → ∃ (F : (Nat → Nat → ℝ) → ℝ),
        (∀ y, (do let L ← ℓ.compute w (Mat.ofFn 1 1 y) (Mat.ofFn 1 1 (fun _ j => t i j)) o
                  L.sum) = .ok (F y)) ∧
        IsGrad 1 1 F (fun _ j => p i j) (fun _ j => G i j) := by
  refine ⟨_, _, rfl, bce_gradient_ofFn g eps N 1 p t w ho, fun i hi => ?_⟩
  refine ⟨fun y => ∑ j ∈ range 1, -(t i j * Real.log (max (y 0 j) eps) +
    (1 - t i j) * Real.log (max (1 - y 0 j) eps)), ?_, ?_⟩
  · intro y
    show ((lossBCE g eps).compute w _ _ o).bind _ = _
    rw [bce_compute_ofFn g eps 1 y _ w ho]
    show Mat.sum _ = _
    rw [Mat.sum_row, accN_eq_sum]
  · refine isGrad_sep (f := fun j y => -(t i j * Real.log (max y eps) + (1 - t i j) * Real.log (max (1 - y) eps)))
      (fun j hj => ?_)
    have : j = 0 := by omega
    subst this
    obtain ⟨ha, hb⟩ := hp i hi
    have := (((hasDerivAt_clampLog h0 ha).const_mul (t i 0)).add
      ((hasDerivAt_clampLogSub h0 (x := p i 0) (by linarith)).const_mul (1 - t i 0))).neg
    refine this.congr_deriv ?_
    rw [max_eq_left ha.le, max_eq_left (by linarith)]
    ring

/-- C61 fails for the categorical cross entropy: at `p = (1/2,1/2)`, `t = (1,0)` the code returns `(-2, 2)`, the
gradient of the loss of this sample is `(-2, 0)`, and no factor relates them. -/
theorem C61_categorical_wrong (g : Nat → ℝ) {eps : ℝ} (h0 : 0 < eps) (h1 : eps < 1 / 2) (w o : Mat ℝ) (ho : o.WF) :
    ∃ (ℓ : LossFn) (F : (Nat → Nat → ℝ) → ℝ) (D : Nat → ℝ),
      createLoss g (fun x => |x|) eps "CategoricalCrossEntropy" = some ℓ ∧
      ℓ.gradient w (Mat.ofFn 1 2 (fun _ _ => 1 / 2)) (Mat.ofFn 1 2 (fun _ j => if j = 0 then 1 else 0)) o =
        .ok (Mat.ofFn 1 2 (fun _ j => if j = 0 then -2 else 2)) ∧
      (∀ y, (do let L ← ℓ.compute w (Mat.ofFn 1 2 y) (Mat.ofFn 1 2 (fun _ j => if j = 0 then 1 else 0)) o
                L.sum) = .ok (F y)) ∧
      IsGrad 1 2 F (fun _ _ => 1 / 2) (fun _ j => D j) ∧
      ¬ ∃ c : ℝ, ∀ j, j < 2 → (if j = 0 then -2 else 2 : ℝ) = c * D j := by
  refine ⟨_, fun y => ∑ j ∈ range 2, -((if j = 0 then 1 else 0) * Real.log (max (y 0 j) eps)),
    fun j => -((if j = 0 then 1 else 0) * (1 / (1 / 2))), rfl, ?_, ?_, ?_, ?_⟩
  · rw [cce_gradient_ofFn g eps 1 2 _ _ w ho]
    congr 1
    apply Mat.ofFn_congr
    intro i j _ _
    rw [max_eq_left h1.le, max_eq_left (by linarith)]
    split <;> norm_num
  · intro y
    show ((lossCCE g eps).compute w _ _ o).bind _ = _
    rw [cce_compute_ofFn g eps 1 2 y _ w ho]
    show Mat.sum _ = _
    rw [Mat.sum_row, accN_eq_sum]
    simp
  · refine isGrad_sep (f := fun j y => -((if j = 0 then 1 else 0) * Real.log (max y eps))) (fun j _ => ?_)
    exact ((hasDerivAt_clampLog h0 h1).const_mul _).neg
  · rintro ⟨c, hc⟩
    have := hc 1 (by decide)
    norm_num at this

/-- C61 for the categorical cross entropy, what holds: `compute_gradient` is the gradient of the sum of the binary
cross entropies of all outputs, which differs from `compute`; only the entries with truth one agree.  Behind a
softmax layer the combination is right, see C27.  (Missing for the full claim: equality with the gradient of
`compute`; refuted by `C61_categorical_wrong`.) -/
theorem C61_categorical_partial (g : Nat → ℝ) {eps : ℝ} (h0 : 0 < eps) {N C : Nat} (p t : Nat → Nat → ℝ)
    (w o : Mat ℝ) (ho : o.WF) (hp : ∀ i j, i < N → j < C → eps < p i j ∧ p i j < 1 - eps) :
    ∃ ℓ G, createLoss g (fun x => |x|) eps "CategoricalCrossEntropy" = some ℓ ∧
      ℓ.gradient w (Mat.ofFn N C p) (Mat.ofFn N C t) o = .ok (Mat.ofFn N C G) ∧
      ∀ i, i < N → IsGrad 1 C
        (fun y => ∑ j ∈ range C, -(t i j * Real.log (max (y 0 j) eps) + (1 - t i j) * Real.log (max (1 - y 0 j) eps)))
        (fun _ j => p i j) (fun _ j => G i j) := by
  refine ⟨_, _, rfl, cce_gradient_ofFn g eps N C p t w ho, fun i hi => ?_⟩
  refine isGrad_sep (f := fun j y => -(t i j * Real.log (max y eps) + (1 - t i j) * Real.log (max (1 - y) eps)))
    (fun j hj => ?_)
  obtain ⟨ha, hb⟩ := hp i j hi hj
  have := (((hasDerivAt_clampLog h0 ha).const_mul (t i j)).add
    ((hasDerivAt_clampLogSub h0 (x := p i j) (by linarith)).const_mul (1 - t i j))).neg
  refine this.congr_deriv ?_
  rw [max_eq_left ha.le, max_eq_left (by linarith)]
  ring

/-- The hypotheses of `C61_binary` and `C61_categorical_partial` on `p = 1/2`. -/
example : ∀ i j, i < 3 → j < 2 → (1e-8 : ℝ) < (fun _ _ => 1 / 2 : Nat → Nat → ℝ) i j ∧
    (fun _ _ => 1 / 2 : Nat → Nat → ℝ) i j < 1 - 1e-8 := by
  intro i j _ _; constructor <;> norm_num

/-! ## C56 (balancing of the gradient) -/

/-- C56: with class weights `W` (one row per class) and a truth column of class indices, the gradient of every
distance loss is the unweighted gradient with row `i` multiplied by the weight of the class of sample `i`. -/
theorem C56_balanced_gradient (g : Nat → ℝ) (ab : ℝ → ℝ) (eps : ℝ) {N K : Nat} (hK : 0 < K) (hK2 : K ≤ 2147483648)
    (p t W : Nat → Nat → ℝ) (w o : Mat ℝ) (hw : w.size = 0) (ho : o.WF) (cls : Nat → Nat)
    (ht : ∀ i, i < N → t i 0 = cls i) (hc : ∀ i, i < N → cls i < K) :
    ∀ s ∈ distanceLosses, ∃ ℓ G, createLoss g ab eps s = some ℓ ∧
      ℓ.gradient w (Mat.ofFn N 1 p) (Mat.ofFn N 1 t) o = .ok (Mat.ofFn N 1 G) ∧
      ℓ.gradient (Mat.ofFn K 1 W) (Mat.ofFn N 1 p) (Mat.ofFn N 1 t) o =
        .ok (Mat.ofFn N 1 (fun i j => G i j * W (cls i) 0)) := by
  have ht' : ∀ i, i < N → (Mat.ofFn N 1 t).getI i = .ok (cls i : ℝ) := fun i hi => by
    rw [Mat.getI_ofFn_col hi, ht i hi]
  intro s hs
  simp only [distanceLosses, List.mem_cons, List.not_mem_nil, or_false] at hs
  have key : ∀ {ℓ : LossFn} {red : Nat → ℝ} {φ : ℝ → ℝ} {ψ : Nat → ℝ → ℝ}, IsDiffLoss ℓ red φ ψ →
      createLoss g ab eps s = some ℓ → ∃ ℓ G, createLoss g ab eps s = some ℓ ∧
      ℓ.gradient w (Mat.ofFn N 1 p) (Mat.ofFn N 1 t) o = .ok (Mat.ofFn N 1 G) ∧
      ℓ.gradient (Mat.ofFn K 1 W) (Mat.ofFn N 1 p) (Mat.ofFn N 1 t) o =
        .ok (Mat.ofFn N 1 (fun i j => G i j * W (cls i) 0)) := fun h e =>
    ⟨_, _, e, h.gradient N 1 p t w o hw ho, h.balanced N 1 K p t W o ho hK hK2 cls ht' hc⟩
  rcases hs with rfl | rfl | rfl | rfl | rfl | rfl | rfl | rfl | rfl
  · exact key (isDiff_MSE g) rfl
  · exact key (isDiff_MAE g ab) rfl
  · exact key (isDiff_MCE g ab) rfl
  · exact key (isDiff_L2 g) rfl
  · exact key (isDiff_L1 g ab) rfl
  · exact key (isDiff_L3 g ab) rfl
  · exact key (isDiff_LogCosh g) rfl
  · exact key (isDiff_Huber g ab) rfl
  · exact key (isDiff_PseudoHuber g) rfl

/-- Balancing the loss value itself is different: `compute` has one row only, which is multiplied by the weight of
the class of the *first* sample.  Two samples of classes 0 and 1, both with error one: whichever the weight of
class 1, the reported loss is the weight of class 0. -/
theorem C56_balanced_loss_wrong (g : Nat → ℝ) (ab : ℝ → ℝ) (eps : ℝ) (W : Nat → Nat → ℝ) :
    ∃ ℓ, createLoss g ab eps "MeanSquaredError" = some ℓ ∧
      ℓ.compute (Mat.ofFn 2 1 W) (Mat.ofFn 2 1 (fun i _ => i + 1)) (Mat.ofFn 2 1 (fun i _ => i)) ⟨0, 0, []⟩ =
        .ok (Mat.ofFn 1 1 (fun _ _ => W 0 0)) := by
  refine ⟨_, rfl, ?_⟩
  show diffCompute g _ _ _ _ _ _ = _
  unfold diffCompute
  simp only [Mat.ofFn_rows, Mat.ofFn_cols, check_true, bind_ok', Mat.sub_ofFn, Mat.cwise_ofFn, Mat.colWiseMean_ofFn]
  rw [Mat.assign_ofFn g (m := ⟨0, 0, []⟩) rfl]
  simp only [bind_ok']
  rw [if_pos (by rw [Mat.ofFn_size]; decide)]
  rw [balance_ofFn (cls := fun _ => 0) (by decide) (by decide)]
  · congr 1
    apply Mat.ofFn_congr
    intro i j _ _
    simp [accN]
  · intro i hi
    have : i = 0 := by omega
    subst this
    rw [Mat.getI_ofFn_col (by decide)]
  · intro i _; decide

/-! ## C62 (losses) -/

theorem createLoss_isSome (g : Nat → ℝ) (ab : ℝ → ℝ) (eps : ℝ) (s : String) :
    (createLoss g ab eps s).isSome ↔ s ∈ listLoss := by
  unfold createLoss listLoss
  simp only [List.mem_cons, List.not_mem_nil, or_false]
  constructor
  · intro h
    by_contra hn
    simp only [not_or] at hn
    obtain ⟨h1, h2, h3, h4, h5, h6, h7, h8, h9, h10, h11, h12⟩ := hn
    simp [h1, h2, h3, h4, h5, h6, h7, h8, h9, h10, h11, h12] at h
  · rintro (rfl | rfl | rfl | rfl | rfl | rfl | rfl | rfl | rfl | rfl | rfl | rfl) <;> rfl

/-- C62, losses: a string creates a loss iff it is listed; the created loss has that name; the listed names are
pairwise distinct. -/
theorem C62_loss (g : Nat → ℝ) (ab : ℝ → ℝ) (eps : ℝ) :
    (∀ s, (createLoss g ab eps s).isSome ↔ s ∈ listLoss) ∧
    (∀ s ℓ, createLoss g ab eps s = some ℓ → ℓ.name = s) ∧ listLoss.Nodup := by
  refine ⟨createLoss_isSome g ab eps, ?_, by decide⟩
  intro s ℓ h
  have hs : s ∈ listLoss := (createLoss_isSome g ab eps s).mp (by rw [h]; rfl)
  simp only [listLoss, List.mem_cons, List.not_mem_nil, or_false] at hs
  rcases hs with rfl | rfl | rfl | rfl | rfl | rfl | rfl | rfl | rfl | rfl | rfl | rfl <;>
    · cases h; rfl

end BeeDNN
