import Verif.Lemmas.TrainEval
import Verif.Lemmas.LossDiff
import Verif.Lemmas.LayersBasic

/-! # The losses that evaluation reports -/

namespace BeeDNN
open Finset

theorem mean_row (K : Nat) (d : Nat → Nat → ℝ) : (Mat.ofFn 1 K d).mean = .ok ((∑ j ∈ range K, d 0 j) / K) := by
  rw [Mat.mean_ofFn, accN_eq_sum, Nat.one_mul]
  congr 2
  refine sum_congr rfl fun j hj => ?_
  have := mem_range.mp hj
  rw [Nat.div_eq_of_lt this, Nat.mod_eq_of_lt this]

theorem mean_col (N : Nat) (d : Nat → Nat → ℝ) : (Mat.ofFn N 1 d).mean = .ok ((∑ i ∈ range N, d i 0) / N) := by
  rw [Mat.mean_ofFn, accN_eq_sum, Nat.mul_one]
  congr 2
  refine sum_congr rfl fun j hj => ?_
  rw [Nat.div_one, Nat.mod_one]

theorem pointLoss_red {s : String} {φ : ℝ → ℝ} (h : pointLoss s = φ) {K N : Nat} (hK : 0 < K) (P Y : Nat → Row) (r : ℝ) :
    (∑ j ∈ range K, (∑ i ∈ range N, φ (P i j - Y i j)) / r) / K =
      (∑ i ∈ range N, (∑ j ∈ range K, pointLoss s (P i j - Y i j)) / K) / r := by
  rw [h, ← sum_div, ← sum_div, sum_comm, div_right_comm]

theorem TruthFits.same {s : String} {K D N : Nat} {Y : Nat → Row} (h : TruthFits s K D N Y) (hs : s ≠ "SparseCategoricalCrossEntropy") :
    D = K ∧ (s = "BinaryCrossEntropy" → K = 1) := by
  unfold TruthFits at h
  rwa [if_neg hs] at h

namespace Trainer

theorem lossCompute_diff {t : Trainer} {ab : ℝ → ℝ} {eps : ℝ} {g : Nat → ℝ} {ℓ : LossFn} {red : Nat → ℝ} {φ : ℝ → ℝ} {ψ : Nat → ℝ → ℝ}
    (h : createLoss g ab eps t.loss = some ℓ) (hd : IsDiffLoss ℓ red φ ψ) (hφ : pointLoss t.loss = φ) {N K : Nat}
    (hr : red N = if t.loss ∈ sumLosses then 1 else (N : ℝ))
    (hn : t.loss ∉ ["CategoricalCrossEntropy", "SparseCategoricalCrossEntropy", "BinaryCrossEntropy"]) (hw : t.lossWeight.size = 0)
    (hK : 0 < K) (P Y : Nat → Row) {o : Mat ℝ} (ho : o.WF) :
    ∃ M, t.lossCompute g ab eps (Mat.ofFn N K P) (Mat.ofFn N K Y) o = .ok M ∧ M.WF ∧
      M.mean = .ok ((∑ i ∈ range N, sampleLoss eps t.loss K (P i) (Y i)) / (if t.loss ∈ sumLosses then 1 else (N : ℝ))) := by
  unfold lossCompute
  rw [h]
  refine ⟨_, hd.compute N K P Y _ _ hw ho, Mat.ofFn_WF _ _ _, ?_⟩
  rw [mean_row, pointLoss_red hφ hK, hr]
  simp only [List.mem_cons, List.not_mem_nil, or_false, not_or] at hn
  simp only [sampleLoss, hn.1, hn.2.1, hn.2.2, if_false]

theorem lossCompute_cce {t : Trainer} {ab : ℝ → ℝ} {eps : ℝ} {K D N : Nat} (h : t.loss = "CategoricalCrossEntropy")
    {P Y : Nat → Row} (hf : TruthFits t.loss K D N Y) (g : Nat → ℝ) {o : Mat ℝ} (ho : o.WF) :
    ∃ M, t.lossCompute g ab eps (Mat.ofFn N K P) (Mat.ofFn N D Y) o = .ok M ∧ M.WF ∧
      M.mean = .ok ((∑ i ∈ range N, sampleLoss eps t.loss K (P i) (Y i)) / (if t.loss ∈ sumLosses then 1 else (N : ℝ))) := by
  obtain rfl : D = K := (hf.same (by rw [h]; decide)).1
  unfold lossCompute
  rw [h, show createLoss g ab eps "CategoricalCrossEntropy" = some (lossCCE g eps) from rfl]
  dsimp only
  refine ⟨_, cce_compute_ofFn g eps N D P Y _ ho, Mat.ofFn_WF _ _ _, ?_⟩
  rw [mean_col]
  congr 2

theorem lossCompute_sparse {t : Trainer} {ab : ℝ → ℝ} {eps : ℝ} {K D N : Nat} (h : t.loss = "SparseCategoricalCrossEntropy")
    {P Y : Nat → Row} (hf : TruthFits t.loss K D N Y) (g : Nat → ℝ) {o : Mat ℝ} (ho : o.WF) :
    ∃ M, t.lossCompute g ab eps (Mat.ofFn N K P) (Mat.ofFn N D Y) o = .ok M ∧ M.WF ∧
      M.mean = .ok ((∑ i ∈ range N, sampleLoss eps t.loss K (P i) (Y i)) / (if t.loss ∈ sumLosses then 1 else (N : ℝ))) := by
  rw [TruthFits, h, if_pos rfl] at hf
  obtain ⟨rfl, hC, hf⟩ := hf
  unfold lossCompute
  rw [h, show createLoss g ab eps "SparseCategoricalCrossEntropy" = some (lossSparseCCE g eps) from rfl]
  dsimp only
  choose! cls hc ht using hf
  refine ⟨_, sparse_compute_ofFn g eps P Y _ ho (cls := cls) ht hc hC, Mat.ofFn_WF _ _ _, ?_⟩
  rw [mean_col]
  congr 2
  refine sum_congr rfl fun i hi => ?_
  simp only [sampleLoss, String.reduceEq, if_false, if_true]
  rw [ht i (mem_range.mp hi), Nat.floor_natCast]

theorem lossCompute_bce {t : Trainer} {ab : ℝ → ℝ} {eps : ℝ} {K D N : Nat} (h : t.loss = "BinaryCrossEntropy")
    {P Y : Nat → Row} (hf : TruthFits t.loss K D N Y) (g : Nat → ℝ) {o : Mat ℝ} (ho : o.WF) :
    ∃ M, t.lossCompute g ab eps (Mat.ofFn N K P) (Mat.ofFn N D Y) o = .ok M ∧ M.WF ∧
      M.mean = .ok ((∑ i ∈ range N, sampleLoss eps t.loss K (P i) (Y i)) / (if t.loss ∈ sumLosses then 1 else (N : ℝ))) := by
  obtain ⟨rfl, h1⟩ := hf.same (by rw [h]; decide)
  obtain rfl := h1 h
  unfold lossCompute
  rw [h, show createLoss g ab eps "BinaryCrossEntropy" = some (lossBCE g eps) from rfl]
  dsimp only
  refine ⟨_, bce_compute_ofFn g eps N P Y _ ho, Mat.ofFn_WF _ _ _, ?_⟩
  rw [mean_col]
  congr 2

/-- The mean of what a loss function returns for a batch. -/
theorem lossCompute_fits {t : Trainer} {eps : ℝ} {K D N : Nat} (hs : t.loss ∈ listLoss) (hw : t.lossWeight.size = 0) (hK : 0 < K)
    {P Y : Nat → Row} (hf : TruthFits t.loss K D N Y) (g : Nat → ℝ) {o : Mat ℝ} (ho : o.WF) :
    ∃ M, t.lossCompute g (fun x => |x|) eps (Mat.ofFn N K P) (Mat.ofFn N D Y) o = .ok M ∧ M.WF ∧
      M.mean = .ok ((∑ i ∈ range N, sampleLoss eps t.loss K (P i) (Y i)) / (if t.loss ∈ sumLosses then 1 else (N : ℝ))) := by
  have hs' := hs
  simp only [listLoss, List.mem_cons, List.not_mem_nil, or_false] at hs'
  rcases hs' with h | h | h | h | h | h | h | h | h | h | h | h
  · obtain rfl : D = K := (hf.same (by rw [h]; decide)).1
    exact lossCompute_diff (by rw [h]; rfl) (isDiff_MSE g) (by rw [h]; funext y; simp [pointLoss, pow_two])
      (by rw [h]; simp [sumLosses]) (by rw [h]; decide) hw hK P Y ho
  · obtain rfl : D = K := (hf.same (by rw [h]; decide)).1
    exact lossCompute_diff (by rw [h]; rfl) (isDiff_MAE g _) (by rw [h]; funext y; simp [pointLoss])
      (by rw [h]; simp [sumLosses]) (by rw [h]; decide) hw hK P Y ho
  · obtain rfl : D = K := (hf.same (by rw [h]; decide)).1
    exact lossCompute_diff (by rw [h]; rfl) (isDiff_MCE g _)
      (by rw [h]; funext y; rw [abs_mul, abs_mul]; simp only [pointLoss, String.reduceEq, if_false, if_true, true_or, or_self]; ring)
      (by rw [h]; simp [sumLosses]) (by rw [h]; decide) hw hK P Y ho
  · obtain rfl : D = K := (hf.same (by rw [h]; decide)).1
    exact lossCompute_diff (by rw [h]; rfl) (isDiff_L2 g) (by rw [h]; funext y; simp [pointLoss, pow_two])
      (by rw [h]; simp [sumLosses]) (by rw [h]; decide) hw hK P Y ho
  · obtain rfl : D = K := (hf.same (by rw [h]; decide)).1
    exact lossCompute_diff (by rw [h]; rfl) (isDiff_L1 g _) (by rw [h]; funext y; simp [pointLoss])
      (by rw [h]; simp [sumLosses]) (by rw [h]; decide) hw hK P Y ho
  · obtain rfl : D = K := (hf.same (by rw [h]; decide)).1
    exact lossCompute_diff (by rw [h]; rfl) (isDiff_L3 g _)
      (by rw [h]; funext y; rw [abs_mul, abs_mul]; simp only [pointLoss, String.reduceEq, if_false, if_true, or_true, or_self]; ring)
      (by rw [h]; simp [sumLosses]) (by rw [h]; decide) hw hK P Y ho
  · obtain rfl : D = K := (hf.same (by rw [h]; decide)).1
    exact lossCompute_diff (by rw [h]; rfl) (isDiff_Huber g _)
      (by
        rw [h]; funext y
        simp only [pointLoss, String.reduceEq, if_false, if_true, or_self]
        split
        · rw [abs_mul_abs_self]; ring
        · ring)
      (by rw [h]; simp [sumLosses]) (by rw [h]; decide) hw hK P Y ho
  · obtain rfl : D = K := (hf.same (by rw [h]; decide)).1
    exact lossCompute_diff (by rw [h]; rfl) (isDiff_PseudoHuber g) (by rw [h]; funext y; simp [pointLoss, pow_two])
      (by rw [h]; simp [sumLosses]) (by rw [h]; decide) hw hK P Y ho
  · obtain rfl : D = K := (hf.same (by rw [h]; decide)).1
    exact lossCompute_diff (by rw [h]; rfl) (isDiff_LogCosh g) (by rw [h]; funext y; simp [pointLoss])
      (by rw [h]; simp [sumLosses]) (by rw [h]; decide) hw hK P Y ho
  · exact lossCompute_cce h hf g ho
  · exact lossCompute_sparse h hf g ho
  · exact lossCompute_bce h hf g ho

end Trainer

end BeeDNN
