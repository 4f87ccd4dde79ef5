import Verif.Model.Softmax
import Verif.Spec.Softmax
import Verif.Lemmas.LayersBasic
import Verif.Lemmas.Gradient
import Verif.Props.Matrix
import Mathlib.Analysis.SpecialFunctions.ExpDeriv
import Mathlib.Tactic.FieldSimp
import Mathlib.Algebra.BigOperators.Field

/-! # Closed forms of softmax and softmin -/

namespace BeeDNN
open Finset

namespace Mat
variable {α : Type}

theorem maxCoeff_total [Zero α] [LinearOrder α] (R C : Nat) (d : Nat → Nat → α) :
    ∃ x, (ofFn R C d).maxCoeff = .ok x := by
  rcases Nat.eq_zero_or_pos (R * C) with h | h
  · refine ⟨0, ?_⟩
    unfold maxCoeff
    rw [if_pos (by simpa only [ofFn_size] using h)]
  · obtain ⟨x, hx, _⟩ := C04_maxCoeff R C h d
    exact ⟨x, hx⟩

theorem sum_row [Zero α] [Add α] (C : Nat) (d : Nat → Nat → α) :
    (ofFn 1 C d).sum = .ok (accN C (d 0)) := by
  rw [ofFn_eq_flat, sum_flat, Nat.one_mul]
  congr 1
  apply accN_congr
  intro i hi
  rw [Nat.div_eq_of_lt hi, Nat.mod_eq_of_lt hi]

theorem divScalar_ofFn [Div α] (R C : Nat) (d : Nat → Nat → α) (b : α) :
    (ofFn R C d).divScalar b = .ok (ofFn R C (fun i j => d i j / b)) := cwise_ofFn _ _ _ _

theorem neg_ofFn [Neg α] (R C : Nat) (d : Nat → Nat → α) :
    (ofFn R C d).neg = .ok (ofFn R C (fun i j => -d i j)) := cwise_ofFn _ _ _ _

end Mat

theorem expShifted_row (g : Nat → ℝ) (C : Nat) (d : Nat → Nat → ℝ) :
    ∃ M, expShifted g Real.exp (Mat.ofFn 1 C d) =
      .ok (Mat.ofFn 1 C (fun _ j => Real.exp (d 0 j) / Real.exp M)) := by
  obtain ⟨M, hM⟩ := Mat.maxCoeff_total 1 C d
  refine ⟨M, ?_⟩
  unfold expShifted
  rw [hM]
  simp only [bind_ok', Mat.cwise_ofFn]
  rw [Mat.assign_ofFn g (Mat.ofFn_WF ..)]
  congr 1
  apply Mat.ofFn_congr
  intro i j hi _
  have : i = 0 := by omega
  subst this
  rw [Real.exp_sub]

theorem expShift_sum (C : Nat) (x : Nat → ℝ) (M : ℝ) :
    accN C (fun k => Real.exp (x k) / Real.exp M) = (∑ k ∈ range C, Real.exp (x k)) / Real.exp M := by
  rw [accN_eq_sum, sum_div]

theorem expShift_norm (C : Nat) (x : Nat → ℝ) (M : ℝ) (j : Nat) :
    Real.exp (x j) / Real.exp M / ((∑ k ∈ range C, Real.exp (x k)) / Real.exp M) = softmaxAt C x j := by
  unfold softmaxAt
  rw [div_div_div_cancel_right₀ (Real.exp_ne_zero M)]

theorem softmaxRows_ofFn (g : Nat → ℝ) (N C : Nat) (x : Nat → Nat → ℝ) :
    softmaxRows g Real.exp (Mat.ofFn N C x) = .ok (Mat.ofFn N C (fun s j => softmaxAt C (x s) j)) := by
  unfold softmaxRows
  simp only [Mat.ofFn_rows]
  apply Mat.forN_eachRow
  intro r hr f' hf
  rw [Mat.row_ofFn hr]
  simp only [bind_ok']
  obtain ⟨M, hM⟩ := expShifted_row g C (fun _ j => f' r j)
  rw [hM]
  simp only [bind_ok', Mat.sum_row, Mat.divScalar_ofFn, expShift_sum, expShift_norm]
  rw [Mat.rowAssign_ofFn hr]
  congr 1
  apply Mat.ofFn_congr
  intro i j _ hj
  by_cases h : i = r
  · simp only [h, if_true]
    unfold softmaxAt
    rw [hf j hj]
    congr 1
    apply sum_congr rfl
    intro k hk
    rw [hf k (mem_range.mp hk)]
  · simp [h]

theorem softmaxForward_ofFn (g : Nat → ℝ) (N C : Nat) (x : Nat → Nat → ℝ) {mOut : Mat ℝ} (ho : mOut.WF) :
    softmaxForward g Real.exp (Mat.ofFn N C x) mOut =
      .ok (Mat.ofFn N C (fun s j => softmaxAt C (x s) j)) := by
  unfold softmaxForward
  rw [Mat.assign_ofFn g ho]
  exact softmaxRows_ofFn g N C x

theorem softminForward_ofFn (g : Nat → ℝ) (N C : Nat) (x : Nat → Nat → ℝ) {mOut : Mat ℝ} (ho : mOut.WF) :
    softminForward g Real.exp (Mat.ofFn N C x) mOut =
      .ok (Mat.ofFn N C (fun s j => softmaxAt C (fun k => -x s k) j)) := by
  unfold softminForward
  rw [Mat.neg_ofFn]
  simp only [bind_ok']
  rw [Mat.assign_ofFn g ho]
  exact softmaxRows_ofFn g N C (fun s k => -x s k)

theorem softmaxBackward_ofFn (g : Nat → ℝ) (N C : Nat) (x gr : Nat → Nat → ℝ) {gIn : Mat ℝ} (ho : gIn.WF) :
    softmaxBackward g Real.exp false (Mat.ofFn N C x) (Mat.ofFn N C gr) gIn =
      .ok (Mat.ofFn N C (fun s j => gr s j * (softmaxAt C (x s) j * (1 - softmaxAt C (x s) j)))) := by
  unfold softmaxBackward
  simp only [Bool.false_eq_true, if_false]
  rw [Mat.assign_ofFn g ho]
  simp only [bind_ok', Mat.ofFn_rows]
  apply Mat.forN_eachRow
  intro r hr f' hf
  rw [Mat.row_ofFn hr]
  simp only [bind_ok']
  obtain ⟨M, hM⟩ := expShifted_row g C (fun _ j => x r j)
  rw [hM]
  simp only [bind_ok', Mat.sum_row, Mat.divScalar_ofFn, expShift_sum, expShift_norm, Mat.ofFn_cols]
  rw [Mat.forN_row (r := r) (f := f') (n := C)
    (e := fun s j => gr s j * (softmaxAt C (x s) j * (1 - softmaxAt C (x s) j)))]
  · congr 1
    apply Mat.ofFn_congr
    intro i j _ hj
    by_cases h : i = r <;> simp [h, hj]
  · intro c hc f'' h1 _
    rw [Mat.getI_ofFn_row hc]
    simp only [bind_ok']
    rw [Mat.get_ofFn hr hc]
    simp only [bind_ok']
    rw [Mat.set_ofFn hr hc, h1 c (Nat.le_refl _), hf c hc]

theorem softminBackward_ofFn (g : Nat → ℝ) (N C : Nat) (x gr : Nat → Nat → ℝ) {gIn : Mat ℝ} (ho : gIn.WF) :
    softminBackward g Real.exp false (Mat.ofFn N C x) (Mat.ofFn N C gr) gIn =
      .ok (Mat.ofFn N C (fun s j => -(gr s j * (softmaxAt C (fun k => -x s k) j *
        (1 - softmaxAt C (fun k => -x s k) j))))) := by
  unfold softminBackward
  simp only [Bool.false_eq_true, if_false]
  obtain ⟨d, hd⟩ := Mat.resize_ofFn g ho N C
  simp only [Mat.ofFn_rows, Mat.ofFn_cols, hd]
  apply Mat.forN_eachRow
  intro r hr f' hf
  rw [Mat.row_ofFn hr]
  simp only [bind_ok', Mat.neg_ofFn]
  obtain ⟨M, hM⟩ := expShifted_row g C (fun _ j => -x r j)
  rw [hM]
  simp only [bind_ok', Mat.sum_row, Mat.ofFn_cols]
  rw [Mat.forN_row (r := r) (f := f') (n := C)
    (e := fun s j => -(gr s j * (softmaxAt C (fun k => -x s k) j *
        (1 - softmaxAt C (fun k => -x s k) j))))]
  · congr 1
    apply Mat.ofFn_congr
    intro i j _ hj
    by_cases h : i = r <;> simp [h, hj]
  · intro c hc f'' h1 _
    rw [Mat.getI_ofFn_row hc]
    simp only [bind_ok']
    rw [Mat.get_ofFn hr hc]
    simp only [bind_ok']
    rw [Mat.set_ofFn hr hc]
    have hs : (0 : ℝ) < ∑ k ∈ range C, Real.exp (-x r k) :=
      sum_pos (fun _ _ => Real.exp_pos _) ⟨c, mem_range.mpr hc⟩
    have hM := Real.exp_pos M
    rw [accN_eq_sum, ← sum_div]
    have key : -gr r c * (Real.exp (-x r c) / Real.exp M * ((∑ k ∈ range C, Real.exp (-x r k)) / Real.exp M
        - Real.exp (-x r c) / Real.exp M)) /
        ((∑ k ∈ range C, Real.exp (-x r k)) / Real.exp M * ((∑ k ∈ range C, Real.exp (-x r k)) / Real.exp M)) =
        -(gr r c * (softmaxAt C (fun k => -x r k) c * (1 - softmaxAt C (fun k => -x r k) c))) := by
      unfold softmaxAt
      simp only []
      field_simp
    rw [key]

end BeeDNN
