import Verif.Model.Loss
import Verif.Lemmas.Softmax
import Mathlib.Analysis.SpecialFunctions.Log.Deriv
import Mathlib.Tactic.Positivity
import Mathlib.Tactic.Linarith

/-! # Closed forms of the losses -/

namespace BeeDNN
open Finset

namespace Mat
variable {α : Type}

theorem mapI_ofFn (f : α → α) (R C : Nat) (d : Nat → Nat → α) :
    (ofFn R C d).mapI f = .ok (ofFn R C (fun i j => f (d i j))) := by
  unfold mapI
  simp only [ofFn_size]
  rw [ofFn_eq_flat, ofFn_eq_flat]
  apply forN_flat
  intro i hi d' h
  rw [getI_flat hi]
  simp only [bind_ok']
  rw [setI_flat hi, h i (Nat.le_refl _)]

theorem sub_ofFn [Sub α] (R C : Nat) (a b : Nat → Nat → α) :
    (ofFn R C a).sub (ofFn R C b) = .ok (ofFn R C (fun i j => a i j - b i j)) := cwise2_ofFn _ _ _ _ _

theorem colWiseSum_ofFn [Zero α] [Add α] (g : Nat → α) (R C : Nat) (m : Nat → Nat → α) :
    colWiseSum g (ofFn R C m) = .ok (ofFn 1 C (fun _ j => accN R (fun i => m i j))) :=
  colWiseAcc_ofFn _ _ g R C m

end Mat

theorem toInt_nat {k : Nat} (h : k < 2147483648) : toInt (k : ℝ) = .ok (k : Int) := by
  unfold toInt
  rw [if_pos ⟨by have : (0:ℝ) ≤ k := Nat.cast_nonneg k
                 linarith, by exact_mod_cast h⟩, if_pos (Nat.cast_nonneg k)]
  simp

theorem getInt_ofFn_col {R : Nat} {f : Nat → Nat → ℝ} {i : Nat} (h : i < R) :
    (Mat.ofFn R 1 f).getInt (i : Int) = .ok (f i 0) := by
  have hs : (i : Int) < ((Mat.ofFn R 1 f).size : Int) := by rw [Mat.ofFn_size]; omega
  have := Mat.raw_ofFn (C := 1) (f := f) h Nat.zero_lt_one
  unfold Mat.getInt
  rw [check_true hs]
  simp only [bind_ok']
  rw [if_neg (by omega)]
  have hi : i * 1 + 0 = i := by omega
  rw [hi] at this
  unfold Mat.raw at this
  simpa using this

theorem getColInt_ofFn {R C : Nat} {f : Nat → Nat → ℝ} {r c : Nat} (hr : r < R) (hc : c < C) :
    (Mat.ofFn R C f).getColInt r (c : Int) = .ok (f r c) := by
  have := Mat.raw_ofFn (f := f) hr hc
  unfold Mat.raw at this
  unfold Mat.getColInt
  have h1 : (c : Int) < ((Mat.ofFn R C f).cols : Int) := by rw [Mat.ofFn_cols]; omega
  have h2 : r < (Mat.ofFn R C f).rows := hr
  rw [check_true h2, check_true h1]
  simp only [bind_ok']
  rw [if_neg (by have : (0 : Int) ≤ ((r * (Mat.ofFn R C f).cols : Nat) : Int) := Int.natCast_nonneg _
                 omega), Mat.ofFn_cols]
  have : (((r * C : Nat) : Int) + (c : Int)).toNat = r * C + c := by omega
  rw [this]
  assumption

theorem balance_ofFn {N C K : Nat} (hK : 0 < K) (hK2 : K ≤ 2147483648) (W m : Nat → Nat → ℝ) {truth : Mat ℝ}
    {cls : Nat → Nat} (ht : ∀ i, i < N → truth.getI i = .ok (cls i : ℝ)) (hc : ∀ i, i < N → cls i < K) :
    balanceWithWeight (Mat.ofFn K 1 W) truth (Mat.ofFn N C m) =
      .ok (Mat.ofFn N C (fun i j => m i j * W (cls i) 0)) := by
  unfold balanceWithWeight
  have hs : (Mat.ofFn K 1 W).size ≠ 0 := by rw [Mat.ofFn_size]; omega
  rw [check_true hs]
  simp only [bind_ok', Mat.ofFn_rows]
  apply Mat.forN_eachRow
  intro r hr f' hf
  rw [ht r hr]
  simp only [bind_ok']
  have h0 : (0 : ℝ) ≤ (cls r : ℝ) := Nat.cast_nonneg _
  have h1 : ((cls r : ℝ)) < ((Mat.ofFn K 1 W).size : ℝ) := by
    rw [Mat.ofFn_size, Nat.mul_one]; exact_mod_cast hc r hr
  rw [check_true h0, check_true h1]
  simp only [bind_ok']
  rw [toInt_nat (lt_of_lt_of_le (hc r hr) hK2)]
  simp only [bind_ok']
  rw [getInt_ofFn_col (hc r hr)]
  simp only [bind_ok']
  rw [Mat.rowScalarAssign_ofFn _ hr]
  congr 1
  apply Mat.ofFn_congr
  intro i j _ hj
  by_cases h : i = r
  · subst h; simp [hf j hj]
  · simp [h]

theorem diffCompute_mean (g : Nat → ℝ) {pre : Mat ℝ → Out (Mat ℝ)} {φ : ℝ → ℝ} {N C : Nat}
    (hpre : ∀ d, pre (Mat.ofFn N C d) = .ok (Mat.ofFn N C (fun i j => φ (d i j)))) {w o : Mat ℝ}
    (hw : w.size = 0) (ho : o.WF) (p t : Nat → Nat → ℝ) :
    diffCompute g pre (Mat.colWiseMean g) w (Mat.ofFn N C p) (Mat.ofFn N C t) o =
      .ok (Mat.ofFn 1 C (fun _ j => (∑ i ∈ range N, φ (p i j - t i j)) / N)) := by
  unfold diffCompute
  simp only [Mat.ofFn_rows, Mat.ofFn_cols, check_true, bind_ok', Mat.sub_ofFn, hpre, Mat.colWiseMean_ofFn]
  rw [Mat.assign_ofFn g ho]
  simp only [bind_ok', hw, ne_eq, not_true, if_false, pure_ok, accN_eq_sum]

theorem diffCompute_sum (g : Nat → ℝ) {pre : Mat ℝ → Out (Mat ℝ)} {φ : ℝ → ℝ} {N C : Nat}
    (hpre : ∀ d, pre (Mat.ofFn N C d) = .ok (Mat.ofFn N C (fun i j => φ (d i j)))) {w o : Mat ℝ}
    (hw : w.size = 0) (ho : o.WF) (p t : Nat → Nat → ℝ) :
    diffCompute g pre (Mat.colWiseSum g) w (Mat.ofFn N C p) (Mat.ofFn N C t) o =
      .ok (Mat.ofFn 1 C (fun _ j => ∑ i ∈ range N, φ (p i j - t i j))) := by
  unfold diffCompute
  simp only [Mat.ofFn_rows, Mat.ofFn_cols, check_true, bind_ok', Mat.sub_ofFn, hpre, Mat.colWiseSum_ofFn]
  rw [Mat.assign_ofFn g ho]
  simp only [bind_ok', hw, ne_eq, not_true, if_false, pure_ok, accN_eq_sum]

theorem diffGradient_ofFn (g : Nat → ℝ) {post : Mat ℝ → Out (Mat ℝ)} {ψ : ℝ → ℝ} {N C : Nat}
    (hpost : ∀ d, post (Mat.ofFn N C d) = .ok (Mat.ofFn N C (fun i j => ψ (d i j)))) {w o : Mat ℝ}
    (hw : w.size = 0) (ho : o.WF) (p t : Nat → Nat → ℝ) :
    diffGradient g post w (Mat.ofFn N C p) (Mat.ofFn N C t) o =
      .ok (Mat.ofFn N C (fun i j => ψ (p i j - t i j))) := by
  unfold diffGradient
  simp only [Mat.ofFn_rows, Mat.ofFn_cols, check_true, bind_ok', Mat.sub_ofFn, hpost]
  rw [Mat.assign_ofFn g ho]
  simp only [bind_ok', hw, ne_eq, not_true, if_false, pure_ok]

theorem diffGradient_balanced (g : Nat → ℝ) {post : Mat ℝ → Out (Mat ℝ)} {ψ : ℝ → ℝ} {N C K : Nat}
    (hpost : ∀ d, post (Mat.ofFn N C d) = .ok (Mat.ofFn N C (fun i j => ψ (d i j)))) {o : Mat ℝ}
    (ho : o.WF) (p t W : Nat → Nat → ℝ) (hK : 0 < K) (hK2 : K ≤ 2147483648) {cls : Nat → Nat}
    (ht : ∀ i, i < N → (Mat.ofFn N C t).getI i = .ok (cls i : ℝ)) (hc : ∀ i, i < N → cls i < K) :
    diffGradient g post (Mat.ofFn K 1 W) (Mat.ofFn N C p) (Mat.ofFn N C t) o =
      .ok (Mat.ofFn N C (fun i j => ψ (p i j - t i j) * W (cls i) 0)) := by
  unfold diffGradient
  have hs : (Mat.ofFn K 1 W).size ≠ 0 := by rw [Mat.ofFn_size]; omega
  simp only [Mat.ofFn_rows, Mat.ofFn_cols, check_true, bind_ok', Mat.sub_ofFn, hpost]
  rw [Mat.assign_ofFn g ho]
  simp only [bind_ok']
  rw [if_pos hs]
  exact balance_ofFn hK hK2 W _ ht hc

theorem diff_mismatch {t p : Mat ℝ} (h : t.cols ≠ p.cols ∨ t.rows ≠ p.rows) (k : Out (Mat ℝ)) :
    (do check (t.cols = p.cols); check (t.rows = p.rows); k) = .error .assertFail := by
  by_cases h1 : t.cols = p.cols
  · have h2 : t.rows ≠ p.rows := by
      rcases h with h | h
      · exact absurd h1 h
      · exact h
    rw [check_true h1, check_false h2]; rfl
  · rw [check_false h1]; rfl

theorem cce_compute_ofFn (g : Nat → ℝ) (eps : ℝ) (N C : Nat) (p t : Nat → Nat → ℝ) (w : Mat ℝ) {o : Mat ℝ}
    (ho : o.WF) :
    (lossCCE g eps).compute w (Mat.ofFn N C p) (Mat.ofFn N C t) o =
      .ok (Mat.ofFn N 1 (fun i _ => ∑ j ∈ range C, -(t i j * Real.log (max (p i j) eps)))) := by
  obtain ⟨d, hd⟩ := Mat.resize_ofFn g ho N 1
  simp only [lossCCE, Mat.ofFn_rows, Mat.ofFn_cols, check_true, bind_ok', hd]
  apply Mat.forN_eachRow
  intro r hr f' _
  rw [Mat.forN_acc (x := fun j => -(t r j * Real.log (max (p r j) eps)))]
  · simp only [bind_ok']
    rw [Mat.set_ofFn hr Nat.zero_lt_one, accN_eq_sum]
    congr 1
    apply Mat.ofFn_congr
    intro i j _ hj
    have : j = 0 := by omega
    simp [this]
  · intro i hi s
    rw [Mat.get_ofFn hr hi, Mat.get_ofFn hr hi]
    rfl

theorem forN_getI2 {R C : Nat} {a b d : Nat → Nat → ℝ} {f : ℝ → ℝ → ℝ} :
    forN (R * C) (fun i m => do
      let p ← (Mat.ofFn R C a).getI i
      let t ← (Mat.ofFn R C b).getI i
      Mat.setI m i (f p t)) (Mat.ofFn R C d) = .ok (Mat.ofFn R C (fun i j => f (a i j) (b i j))) := by
  rw [Mat.ofFn_eq_flat R C d, Mat.ofFn_eq_flat R C a, Mat.ofFn_eq_flat R C b, Mat.ofFn_eq_flat R C (fun i j => _)]
  apply Mat.forN_flat
  intro i hi d' _
  rw [Mat.getI_flat hi, Mat.getI_flat hi]
  simp only [bind_ok']
  rw [Mat.setI_flat hi]

theorem cce_gradient_ofFn (g : Nat → ℝ) (eps : ℝ) (N C : Nat) (p t : Nat → Nat → ℝ) (w : Mat ℝ) {o : Mat ℝ}
    (ho : o.WF) :
    (lossCCE g eps).gradient w (Mat.ofFn N C p) (Mat.ofFn N C t) o =
      .ok (Mat.ofFn N C (fun i j => -(t i j / max (p i j) eps) + (1 - t i j) / max (1 - p i j) eps)) := by
  obtain ⟨d, hd⟩ := Mat.resize_ofFn g ho N C
  simp only [lossCCE, Mat.ofFn_rows, Mat.ofFn_cols, check_true, bind_ok', hd, Mat.ofFn_size]
  exact forN_getI2 (f := fun p t => -(t / max p eps) + (1 - t) / max (1 - p) eps)

theorem bce_compute_ofFn (g : Nat → ℝ) (eps : ℝ) (N : Nat) (p t : Nat → Nat → ℝ) (w : Mat ℝ) {o : Mat ℝ}
    (ho : o.WF) :
    (lossBCE g eps).compute w (Mat.ofFn N 1 p) (Mat.ofFn N 1 t) o =
      .ok (Mat.ofFn N 1 (fun i j => -(t i j * Real.log (max (p i j) eps) +
        (1 - t i j) * Real.log (max (1 - p i j) eps)))) := by
  obtain ⟨d, hd⟩ := Mat.resize_ofFn g ho N 1
  simp only [lossBCE, Mat.ofFn_rows, Mat.ofFn_cols, check_true, bind_ok', hd]
  have := forN_getI2 (R := N) (C := 1) (a := p) (b := t) (d := d)
    (f := fun p t => -(t * Real.log (max p eps) + (1 - t) * Real.log (max (1 - p) eps)))
  rwa [Nat.mul_one] at this

theorem bce_gradient_ofFn (g : Nat → ℝ) (eps : ℝ) (N C : Nat) (p t : Nat → Nat → ℝ) (w : Mat ℝ) {o : Mat ℝ}
    (ho : o.WF) :
    (lossBCE g eps).gradient w (Mat.ofFn N C p) (Mat.ofFn N C t) o =
      .ok (Mat.ofFn N C (fun i j => -(t i j / max (p i j) eps - (1 - t i j) / max (1 - p i j) eps))) := by
  obtain ⟨d, hd⟩ := Mat.resize_ofFn g ho N C
  simp only [lossBCE, Mat.ofFn_rows, Mat.ofFn_cols, check_true, bind_ok', hd, Mat.ofFn_size]
  exact forN_getI2 (f := fun p t => -(t / max p eps - (1 - t) / max (1 - p) eps))

theorem sparse_compute_ofFn (g : Nat → ℝ) (eps : ℝ) {N C : Nat} (p t : Nat → Nat → ℝ) (w : Mat ℝ) {o : Mat ℝ}
    (ho : o.WF) {cls : Nat → Nat} (ht : ∀ i, i < N → t i 0 = cls i) (hc : ∀ i, i < N → cls i < C)
    (hC : C ≤ 2147483648) :
    (lossSparseCCE g eps).compute w (Mat.ofFn N C p) (Mat.ofFn N 1 t) o =
      .ok (Mat.ofFn N 1 (fun i _ => -Real.log (max (p i (cls i)) eps))) := by
  obtain ⟨d, hd⟩ := Mat.resize_ofFn g ho N 1
  simp only [lossSparseCCE, Mat.ofFn_rows, Mat.ofFn_cols, check_true, bind_ok', hd]
  apply Mat.forN_eachRow
  intro r hr f' _
  rw [Mat.getI_ofFn_col hr, ht r hr]
  simp only [bind_ok']
  rw [toInt_nat (lt_of_lt_of_le (hc r hr) hC)]
  simp only [bind_ok']
  rw [getColInt_ofFn hr (hc r hr)]
  simp only [bind_ok']
  rw [Mat.setI_col hr]

theorem sparse_gradient_ofFn (g : Nat → ℝ) (eps : ℝ) {N C : Nat} (p t : Nat → Nat → ℝ) (w : Mat ℝ) {o : Mat ℝ}
    (ho : o.WF) {cls : Nat → Nat} (ht : ∀ i, i < N → t i 0 = cls i) (hc : ∀ i, i < N → cls i < 2147483648) :
    (lossSparseCCE g eps).gradient w (Mat.ofFn N C p) (Mat.ofFn N 1 t) o =
      .ok (Mat.ofFn N C (fun i j => if cls i = j then -(1 / max (p i j) eps) else 1 / max (1 - p i j) eps)) := by
  simp only [lossSparseCCE, Mat.ofFn_rows, Mat.ofFn_cols, check_true, bind_ok']
  rw [Mat.assign_ofFn g ho]
  simp only [bind_ok', Mat.ofFn_rows]
  apply Mat.forN_eachRow
  intro r hr f' hf
  rw [Mat.getI_ofFn_col hr, ht r hr]
  simp only [bind_ok']
  rw [toInt_nat (hc r hr)]
  simp only [bind_ok', Mat.ofFn_cols]
  rw [Mat.forN_row (r := r) (f := f') (n := C)
    (e := fun i j => if cls i = j then -(1 / max (p i j) eps) else 1 / max (1 - p i j) eps)]
  · congr 1
    apply Mat.ofFn_congr
    intro i j _ hj
    by_cases h : i = r <;> simp [h, hj]
  · intro c hc f'' h1 _
    rw [Mat.get_ofFn hr hc]
    simp only [bind_ok']
    rw [Mat.set_ofFn hr hc, h1 c (Nat.le_refl _), hf c hc]
    simp only [Nat.cast_inj]

/-- Gradient of a separable function of one row. -/
theorem isGrad_sep {C : Nat} {f : Nat → ℝ → ℝ} {x G : Nat → ℝ}
    (h : ∀ j, j < C → HasDerivAt (f j) (G j) (x j)) :
    IsGrad 1 C (fun y => ∑ j ∈ range C, f j (y 0 j)) (fun _ j => x j) (fun _ j => G j) := by
  intro V
  unfold dotM
  rw [range_one, sum_singleton]
  apply HasDerivAt.fun_sum
  intro j hj
  have h1 : HasDerivAt (fun t : ℝ => x j + t * V 0 j) (V 0 j) 0 := by
    simpa using ((hasDerivAt_id (0:ℝ)).mul_const (V 0 j)).const_add (x j)
  have h2 := h j (mem_range.mp hj)
  have h3 : HasDerivAt (f j) (G j) (x j + 0 * V 0 j) := by simpa using h2
  exact h3.comp (0:ℝ) h1

end BeeDNN
