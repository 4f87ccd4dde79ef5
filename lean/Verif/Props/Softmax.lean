import Verif.Lemmas.Loss
import Mathlib.Analysis.SpecialFunctions.Log.Deriv

/-!
# Softmax and cross entropy (claims C26, C27)

`N` samples of `C` values.  `float` is modelled by the reals.
-/

namespace BeeDNN
open Finset Filter Topology

/-! ## C26 -/

/-- C26: the forward pass computes `exp x_j / Σ_k exp x_k` in every row; subtracting the row maximum first
does not change the result. -/
theorem C26_softmax_value (g : Nat → ℝ) (N C : Nat) (x : Nat → Nat → ℝ) (mOut : Mat ℝ) (ho : mOut.WF) :
    softmaxForward g Real.exp (Mat.ofFn N C x) mOut =
      .ok (Mat.ofFn N C (fun s j => softmaxAt C (x s) j)) := softmaxForward_ofFn g N C x ho

theorem softmax_den_pos {C : Nat} (hC : 0 < C) (x : Nat → ℝ) : 0 < ∑ k ∈ range C, Real.exp (x k) :=
  sum_pos (fun _ _ => Real.exp_pos _) ⟨0, mem_range.mpr hC⟩

theorem softmaxAt_pos {C : Nat} (hC : 0 < C) (x : Nat → ℝ) (j : Nat) : 0 < softmaxAt C x j :=
  div_pos (Real.exp_pos _) (softmax_den_pos hC x)

theorem softmaxAt_sum {C : Nat} (hC : 0 < C) (x : Nat → ℝ) : ∑ j ∈ range C, softmaxAt C x j = 1 := by
  unfold softmaxAt
  rw [← sum_div, div_self (softmax_den_pos hC x).ne']

theorem softmaxAt_lt {C : Nat} (hC : 0 < C) (x : Nat → ℝ) (i j : Nat) :
    softmaxAt C x i < softmaxAt C x j ↔ x i < x j := by
  unfold softmaxAt
  rw [div_lt_div_iff_of_pos_right (softmax_den_pos hC x), Real.exp_lt_exp]

/-- C26: every row of the result is a probability distribution whose entries are ordered as the inputs; the
position found by `argmax` is that of the input. -/
theorem C26_softmax (g : Nat → ℝ) (N C : Nat) (hC : 0 < C) (x : Nat → Nat → ℝ) (mOut : Mat ℝ) (ho : mOut.WF) :
    ∃ P, softmaxForward g Real.exp (Mat.ofFn N C x) mOut = .ok (Mat.ofFn N C P) ∧
      ∀ s, s < N → (∀ j, j < C → 0 < P s j) ∧ ∑ j ∈ range C, P s j = 1 ∧
        (∀ i j, i < C → j < C → (P s i < P s j ↔ x s i < x s j)) ∧
        (∀ k, IsFirstMax C (P s) k ↔ IsFirstMax C (x s) k) := by
  refine ⟨_, softmaxForward_ofFn g N C x ho, fun s _ => ?_⟩
  refine ⟨fun j _ => softmaxAt_pos hC _ j, softmaxAt_sum hC _, fun i j _ _ => softmaxAt_lt hC _ i j, ?_⟩
  intro k
  unfold IsFirstMax
  have hle : ∀ i j, softmaxAt C (x s) i ≤ softmaxAt C (x s) j ↔ x s i ≤ x s j := by
    intro i j
    rw [← not_lt, ← not_lt, softmaxAt_lt hC]
  simp only [hle, softmaxAt_lt hC]

/-- C26: adding a constant to a row of the input does not change the result. -/
theorem C26_shift (g : Nat → ℝ) (N C : Nat) (x : Nat → Nat → ℝ) (c : Nat → ℝ) (mOut mOut' : Mat ℝ)
    (ho : mOut.WF) (ho' : mOut'.WF) :
    softmaxForward g Real.exp (Mat.ofFn N C (fun s j => x s j + c s)) mOut =
      softmaxForward g Real.exp (Mat.ofFn N C x) mOut' := by
  rw [softmaxForward_ofFn g N C _ ho, softmaxForward_ofFn g N C x ho']
  congr 1
  apply Mat.ofFn_congr
  intro s j _ _
  unfold softmaxAt
  simp only [Real.exp_add, ← sum_mul]
  rw [mul_div_mul_right _ _ (Real.exp_ne_zero _)]

/-- C26: softmin is softmax of the negated input. -/
theorem C26_softmin (g : Nat → ℝ) (N C : Nat) (x : Nat → Nat → ℝ) (mOut mOut' : Mat ℝ)
    (ho : mOut.WF) (ho' : mOut'.WF) :
    softminForward g Real.exp (Mat.ofFn N C x) mOut =
      softmaxForward g Real.exp (Mat.ofFn N C (fun s j => -x s j)) mOut' := by
  rw [softmaxForward_ofFn g N C _ ho', softminForward_ofFn g N C x ho]

/-- A row of two different values. -/
example : softmaxForward (fun _ => 0) Real.exp (Mat.ofFn 1 2 (fun _ j => Real.log (j + 1))) ⟨0, 0, []⟩ =
    .ok (Mat.ofFn 1 2 (fun _ j => ((j : ℝ) + 1) / 3)) := by
  rw [C26_softmax_value _ _ _ _ ⟨0, 0, []⟩ rfl]
  congr 1
  apply Mat.ofFn_congr
  intro i j _ hj
  unfold softmaxAt
  have h : ∀ k : Nat, Real.exp (Real.log ((k : ℝ) + 1)) = k + 1 := fun k => Real.exp_log (by positivity)
  simp only [h]
  rw [sum_range_succ, sum_range_one]
  norm_num

/-! ## C27 -/

/-- The first layer writes no input gradient. -/
theorem C27_first (g : Nat → ℝ) (mIn gOut gIn : Mat ℝ) :
    softmaxBackward g Real.exp true mIn gOut gIn = .ok gIn := rfl

/-- C27: for every truth (one-hot or not) and every input whose softmax `p` satisfies `eps ≤ p ≤ 1 - eps`,
the cross entropy gradient back-propagated through softmax is `p - t`.  The code uses `eps = 1.e-8f`. -/
theorem C27_p_minus_t (g : Nat → ℝ) (eps : ℝ) (heps : 0 < eps) (N C : Nat) (x t : Nat → Nat → ℝ)
    (w o1 o2 o3 : Mat ℝ) (h1 : o1.WF) (h2 : o2.WF) (h3 : o3.WF)
    (hp : ∀ s j, s < N → j < C → eps ≤ softmaxAt C (x s) j ∧ softmaxAt C (x s) j ≤ 1 - eps) :
    (do let P ← softmaxForward g Real.exp (Mat.ofFn N C x) o1
        let G ← (lossCCE g eps).gradient w P (Mat.ofFn N C t) o2
        softmaxBackward g Real.exp false (Mat.ofFn N C x) G o3) =
      .ok (Mat.ofFn N C (fun s j => softmaxAt C (x s) j - t s j)) := by
  rw [softmaxForward_ofFn g N C x h1]
  simp only [bind_ok']
  rw [cce_gradient_ofFn g eps N C _ t w h2]
  simp only [bind_ok']
  rw [softmaxBackward_ofFn g N C x _ h3]
  congr 1
  apply Mat.ofFn_congr
  intro s j hs hj
  obtain ⟨ha, hb⟩ := hp s j hs hj
  rw [max_eq_left ha, max_eq_left (by linarith)]
  have e1 : softmaxAt C (x s) j ≠ 0 := by intro h; rw [h] at ha; linarith
  have e2 : 1 - softmaxAt C (x s) j ≠ 0 := by intro h; linarith
  field_simp
  ring

/-- C27 for class indices: the sparse cross entropy gives `p` minus the one-hot row of the class. -/
theorem C27_sparse (g : Nat → ℝ) (eps : ℝ) (heps : 0 < eps) (N C : Nat) (x t : Nat → Nat → ℝ)
    (w o1 o2 o3 : Mat ℝ) (h1 : o1.WF) (h2 : o2.WF) (h3 : o3.WF) (cls : Nat → Nat)
    (ht : ∀ i, i < N → t i 0 = cls i) (hc : ∀ i, i < N → cls i < 2147483648)
    (hp : ∀ s j, s < N → j < C → eps ≤ softmaxAt C (x s) j ∧ softmaxAt C (x s) j ≤ 1 - eps) :
    (do let P ← softmaxForward g Real.exp (Mat.ofFn N C x) o1
        let G ← (lossSparseCCE g eps).gradient w P (Mat.ofFn N 1 t) o2
        softmaxBackward g Real.exp false (Mat.ofFn N C x) G o3) =
      .ok (Mat.ofFn N C (fun s j => softmaxAt C (x s) j - if cls s = j then 1 else 0)) := by
  rw [softmaxForward_ofFn g N C x h1]
  simp only [bind_ok']
  rw [sparse_gradient_ofFn g eps _ t w h2 ht hc]
  simp only [bind_ok']
  rw [softmaxBackward_ofFn g N C x _ h3]
  congr 1
  apply Mat.ofFn_congr
  intro s j hs hj
  obtain ⟨ha, hb⟩ := hp s j hs hj
  rw [max_eq_left ha, max_eq_left (by linarith)]
  have e1 : softmaxAt C (x s) j ≠ 0 := by intro h; rw [h] at ha; linarith
  have e2 : 1 - softmaxAt C (x s) j ≠ 0 := by intro h; linarith
  by_cases h : cls s = j
  · simp only [h, if_true]; field_simp; ring
  · simp only [h, if_false]; field_simp; ring

/-- Derivative of one softmax entry along a direction. -/
theorem hasDerivAt_softmax {C : Nat} (hC : 0 < C) (x V : Nat → ℝ) (j : Nat) :
    HasDerivAt (fun t : ℝ => softmaxAt C (fun k => x k + t * V k) j)
      (softmaxAt C x j * (V j - ∑ k ∈ range C, softmaxAt C x k * V k)) 0 := by
  have hlin : ∀ k, HasDerivAt (fun t : ℝ => Real.exp (x k + t * V k)) (Real.exp (x k) * V k) 0 := by
    intro k
    have h1 : HasDerivAt (fun t : ℝ => x k + t * V k) (V k) 0 := by
      simpa using ((hasDerivAt_id (0:ℝ)).mul_const (V k)).const_add (x k)
    have h2 := h1.exp
    simpa using h2
  have hS : HasDerivAt (fun t : ℝ => ∑ k ∈ range C, Real.exp (x k + t * V k))
      (∑ k ∈ range C, Real.exp (x k) * V k) 0 := HasDerivAt.fun_sum (fun k _ => hlin k)
  have hpos := softmax_den_pos hC x
  have h := (hlin j).fun_div hS (by simpa using hpos.ne')
  refine h.congr_deriv ?_
  simp only [zero_mul, add_zero]
  unfold softmaxAt
  have : ∑ k ∈ range C, Real.exp (x k) / (∑ k ∈ range C, Real.exp (x k)) * V k =
      (∑ k ∈ range C, Real.exp (x k) * V k) / ∑ k ∈ range C, Real.exp (x k) := by
    rw [sum_div]
    apply sum_congr rfl
    intro k _
    ring
  rw [this]
  have := hpos.ne'
  field_simp

/-- C27: for truths summing to one, `p - t` is the gradient of the loss computed by the code: `F y` is the sum
of the loss matrix obtained by the forward pass followed by `compute`, and its gradient at `x` is what
back-propagation returns.  Strict inequality because the loss has a kink where an entry equals `eps`. -/
theorem C27_true_gradient (g : Nat → ℝ) (eps : ℝ) (heps : 0 < eps) (N C : Nat) (x t : Nat → Nat → ℝ)
    (w o1 o2 o3 : Mat ℝ) (h1 : o1.WF) (h2 : o2.WF) (h3 : o3.WF)
    (ht : ∀ s, s < N → ∑ j ∈ range C, t s j = 1)
    (hp : ∀ s j, s < N → j < C → eps < softmaxAt C (x s) j ∧ softmaxAt C (x s) j ≤ 1 - eps) :
    ∃ (F : (Nat → Nat → ℝ) → ℝ) (G : Nat → Nat → ℝ),
      (∀ y, (do let P ← softmaxForward g Real.exp (Mat.ofFn N C y) o1
                let L ← (lossCCE g eps).compute w P (Mat.ofFn N C t) o2
                L.sum) = .ok (F y)) ∧
      IsGrad N C F x G ∧
      (do let P ← softmaxForward g Real.exp (Mat.ofFn N C x) o1
          let G ← (lossCCE g eps).gradient w P (Mat.ofFn N C t) o2
          softmaxBackward g Real.exp false (Mat.ofFn N C x) G o3) = .ok (Mat.ofFn N C G) := by
  refine ⟨fun y => ∑ s ∈ range N, ∑ j ∈ range C, -(t s j * Real.log (max (softmaxAt C (y s) j) eps)),
    fun s j => softmaxAt C (x s) j - t s j, ?_, ?_,
    C27_p_minus_t g eps heps N C x t w o1 o2 o3 h1 h2 h3 (fun s j hs hj => ⟨(hp s j hs hj).1.le, (hp s j hs hj).2⟩)⟩
  · intro y
    rw [softmaxForward_ofFn g N C y h1]
    simp only [bind_ok']
    rw [cce_compute_ofFn g eps N C _ t w h2]
    simp only [bind_ok']
    rw [Mat.ofFn_eq_flat, Mat.sum_flat, Nat.mul_one, accN_eq_sum]
    simp only [Nat.div_one]
  · intro V
    unfold dotM
    apply HasDerivAt.fun_sum
    intro s hs
    have hs := mem_range.mp hs
    rcases Nat.eq_zero_or_pos C with h0 | hC
    · subst h0
      simpa using hasDerivAt_const (0:ℝ) (0:ℝ)
    have hd : ∀ j, j < C → HasDerivAt
        (fun u : ℝ => -(t s j * Real.log (max (softmaxAt C (fun k => x s k + u * V s k) j) eps)))
        (-(t s j * (V s j - ∑ k ∈ range C, softmaxAt C (x s) k * V s k))) 0 := by
      intro j hj
      have hsm := hasDerivAt_softmax hC (x s) (V s) j
      have hpos := softmaxAt_pos hC (x s) j
      have hlog := hsm.log (by simpa using hpos.ne')
      have hev : ∀ᶠ u in 𝓝 (0:ℝ), eps < softmaxAt C (fun k => x s k + u * V s k) j := by
        apply hsm.continuousAt.eventually_const_lt
        simpa using (hp s j hs hj).1
      have heq : (fun u : ℝ => Real.log (max (softmaxAt C (fun k => x s k + u * V s k) j) eps)) =ᶠ[𝓝 0]
          fun u : ℝ => Real.log (softmaxAt C (fun k => x s k + u * V s k) j) := by
        filter_upwards [hev] with u hu
        rw [max_eq_left hu.le]
      have := ((hlog.congr_of_eventuallyEq heq).const_mul (t s j)).neg
      refine this.congr_deriv ?_
      simp only [zero_mul, add_zero]
      rw [mul_div_cancel_left₀ _ hpos.ne']
    have := HasDerivAt.fun_sum (fun j hj => hd j (mem_range.mp hj)) (u := range C)
    refine this.congr_deriv ?_
    set A := ∑ k ∈ range C, softmaxAt C (x s) k * V s k with hA
    have e1 : ∑ j ∈ range C, -(t s j * (V s j - A)) =
        (∑ j ∈ range C, t s j) * A - ∑ j ∈ range C, t s j * V s j := by
      rw [sum_mul, ← sum_sub_distrib]
      apply sum_congr rfl
      intro j _
      ring
    rw [e1, ht s hs, one_mul, hA, ← sum_sub_distrib]
    apply sum_congr rfl
    intro j _
    ring

/-- C27, limit of the claim: `softmaxBackward` multiplies by the diagonal `p (1 - p)` only.  Behind another loss
its result is in general not the gradient: with two equal inputs and gradient `(1,1)` the derivative is `0` (the
outputs sum to one) but the code returns `(1/4, 1/4)`. -/
theorem C27_other_losses_wrong (g : Nat → ℝ) :
    softmaxBackward g Real.exp false (Mat.ofFn 1 2 (fun _ _ => 0)) (Mat.ofFn 1 2 (fun _ _ => 1)) ⟨0, 0, []⟩ =
      .ok (Mat.ofFn 1 2 (fun _ _ => 1 / 4)) ∧
    IsGrad 1 2 (fun x => dotM 1 2 (fun _ _ => 1) (fun s j => softmaxAt 2 (x s) j)) (fun _ _ => 0)
      (fun _ _ => 0) := by
  constructor
  · rw [softmaxBackward_ofFn g 1 2 _ _ (gIn := ⟨0, 0, []⟩) rfl]
    congr 1
    apply Mat.ofFn_congr
    intro i j _ _
    unfold softmaxAt
    simp
    norm_num
  · apply isGrad_of_affine
    intro V t
    unfold dotM
    simp only [range_one, sum_singleton, one_mul, softmaxAt_sum (C := 2) (by decide), zero_mul, sum_const_zero,
      mul_zero, add_zero]

/-- C27, limit of the claim: where the probability `p` of the true class is below `eps`, the gradient with respect to the
score of this class is not `p - 1` but only `-p (1 - p) / eps`. -/
theorem C27_saturated (g : Nat → ℝ) (eps : ℝ) (heps : 0 < eps) (N C : Nat) (x : Nat → Nat → ℝ)
    (w o1 o2 o3 : Mat ℝ) (h1 : o1.WF) (h2 : o2.WF) (h3 : o3.WF) (cls : Nat → Nat) :
    ∃ G : Nat → Nat → ℝ, (do let P ← softmaxForward g Real.exp (Mat.ofFn N C x) o1
                             let G ← (lossCCE g eps).gradient w P (Mat.ofFn N C (fun s j => if cls s = j then 1 else 0)) o2
                             softmaxBackward g Real.exp false (Mat.ofFn N C x) G o3) = .ok (Mat.ofFn N C G) ∧
      ∀ s, softmaxAt C (x s) (cls s) ≤ eps →
        G s (cls s) = -(softmaxAt C (x s) (cls s) * (1 - softmaxAt C (x s) (cls s)) / eps) := by
  refine ⟨fun s j => (-((if cls s = j then 1 else 0) / max (softmaxAt C (x s) j) eps) +
    (1 - (if cls s = j then 1 else 0)) / max (1 - softmaxAt C (x s) j) eps) * (softmaxAt C (x s) j * (1 - softmaxAt C (x s) j)), ?_, ?_⟩
  · rw [softmaxForward_ofFn g N C x h1]
    simp only [bind_ok']
    rw [cce_gradient_ofFn g eps N C _ _ w h2]
    simp only [bind_ok']
    rw [softmaxBackward_ofFn g N C x _ h3]
  · intro s hs
    have := heps.ne'
    simp only [if_true, max_eq_right hs, sub_self, zero_div, add_zero]
    field_simp

/-- C27, limit of the claim: the surer the network is of the wrong class, the less it learns.  For every `δ > 0` there is a
sample with two classes, the first being right, for which all computed gradients are below `δ`, but the derivative
of the cross entropy `-log p` with respect to the score of the right class is below `-1 + δ`. -/
theorem C27_saturated_wrong (g : Nat → ℝ) (eps : ℝ) (heps : 0 < eps) (δ : ℝ) (hδ : 0 < δ) :
    ∃ (x : Nat → ℝ) (G : Nat → ℝ) (d : ℝ),
      (do let P ← softmaxForward g Real.exp (Mat.ofFn 1 2 (fun _ => x)) ⟨0, 0, []⟩
          let G ← (lossCCE g eps).gradient ⟨0, 0, []⟩ P (Mat.ofFn 1 2 (fun _ j => if j = 0 then 1 else 0)) ⟨0, 0, []⟩
          softmaxBackward g Real.exp false (Mat.ofFn 1 2 (fun _ => x)) G ⟨0, 0, []⟩) = .ok (Mat.ofFn 1 2 (fun _ => G)) ∧
      |G 0| < δ ∧ |G 1| < δ ∧
      HasDerivAt (fun u => -Real.log (softmaxAt 2 (Function.update x 0 u) 0)) d (x 0) ∧ d < -1 + δ := by
  obtain ⟨q, hq0, hq⟩ : ∃ q : ℝ, 0 < q ∧ q < min (min eps (eps * δ)) (min δ 1) :=
    exists_between (lt_min (lt_min heps (mul_pos heps hδ)) (lt_min hδ one_pos))
  obtain ⟨⟨q1, q2⟩, q3, q4⟩ : (q < eps ∧ q < eps * δ) ∧ q < δ ∧ q < 1 := by
    simpa only [lt_min_iff] using hq
  have hpos : (0 : ℝ) < 1 / q - 1 := by rw [sub_pos, lt_div_iff₀ hq0]; linarith
  set x : Nat → ℝ := fun j => if j = 0 then 0 else Real.log (1 / q - 1) with hx
  have p0 : softmaxAt 2 x 0 = q := by
    unfold softmaxAt
    simp only [hx, sum_range_succ, range_zero, sum_empty, zero_add, if_true, one_ne_zero, if_false, Real.exp_zero, Real.exp_log hpos]
    field_simp
    ring
  have p1 : softmaxAt 2 x 1 = 1 - q := by
    have := softmaxAt_sum (C := 2) (by decide) x
    rw [sum_range_succ, sum_range_one, p0] at this
    linarith
  have hb : q * (1 - q) / eps < δ := by
    rw [div_lt_iff₀ heps]
    nlinarith
  have hb0 : 0 ≤ q * (1 - q) / eps := by
    have : 0 ≤ 1 - q := by linarith
    positivity
  refine ⟨x, fun j => if j = 0 then -(q * (1 - q) / eps) else q * (1 - q) / eps, q - 1, ?_, ?_, ?_, ?_, by linarith⟩
  · rw [softmaxForward_ofFn g 1 2 _ (show (⟨0, 0, []⟩ : Mat ℝ).WF from rfl)]
    simp only [bind_ok']
    rw [cce_gradient_ofFn g eps 1 2 _ _ _ (show (⟨0, 0, []⟩ : Mat ℝ).WF from rfl)]
    simp only [bind_ok']
    rw [softmaxBackward_ofFn g 1 2 _ _ (gIn := ⟨0, 0, []⟩) rfl]
    congr 1
    apply Mat.ofFn_congr
    intro i j _ hj
    have he := heps.ne'
    obtain rfl | rfl : j = 0 ∨ j = 1 := by omega
    · simp only [p0, if_true, max_eq_right q1.le, sub_self, zero_div, add_zero]
      field_simp
    · simp only [p1, one_ne_zero, if_false, zero_div, neg_zero, zero_add, sub_zero, sub_sub_cancel, max_eq_right q1.le]
      field_simp
  · simpa [abs_of_nonneg hb0] using hb
  · simpa [abs_of_nonneg hb0] using hb
  · have e : (fun u => -Real.log (softmaxAt 2 (Function.update x 0 u) 0)) = fun u => Real.log (Real.exp u + (1 / q - 1)) - u := by
      funext u
      have : softmaxAt 2 (Function.update x 0 u) 0 = Real.exp u / (Real.exp u + (1 / q - 1)) := by
        unfold softmaxAt
        rw [one_div] at hpos
        simp [sum_range_succ, hx, Real.exp_log hpos]
      have h0 := Real.exp_pos u
      rw [this, Real.log_div h0.ne' (by positivity), Real.log_exp]
      ring
    rw [e, show x 0 = 0 from rfl]
    have h0 : Real.exp 0 + (1 / q - 1) ≠ 0 := by have := Real.exp_pos 0; positivity
    have := (((Real.hasDerivAt_exp 0).add_const (1 / q - 1)).log h0).sub (hasDerivAt_id (0 : ℝ))
    refine this.congr_deriv ?_
    rw [Real.exp_zero]
    field_simp
    ring

/-- A sample of the class 0 with the scores 0 and 40, whose probability is below 1e-8. -/
example : softmaxAt 2 (fun j => if j = 0 then 0 else 40) 0 ≤ 1e-8 := by
  have h : softmaxAt 2 (fun j => if j = 0 then 0 else 40) 0 = 1 / (1 + Real.exp 40) := by
    unfold softmaxAt
    simp [sum_range_succ]
  have h1 : (2 : ℝ) ^ 40 ≤ Real.exp 40 := by
    have : (2 : ℝ) ≤ Real.exp 1 := by have := Real.add_one_le_exp 1; linarith
    calc (2 : ℝ) ^ 40 ≤ Real.exp 1 ^ 40 := pow_le_pow_left₀ (by norm_num) this 40
      _ = Real.exp 40 := by rw [← Real.exp_nat_mul]; norm_num
  rw [h, div_le_iff₀ (by positivity)]
  norm_num at h1 ⊢
  linarith

/-- An instance of the hypotheses: two classes, inputs `0` and `0`, so `p = (1/2, 1/2)`. -/
example : (∀ s, s < 1 → ∑ j ∈ range 2, (fun (_ j : Nat) => if j = 0 then (1:ℝ) else 0) s j = 1) ∧
    ∀ s j, s < 1 → j < 2 → (1e-8 : ℝ) < softmaxAt 2 ((fun _ _ => 0 : Nat → Nat → ℝ) s) j ∧
      softmaxAt 2 ((fun _ _ => 0 : Nat → Nat → ℝ) s) j ≤ 1 - 1e-8 := by
  refine ⟨fun s _ => by simp, fun s j _ _ => ?_⟩
  unfold softmaxAt
  simp
  norm_num

end BeeDNN
