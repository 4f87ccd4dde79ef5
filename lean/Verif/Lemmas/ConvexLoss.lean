import Verif.Lemmas.Convex
import Verif.Lemmas.MlpLoss
import Verif.Spec.Convex

/-! # The losses are smooth and convex: lemmas -/

namespace BeeDNN
open Finset

namespace Linear

/-- The curvature of the distance losses. -/
theorem point_smooth {loss : String} (h : loss ∈ smoothLosses) {K : Nat} (hK : 0 < K) : ∃ f' : ℝ → ℝ,
    (∀ u d, pointError loss K u + f' u * d ≤ pointError loss K (u + d)) ∧
      ∀ u d, pointError loss K (u + d) ≤ pointError loss K u + f' u * d + lossCurvature loss K / 2 * d ^ 2 := by
  have hK' : (0 : ℝ) < K := Nat.cast_pos.2 hK
  simp only [smoothLosses, List.mem_cons, List.not_mem_nil, or_false] at h
  have key : ∀ (f : ℝ → ℝ) (f' : ℝ → ℝ) (c : ℝ), pointError loss K = f → lossCurvature loss K = c → (∀ u, HasDerivAt f (f' u) u) → Monotone f' →
      Monotone (fun u => c * u - f' u) → ∃ f' : ℝ → ℝ, (∀ u d, pointError loss K u + f' u * d ≤ pointError loss K (u + d)) ∧
        ∀ u d, pointError loss K (u + d) ≤ pointError loss K u + f' u * d + lossCurvature loss K / 2 * d ^ 2 := by
    intro f f' c e1 e2 h1 h2 h3
    rw [e1, e2]
    exact ⟨f', tangent_le h1 h2, le_parabola h1 h3⟩
  rcases h with rfl | rfl | rfl | rfl | rfl
  · refine key (fun z => z * z / (2 * K)) (fun z => z / K) (1 / K) (funext fun z => ?_) (by rw [lossCurvature, if_pos rfl]) (fun u => ?_) ?_ ?_
    · rw [pointError, if_pos rfl, pow_two]
    · exact ((hasDerivAt_mulSelf u).div_const (2 * (K : ℝ))).congr_deriv (by field_simp)
    · exact fun a b hab => div_le_div_of_nonneg_right hab hK'.le
    · exact fun a b hab => le_of_eq (by ring)
  · refine key (fun z => z * z / 2) (fun z => z) 1 (funext fun z => ?_) (by simp [lossCurvature, classLosses]) (fun u => ?_) ?_ ?_
    · rw [pointError, if_neg (by decide), if_pos rfl, pow_two]
    · exact ((hasDerivAt_mulSelf u).div_const (2 : ℝ)).congr_deriv (by ring)
    · exact fun a b hab => hab
    · exact fun a b hab => le_of_eq (by ring)
  · refine key (fun z => Real.log (Real.cosh z)) Real.tanh 1 (by funext z; simp [pointError]) (by simp [lossCurvature, classLosses]) hasDerivAt_logCosh ?_ ?_
    · exact monotone_of_hasDeriv hasDerivAt_tanh' fun u => by nlinarith [Real.tanh_lt_one u, Real.neg_one_lt_tanh u]
    · exact monotone_of_hasDeriv (fun u => ((hasDerivAt_id u).const_mul 1).sub (hasDerivAt_tanh' u)) fun u => by nlinarith [mul_self_nonneg (Real.tanh u)]
  · refine key (fun x => (if |x| < 1 then 0.5 * (|x| * |x|) else 1 * |x| - 0.5 * 1 * 1 : ℝ)) (fun x => if x > 1 then 1 else if x < -1 then -1 else x) 1
      (funext fun y => ?_) (by simp [lossCurvature, classLosses]) hasDerivAt_huber ?_ ?_
    · simp only [pointError]
      simp only [show ¬ ("Huber" = "MeanSquaredError") by decide, show ¬ ("Huber" = "L2") by decide,
        show ¬ ("Huber" = "MeanAbsoluteError") by decide, show ¬ ("Huber" = "L1") by decide,
        show ¬ ("Huber" = "MeanCubicError" ∨ "Huber" = "L3") by decide, show ¬ ("Huber" = "LogCosh") by decide, if_false, if_true]
      split
      · rw [abs_mul_abs_self]; ring
      · ring
    · intro a b hab
      dsimp only
      split_ifs <;> linarith
    · intro a b hab
      dsimp only
      split_ifs <;> linarith
  · have h0 : ∀ x : ℝ, 0 < x * x * 1 + 1 := fun x => by have := mul_self_nonneg x; linarith
    have hd : ∀ x : ℝ, HasDerivAt (fun x : ℝ => x / Real.sqrt (x * x * 1 + 1)) (1 / (Real.sqrt (x * x * 1 + 1) * (x * x * 1 + 1))) x := fun x => by
      have h1 : HasDerivAt (fun y : ℝ => y * y * 1 + 1) (2 * x) x := (((hasDerivAt_mulSelf x).mul_const 1).add_const 1).congr_deriv (by ring)
      have hs := Real.sqrt_pos.2 (h0 x)
      refine ((hasDerivAt_id x).div (h1.sqrt (h0 x).ne') hs.ne').congr_deriv ?_
      simp only [id]
      rw [div_eq_div_iff (by positivity) (by have := h0 x; positivity)]
      field_simp
      rw [Real.sq_sqrt (by positivity)]
      ring
    have hs1 : ∀ x : ℝ, 1 ≤ Real.sqrt (x * x * 1 + 1) := fun x => Real.one_le_sqrt.2 (by have := mul_self_nonneg x; linarith)
    refine key (fun x => (1 * (Real.sqrt (x * x * 1 + 1) - 1) : ℝ)) (fun x => x / Real.sqrt (x * x * 1 + 1)) 1 (by funext y; simp [pointError, pow_two])
      (by simp [lossCurvature, classLosses]) hasDerivAt_pseudoHuber ?_ ?_
    · exact monotone_of_hasDeriv hd fun u => by have := h0 u; positivity
    · refine monotone_of_hasDeriv (fun u => ((hasDerivAt_id u).const_mul 1).sub (hd u)) fun u => ?_
      rw [mul_one, sub_nonneg]
      exact div_le_one_of_le₀ (one_le_mul_of_one_le_of_one_le (hs1 u) (by have := mul_self_nonneg u; linarith)) (by have := h0 u; positivity)

theorem softplus_smooth : (∀ u d : ℝ, Real.log (1 + Real.exp u) + 1 / (1 + Real.exp (-u)) * d ≤ Real.log (1 + Real.exp (u + d))) ∧
    ∀ u d : ℝ, Real.log (1 + Real.exp (u + d)) ≤ Real.log (1 + Real.exp u) + 1 / (1 + Real.exp (-u)) * d + (1 / 4) / 2 * d ^ 2 := by
  have hd : ∀ u : ℝ, HasDerivAt (fun u => Real.log (1 + Real.exp u)) (1 / (1 + Real.exp (-u))) u := fun u =>
    (Act.hasDerivAt_softPlus u).congr_deriv (by
      rw [Real.exp_neg]
      have := Real.exp_pos u
      field_simp
      ring)
  refine ⟨tangent_le hd ?_, le_parabola hd ?_⟩
  · exact monotone_of_hasDeriv hasDerivAt_sigm fun u => by positivity
  · refine monotone_of_hasDeriv (fun u => ((hasDerivAt_id u).const_mul (1 / 4)).sub (hasDerivAt_sigm u)) fun u => ?_
    have := Real.exp_pos (-u)
    rw [mul_one, sub_nonneg, div_le_div_iff₀ (by positivity) (by norm_num)]
    nlinarith [sq_nonneg (1 - Real.exp (-u))]

/-- What follows the dense layer. -/
noncomputable def head (loss : String) (K : Nat) (z : Row) : Row :=
  if loss ∈ classLosses then softmaxAt K z else if loss = "BinaryCrossEntropy" then fun j => Act.sigmoid.apply (z j) else z

/-- The error of a sample as a function of the outputs of the dense layer. -/
noncomputable def sampleLink (loss : String) (K : Nat) (y z : Row) : ℝ := sampleError loss K (head loss K z) y

theorem log_softmax {K : Nat} (hK : 0 < K) (z : Row) (j : Nat) : Real.log (softmaxAt K z j) = z j - lse K z := by
  have : 0 < ∑ k ∈ range K, Real.exp (z k) := sum_pos (fun j _ => Real.exp_pos _) ⟨0, mem_range.2 hK⟩
  rw [softmaxAt, Real.log_div (Real.exp_pos _).ne' this.ne', Real.log_exp, lse]

/-- The truth of a sample is right for its loss. -/
def Truth (loss : String) (K : Nat) (y : Row) : Prop :=
  (loss = "CategoricalCrossEntropy" → ∑ j ∈ range K, y j = 1) ∧ (loss = "SparseCategoricalCrossEntropy" → ∃ c : Nat, c < K ∧ y 0 = c) ∧ (loss = "BinaryCrossEntropy" → K = 1)

theorem link_of_truth {loss : String} (h : loss ∈ smoothLosses ∨ loss ∈ classLosses ∨ loss = "BinaryCrossEntropy") {K : Nat} (hK : 0 < K) {y : Row} (hy : Truth loss K y) :
    ∃ g, Link K (lossCurvature loss K) (sampleLink loss K y) g := by
  rcases h with h | h | rfl
  · obtain ⟨f', h1, h2⟩ := point_smooth h hK
    have e : sampleLink loss K y = fun z => ∑ j ∈ range K, pointError loss K (z j - y j) := by
      funext z
      have : loss ∉ classLosses ∧ loss ≠ "BinaryCrossEntropy" ∧ loss ≠ "CategoricalCrossEntropy" ∧ loss ≠ "SparseCategoricalCrossEntropy" := by
        have : ∀ s ∈ smoothLosses, s ∉ classLosses ∧ s ≠ "BinaryCrossEntropy" ∧ s ≠ "CategoricalCrossEntropy" ∧ s ≠ "SparseCategoricalCrossEntropy" := by decide
        exact this _ h
      rw [sampleLink, head, if_neg this.1, if_neg this.2.1, sampleError, if_neg this.2.2.1, if_neg this.2.2.2, if_neg this.2.1]
    rw [e]
    exact ⟨_, Link.sum (f := fun j u => pointError loss K (u - y j)) (f' := fun j u => f' (u - y j)) (fun j _ u d => by
        have := h1 (u - y j) d
        rwa [sub_add_eq_add_sub] at this) fun j _ u d => by
        have := h2 (u - y j) d
        rwa [sub_add_eq_add_sub] at this⟩
  · have hc : lossCurvature loss K = 1 / 2 := by
      have : loss ≠ "MeanSquaredError" := by rintro rfl; exact absurd h (by decide)
      rw [lossCurvature, if_neg this, if_pos h]
    have hl := h
    simp only [classLosses, List.mem_cons, List.not_mem_nil, or_false] at h
    rw [hc]
    rcases h with rfl | rfl
    · refine ⟨_, (congrArg (fun ℓ => Link K (1 / 2) ℓ _) (funext fun z => ?_)).mpr ((link_lse hK).sub_linear y)⟩
      rw [sampleLink, head, if_pos hl, sampleError, if_pos rfl]
      simp only [log_softmax hK]
      rw [sum_neg_distrib]
      simp only [mul_sub, sum_sub_distrib]
      rw [← sum_mul, hy.1 rfl]
      ring
    · obtain ⟨c, c1, c2⟩ := hy.2.1 rfl
      refine ⟨_, (congrArg (fun ℓ => Link K (1 / 2) ℓ _) (funext fun z => ?_)).mpr ((link_lse hK).sub_linear fun j => if j = c then 1 else 0)⟩
      rw [sampleLink, head, if_pos hl, sampleError, if_neg (by decide), if_pos rfl, c2, Nat.floor_natCast, log_softmax hK,
        sum_eq_single_of_mem c (mem_range.2 c1) fun j _ hne => by rw [if_neg hne, zero_mul], if_pos rfl]
      ring
  · have hK1 := hy.2.2 rfl
    subst hK1
    obtain ⟨s1, s2⟩ := softplus_smooth
    have e : sampleLink "BinaryCrossEntropy" 1 y = fun z => ∑ j ∈ range 1, (Real.log (1 + Real.exp (z j)) - y j * z j) := by
      funext z
      rw [sampleLink, head, if_neg (by decide), if_pos rfl, sampleError, if_neg (by decide), if_neg (by decide), if_pos rfl, sum_range_one]
      have h1 := Real.exp_pos (z 0)
      have a1 : Real.log (Act.sigmoid.apply (z 0)) = z 0 - Real.log (1 + Real.exp (z 0)) := by
        rw [show Act.sigmoid.apply (z 0) = Real.exp (z 0) / (1 + Real.exp (z 0)) by
          show 1 / (1 + Real.exp (-z 0)) = _
          rw [Real.exp_neg]
          field_simp
          ring, Real.log_div h1.ne' (by positivity), Real.log_exp]
      have a2 : Real.log (1 - Act.sigmoid.apply (z 0)) = -Real.log (1 + Real.exp (z 0)) := by
        rw [show 1 - Act.sigmoid.apply (z 0) = (1 + Real.exp (z 0))⁻¹ by
          show 1 - 1 / (1 + Real.exp (-z 0)) = _
          rw [Real.exp_neg]
          field_simp
          ring, Real.log_inv]
      rw [a1, a2]
      ring
    rw [e, show lossCurvature "BinaryCrossEntropy" 1 = 1 / 4 by simp [lossCurvature, classLosses]]
    refine ⟨_, Link.sum (f := fun j u => Real.log (1 + Real.exp u) - y j * u) (f' := fun j u => 1 / (1 + Real.exp (-u)) - y j) (fun j _ u d => ?_) fun j _ u d => ?_⟩
    · have := s1 u d
      linarith
    · have := s2 u d
      linarith

end Linear

end BeeDNN
