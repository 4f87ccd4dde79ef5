import Verif.Lemmas.Linear
import Mathlib.Analysis.InnerProductSpace.PiL2
import Mathlib.Analysis.InnerProductSpace.Projection.Minimal

/-! # There is a best linear model -/

namespace BeeDNN.Linear
open Finset

/-- The outputs for all samples, as a linear function of the weights and biases. -/
noncomputable def outputs (N C K : Nat) (x : Nat → Row) : (Nat → Nat → ℝ) × (Nat → Nat → ℝ) →ₗ[ℝ] EuclideanSpace ℝ (Fin N × Fin K) where
  toFun P := WithLp.toLp 2 fun i => lin C x P.1 P.2 i.1 i.2
  map_add' P Q := by
    ext i
    show lin C x (P.1 + Q.1) (P.2 + Q.2) i.1 i.2 = lin C x P.1 P.2 i.1 i.2 + lin C x Q.1 Q.2 i.1 i.2
    have := lin_add C x P.1 P.2 Q.1 Q.2 1 i.1 i.2
    simp only [one_mul] at this
    exact this
  map_smul' c P := by
    ext i
    show lin C x (c • P.1) (c • P.2) i.1 i.2 = c * lin C x P.1 P.2 i.1 i.2
    unfold lin
    rw [mul_add, mul_sum]
    congr 1
    exact sum_congr rfl fun k _ => mul_left_comm ..

theorem err_norm (q : ℝ) (N C K : Nat) (x y : Nat → Row) (P : (Nat → Nat → ℝ) × (Nat → Nat → ℝ)) :
    err q N C K x y P.1 P.2 = q / (2 * N) * ‖WithLp.toLp 2 (fun i : Fin N × Fin K => y i.1 i.2) - outputs N C K x P‖ ^ 2 := by
  rw [EuclideanSpace.real_norm_sq_eq, Fintype.sum_prod_type, err]
  have e : ∀ s j : Nat, q * (lin C x P.1 P.2 s j - y s j) ^ 2 / 2 = q / 2 * (y s j - lin C x P.1 P.2 s j) ^ 2 := fun s j => by ring
  simp only [e, ← mul_sum]
  rw [← Fin.sum_univ_eq_sum_range (fun s => ∑ j ∈ range K, (y s j - lin C x P.1 P.2 s j) ^ 2) N]
  simp only [fun s => (Fin.sum_univ_eq_sum_range (fun j => (y s j - lin C x P.1 P.2 s j) ^ 2) K).symm]
  have : ∀ s : Fin N, ∀ j : Fin K, (WithLp.toLp 2 (fun i : Fin N × Fin K => y i.1 i.2) - outputs N C K x P).ofLp (s, j) = y s j - lin C x P.1 P.2 s j := fun s j => rfl
  simp only [this]
  rw [← mul_assoc]
  congr 1
  ring

/-- The least squares solution exists. -/
theorem exists_best {q : ℝ} (hq : 0 ≤ q) (N C K : Nat) (x y : Nat → Row) :
    ∃ P : (Nat → Nat → ℝ) × (Nat → Nat → ℝ), ∀ Q : (Nat → Nat → ℝ) × (Nat → Nat → ℝ), err q N C K x y P.1 P.2 ≤ err q N C K x y Q.1 Q.2 := by
  obtain ⟨v, ⟨P, rfl⟩, hv⟩ := (LinearMap.range (outputs N C K x)).exists_norm_eq_iInf_of_complete_subspace
    (Submodule.complete_of_finiteDimensional _) (WithLp.toLp 2 (fun i : Fin N × Fin K => y i.1 i.2))
  refine ⟨P, fun Q => ?_⟩
  rw [err_norm, err_norm]
  have : ‖WithLp.toLp 2 (fun i : Fin N × Fin K => y i.1 i.2) - outputs N C K x P‖ ≤ ‖WithLp.toLp 2 (fun i : Fin N × Fin K => y i.1 i.2) - outputs N C K x Q‖ := by
    rw [hv]
    exact ciInf_le ⟨0, by rintro _ ⟨w, rfl⟩; exact norm_nonneg _⟩ (⟨outputs N C K x Q, LinearMap.mem_range_self _ _⟩ : LinearMap.range (outputs N C K x))
  gcongr

end BeeDNN.Linear
