import Verif.Spec.Gradient
import Mathlib.Analysis.Calculus.Deriv.Add
import Mathlib.Analysis.Calculus.Deriv.Mul
import Mathlib.Analysis.Calculus.Deriv.Comp
import Mathlib.Algebra.BigOperators.Ring.Finset
import Mathlib.Algebra.BigOperators.Group.Finset.Sigma
import Mathlib.Tactic.Ring
import Mathlib.Tactic.FieldSimp

/-! # Lemmas on gradients -/

namespace BeeDNN
open Finset

theorem dotM_congr {R C : Nat} {a b a' b' : Nat → Nat → ℝ} (h : ∀ i j, i < R → j < C → a i j = a' i j)
    (h' : ∀ i j, i < R → j < C → b i j = b' i j) : dotM R C a b = dotM R C a' b' := by
  unfold dotM
  apply sum_congr rfl; intro i hi
  apply sum_congr rfl; intro j hj
  rw [h i j (mem_range.mp hi) (mem_range.mp hj), h' i j (mem_range.mp hi) (mem_range.mp hj)]

/-- A function that is affine along every line has the obvious gradient. -/
theorem isGrad_of_affine {R C : Nat} {L : (Nat → Nat → ℝ) → ℝ} {x G : Nat → Nat → ℝ}
    (h : ∀ V t, L (fun i j => x i j + t * V i j) = L x + t * dotM R C G V) : IsGrad R C L x G := by
  intro V
  have : (fun t : ℝ => L (fun i j => x i j + t * V i j)) = fun t => L x + t * dotM R C G V := by
    funext t; exact h V t
  rw [this]
  simpa using ((hasDerivAt_id (0 : ℝ)).mul_const (dotM R C G V)).const_add (L x)

/-- The gradient is unique on the cells. -/
theorem IsGrad.unique {R C : Nat} {L : (Nat → Nat → ℝ) → ℝ} {x G G' : Nat → Nat → ℝ}
    (h : IsGrad R C L x G) (h' : IsGrad R C L x G') {a b : Nat} (ha : a < R) (hb : b < C) :
    G a b = G' a b := by
  have key : ∀ G : Nat → Nat → ℝ, dotM R C G (fun i j => if i = a ∧ j = b then 1 else 0) = G a b := by
    intro G
    unfold dotM
    rw [sum_eq_single a, sum_eq_single b]
    · simp
    · intro j _ hj; simp [hj]
    · intro hn; exact absurd (mem_range.mpr hb) hn
    · intro i _ hi; simp [hi]
    · intro hn; exact absurd (mem_range.mpr ha) hn
  have := (h (fun i j => if i = a ∧ j = b then 1 else 0)).unique (h' _)
  rw [key, key] at this
  exact this

theorem dotM_line (R C : Nat) (g a b : Nat → Nat → ℝ) (t : ℝ) :
    dotM R C g (fun i j => a i j + t * b i j) = dotM R C g a + t * dotM R C g b := by
  unfold dotM
  simp only [mul_sum, ← sum_add_distrib]
  apply sum_congr rfl; intro i _
  apply sum_congr rfl; intro j _
  ring

/-- If the output moves by `t * D V` along `V`, and `B` is adjoint to `D`, then `B g` is the gradient of
`c * ⟨g, out⟩`. -/
theorem isGrad_of_linear {R C N m : Nat} {out : (Nat → Nat → ℝ) → Nat → Nat → ℝ} {x G : Nat → Nat → ℝ}
    {gr : Nat → Nat → ℝ} (c : ℝ) (D : (Nat → Nat → ℝ) → Nat → Nat → ℝ)
    (h1 : ∀ V t s j, out (fun i j => x i j + t * V i j) s j = out x s j + t * D V s j)
    (h2 : ∀ V, dotM R C G V = c * dotM N m gr (D V)) :
    IsGrad R C (fun x => c * dotM N m gr (out x)) x G := by
  apply isGrad_of_affine
  intro V t
  have : out (fun i j => x i j + t * V i j) = fun s j => out x s j + t * D V s j := by
    funext s j; exact h1 V t s j
  rw [this, dotM_line, h2]
  ring

theorem isGrad_of_linear' {R C N m : Nat} {out : (Nat → Nat → ℝ) → Nat → Nat → ℝ} {x G : Nat → Nat → ℝ}
    {gr : Nat → Nat → ℝ} (D : (Nat → Nat → ℝ) → Nat → Nat → ℝ)
    (h1 : ∀ V t s j, out (fun i j => x i j + t * V i j) s j = out x s j + t * D V s j)
    (h2 : ∀ V, dotM R C G V = dotM N m gr (D V)) :
    IsGrad R C (fun x => dotM N m gr (out x)) x G := by
  have := isGrad_of_linear (R := R) (C := C) (N := N) (m := m) (x := x) (G := G) (gr := gr) 1 D h1
    (fun V => by rw [h2 V, one_mul])
  simpa using this

/-- Chain rule for a function applied entry by entry. -/
theorem isGrad_cwise {N C : Nat} {act der : ℝ → ℝ} {x gr : Nat → Nat → ℝ}
    (hd : ∀ s j, s < N → j < C → HasDerivAt act (der (x s j)) (x s j)) :
    IsGrad N C (fun x => dotM N C gr (fun s j => act (x s j))) x (fun s j => der (x s j) * gr s j) := by
  intro V
  unfold dotM
  apply HasDerivAt.fun_sum
  intro s hs
  apply HasDerivAt.fun_sum
  intro j hj
  have h1 : HasDerivAt (fun t : ℝ => x s j + t * V s j) (V s j) 0 := by
    simpa using ((hasDerivAt_id (0 : ℝ)).mul_const (V s j)).const_add (x s j)
  have h2 : HasDerivAt act (der (x s j)) (x s j + 0 * V s j) := by
    simpa using hd s j (mem_range.mp hs) (mem_range.mp hj)
  have h3 := (h2.comp 0 h1).const_mul (gr s j)
  exact h3.congr_deriv (by ring)

end BeeDNN
