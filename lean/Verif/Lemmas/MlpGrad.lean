import Verif.Lemmas.MlpOpt
import Verif.Lemmas.Gradient
import Mathlib.Analysis.Calculus.Deriv.Add
import Mathlib.Analysis.Calculus.Deriv.Mul
import Mathlib.Analysis.Calculus.Deriv.Comp

/-! # The chain rule for perceptrons: the computed gradients are the true ones -/

namespace BeeDNN
open Finset

namespace Mlp

/-- What `d` layers from layer `k` on make of the input `h` of layer `k`. -/
noncomputable def rest (m : Mlp) : Nat → Nat → Row → Row
  | 0, _, h => h
  | d + 1, k, h => m.rest d (k + 1) ((m.ply k).apply (m.width k) h)

theorem hidden_rest (m : Mlp) (v : Row) : ∀ d k, m.hidden v (k + d) = m.rest d k (m.hidden v k)
  | 0, k => rfl
  | d + 1, k => by
    have := hidden_rest m v d (k + 1)
    rw [show k + (d + 1) = k + 1 + d by omega, this]
    rfl

/-- The gradient of an error of the output with respect to the input of layer `k`, given the gradient with respect to
the input of layer `D`. -/
theorem restGradAt {m : Mlp} (hok : m.Ok) {v : Row} {D : Nat} (hD : D ≤ m.depth) (hs : m.SmoothTo D v) {Ψ : Row → ℝ} {g : Row}
    (hΨ : GradAt (m.width D) (fun h => Ψ (m.rest (m.depth - D) D h)) (m.hidden v D) (m.delta v g (m.depth - D))) :
    ∀ (d k : Nat), k + d = D → GradAt (m.width k) (fun h => Ψ (m.rest (m.depth - D + d) k h)) (m.hidden v k) (m.delta v g (m.depth - D + d))
  | 0, k, hk => by
    obtain rfl : k = D := by omega
    exact hΨ
  | d + 1, k, hk => by
    have hk' : m.depth - 1 - (m.depth - D + d) = k := by omega
    have ih := restGradAt hok hD hs hΨ d (k + 1) (by omega)
    have := Ply.gradAt (hok.fits k (by omega)) (hs k (by omega)) ih
    rw [← Nat.add_assoc, delta, hk']
    exact this

theorem setPar_hidden (m : Mlp) (b : Bool) (i : Nat) (V : Nat → Nat → ℝ) (v : Row) : ∀ k, k ≤ i → (m.setPar b i V).hidden v k = m.hidden v k
  | 0, _ => rfl
  | k + 1, hk => by
    rw [hidden, hidden, setPar_hidden m b i V v k (by omega)]
    simp only [setPar, if_neg (show ¬ k = i by omega)]

theorem setPar_rest (m : Mlp) (b : Bool) (i : Nat) (V : Nat → Nat → ℝ) : ∀ d k h, i < k → (m.setPar b i V).rest d k h = m.rest d k h
  | 0, _, _, _ => rfl
  | d + 1, k, h, hk => by
    rw [rest, rest, setPar_rest m b i V d (k + 1) _ (by omega)]
    simp only [setPar, if_neg (show ¬ k = i by omega)]

/-- The output when layer `i` gets other parameters. -/
theorem setPar_out (m : Mlp) (b : Bool) {i : Nat} (hi : i < m.depth) (V : Nat → Nat → ℝ) (v : Row) :
    (m.setPar b i V).out v = m.rest (m.depth - 1 - i) (i + 1) (((m.ply i).setPar b V).apply (m.width i) (m.hidden v i)) := by
  have h1 : (m.setPar b i V).out v = (m.setPar b i V).hidden v (i + 1 + (m.depth - 1 - i)) := by
    rw [show i + 1 + (m.depth - 1 - i) = m.depth by omega]; rfl
  rw [h1, hidden_rest, setPar_rest m b i V _ _ _ (Nat.lt_succ_self i), hidden, setPar_hidden m b i V v i (Nat.le_refl i)]
  simp only [setPar, if_true]

/-- The gradients computed by back-propagation are, up to their rates, the gradients of the mean error. -/
theorem grad_isGrad {m : Mlp} (hok : m.Ok) (N : Nat) (x : Nat → Row) {D : Nat} (hD : D ≤ m.depth) (hs : ∀ s, s < N → m.SmoothTo D (x s))
    {Ψ : Nat → Row → ℝ} {g : Nat → Row}
    (hΨ : ∀ s, s < N → GradAt (m.width D) (fun h => Ψ s (m.rest (m.depth - D) D h)) (m.hidden (x s) D) (m.delta (x s) (g s) (m.depth - D)))
    (b : Bool) {i : Nat} (hi : i < D) (hb : (m.ply i).has b = true) :
    IsGrad (m.shape b i).1 (m.shape b i).2
      (fun P => (1 / N) * ∑ s ∈ range N, Ψ s ((m.setPar b i P).out (x s)))
      ((m.ply i).par b) (m.grad N x g b i) := by
  intro V
  have hd : m.depth - D + (D - 1 - i) = m.depth - 1 - i := by omega
  have hi' : i < m.depth := by omega
  simp only [setPar_out m b hi']
  have hder := fun s (h : s < N) => Ply.parGradAt (hok.fits i hi') hb (restGradAt hok hD (hs s h) (hΨ s h) (D - 1 - i) (i + 1) (by omega)) V
  rw [hd] at hder
  have htot := (HasDerivAt.fun_sum (u := range N) fun s hs' => hder s (mem_range.mp hs')).const_mul (1 / (N : ℝ))
  refine htot.congr_deriv ?_
  unfold dotM grad shape
  simp only [sum_div, sum_mul, mul_sum]
  rw [sum_comm]
  refine sum_congr rfl fun k _ => ?_
  rw [sum_comm]
  refine sum_congr rfl fun s _ => sum_congr rfl fun j _ => ?_
  ring

end Mlp

end BeeDNN
