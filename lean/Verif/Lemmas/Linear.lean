import Verif.Spec.Linear
import Mathlib.Algebra.Order.BigOperators.Ring.Finset
import Mathlib.Analysis.Calculus.Deriv.Pow
import Mathlib.Analysis.Calculus.Deriv.Mul
import Mathlib.Analysis.Calculus.Deriv.Add
import Mathlib.Tactic

/-! # Gradient descent for linear models: lemmas -/

namespace BeeDNN.Linear
open Finset

variable (q : ℝ) (N C K : Nat) (x : Nat → Row) (y : Nat → Row)

/-- What the weights `V` and biases `v` make of sample `s`. -/
def lin (V v : Nat → Nat → ℝ) (s j : Nat) : ℝ := ∑ k ∈ range C, x s k * V k j + v 0 j

/-- The error. -/
noncomputable def err (W b : Nat → Nat → ℝ) : ℝ := 1 / N * ∑ s ∈ range N, ∑ j ∈ range K, q * (lin C x W b s j - y s j) ^ 2 / 2

/-- The derivative of the error in direction `V`, `v`. -/
noncomputable def der (W b V v : Nat → Nat → ℝ) : ℝ := 1 / N * ∑ s ∈ range N, ∑ j ∈ range K, q * (lin C x W b s j - y s j) * lin C x V v s j

/-- Half the second derivative. -/
noncomputable def quad (V v : Nat → Nat → ℝ) : ℝ := 1 / N * ∑ s ∈ range N, ∑ j ∈ range K, q * (lin C x V v s j) ^ 2 / 2

theorem lin_add (W b V v : Nat → Nat → ℝ) (t : ℝ) (s j : Nat) :
    lin C x (fun k j => W k j + t * V k j) (fun k j => b k j + t * v k j) s j = lin C x W b s j + t * lin C x V v s j := by
  unfold lin
  rw [mul_add, mul_sum, add_add_add_comm, ← sum_add_distrib]
  congr 1
  exact sum_congr rfl fun k _ => by ring

theorem err_add (W b V v : Nat → Nat → ℝ) (t : ℝ) :
    err q N C K x y (fun k j => W k j + t * V k j) (fun k j => b k j + t * v k j) = err q N C K x y W b + t * der q N C K x y W b V v + t ^ 2 * quad q N C K x V v := by
  unfold err der quad
  rw [mul_left_comm t, mul_left_comm (t ^ 2), ← mul_add, ← mul_add]
  congr 1
  rw [mul_sum, mul_sum, ← sum_add_distrib, ← sum_add_distrib]
  refine sum_congr rfl fun s _ => ?_
  rw [mul_sum, mul_sum, ← sum_add_distrib, ← sum_add_distrib]
  refine sum_congr rfl fun j _ => ?_
  rw [lin_add]
  ring

theorem der_add (W b V v V' v' : Nat → Nat → ℝ) : der q N C K x y W b (fun k j => V k j + V' k j) (fun k j => v k j + v' k j) = der q N C K x y W b V v + der q N C K x y W b V' v' := by
  unfold der
  rw [← mul_add, ← sum_add_distrib]
  congr 1
  refine sum_congr rfl fun s _ => ?_
  rw [← sum_add_distrib]
  refine sum_congr rfl fun j _ => ?_
  have := lin_add C x V v V' v' 1 s j
  simp only [one_mul] at this
  rw [this]
  ring

theorem hasDeriv (W b V v : Nat → Nat → ℝ) :
    HasDerivAt (fun t : ℝ => err q N C K x y (fun k j => W k j + t * V k j) (fun k j => b k j + t * v k j)) (der q N C K x y W b V v) 0 := by
  have h : (fun t : ℝ => err q N C K x y (fun k j => W k j + t * V k j) (fun k j => b k j + t * v k j)) =
      fun t => err q N C K x y W b + t * der q N C K x y W b V v + t ^ 2 * quad q N C K x V v := funext fun t => err_add ..
  rw [h]
  have h1 := ((hasDerivAt_id (0 : ℝ)).mul_const (der q N C K x y W b V v)).const_add (err q N C K x y W b)
  have h2 := ((hasDerivAt_id (0 : ℝ)).pow 2).mul_const (quad q N C K x V v)
  have h3 := h1.add h2
  simp only [id, one_mul, mul_one, Nat.cast_ofNat, mul_zero, zero_mul, add_zero, Nat.add_one_sub_one, pow_one] at h3
  exact h3

/-- The sum of the squares of both matrices. -/
def norm2 (V v : Nat → Nat → ℝ) : ℝ := dotM C K V V + dotM 1 K v v

theorem quad_nonneg (hq : 0 ≤ q) (V v : Nat → Nat → ℝ) : 0 ≤ quad q N C K x V v := by
  unfold quad
  refine mul_nonneg (by positivity) (sum_nonneg fun s _ => sum_nonneg fun j _ => ?_)
  positivity

theorem lin_sq_le (V v : Nat → Nat → ℝ) (s j : Nat) : lin C x V v s j ^ 2 ≤ (∑ k ∈ range C, x s k ^ 2 + 1) * (∑ k ∈ range C, V k j ^ 2 + v 0 j ^ 2) := by
  have h := sum_mul_sq_le_sq_mul_sq (range (C + 1)) (fun k => if k < C then x s k else 1) (fun k => if k < C then V k j else v 0 j)
  have e : ∀ f : Nat → ℝ, ∀ a : ℝ, (∑ k ∈ range C, if k < C then f k else a) = ∑ k ∈ range C, f k := fun f a =>
    sum_congr rfl fun k hk => if_pos (mem_range.1 hk)
  have e1 : (∑ k ∈ range (C + 1), (if k < C then x s k else 1) * (if k < C then V k j else v 0 j)) = lin C x V v s j := by
    rw [sum_range_succ, if_neg (lt_irrefl C), if_neg (lt_irrefl C), one_mul]
    unfold lin
    congr 1
    exact sum_congr rfl fun k hk => by rw [if_pos (mem_range.1 hk), if_pos (mem_range.1 hk)]
  have e2 : (∑ k ∈ range (C + 1), (if k < C then x s k else 1) ^ 2) = ∑ k ∈ range C, x s k ^ 2 + 1 := by
    rw [sum_range_succ, if_neg (lt_irrefl C), one_pow]
    congr 1
    exact sum_congr rfl fun k hk => by rw [if_pos (mem_range.1 hk)]
  have e3 : (∑ k ∈ range (C + 1), (if k < C then V k j else v 0 j) ^ 2) = ∑ k ∈ range C, V k j ^ 2 + v 0 j ^ 2 := by
    rw [sum_range_succ, if_neg (lt_irrefl C)]
    congr 1
    exact sum_congr rfl fun k hk => by rw [if_pos (mem_range.1 hk)]
  rw [e1, e2, e3] at h
  exact h

theorem quad_le (hq : 0 ≤ q) (V v : Nat → Nat → ℝ) :
    quad q N C K x V v ≤ q * ((∑ s ∈ range N, (∑ k ∈ range C, x s k ^ 2 + 1)) / N) / 2 * norm2 C K V v := by
  have hn : norm2 C K V v = ∑ j ∈ range K, (∑ k ∈ range C, V k j ^ 2 + v 0 j ^ 2) := by
    unfold norm2 dotM
    rw [sum_range_one, sum_comm, ← sum_add_distrib]
    exact sum_congr rfl fun j _ => by
      rw [pow_two (v 0 j)]
      congr 1
      exact sum_congr rfl fun k _ => (pow_two _).symm
  have hs : ∀ s, ∑ j ∈ range K, q * lin C x V v s j ^ 2 / 2 ≤ q / 2 * (∑ k ∈ range C, x s k ^ 2 + 1) * norm2 C K V v := fun s => by
    rw [hn, mul_sum]
    refine sum_le_sum fun j _ => ?_
    have := mul_le_mul_of_nonneg_left (lin_sq_le C x V v s j) (by positivity : (0 : ℝ) ≤ q / 2)
    calc q * lin C x V v s j ^ 2 / 2 = q / 2 * lin C x V v s j ^ 2 := by ring
      _ ≤ _ := this
      _ = _ := by ring
  unfold quad
  calc 1 / (N : ℝ) * ∑ s ∈ range N, ∑ j ∈ range K, q * lin C x V v s j ^ 2 / 2
      ≤ 1 / (N : ℝ) * ∑ s ∈ range N, q / 2 * (∑ k ∈ range C, x s k ^ 2 + 1) * norm2 C K V v :=
        mul_le_mul_of_nonneg_left (sum_le_sum fun s _ => hs s) (by positivity)
    _ = _ := by rw [← sum_mul, ← mul_sum]; ring

variable {q N C K x y}

theorem der_split (W b V v : Nat → Nat → ℝ) : der q N C K x y W b V v = der q N C K x y W b V (fun _ _ => 0) + der q N C K x y W b (fun _ _ => 0) v := by
  rw [← der_add]
  simp

/-- The gradients with respect to the weights and the biases give the derivative in all directions. -/
theorem der_eq {W b G g : Nat → Nat → ℝ} (hG : IsGrad C K (fun P => err q N C K x y P b) W G) (hg : IsGrad 1 K (fun P => err q N C K x y W P) b g)
    (V v : Nat → Nat → ℝ) : der q N C K x y W b V v = dotM C K G V + dotM 1 K g v := by
  rw [der_split]
  have h1 := hasDeriv q N C K x y W b V (fun _ _ => 0)
  have h2 := hasDeriv q N C K x y W b (fun _ _ => 0) v
  simp only [mul_zero, add_zero] at h1 h2
  rw [h1.unique (hG V), h2.unique (hg v)]

theorem dotM_smul (R C : Nat) (a b : Nat → Nat → ℝ) (t : ℝ) : dotM R C a (fun k j => t * b k j) = t * dotM R C a b := by
  unfold dotM
  rw [mul_sum]
  refine sum_congr rfl fun i _ => ?_
  rw [mul_sum]
  exact sum_congr rfl fun j _ => by ring

theorem dist_step (R C : Nat) (a c g : Nat → Nat → ℝ) (t : ℝ) :
    dotM R C (fun k j => a k j - t * g k j - c k j) (fun k j => a k j - t * g k j - c k j) =
      dotM R C (fun k j => a k j - c k j) (fun k j => a k j - c k j) + 2 * t * dotM R C g (fun k j => c k j - a k j) + t ^ 2 * dotM R C g g := by
  unfold dotM
  rw [mul_sum, mul_sum, ← sum_add_distrib, ← sum_add_distrib]
  refine sum_congr rfl fun i _ => ?_
  rw [mul_sum, mul_sum, ← sum_add_distrib, ← sum_add_distrib]
  exact sum_congr rfl fun j _ => by ring

/-- One step of gradient descent that is not too long: the error does not grow, and it is closer to that of any other parameters by what the distance to them shrinks. -/
theorem step {W b G g : Nat → Nat → ℝ} (hq : 0 ≤ q) (hG : IsGrad C K (fun P => err q N C K x y P b) W G) (hg : IsGrad 1 K (fun P => err q N C K x y W P) b g)
    {t : ℝ} (ht : 0 < t) (hL : t * (q * ((∑ s ∈ range N, (∑ k ∈ range C, x s k ^ 2 + 1)) / N)) ≤ 1) :
    err q N C K x y (fun k j => W k j - t * G k j) (fun k j => b k j - t * g k j) ≤ err q N C K x y W b - t / 2 * norm2 C K G g ∧
    ∀ V v : Nat → Nat → ℝ, 2 * t * (err q N C K x y (fun k j => W k j - t * G k j) (fun k j => b k j - t * g k j) - err q N C K x y V v) ≤
      norm2 C K (fun k j => W k j - V k j) (fun k j => b k j - v k j) - norm2 C K (fun k j => W k j - t * G k j - V k j) (fun k j => b k j - t * g k j - v k j) := by
  have hn : 0 ≤ norm2 C K G g := add_nonneg (sum_nonneg fun _ _ => sum_nonneg fun _ _ => mul_self_nonneg _) (sum_nonneg fun _ _ => sum_nonneg fun _ _ => mul_self_nonneg _)
  have e1 : err q N C K x y (fun k j => W k j - t * G k j) (fun k j => b k j - t * g k j) =
      err q N C K x y W b - t * norm2 C K G g + t ^ 2 * quad q N C K x G g := by
    have := err_add q N C K x y W b G g (-t)
    rw [der_eq hG hg] at this
    simp only [neg_mul, ← sub_eq_add_neg, neg_pow_two] at this
    rw [this, norm2]
  have h1 := quad_le q N C K x hq G g
  generalize hS : q * ((∑ s ∈ range N, (∑ k ∈ range C, x s k ^ 2 + 1)) / N) = S at hL h1
  have h2 : t ^ 2 * quad q N C K x G g ≤ t / 2 * norm2 C K G g := by
    calc t ^ 2 * quad q N C K x G g ≤ t ^ 2 * (S / 2 * norm2 C K G g) := mul_le_mul_of_nonneg_left h1 (by positivity)
      _ = t * S * (t / 2 * norm2 C K G g) := by ring
      _ ≤ 1 * (t / 2 * norm2 C K G g) := mul_le_mul_of_nonneg_right hL (by positivity)
      _ = _ := one_mul _
  have h3 : err q N C K x y (fun k j => W k j - t * G k j) (fun k j => b k j - t * g k j) ≤ err q N C K x y W b - t / 2 * norm2 C K G g := by
    rw [e1]
    linarith
  refine ⟨h3, fun V v => ?_⟩
  have e2 : err q N C K x y V v = err q N C K x y W b + (dotM C K G (fun k j => V k j - W k j) + dotM 1 K g fun k j => v k j - b k j) +
      quad q N C K x (fun k j => V k j - W k j) (fun k j => v k j - b k j) := by
    have := err_add q N C K x y W b (fun k j => V k j - W k j) (fun k j => v k j - b k j) 1
    rw [der_eq hG hg] at this
    simp only [one_mul, one_pow, add_sub_cancel] at this
    exact this
  have h4 := quad_nonneg q N C K x hq (fun k j => V k j - W k j) (fun k j => v k j - b k j)
  have h5 : norm2 C K (fun k j => W k j - t * G k j - V k j) (fun k j => b k j - t * g k j - v k j) = norm2 C K (fun k j => W k j - V k j) (fun k j => b k j - v k j) +
      2 * t * (dotM C K G (fun k j => V k j - W k j) + dotM 1 K g fun k j => v k j - b k j) + t ^ 2 * norm2 C K G g := by
    unfold norm2
    rw [dist_step, dist_step]
    ring
  rw [h5, e2]
  nlinarith [mul_le_mul_of_nonneg_left h3 ht.le, mul_nonneg ht.le h4]

theorem dotM_single {R C : Nat} {G : Nat → Nat → ℝ} {k₀ j₀ : Nat} (hk : k₀ < R) (hj : j₀ < C) : dotM R C G (fun k j => if k = k₀ ∧ j = j₀ then 1 else 0) = G k₀ j₀ := by
  unfold dotM
  rw [sum_eq_single_of_mem k₀ (mem_range.2 hk) fun k _ hne => sum_eq_zero fun j _ => by dsimp only; rw [if_neg (fun h => hne h.1), mul_zero],
    sum_eq_single_of_mem j₀ (mem_range.2 hj) fun j _ hne => by dsimp only; rw [if_neg (fun h => hne h.2), mul_zero]]
  dsimp only
  rw [if_pos ⟨rfl, rfl⟩, mul_one]

/-- The entries of the gradients. -/
theorem grad_entries {W b G g : Nat → Nat → ℝ} (hG : IsGrad C K (fun P => err q N C K x y P b) W G) (hg : IsGrad 1 K (fun P => err q N C K x y W P) b g) {j : Nat} (hj : j < K) :
    (∀ k, k < C → G k j = 1 / N * ∑ s ∈ range N, q * (lin C x W b s j - y s j) * x s k) ∧ g 0 j = 1 / N * ∑ s ∈ range N, q * (lin C x W b s j - y s j) := by
  refine ⟨fun k hk => ?_, ?_⟩
  · have h1 := der_eq hG hg (fun k' j' => if k' = k ∧ j' = j then 1 else 0) fun _ _ => 0
    rw [dotM_single hk hj, show dotM 1 K g (fun _ _ => 0) = 0 by simp [dotM], add_zero] at h1
    rw [← h1, der]
    congr 1
    refine sum_congr rfl fun s _ => ?_
    rw [sum_eq_single_of_mem j (mem_range.2 hj) fun j' _ hne => ?_]
    · congr 1
      unfold lin
      rw [sum_eq_single_of_mem k (mem_range.2 hk) fun k' _ hne => by dsimp only; rw [if_neg (fun h => hne h.1), mul_zero]]
      dsimp only
      rw [if_pos ⟨rfl, rfl⟩, mul_one, add_zero]
    · rw [show lin C x (fun k' j' => if k' = k ∧ j' = j then (1 : ℝ) else 0) (fun _ _ => 0) s j' = 0 from ?_, mul_zero]
      unfold lin
      rw [sum_eq_zero fun k' _ => by dsimp only; rw [if_neg (fun h => hne h.2), mul_zero], add_zero]
  · have h1 := der_eq hG hg (fun _ _ => 0) (fun k' j' => if k' = 0 ∧ j' = j then 1 else 0)
    rw [dotM_single one_pos hj, show dotM C K G (fun _ _ => 0) = 0 by simp [dotM], zero_add] at h1
    rw [← h1, der]
    congr 1
    refine sum_congr rfl fun s _ => ?_
    rw [sum_eq_single_of_mem j (mem_range.2 hj) fun j' _ hne => ?_]
    · simp [lin]
    · rw [show lin C x (fun _ _ => 0) (fun k' j' => if k' = 0 ∧ j' = j then (1 : ℝ) else 0) s j' = 0 from ?_, mul_zero]
      unfold lin
      rw [sum_eq_zero fun k' _ => mul_zero _]
      dsimp only
      rw [if_neg (fun h => hne h.2), add_zero]

/-- With a single sample every step multiplies the difference to the truth by the same number. -/
theorem step_single {W b G g : Nat → Nat → ℝ} (hG : IsGrad C K (fun P => err q 1 C K x y P b) W G) (hg : IsGrad 1 K (fun P => err q 1 C K x y W P) b g) (t : ℝ) :
    err q 1 C K x y (fun k j => W k j - t * G k j) (fun k j => b k j - t * g k j) = (1 - t * (q * (∑ k ∈ range C, x 0 k ^ 2 + 1))) ^ 2 * err q 1 C K x y W b := by
  have hr : ∀ j, j < K → lin C x (fun k j => W k j - t * G k j) (fun k j => b k j - t * g k j) 0 j - y 0 j =
      (1 - t * (q * (∑ k ∈ range C, x 0 k ^ 2 + 1))) * (lin C x W b 0 j - y 0 j) := by
    intro j hj
    obtain ⟨h1, h2⟩ := grad_entries hG hg hj
    rw [sum_range_one] at h2
    have h3 : lin C x G g 0 j = q * (lin C x W b 0 j - y 0 j) * (∑ k ∈ range C, x 0 k ^ 2 + 1) := by
      rw [lin, h2, mul_add, mul_sum]
      congr 1
      · refine sum_congr rfl fun k hk => ?_
        rw [h1 k (mem_range.1 hk), sum_range_one]
        simp
        ring
      · simp
    have h4 := lin_add C x W b G g (-t) 0 j
    simp only [neg_mul, ← sub_eq_add_neg] at h4
    rw [h4, h3]
    ring
  unfold err
  rw [sum_range_one, sum_range_one, mul_left_comm]
  congr 1
  rw [mul_sum]
  exact sum_congr rfl fun j hj => by rw [hr j (mem_range.1 hj)]; ring

theorem err_congr {W W' b b' : Nat → Nat → ℝ} (hW : ∀ k j, k < C → j < K → W k j = W' k j) (hb : ∀ j, j < K → b 0 j = b' 0 j) : err q N C K x y W b = err q N C K x y W' b' := by
  unfold err
  congr 1
  refine sum_congr rfl fun s _ => sum_congr rfl fun j hj => ?_
  rw [show lin C x W b s j = lin C x W' b' s j from ?_]
  unfold lin
  rw [hb j (mem_range.1 hj)]
  congr 1
  exact sum_congr rfl fun k hk => by rw [hW k j (mem_range.1 hk) (mem_range.1 hj)]

end BeeDNN.Linear
