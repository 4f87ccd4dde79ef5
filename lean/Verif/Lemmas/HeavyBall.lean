import Mathlib.Algebra.Module.Basic
import Mathlib.Algebra.BigOperators.Group.Finset.Basic
import Mathlib.Algebra.Order.BigOperators.Group.Finset
import Mathlib.Data.Real.Basic
import Mathlib.Tactic

/-! # Gradient descent with momentum, for convex functions -/

namespace BeeDNN
open Finset

/-- A scalar product, that may be 0 for vectors other than 0. -/
structure ScalarForm {E : Type} [AddCommGroup E] [Module ℝ E] (B : E → E → ℝ) : Prop where
  add : ∀ a b c, B (a + b) c = B a c + B b c
  smul : ∀ (t : ℝ) a b, B (t • a) b = t * B a b
  symm : ∀ a b, B a b = B b a
  nonneg : ∀ a, 0 ≤ B a a

namespace ScalarForm

variable {E : Type} [AddCommGroup E] [Module ℝ E] {B : E → E → ℝ}

theorem zero (h : ScalarForm B) (b : E) : B 0 b = 0 := by
  have := h.smul 0 0 b
  rwa [zero_smul, zero_mul] at this

theorem neg (h : ScalarForm B) (a b : E) : B (-a) b = -B a b := by
  have := h.smul (-1) a b
  rwa [neg_one_smul, neg_one_mul] at this

theorem sub (h : ScalarForm B) (a b c : E) : B (a - b) c = B a c - B b c := by
  rw [sub_eq_add_neg, h.add, h.neg, sub_eq_add_neg]

theorem add_right (h : ScalarForm B) (a b c : E) : B a (b + c) = B a b + B a c := by rw [h.symm, h.add, h.symm b, h.symm c]
theorem sub_right (h : ScalarForm B) (a b c : E) : B a (b - c) = B a b - B a c := by rw [h.symm, h.sub, h.symm b, h.symm c]
theorem smul_right (h : ScalarForm B) (t : ℝ) (a b : E) : B a (t • b) = t * B a b := by rw [h.symm, h.smul, h.symm b]
theorem neg_right (h : ScalarForm B) (a b : E) : B a (-b) = -B a b := by rw [h.symm, h.neg, h.symm b]
theorem zero_right (h : ScalarForm B) (b : E) : B b 0 = 0 := by rw [h.symm, h.zero]

/-- The heavy ball method for a convex function with curvature at most `L`: `x k` are the points, `δ k` the steps to them, `g k` the gradients. -/
theorem heavyBall (hB : ScalarForm B) {f : E → ℝ} {L α β : ℝ} (hα : 0 < α) (h0 : 0 ≤ β) (h1 : β < 1) (hL : α * L ≤ 1 - β) {x δ g : Nat → E} {T : Nat}
    (hup : ∀ k, k < T → ∀ y, f y ≤ f (x k) + B (g k) (y - x k) + L / 2 * B (y - x k) (y - x k))
    (hconv : ∀ k, k < T → ∀ y, f (x k) + B (g k) (y - x k) ≤ f y)
    (hδ0 : δ 0 = 0) (hδ : ∀ k, k < T → δ (k + 1) = β • δ k - α • g k) (hx : ∀ k, k < T → x (k + 1) = x k + δ (k + 1)) :
    (∀ k, k < T → 2 * α * f (x (k + 1)) + B (δ (k + 1)) (δ (k + 1)) ≤ 2 * α * f (x k) + β * B (δ k) (δ k)) ∧
    ∀ o, f o ≤ f (x 0) → 2 * α * (1 - β) ^ 2 * (T * (f (x T) - f o)) ≤
      (1 - β) ^ 3 * B (x 0 - o) (x 0 - o) + 2 * α * (1 + 4 * β) * (f (x 0) - f o) := by
  have hs : ∀ k, 0 ≤ B (δ k) (δ k) := fun k => hB.nonneg _
  have energy : ∀ k, k < T → 2 * α * f (x (k + 1)) + B (δ (k + 1)) (δ (k + 1)) ≤ 2 * α * f (x k) + β * B (δ k) (δ k) := by
    intro k hk
    have e1 := hup k hk (x (k + 1))
    rw [hx k hk, add_sub_cancel_left, ← hx k hk] at e1
    have e2 : B (δ (k + 1)) (δ (k + 1)) = β * B (δ k) (δ (k + 1)) - α * B (g k) (δ (k + 1)) := by
      rw [← hB.smul, ← hB.smul, ← hB.sub, ← hδ k hk]
    have e3 := hB.nonneg (δ k - δ (k + 1))
    rw [hB.sub, hB.sub_right, hB.sub_right, hB.symm (δ (k + 1)) (δ k)] at e3
    have e4 := mul_le_mul_of_nonneg_left e1 hα.le
    have e5 := mul_le_mul_of_nonneg_right hL (hs (k + 1))
    have e6 := mul_nonneg h0 e3
    nlinarith [hs k, hs (k + 1)]
  refine ⟨energy, fun o ho => ?_⟩
  rcases Nat.eq_zero_or_pos T with rfl | hT
  · have := hB.nonneg (x 0 - o)
    have h2 : 0 ≤ 1 - β := by linarith
    have : 0 ≤ (1 - β) ^ 3 * B (x 0 - o) (x 0 - o) + 2 * α * (1 + 4 * β) * (f (x 0) - f o) := by
      have h3 : 0 ≤ f (x 0) - f o := by linarith
      positivity
    simpa using this
  by_cases hfo : f (x T) < f o
  · have h2 : 0 ≤ 1 - β := by linarith
    have h3 : 0 ≤ f (x 0) - f o := by linarith
    have h4 := hB.nonneg (x 0 - o)
    have h5 : 0 ≤ (1 - β) ^ 3 * B (x 0 - o) (x 0 - o) + 2 * α * (1 + 4 * β) * (f (x 0) - f o) := by positivity
    have h6 : (T : ℝ) * (f (x T) - f o) ≤ 0 := mul_nonpos_of_nonneg_of_nonpos (Nat.cast_nonneg T) (by linarith)
    have h7 : 2 * α * (1 - β) ^ 2 * (T * (f (x T) - f o)) ≤ 0 := mul_nonpos_of_nonneg_of_nonpos (by positivity) h6
    linarith
  replace hfo := le_of_not_gt hfo
  obtain ⟨s, hs'⟩ : ∃ s : Nat → ℝ, s = fun k => B (δ k) (δ k) := ⟨_, rfl⟩
  have s0 : s 0 = 0 := by rw [hs']; show B (δ 0) (δ 0) = 0; rw [hδ0, hB.zero]
  have spos : ∀ k, 0 ≤ s k := fun k => by rw [hs']; exact hs k
  replace energy : ∀ k, k < T → 2 * α * f (x (k + 1)) + s (k + 1) ≤ 2 * α * f (x k) + β * s k := by rw [hs']; exact energy
  have hu : 0 < 1 - β := by linarith
  -- the energy lost
  have q1 : ∀ k, k ≤ T → 2 * α * f (x k) + β * s k + (1 - β) * ∑ i ∈ range (k + 1), s i ≤ 2 * α * f (x 0) := by
    intro k
    induction k with
    | zero => intro _; rw [zero_add, sum_range_one, s0]; linarith
    | succ k ih =>
      intro hk
      rw [sum_range_succ]
      have := ih (by omega)
      have := energy k (by omega)
      linarith
  -- the distances
  obtain ⟨D, hD⟩ : ∃ D : Nat → ℝ, D = fun k => B ((1 - β) • (x k - o) + β • δ k) ((1 - β) • (x k - o) + β • δ k) := ⟨_, rfl⟩
  have dist : ∀ k, k < T → D (k + 1) + 2 * α * (1 - β) * (f (x k) - f o) + 2 * α * β * (f (x k) - f (x (k - 1))) ≤
      D k + (1 + β) * (β * s k + s (k + 1)) := by
    intro k hk
    have z1 : (1 - β) • (x (k + 1) - o) + β • δ (k + 1) = ((1 - β) • (x k - o) + β • δ k) - α • g k := by
      rw [show (1 - β) • (x (k + 1) - o) + β • δ (k + 1) = (1 - β) • (x k - o) + δ (k + 1) by rw [hx k hk]; module, hδ k hk]
      module
    have z2 : D (k + 1) = D k - 2 * α * ((1 - β) * B (g k) (x k - o) + β * B (g k) (δ k)) + α ^ 2 * B (g k) (g k) := by
      rw [hD]
      show B _ _ = B _ _ - _ + _
      rw [z1, hB.sub, hB.sub_right, hB.sub_right, hB.smul_right, hB.smul, hB.smul_right, hB.symm _ (g k), hB.add_right (g k), hB.smul_right,
        hB.smul_right, hB.smul]
      ring
    have z3 := hconv k hk o
    have z4 : f (x k) - f (x (k - 1)) ≤ B (g k) (δ k) := by
      rcases Nat.eq_zero_or_pos k with rfl | hk0
      · rw [hδ0, hB.zero_right]; simp
      · have := hconv k hk (x (k - 1))
        have e := hx (k - 1) (by omega)
        rw [Nat.sub_add_cancel hk0] at e
        rw [show x (k - 1) - x k = -δ k by rw [e]; abel, hB.neg_right] at this
        linarith
    have z5 : B (g k) (o - x k) = -B (g k) (x k - o) := by rw [← hB.neg_right, neg_sub]
    have z6 : α ^ 2 * B (g k) (g k) ≤ (1 + β) * (β * s k + s (k + 1)) := by
      have e : α • g k = β • δ k - δ (k + 1) := by rw [hδ k hk]; abel
      have e1 : α ^ 2 * B (g k) (g k) = B (α • g k) (α • g k) := by rw [hB.smul, hB.smul_right]; ring
      have e2 := hB.nonneg (δ k + δ (k + 1))
      rw [hB.add, hB.add_right, hB.add_right, hB.symm (δ (k + 1)) (δ k)] at e2
      rw [e1, e, hB.sub, hB.sub_right, hB.sub_right, hB.smul, hB.smul_right, hB.smul, hB.smul_right, hB.symm (δ (k + 1)) (δ k), hs']
      have := mul_nonneg h0 e2
      dsimp only
      nlinarith
    rw [z5] at z3
    have z7 : 0 ≤ 2 * α * (1 - β) * (B (g k) (x k - o) - (f (x k) - f o)) := mul_nonneg (by positivity) (by linarith)
    have z8 : 0 ≤ 2 * α * β * (B (g k) (δ k) - (f (x k) - f (x (k - 1)))) := mul_nonneg (by positivity) (by linarith)
    rw [z2]
    linarith
  have dsum : ∀ k, k ≤ T → D k + 2 * α * (1 - β) * ∑ i ∈ range k, (f (x i) - f o) + 2 * α * β * (f (x (k - 1)) - f (x 0)) ≤
      D 0 + (1 + β) ^ 2 * ∑ i ∈ range (k + 1), s i - (1 + β) * β * s k := by
    intro k
    induction k with
    | zero => intro _; rw [zero_add, sum_range_one, s0]; simp
    | succ k ih =>
      intro hk
      have a1 := ih (by omega)
      have a2 := dist k (by omega)
      rw [sum_range_succ, sum_range_succ (n := k + 1), Nat.add_sub_cancel]
      linarith
  have D0 : D 0 = (1 - β) ^ 2 * B (x 0 - o) (x 0 - o) := by
    rw [hD]
    show B _ _ = _
    rw [hδ0, smul_zero, add_zero, hB.smul, hB.smul_right]
    ring
  have Dpos : 0 ≤ D T := by rw [hD]; exact hB.nonneg _
  -- the energy falls
  have anti : ∀ k i, i + k ≤ T → 2 * α * f (x (i + k)) ≤ 2 * α * f (x i) + β * s i := by
    intro k i hik
    have : 2 * α * f (x (i + k)) + β * s (i + k) ≤ 2 * α * f (x i) + β * s i := by
      induction k with
      | zero => exact le_rfl
      | succ k ih =>
        have a1 := ih (by omega)
        have a2 := energy (i + k) (by omega)
        have a3 : β * s (i + (k + 1)) ≤ s (i + (k + 1)) := by
          have := mul_le_mul_of_nonneg_right h1.le (spos (i + (k + 1)))
          linarith
        rw [← add_assoc] at a3 ⊢
        linarith
    have := mul_nonneg h0 (spos (i + k))
    linarith
  have last : (T : ℝ) * (2 * α * (f (x T) - f o)) ≤ 2 * α * ∑ i ∈ range T, (f (x i) - f o) + β * ∑ i ∈ range T, s i := by
    rw [mul_sum, mul_sum, ← sum_add_distrib]
    calc (T : ℝ) * (2 * α * (f (x T) - f o)) = ∑ i ∈ range T, 2 * α * (f (x T) - f o) := by rw [sum_const, card_range, nsmul_eq_mul]
      _ ≤ _ := sum_le_sum fun i hi => by
        have := anti (T - i) i (by have := mem_range.1 hi; omega)
        rw [show i + (T - i) = T by have := mem_range.1 hi; omega] at this
        linarith
  obtain ⟨S, hS⟩ : ∃ S, S = ∑ i ∈ range (T + 1), s i := ⟨_, rfl⟩
  have S1 : ∑ i ∈ range T, s i ≤ S := by rw [hS, sum_range_succ]; linarith [spos T]
  have S2 : s (T - 1) ≤ S := by
    rw [hS]
    exact single_le_sum (fun i _ => spos i) (mem_range.2 (by omega))
  have S0 : 0 ≤ S := by rw [hS]; exact sum_nonneg fun i _ => spos i
  have b1 := q1 T le_rfl
  have b2 := dsum T le_rfl
  rw [← hS] at b1 b2
  have b3 : (1 - β) * S ≤ 2 * α * (f (x 0) - f o) := by
    have := mul_nonneg h0 (spos T)
    have := mul_le_mul_of_nonneg_left hfo (by positivity : 0 ≤ 2 * α)
    linarith
  have b4 : 2 * α * (f o - f (x (T - 1))) ≤ β * S := by
    have := anti 1 (T - 1) (by omega)
    rw [Nat.sub_add_cancel hT] at this
    have := mul_le_mul_of_nonneg_left S2 h0
    have := mul_le_mul_of_nonneg_left hfo (by positivity : 0 ≤ 2 * α)
    linarith
  have b5 : 2 * α * (1 - β) * ∑ i ∈ range T, (f (x i) - f o) ≤ D 0 + 2 * α * β * (f (x 0) - f o) + (β ^ 2 + (1 + β) ^ 2) * S := by
    have c1 := mul_le_mul_of_nonneg_left b4 h0
    have c2 := mul_nonneg (mul_nonneg (by linarith : 0 ≤ 1 + β) h0) (spos T)
    nlinarith
  have b6 := mul_le_mul_of_nonneg_left last (by positivity : 0 ≤ (1 - β) ^ 2)
  have b7 := mul_le_mul_of_nonneg_left b5 hu.le
  have b8 := mul_le_mul_of_nonneg_left S1 (mul_nonneg (sq_nonneg (1 - β)) h0)
  have b9 := mul_le_mul_of_nonneg_left b3 (by positivity : 0 ≤ β ^ 2 + (1 + β) ^ 2 + (1 - β) * β)
  rw [D0] at b7
  nlinarith

/-- The method of Nesterov with constant momentum, for a convex function with curvature at most `L`: `w k` are the points, `v k` the steps before them, `g k` the gradients. -/
theorem nesterov (hB : ScalarForm B) {f : E → ℝ} {L α β : ℝ} (hα : 0 < α) (h0 : 0 ≤ β) (h1 : β < 1) (hL : α * L ≤ 1) {w v g : Nat → E} {T : Nat}
    (hup : ∀ k, k < T → ∀ y, f y ≤ f (w k) + B (g k) (y - w k) + L / 2 * B (y - w k) (y - w k))
    (hconv : ∀ k, k < T → ∀ y, f (w k) + B (g k) (y - w k) ≤ f y)
    (hmid : ∀ x d, f (x + d) + f (x - d) ≤ 2 * f x + L * B d d)
    (hv0 : v 0 = 0) (hv : ∀ k, k < T → v (k + 1) = β • v k - α • g k) (hw : ∀ k, k < T → w (k + 1) = w k + (v (k + 1) + β • (v (k + 1) - v k))) :
    ∀ o, (∀ y, f o ≤ f y) → α * (1 - β ^ 2) * (T * (f (w T) - f o)) ≤
      (1 - β) * (1 - β ^ 2) * B (w 0 - o) (w 0 - o) + 2 * α * (1 + β * (1 + β)) * (f (w 0) - f o) := by
  intro o ho
  have hu : 0 < 1 - β := by linarith
  obtain ⟨s, hs'⟩ : ∃ s : Nat → ℝ, s = fun k => B (v k) (v k) := ⟨_, rfl⟩
  have s0 : s 0 = 0 := by rw [hs']; show B (v 0) (v 0) = 0; rw [hv0, hB.zero]
  have spos : ∀ k, 0 ≤ s k := fun k => by rw [hs']; exact hB.nonneg _
  obtain ⟨x, hx⟩ : ∃ x : Nat → E, x = fun k => w k - β • v k := ⟨_, rfl⟩
  have x0 : x 0 = w 0 := by rw [hx]; show w 0 - β • v 0 = _; rw [hv0, smul_zero, sub_zero]
  have hxw : ∀ k, x k = w k - β • v k := fun k => by rw [hx]
  have xs : ∀ k, k < T → x (k + 1) = w k - α • g k := fun k hk => by
    rw [hxw, hw k hk]
    have := hv k hk
    rw [show w k + (v (k + 1) + β • (v (k + 1) - v k)) - β • v (k + 1) = w k + v (k + 1) - β • v k by module, this]
    module
  -- one step of plain descent from the point ahead
  have down : ∀ k, k < T → f (x (k + 1)) ≤ f (w k) - α / 2 * B (g k) (g k) := by
    intro k hk
    have e1 := hup k hk (x (k + 1))
    rw [xs k hk, show w k - α • g k - w k = (-α) • g k by module, hB.smul_right, hB.smul, hB.smul_right, ← xs k hk] at e1
    have e2 := mul_le_mul_of_nonneg_right hL (mul_nonneg hα.le (hB.nonneg (g k)))
    nlinarith
  have ahead : ∀ k, k < T → f (w k) ≤ f (x k) + β * B (g k) (v k) := by
    intro k hk
    have e1 := hconv k hk (x k)
    rw [hxw, show w k - β • v k - w k = (-β) • v k by module, hB.smul_right, ← hxw] at e1
    linarith
  have energy : ∀ k, k < T → 2 * α * f (x (k + 1)) + s (k + 1) ≤ 2 * α * f (x k) + β ^ 2 * s k := by
    intro k hk
    have e1 := down k hk
    have e2 := ahead k hk
    have e3 : s (k + 1) = β ^ 2 * s k - 2 * (α * β) * B (g k) (v k) + α ^ 2 * B (g k) (g k) := by
      rw [hs']
      show B (v (k + 1)) (v (k + 1)) = β ^ 2 * B (v k) (v k) - _ + _
      rw [hv k hk, hB.sub, hB.sub_right, hB.sub_right, hB.smul, hB.smul_right, hB.smul, hB.smul_right, hB.smul, hB.smul_right, hB.smul, hB.smul_right,
        hB.symm (v k) (g k)]
      ring
    rw [e3]
    nlinarith [mul_le_mul_of_nonneg_left e1 hα.le, mul_le_mul_of_nonneg_left e2 hα.le]
  have hsq : 0 < 1 - β ^ 2 := by nlinarith
  have q1 : ∀ k, k ≤ T → 2 * α * f (x k) + β ^ 2 * s k + (1 - β ^ 2) * ∑ i ∈ range k, s (i + 1) ≤ 2 * α * f (x 0) := by
    intro k
    induction k with
    | zero => intro _; rw [range_zero, sum_empty, s0]; linarith
    | succ k ih =>
      intro hk
      rw [sum_range_succ]
      have := ih (by omega)
      have := energy k (by omega)
      linarith
  obtain ⟨D, hD⟩ : ∃ D : Nat → ℝ, D = fun k => B ((1 - β) • (x k - o) + β • v k) ((1 - β) • (x k - o) + β • v k) := ⟨_, rfl⟩
  have dist : ∀ k, k < T → D (k + 1) + 2 * α * (1 - β) * (f (x (k + 1)) - f o) + 2 * α * β * (f (x (k + 1)) - f (x k)) ≤ D k := by
    intro k hk
    have z1 : (1 - β) • (x (k + 1) - o) + β • v (k + 1) = ((1 - β) • (x k - o) + β • v k) - α • g k := by
      rw [xs k hk, hxw k, hv k hk]
      module
    have z2 : D (k + 1) = D k - 2 * α * ((1 - β) * B (g k) (x k - o) + β * B (g k) (v k)) + α ^ 2 * B (g k) (g k) := by
      rw [hD]
      show B _ _ = B _ _ - _ + _
      rw [z1, hB.sub, hB.sub_right, hB.sub_right, hB.smul_right, hB.smul, hB.smul_right, hB.symm _ (g k), hB.add_right (g k), hB.smul_right,
        hB.smul_right, hB.smul]
      ring
    have z3 := hconv k hk o
    have z5 : B (g k) (o - w k) = -(B (g k) (x k - o) + β * B (g k) (v k)) := by
      rw [hxw, ← hB.smul_right, ← hB.add_right, ← hB.neg_right]
      congr 1
      abel
    rw [z5] at z3
    have z4 := ahead k hk
    have z6 := down k hk
    have z7 : 0 ≤ 2 * α * (1 - β) * ((B (g k) (x k - o) + β * B (g k) (v k)) - (f (w k) - f o)) := mul_nonneg (by positivity) (by linarith)
    have z8 : 0 ≤ 2 * α * β * (f (x k) + β * B (g k) (v k) - f (w k)) := mul_nonneg (by positivity) (by linarith)
    have z9 : 0 ≤ 2 * α * (f (w k) - α / 2 * B (g k) (g k) - f (x (k + 1))) := mul_nonneg (by positivity) (by linarith)
    rw [z2]
    linarith
  have dsum : ∀ k, k ≤ T → D k + 2 * α * (1 - β) * ∑ i ∈ range k, (f (x (i + 1)) - f o) + 2 * α * β * (f (x k) - f (x 0)) ≤ D 0 := by
    intro k
    induction k with
    | zero => intro _; rw [range_zero, sum_empty]; linarith
    | succ k ih =>
      intro hk
      have a1 := ih (by omega)
      have a2 := dist k (by omega)
      rw [sum_range_succ]
      linarith
  have D0 : D 0 = (1 - β) ^ 2 * B (x 0 - o) (x 0 - o) := by
    rw [hD]
    show B _ _ = _
    rw [hv0, smul_zero, add_zero, hB.smul, hB.smul_right]
    ring
  have Dpos : 0 ≤ D T := by rw [hD]; exact hB.nonneg _
  have anti : ∀ k i, i + k ≤ T → 2 * α * f (x (i + k)) + s (i + k) ≤ 2 * α * f (x i) + s i := by
    intro k i hik
    induction k with
    | zero => exact le_rfl
    | succ k ih =>
      have a1 := ih (by omega)
      have a2 := energy (i + k) (by omega)
      have a3 : β ^ 2 * s (i + k) ≤ s (i + k) := by
        have := mul_le_mul_of_nonneg_right (by linarith : β ^ 2 ≤ 1) (spos (i + k))
        linarith
      rw [← add_assoc]
      linarith
  have last : (T : ℝ) * (2 * α * (f (x T) - f o) + s T) ≤ 2 * α * ∑ i ∈ range T, (f (x (i + 1)) - f o) + ∑ i ∈ range T, s (i + 1) := by
    rw [mul_sum, ← sum_add_distrib]
    calc (T : ℝ) * (2 * α * (f (x T) - f o) + s T) = ∑ i ∈ range T, (2 * α * (f (x T) - f o) + s T) := by rw [sum_const, card_range, nsmul_eq_mul]
      _ ≤ _ := sum_le_sum fun i hi => by
        have := anti (T - (i + 1)) (i + 1) (by have := mem_range.1 hi; omega)
        rw [show i + 1 + (T - (i + 1)) = T by have := mem_range.1 hi; omega] at this
        linarith
  obtain ⟨S, hS⟩ : ∃ S, S = ∑ i ∈ range T, s (i + 1) := ⟨_, rfl⟩
  obtain ⟨F, hF⟩ : ∃ F, F = ∑ i ∈ range T, (f (x (i + 1)) - f o) := ⟨_, rfl⟩
  have b1 := q1 T le_rfl
  have b2 := dsum T le_rfl
  rw [← hS] at b1 last
  rw [← hF] at b2 last
  have fT := ho (x T)
  have b3 : (1 - β ^ 2) * S ≤ 2 * α * (f (x 0) - f o) := by
    have := mul_nonneg (sq_nonneg β) (spos T)
    have := mul_le_mul_of_nonneg_left fT (by positivity : 0 ≤ 2 * α)
    linarith
  have b4 : 2 * α * (1 - β) * F ≤ D 0 + 2 * α * β * (f (x 0) - f o) := by
    have := mul_le_mul_of_nonneg_left fT (by positivity : 0 ≤ 2 * α * β)
    linarith
  -- from the point to the one ahead
  have b5 : f (w T) - f o ≤ 2 * (f (x T) - f o) + L * β ^ 2 * s T := by
    have a1 := hmid (x T) (β • v T)
    have a2 := ho (x T - β • v T)
    rw [hxw, sub_add_cancel, ← hxw, hB.smul, hB.smul_right] at a1
    rw [hs']
    dsimp only
    linarith
  have b6 : α * (f (w T) - f o) ≤ 2 * α * (f (x T) - f o) + s T := by
    have a1 := mul_le_mul_of_nonneg_left b5 hα.le
    have a2 : α * (L * β ^ 2 * s T) ≤ s T := by
      have c1 := mul_le_mul_of_nonneg_right hL (mul_nonneg (sq_nonneg β) (spos T))
      have c2 := mul_le_mul_of_nonneg_right (by linarith : β ^ 2 ≤ 1) (spos T)
      linarith
    linarith
  have b7 : α * (T * (f (w T) - f o)) ≤ 2 * α * F + S := by
    have := mul_le_mul_of_nonneg_left b6 (Nat.cast_nonneg (α := ℝ) T)
    linarith
  have b8 := mul_le_mul_of_nonneg_left b7 hsq.le
  have b9 := mul_le_mul_of_nonneg_left b4 (by linarith : 0 ≤ 1 + β)
  rw [D0] at b9
  rw [← x0]
  nlinarith

end ScalarForm

end BeeDNN
