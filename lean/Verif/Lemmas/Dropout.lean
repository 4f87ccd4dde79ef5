import Verif.Spec.Dropout
import Mathlib.Algebra.Module.BigOperators
import Mathlib.Algebra.BigOperators.Ring.Finset
import Mathlib.Algebra.BigOperators.Field
import Mathlib.Tactic.FieldSimp
import Mathlib.Tactic.Linarith
import Mathlib.Tactic.Ring

/-!
# Averages over all draws: helper lemmas
-/

namespace BeeDNN
open Finset

variable {n : Nat}

theorem Draws.stream_low (hi : Nat → Nat) (u : Draws n) {k : Nat} (h : k < n) :
    u.stream hi k % 65536 = u ⟨k, h⟩ := by
  unfold Draws.stream
  rw [dif_pos h, Nat.mul_add_mod_self_right, Nat.mod_eq_of_lt (u ⟨k, h⟩).isLt]

theorem card_low (lim : Nat) (h : lim ≤ 65536) :
    (univ.filter (fun v : Fin 65536 => (v : Nat) < lim)).card = lim := by
  have := Fin.card_filter_val_lt (n := 65536) (m := lim)
  rw [this, min_eq_right h]

/-- The average of a product of functions of the single draws is the product of the averages. -/
theorem drawMean_prod (f : Fin n → Fin 65536 → ℝ) :
    drawMean (fun u => ∏ k, f k (u k)) = ∏ k, ((∑ v, f k v) / 65536) := by
  unfold drawMean
  rw [prod_div_distrib, ← Fintype.prod_sum, prod_const, card_univ, Fintype.card_fin]

theorem drawMean_add (F G : Draws n → ℝ) : drawMean (fun u => F u + G u) = drawMean F + drawMean G := by
  unfold drawMean
  rw [sum_add_distrib, add_div]

theorem drawMean_mul (a : ℝ) (F : Draws n → ℝ) : drawMean (fun u => a * F u) = a * drawMean F := by
  unfold drawMean
  rw [← mul_sum, mul_div_assoc]

theorem drawMean_const (a : ℝ) : drawMean (fun _ : Draws n => a) = a := by
  unfold drawMean
  rw [sum_const, card_univ]
  simp only [Fintype.card_pi, Fintype.card_fin, prod_const, card_univ, nsmul_eq_mul]
  push_cast
  field_simp

theorem drawMean_sum {ι : Type} (s : Finset ι) (F : ι → Draws n → ℝ) :
    drawMean (fun u => ∑ i ∈ s, F i u) = ∑ i ∈ s, drawMean (F i) := by
  unfold drawMean
  rw [sum_comm, sum_div]

/-- The average of a product over some of the draws. -/
theorem drawMean_prod_subset (S : Finset (Fin n)) (f : Fin n → Fin 65536 → ℝ) :
    drawMean (fun u => ∏ k ∈ S, f k (u k)) = ∏ k ∈ S, ((∑ v, f k v) / 65536) := by
  classical
  have h := drawMean_prod (fun k v => if k ∈ S then f k v else (1 : ℝ))
  have e1 : ∀ F : Fin n → ℝ, (∏ k, if k ∈ S then F k else 1) = ∏ k ∈ S, F k := by
    intro F
    rw [prod_ite_mem, univ_inter]
  have e2 : (fun u : Draws n => ∏ k, if k ∈ S then f k (u k) else (1:ℝ)) = fun u => ∏ k ∈ S, f k (u k) := by
    funext u
    exact e1 (fun k => f k (u k))
  rw [e2] at h
  rw [h, ← e1]
  refine prod_congr rfl fun k _ => ?_
  by_cases hk : k ∈ S
  · simp only [if_pos hk]
  · simp only [if_neg hk, sum_const, card_univ, Fintype.card_fin]
    norm_num

theorem sum_low (lim : Nat) (h : lim ≤ 65536) (a : ℝ) :
    ∑ v : Fin 65536, (if (v : Nat) < lim then a else 0) = lim * a := by
  rw [← sum_filter, sum_const, card_low lim h, nsmul_eq_mul]

end BeeDNN
