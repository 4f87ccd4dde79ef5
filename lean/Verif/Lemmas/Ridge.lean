import Verif.Lemmas.Convex
import Mathlib.Topology.Order.Compact
import Mathlib.Topology.Algebra.Order.LiminfLimsup

/-! # Gradient descent for linear models with a smooth convex loss and a squared penalty: lemmas -/

namespace BeeDNN.Linear
open Finset

variable {c lam : ℝ} {N C K : Nat} {x : Nat → Row} {ℓ : Nat → Row → ℝ} {g : Nat → Row → Row}

/-- The scalar product of weights and biases. -/
def dot2 (C K : Nat) (W b V v : Nat → Nat → ℝ) : ℝ := dotM C K W V + dotM 1 K b v

/-- The error with the penalty. -/
noncomputable def rerr (lam : ℝ) (N C K : Nat) (x : Nat → Row) (ℓ : Nat → Row → ℝ) (W b : Nat → Nat → ℝ) : ℝ := cerr N C x ℓ W b + lam / 2 * norm2 C K W b

theorem dotM_add_sq (R C : Nat) (a b : Nat → Nat → ℝ) (s : ℝ) : dotM R C (fun k j => a k j + s * b k j) (fun k j => a k j + s * b k j) =
    dotM R C a a + 2 * s * dotM R C a b + s ^ 2 * dotM R C b b := by
  unfold dotM
  rw [mul_sum, mul_sum, ← sum_add_distrib, ← sum_add_distrib]
  refine sum_congr rfl fun k _ => ?_
  rw [mul_sum, mul_sum, ← sum_add_distrib, ← sum_add_distrib]
  exact sum_congr rfl fun j _ => by ring

theorem norm2_add (W b V v : Nat → Nat → ℝ) (s : ℝ) : norm2 C K (fun k j => W k j + s * V k j) (fun k j => b k j + s * v k j) =
    norm2 C K W b + 2 * s * dot2 C K W b V v + s ^ 2 * norm2 C K V v := by
  unfold norm2 dot2
  rw [dotM_add_sq, dotM_add_sq]
  ring

theorem dotM_comb (R C : Nat) (G W V : Nat → Nat → ℝ) (s : ℝ) : dotM R C (fun k j => G k j + s * W k j) V = dotM R C G V + s * dotM R C W V := by
  unfold dotM
  rw [mul_sum, ← sum_add_distrib]
  refine sum_congr rfl fun k _ => ?_
  rw [mul_sum, ← sum_add_distrib]
  exact sum_congr rfl fun j _ => by ring

theorem norm2_nonneg (W b : Nat → Nat → ℝ) : 0 ≤ norm2 C K W b :=
  add_nonneg (sum_nonneg fun _ _ => sum_nonneg fun _ _ => mul_self_nonneg _) (sum_nonneg fun _ _ => sum_nonneg fun _ _ => mul_self_nonneg _)

theorem dotM_congr {R C : Nat} {a a' b b' : Nat → Nat → ℝ} (h : ∀ k j, k < R → j < C → a k j = a' k j) (h' : ∀ k j, k < R → j < C → b k j = b' k j) :
    dotM R C a b = dotM R C a' b' := by
  unfold dotM
  exact sum_congr rfl fun k hk => sum_congr rfl fun j hj => by rw [h k j (mem_range.1 hk) (mem_range.1 hj), h' k j (mem_range.1 hk) (mem_range.1 hj)]

/-- The derivative as a scalar product. -/
theorem cder_dot (W b : Nat → Nat → ℝ) : ∃ G h : Nat → Nat → ℝ, ∀ V v, cder N C K x g W b V v = dot2 C K G h V v := by
  refine ⟨fun k j => 1 / N * ∑ s ∈ range N, g s (lin C x W b s) j * x s k, fun _ j => 1 / N * ∑ s ∈ range N, g s (lin C x W b s) j, fun V v => ?_⟩
  unfold cder dot2 dotM lin
  rw [sum_range_one]
  simp only [mul_assoc, sum_mul, mul_add, sum_add_distrib, mul_sum]
  congr 1
  · rw [sum_comm' (s := range C) (t' := range K) (s' := fun _ => range C) (by simp [and_comm])]
    rw [sum_comm' (s := range N) (t' := range K) (s' := fun _ => range N) (by simp [and_comm])]
    refine sum_congr rfl fun j _ => ?_
    rw [sum_comm]
  · rw [sum_comm]

theorem cerr_congr (hl : ∀ s, s < N → Link K c (ℓ s) (g s)) {W W' b b' : Nat → Nat → ℝ} (hW : ∀ k j, k < C → j < K → W k j = W' k j) (hb : ∀ j, j < K → b 0 j = b' 0 j) :
    cerr N C x ℓ W b = cerr N C x ℓ W' b' := by
  unfold cerr
  congr 1
  refine sum_congr rfl fun s hs => ?_
  have e : ∀ j, j < K → lin C x W b s j = lin C x W' b' s j := fun j hj => by
    unfold lin
    rw [hb j hj]
    congr 1
    exact sum_congr rfl fun k hk => by rw [hW k j (mem_range.1 hk) hj]
  have z : ∀ u u' : Row, (∀ j, j < K → u j = u' j) → ℓ s u ≤ ℓ s u' := fun u u' hu => by
    have := (hl s (mem_range.1 hs)).lower u fun j => u' j - u j
    simp only [add_sub_cancel] at this
    rw [sum_eq_zero fun j hj => by rw [hu j (mem_range.1 hj), sub_self, mul_zero], add_zero] at this
    exact this
  exact le_antisymm (z _ _ e) (z _ _ fun j hj => (e j hj).symm)

theorem rerr_congr (hl : ∀ s, s < N → Link K c (ℓ s) (g s)) {W W' b b' : Nat → Nat → ℝ} (hW : ∀ k j, k < C → j < K → W k j = W' k j) (hb : ∀ j, j < K → b 0 j = b' 0 j) :
    rerr lam N C K x ℓ W b = rerr lam N C K x ℓ W' b' := by
  unfold rerr norm2
  rw [cerr_congr hl hW hb, dotM_congr hW hW, dotM_congr (R := 1) (a := b) (a' := b') (b := b) (b' := b')]
  all_goals
    intro k j hk hj
    obtain rfl : k = 0 := by omega
    exact hb j hj

/-- Strong convexity. -/
theorem rerr_lower (hl : ∀ s, s < N → Link K c (ℓ s) (g s)) (W b V v : Nat → Nat → ℝ) :
    rerr lam N C K x ℓ W b + (cder N C K x g W b V v + lam * dot2 C K W b V v) + lam / 2 * norm2 C K V v ≤
      rerr lam N C K x ℓ (fun k j => W k j + V k j) (fun k j => b k j + v k j) := by
  have h1 := cerr_lower (C := C) (x := x) hl W b V v
  have h2 := norm2_add (C := C) (K := K) W b V v 1
  simp only [one_mul] at h2
  unfold rerr
  rw [h2]
  linarith

theorem rerr_upper (hl : ∀ s, s < N → Link K c (ℓ s) (g s)) (W b V v : Nat → Nat → ℝ) :
    rerr lam N C K x ℓ (fun k j => W k j + V k j) (fun k j => b k j + v k j) ≤
    rerr lam N C K x ℓ W b + (cder N C K x g W b V v + lam * dot2 C K W b V v) + (quad c N C K x V v + lam / 2 * norm2 C K V v) := by
  have h1 := cerr_upper (C := C) (x := x) hl W b V v
  have h2 := norm2_add (C := C) (K := K) W b V v 1
  simp only [one_mul] at h2
  unfold rerr
  rw [h2]
  linarith

/-- One step of gradient descent that is not too long. -/
theorem rstep (hl : ∀ s, s < N → Link K c (ℓ s) (g s)) (hc : 0 ≤ c) {W b G h : Nat → Nat → ℝ}
    (hd : ∀ V v, cder N C K x g W b V v + lam * dot2 C K W b V v = dot2 C K G h V v)
    {t : ℝ} (ht : 0 < t) (hL : t * (c * ((∑ s ∈ range N, (∑ k ∈ range C, x s k ^ 2 + 1)) / N) + lam) ≤ 1) :
    rerr lam N C K x ℓ (fun k j => W k j - t * G k j) (fun k j => b k j - t * h k j) ≤ rerr lam N C K x ℓ W b - t / 2 * norm2 C K G h ∧
    ∀ V v : Nat → Nat → ℝ, 2 * t * (rerr lam N C K x ℓ (fun k j => W k j - t * G k j) (fun k j => b k j - t * h k j) - rerr lam N C K x ℓ V v) ≤
      (1 - t * lam) * norm2 C K (fun k j => W k j - V k j) (fun k j => b k j - v k j) -
        norm2 C K (fun k j => W k j - t * G k j - V k j) (fun k j => b k j - t * h k j - v k j) := by
  have hn := norm2_nonneg (C := C) (K := K) G h
  have e1 := rerr_upper (lam := lam) (C := C) (x := x) hl W b (fun k j => -t * G k j) (fun k j => -t * h k j)
  rw [hd, quad_smul] at e1
  have e0 : norm2 C K (fun k j => -t * G k j) (fun k j => -t * h k j) = t ^ 2 * norm2 C K G h := by
    have := norm2_add (C := C) (K := K) (fun _ _ => 0) (fun _ _ => 0) G h (-t)
    simpa [norm2, dot2, dotM] using this
  have e0' : dot2 C K G h (fun k j => -t * G k j) (fun k j => -t * h k j) = -t * norm2 C K G h := by
    unfold dot2 norm2
    rw [dotM_smul, dotM_smul]
    ring
  rw [e0, e0', neg_pow_two] at e1
  simp only [neg_mul, ← sub_eq_add_neg] at e1
  have h1 := quad_le c N C K x hc G h
  generalize hS : c * ((∑ s ∈ range N, (∑ k ∈ range C, x s k ^ 2 + 1)) / N) = S at hL h1
  have h2 : t ^ 2 * quad c N C K x G h + lam / 2 * (t ^ 2 * norm2 C K G h) ≤ t / 2 * norm2 C K G h := by
    calc t ^ 2 * quad c N C K x G h + lam / 2 * (t ^ 2 * norm2 C K G h) ≤ t ^ 2 * (S / 2 * norm2 C K G h) + lam / 2 * (t ^ 2 * norm2 C K G h) :=
          add_le_add_left (mul_le_mul_of_nonneg_left h1 (by positivity)) _
      _ = t * (S + lam) * (t / 2 * norm2 C K G h) := by ring
      _ ≤ 1 * (t / 2 * norm2 C K G h) := mul_le_mul_of_nonneg_right hL (by positivity)
      _ = _ := one_mul _
  have h3 : rerr lam N C K x ℓ (fun k j => W k j - t * G k j) (fun k j => b k j - t * h k j) ≤ rerr lam N C K x ℓ W b - t / 2 * norm2 C K G h := by linarith
  refine ⟨h3, fun V v => ?_⟩
  have e2 := rerr_lower (lam := lam) (C := C) (x := x) hl W b (fun k j => V k j - W k j) (fun k j => v k j - b k j)
  rw [hd] at e2
  simp only [add_sub_cancel] at e2
  have h5 : norm2 C K (fun k j => W k j - t * G k j - V k j) (fun k j => b k j - t * h k j - v k j) = norm2 C K (fun k j => W k j - V k j) (fun k j => b k j - v k j) +
      2 * t * (dot2 C K G h (fun k j => V k j - W k j) (fun k j => v k j - b k j)) + t ^ 2 * norm2 C K G h := by
    unfold norm2 dot2
    rw [dist_step, dist_step]
    ring
  have h6 : norm2 C K (fun k j => V k j - W k j) (fun k j => v k j - b k j) = norm2 C K (fun k j => W k j - V k j) (fun k j => b k j - v k j) := by
    unfold norm2 dotM
    congr 1 <;> exact sum_congr rfl fun k _ => sum_congr rfl fun j _ => by ring
  rw [h5]
  rw [h6] at e2
  nlinarith [mul_le_mul_of_nonneg_left h3 ht.le, mul_le_mul_of_nonneg_left e2 ht.le]

/-- What is best is better than all others, the more the farther they are. -/
theorem rbest (hl : ∀ s, s < N → Link K c (ℓ s) (g s)) (hc : 0 ≤ c) (hlam : 0 < lam) {W b : Nat → Nat → ℝ}
    (hbest : ∀ V v, rerr lam N C K x ℓ W b ≤ rerr lam N C K x ℓ V v) (V v : Nat → Nat → ℝ) :
    lam / 2 * norm2 C K (fun k j => V k j - W k j) (fun k j => v k j - b k j) ≤ rerr lam N C K x ℓ V v - rerr lam N C K x ℓ W b := by
  obtain ⟨G, h, hd⟩ := cder_dot (N := N) (C := C) (K := K) (x := x) (g := g) W b
  have hd' : ∀ V v, cder N C K x g W b V v + lam * dot2 C K W b V v = dot2 C K (fun k j => G k j + lam * W k j) (fun k j => h k j + lam * b k j) V v := fun V v => by
    rw [hd]
    unfold dot2
    rw [dotM_comb, dotM_comb]
    ring
  have hS : 0 ≤ c * ((∑ s ∈ range N, (∑ k ∈ range C, x s k ^ 2 + 1)) / N) := by positivity
  have hp : 0 < c * ((∑ s ∈ range N, (∑ k ∈ range C, x s k ^ 2 + 1)) / N) + lam := by linarith
  have hs := (rstep hl hc hd' (one_div_pos.2 hp) (by rw [one_div, inv_mul_cancel₀ hp.ne'])).1
  have hz := hbest (fun k j => W k j - 1 / (c * ((∑ s ∈ range N, (∑ k ∈ range C, x s k ^ 2 + 1)) / N) + lam) * (G k j + lam * W k j))
    (fun k j => b k j - 1 / (c * ((∑ s ∈ range N, (∑ k ∈ range C, x s k ^ 2 + 1)) / N) + lam) * (h k j + lam * b k j))
  have hpos := one_div_pos.2 hp
  have hn := norm2_nonneg (C := C) (K := K) (fun k j => G k j + lam * W k j) (fun k j => h k j + lam * b k j)
  have h0 : norm2 C K (fun k j => G k j + lam * W k j) (fun k j => h k j + lam * b k j) = 0 := by
    refine le_antisymm ?_ hn
    by_contra hc'
    push Not at hc'
    have := mul_pos (half_pos hpos) hc'
    linarith
  have e2 := rerr_lower (lam := lam) (C := C) (x := x) hl W b (fun k j => V k j - W k j) (fun k j => v k j - b k j)
  rw [hd'] at e2
  simp only [add_sub_cancel] at e2
  have hcs : ∀ s : ℝ, 0 ≤ norm2 C K (fun k j => V k j - W k j) (fun k j => v k j - b k j) + 2 * s *
      dot2 C K (fun k j => G k j + lam * W k j) (fun k j => h k j + lam * b k j) (fun k j => V k j - W k j) (fun k j => v k j - b k j) := fun s => by
    have h1 := norm2_add (C := C) (K := K) (fun k j => V k j - W k j) (fun k j => v k j - b k j) (fun k j => G k j + lam * W k j) (fun k j => h k j + lam * b k j) s
    rw [h0, mul_zero, add_zero] at h1
    have h2 : dot2 C K (fun k j => V k j - W k j) (fun k j => v k j - b k j) (fun k j => G k j + lam * W k j) (fun k j => h k j + lam * b k j) =
        dot2 C K (fun k j => G k j + lam * W k j) (fun k j => h k j + lam * b k j) (fun k j => V k j - W k j) (fun k j => v k j - b k j) := by
      unfold dot2 dotM
      congr 1 <;> exact sum_congr rfl fun k _ => sum_congr rfl fun j _ => by ring
    rw [← h2, ← h1]
    exact norm2_nonneg _ _
  have hz0 : dot2 C K (fun k j => G k j + lam * W k j) (fun k j => h k j + lam * b k j) (fun k j => V k j - W k j) (fun k j => v k j - b k j) = 0 := by
    generalize dot2 C K (fun k j => G k j + lam * W k j) (fun k j => h k j + lam * b k j) (fun k j => V k j - W k j) (fun k j => v k j - b k j) = d at hcs
    generalize norm2 C K (fun k j => V k j - W k j) (fun k j => v k j - b k j) = n at hcs
    by_contra hne
    have := hcs (-(n + 1) / (2 * d))
    rw [mul_div_assoc', div_mul_eq_mul_div, mul_assoc, mul_comm (-(n + 1)), ← mul_assoc, mul_comm, mul_div_assoc, div_self (by simpa using hne)] at this
    linarith
  rw [hz0] at e2
  linarith

/-! ## There is a best one -/

section
variable {X : Type} [TopologicalSpace X]

theorem cont_dotM {R C : Nat} {A B : X → Nat → Nat → ℝ} (hA : ∀ k j, Continuous fun θ => A θ k j) (hB : ∀ k j, Continuous fun θ => B θ k j) :
    Continuous fun θ => dotM R C (A θ) (B θ) :=
  continuous_finset_sum _ fun k _ => continuous_finset_sum _ fun j _ => (hA k j).mul (hB k j)

theorem cont_quad {A B : X → Nat → Nat → ℝ} (hA : ∀ k j, Continuous fun θ => A θ k j) (hB : ∀ k j, Continuous fun θ => B θ k j) :
    Continuous fun θ => quad c N C K x (A θ) (B θ) := by
  unfold quad lin
  refine continuous_const.mul (continuous_finset_sum _ fun s _ => continuous_finset_sum _ fun j _ => ?_)
  refine (continuous_const.mul (((continuous_finset_sum _ fun k _ => continuous_const.mul (hA k j)).add (hB 0 j)).pow 2)).div_const _

theorem cont_rerr (hl : ∀ s, s < N → Link K c (ℓ s) (g s)) {A B : X → Nat → Nat → ℝ} (hA : ∀ k j, Continuous fun θ => A θ k j) (hB : ∀ k j, Continuous fun θ => B θ k j) :
    Continuous fun θ => rerr lam N C K x ℓ (A θ) (B θ) := by
  rw [continuous_iff_continuousAt]
  intro θ₀
  obtain ⟨G, h, hd⟩ := cder_dot (N := N) (C := C) (K := K) (x := x) (g := g) (A θ₀) (B θ₀)
  have hA' : ∀ k j, Continuous fun θ => A θ k j - A θ₀ k j := fun k j => (hA k j).sub continuous_const
  have hB' : ∀ k j, Continuous fun θ => B θ k j - B θ₀ k j := fun k j => (hB k j).sub continuous_const
  have c0 : ∀ k j, Continuous fun _ : X => G k j := fun _ _ => continuous_const
  have c1 : ∀ k j, Continuous fun _ : X => h k j := fun _ _ => continuous_const
  have c2 : ∀ k j, Continuous fun _ : X => A θ₀ k j := fun _ _ => continuous_const
  have c3 : ∀ k j, Continuous fun _ : X => B θ₀ k j := fun _ _ => continuous_const
  have k1 : Continuous fun θ => rerr lam N C K x ℓ (A θ₀) (B θ₀) + (dot2 C K G h (fun k j => A θ k j - A θ₀ k j) (fun k j => B θ k j - B θ₀ k j) +
      lam * dot2 C K (A θ₀) (B θ₀) (fun k j => A θ k j - A θ₀ k j) (fun k j => B θ k j - B θ₀ k j)) +
      lam / 2 * norm2 C K (fun k j => A θ k j - A θ₀ k j) (fun k j => B θ k j - B θ₀ k j) :=
    (continuous_const.add (((cont_dotM c0 hA').add (cont_dotM c1 hB')).add (continuous_const.mul ((cont_dotM c2 hA').add (cont_dotM c3 hB'))))).add
      (continuous_const.mul ((cont_dotM hA' hA').add (cont_dotM hB' hB')))
  have k2 : Continuous fun θ => rerr lam N C K x ℓ (A θ₀) (B θ₀) + (dot2 C K G h (fun k j => A θ k j - A θ₀ k j) (fun k j => B θ k j - B θ₀ k j) +
      lam * dot2 C K (A θ₀) (B θ₀) (fun k j => A θ k j - A θ₀ k j) (fun k j => B θ k j - B θ₀ k j)) +
      (quad c N C K x (fun k j => A θ k j - A θ₀ k j) (fun k j => B θ k j - B θ₀ k j) + lam / 2 * norm2 C K (fun k j => A θ k j - A θ₀ k j) (fun k j => B θ k j - B θ₀ k j)) :=
    (continuous_const.add (((cont_dotM c0 hA').add (cont_dotM c1 hB')).add (continuous_const.mul ((cont_dotM c2 hA').add (cont_dotM c3 hB'))))).add
      ((cont_quad hA' hB').add (continuous_const.mul ((cont_dotM hA' hA').add (cont_dotM hB' hB'))))
  have t1 := k1.tendsto θ₀
  have t2 := k2.tendsto θ₀
  have z1 : ∀ R C a, dotM R C a (fun k j => (0 : ℝ)) = 0 := fun R C a => by simp [dotM]
  have z2 : quad c N C K x (fun _ _ => 0) (fun _ _ => 0) = 0 := by simp [quad, lin]
  simp only [sub_self, dot2, norm2, z1, z2, add_zero, mul_zero] at t1 t2
  refine tendsto_of_tendsto_of_tendsto_of_le_of_le t1 t2 (fun θ => ?_) fun θ => ?_
  · have := rerr_lower (lam := lam) (C := C) (x := x) hl (A θ₀) (B θ₀) (fun k j => A θ k j - A θ₀ k j) (fun k j => B θ k j - B θ₀ k j)
    simp only [add_sub_cancel] at this
    rw [hd] at this
    exact this
  · have := rerr_upper (lam := lam) (C := C) (x := x) hl (A θ₀) (B θ₀) (fun k j => A θ k j - A θ₀ k j) (fun k j => B θ k j - B θ₀ k j)
    simp only [add_sub_cancel] at this
    rw [hd] at this
    exact this

end

theorem entry_le_dotM {R C : Nat} (a : Nat → Nat → ℝ) {i j : Nat} (hi : i < R) (hj : j < C) : a i j ^ 2 ≤ dotM R C a a := by
  unfold dotM
  rw [pow_two]
  have h1 : a i j * a i j ≤ ∑ j ∈ range C, a i j * a i j := single_le_sum (f := fun j => a i j * a i j) (fun _ _ => mul_self_nonneg _) (mem_range.2 hj)
  exact h1.trans (single_le_sum (f := fun i => ∑ j ∈ range C, a i j * a i j) (fun _ _ => sum_nonneg fun _ _ => mul_self_nonneg _) (mem_range.2 hi))

theorem rbest_exists (hl : ∀ s, s < N → Link K c (ℓ s) (g s)) (hlam : 0 < lam) :
    ∃ W b : Nat → Nat → ℝ, ∀ V v, rerr lam N C K x ℓ W b ≤ rerr lam N C K x ℓ V v := by
  obtain ⟨G, h, hd⟩ := cder_dot (N := N) (C := C) (K := K) (x := x) (g := g) (fun _ _ => 0) (fun _ _ => 0)
  let A : (Fin C → Fin K → ℝ) × (Fin K → ℝ) → Nat → Nat → ℝ := fun θ k j => if h : k < C ∧ j < K then θ.1 ⟨k, h.1⟩ ⟨j, h.2⟩ else 0
  let B : (Fin C → Fin K → ℝ) × (Fin K → ℝ) → Nat → Nat → ℝ := fun θ _ j => if h : j < K then θ.2 ⟨j, h⟩ else 0
  have hA : ∀ k j, Continuous fun θ => A θ k j := fun k j => by
    by_cases h : k < C ∧ j < K
    · simp only [A, dif_pos h]
      fun_prop
    · simp only [A, dif_neg h]
      exact continuous_const
  have hB : ∀ k j, Continuous fun θ => B θ k j := fun k j => by
    by_cases h : j < K
    · simp only [B, dif_pos h]
      fun_prop
    · simp only [B, dif_neg h]
      exact continuous_const
  have hcont := cont_rerr (lam := lam) (C := C) (x := x) hl hA hB
  let M := 4 * norm2 C K G h / lam ^ 2
  have hM : 0 ≤ M := div_nonneg (mul_nonneg (by norm_num) (norm2_nonneg _ _)) (sq_nonneg _)
  let R : ℝ := M + 1
  have hcoer : ∀ V v, rerr lam N C K x ℓ V v ≤ rerr lam N C K x ℓ (fun _ _ => 0) (fun _ _ => 0) → norm2 C K V v ≤ M := fun V v hle => by
    have e := rerr_lower (lam := lam) (C := C) (x := x) hl (fun _ _ => 0) (fun _ _ => 0) V v
    rw [hd] at e
    simp only [zero_add] at e
    have e1 : dot2 C K (fun _ _ => 0) (fun _ _ => 0) V v = 0 := by simp [dot2, dotM]
    rw [e1] at e
    have e2 := norm2_add (C := C) (K := K) G h V v (lam / 2)
    have e3 := norm2_nonneg (C := C) (K := K) (fun k j => G k j + lam / 2 * V k j) (fun k j => h k j + lam / 2 * v k j)
    rw [e2] at e3
    show _ ≤ 4 * norm2 C K G h / lam ^ 2
    rw [le_div_iff₀ (by positivity)]
    nlinarith
  have hroot : ∀ v : ℝ, v ^ 2 ≤ M → -R ≤ v ∧ v ≤ R := fun v hv => by
    show -(M + 1) ≤ v ∧ v ≤ M + 1
    constructor <;> nlinarith [sq_nonneg (v - 1), sq_nonneg (v + 1)]
  have hcomp : IsCompact (Set.Icc (((fun _ _ => -R), fun _ => -R) : (Fin C → Fin K → ℝ) × (Fin K → ℝ)) ((fun _ _ => R), fun _ => R)) := isCompact_Icc
  have hR : 0 ≤ R := by show 0 ≤ M + 1; linarith
  have h0 : (((fun _ _ => 0), fun _ => 0) : (Fin C → Fin K → ℝ) × (Fin K → ℝ)) ∈ Set.Icc (((fun _ _ => -R), fun _ => -R) : (Fin C → Fin K → ℝ) × (Fin K → ℝ)) ((fun _ _ => R), fun _ => R) :=
    ⟨⟨fun _ _ => by simpa using hR, fun _ => by simpa using hR⟩, ⟨fun _ _ => hR, fun _ => hR⟩⟩
  obtain ⟨θ, -, hθ⟩ := hcomp.exists_isMinOn ⟨_, h0⟩ hcont.continuousOn
  have hz : rerr lam N C K x ℓ (A ((fun _ _ => 0), fun _ => 0)) (B ((fun _ _ => 0), fun _ => 0)) = rerr lam N C K x ℓ (fun _ _ => 0) (fun _ _ => 0) :=
    rerr_congr hl (fun k j _ _ => by simp [A]) fun j _ => by simp [B]
  refine ⟨A θ, B θ, fun V v => ?_⟩
  by_cases hle : rerr lam N C K x ℓ V v ≤ rerr lam N C K x ℓ (fun _ _ => 0) (fun _ _ => 0)
  · have hn := hcoer V v hle
    have n1 : ∀ k j, k < C → j < K → V k j ^ 2 ≤ M := fun k j hk hj => by
      have := entry_le_dotM V hk hj
      have : 0 ≤ dotM 1 K v v := sum_nonneg fun _ _ => sum_nonneg fun _ _ => mul_self_nonneg _
      unfold norm2 at hn
      linarith
    have n2 : ∀ j, j < K → v 0 j ^ 2 ≤ M := fun j hj => by
      have := entry_le_dotM (R := 1) v one_pos hj
      have : 0 ≤ dotM C K V V := sum_nonneg fun _ _ => sum_nonneg fun _ _ => mul_self_nonneg _
      unfold norm2 at hn
      linarith
    have hmem : (((fun k j => V k j), fun j => v 0 j) : (Fin C → Fin K → ℝ) × (Fin K → ℝ)) ∈
        Set.Icc (((fun _ _ => -R), fun _ => -R) : (Fin C → Fin K → ℝ) × (Fin K → ℝ)) ((fun _ _ => R), fun _ => R) :=
      ⟨⟨fun k j => (hroot _ (n1 k j k.2 j.2)).1, fun j => (hroot _ (n2 j j.2)).1⟩, ⟨fun k j => (hroot _ (n1 k j k.2 j.2)).2, fun j => (hroot _ (n2 j j.2)).2⟩⟩
    have := hθ hmem
    refine this.trans (le_of_eq (rerr_congr hl (fun k j hk hj => ?_) fun j hj => ?_))
    · simp [A, hk, hj]
    · simp [B, hj]
  · have := hθ h0
    push Not at hle
    refine (this.trans (le_of_eq hz)).trans hle.le

end BeeDNN.Linear
