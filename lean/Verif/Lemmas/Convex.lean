import Verif.Lemmas.Linear
import Verif.Spec.Softmax
import Mathlib.Analysis.Calculus.MeanValue
import Mathlib.Analysis.SpecialFunctions.ExpDeriv
import Mathlib.Analysis.SpecialFunctions.Log.Deriv

/-! # Gradient descent for linear models with a smooth convex loss: lemmas -/

namespace BeeDNN.Linear
open Finset

/-- `ℓ` is a convex function of `K` numbers with curvature at most `c`, and `g` is its gradient. -/
structure Link (K : Nat) (c : ℝ) (ℓ : Row → ℝ) (g : Row → Row) : Prop where
  lower : ∀ z d : Row, ℓ z + ∑ j ∈ range K, g z j * d j ≤ ℓ (fun j => z j + d j)
  upper : ∀ z d : Row, ℓ (fun j => z j + d j) ≤ ℓ z + ∑ j ∈ range K, g z j * d j + c / 2 * ∑ j ∈ range K, d j ^ 2

/-- A function with monotone derivative is above its tangents. -/
theorem tangent_le {f f' : ℝ → ℝ} (hf : ∀ u, HasDerivAt f (f' u) u) (hm : Monotone f') (u d : ℝ) : f u + f' u * d ≤ f (u + d) := by
  have hc : Continuous f := continuous_iff_continuousAt.2 fun u => (hf u).continuousAt
  rcases lt_trichotomy d 0 with h | h | h
  · obtain ⟨ξ, h1, h2⟩ := exists_hasDerivAt_eq_slope f f' (show u + d < u by linarith) hc.continuousOn fun x _ => hf x
    have h3 := hm h1.2.le
    rw [eq_div_iff (by linarith)] at h2
    nlinarith
  · simp [h]
  · obtain ⟨ξ, h1, h2⟩ := exists_hasDerivAt_eq_slope f f' (show u < u + d by linarith) hc.continuousOn fun x _ => hf x
    have h3 := hm h1.1.le
    rw [eq_div_iff (by linarith)] at h2
    nlinarith

/-- And below a parabola, if the derivative grows at most as `c`. -/
theorem le_parabola {f f' : ℝ → ℝ} {c : ℝ} (hf : ∀ u, HasDerivAt f (f' u) u) (hm : Monotone fun u => c * u - f' u) (u d : ℝ) :
    f (u + d) ≤ f u + f' u * d + c / 2 * d ^ 2 := by
  have h : ∀ u, HasDerivAt (fun u => c / 2 * u ^ 2 - f u) (c * u - f' u) u := fun u => by
    have := (((hasDerivAt_id u).pow 2).const_mul (c / 2)).sub (hf u)
    refine this.congr_deriv ?_
    simp only [id, Nat.cast_ofNat, Nat.add_one_sub_one, pow_one, mul_one]
    ring
  have := tangent_le h hm u d
  nlinarith

/-- Functions of one variable with derivatives in `[0, c]` of their derivative. -/
theorem monotone_of_hasDeriv {f f' : ℝ → ℝ} (hf : ∀ u, HasDerivAt f (f' u) u) (h : ∀ u, 0 ≤ f' u) : Monotone f :=
  monotone_of_deriv_nonneg (fun u => (hf u).differentiableAt) fun u => by rw [(hf u).deriv]; exact h u

/-- Losses that add up over the outputs. -/
theorem Link.sum {K : Nat} {c : ℝ} {f f' : Nat → ℝ → ℝ} (hl : ∀ j, j < K → ∀ u d, f j u + f' j u * d ≤ f j (u + d))
    (hu : ∀ j, j < K → ∀ u d, f j (u + d) ≤ f j u + f' j u * d + c / 2 * d ^ 2) : Link K c (fun z => ∑ j ∈ range K, f j (z j)) (fun z j => f' j (z j)) where
  lower z d := by
    rw [← sum_add_distrib]
    exact sum_le_sum fun j hj => hl j (mem_range.1 hj) _ _
  upper z d := by
    rw [mul_sum, ← sum_add_distrib, ← sum_add_distrib]
    exact sum_le_sum fun j hj => hu j (mem_range.1 hj) _ _

/-- Subtracting a linear function. -/
theorem Link.sub_linear {K : Nat} {c : ℝ} {ℓ : Row → ℝ} {g : Row → Row} (h : Link K c ℓ g) (y : Row) :
    Link K c (fun z => ℓ z - ∑ j ∈ range K, y j * z j) (fun z j => g z j - y j) where
  lower z d := by
    have := h.lower z d
    simp only [mul_add, sub_mul, sum_add_distrib, sum_sub_distrib]
    linarith
  upper z d := by
    have := h.upper z d
    simp only [mul_add, sub_mul, sum_add_distrib, sum_sub_distrib]
    linarith

/-! ## The logarithm of the sum of exponentials -/

theorem cauchy (K : Nat) (w d : Nat → ℝ) (hw : ∀ j, 0 ≤ w j) :
    (∑ j ∈ range K, w j * d j) ^ 2 ≤ (∑ j ∈ range K, w j * d j ^ 2) * ∑ j ∈ range K, w j :=
  sum_sq_le_sum_mul_sum_of_sq_eq_mul _ (fun j _ => mul_nonneg (hw j) (sq_nonneg _)) (fun j _ => hw j) fun j _ => by ring

/-- The variance of numbers with the weights `w` is at most half the sum of their squares. -/
theorem variance_le (K : Nat) (w d : Nat → ℝ) (hw : ∀ j, 0 ≤ w j) :
    (∑ j ∈ range K, w j * d j ^ 2) * (∑ j ∈ range K, w j) - (∑ j ∈ range K, w j * d j) ^ 2 ≤ (∑ j ∈ range K, d j ^ 2) / 2 * (∑ j ∈ range K, w j) ^ 2 := by
  have h1 : ∑ i ∈ range K, ∑ j ∈ range K, w i * w j * (d i + d j) ^ 2 =
      2 * ((∑ j ∈ range K, w j * d j ^ 2) * ∑ j ∈ range K, w j) + 2 * (∑ j ∈ range K, w j * d j) ^ 2 := by
    rw [pow_two (∑ j ∈ range K, w j * d j), two_mul ((∑ j ∈ range K, w j * d j ^ 2) * _)]
    nth_rw 2 [mul_comm (∑ j ∈ range K, w j * d j ^ 2)]
    rw [sum_mul_sum, sum_mul_sum, sum_mul_sum, mul_sum, ← sum_add_distrib, ← sum_add_distrib]
    refine sum_congr rfl fun i _ => ?_
    rw [mul_sum, ← sum_add_distrib, ← sum_add_distrib]
    exact sum_congr rfl fun j _ => by ring
  have h2 : ∑ i ∈ range K, 4 * (w i ^ 2 * d i ^ 2) ≤ ∑ i ∈ range K, ∑ j ∈ range K, w i * w j * (d i + d j) ^ 2 := by
    refine sum_le_sum fun i hi => ?_
    refine le_trans (le_of_eq ?_) (single_le_sum (fun j _ => mul_nonneg (mul_nonneg (hw i) (hw j)) (sq_nonneg _)) hi)
    ring
  have h3 : ∀ S : ℝ, 2 * ((∑ j ∈ range K, w j * d j ^ 2) * S) - 2 * ∑ i ∈ range K, w i ^ 2 * d i ^ 2 ≤ (∑ j ∈ range K, d j ^ 2) / 2 * S ^ 2 := by
    intro S
    rw [sum_mul, mul_sum, mul_sum, ← sum_sub_distrib, div_mul_eq_mul_div, sum_mul, sum_div]
    refine sum_le_sum fun j _ => ?_
    nlinarith [mul_nonneg (sq_nonneg (S - 2 * w j)) (sq_nonneg (d j))]
  have h4 := h3 (∑ j ∈ range K, w j)
  rw [h1, ← mul_sum] at h2
  linarith

/-- The logarithm of the sum of the exponentials. -/
noncomputable def lse (K : Nat) (z : Row) : ℝ := Real.log (∑ j ∈ range K, Real.exp (z j))

theorem lse_line (K : Nat) (hK : 0 < K) (z d : Row) :
    lse K z + ∑ j ∈ range K, softmaxAt K z j * d j ≤ lse K (fun j => z j + d j) ∧
      lse K (fun j => z j + d j) ≤ lse K z + ∑ j ∈ range K, softmaxAt K z j * d j + (1 / 2) / 2 * ∑ j ∈ range K, d j ^ 2 := by
  have he : ∀ j t, HasDerivAt (fun t : ℝ => Real.exp (z j + t * d j)) (Real.exp (z j + t * d j) * d j) t := fun j t => by
    have h := (((hasDerivAt_id t).mul_const (d j)).const_add (z j)).exp
    simp only [id, one_mul] at h
    exact h
  have hS : ∀ t, HasDerivAt (fun t : ℝ => ∑ j ∈ range K, Real.exp (z j + t * d j)) (∑ j ∈ range K, Real.exp (z j + t * d j) * d j) t := fun t =>
    HasDerivAt.fun_sum fun j _ => he j t
  have hA : ∀ t, HasDerivAt (fun t : ℝ => ∑ j ∈ range K, Real.exp (z j + t * d j) * d j) (∑ j ∈ range K, Real.exp (z j + t * d j) * d j ^ 2) t := fun t =>
    (HasDerivAt.fun_sum fun j _ => (he j t).mul_const (d j)).congr_deriv (sum_congr rfl fun j _ => by ring)
  have pos : ∀ t : ℝ, 0 < ∑ j ∈ range K, Real.exp (z j + t * d j) := fun t => sum_pos (fun j _ => Real.exp_pos _) ⟨0, mem_range.2 hK⟩
  have h1 : ∀ t, HasDerivAt (fun t : ℝ => Real.log (∑ j ∈ range K, Real.exp (z j + t * d j)))
      ((∑ j ∈ range K, Real.exp (z j + t * d j) * d j) / ∑ j ∈ range K, Real.exp (z j + t * d j)) t := fun t => (hS t).log (pos t).ne'
  have h2 : ∀ t, HasDerivAt (fun t : ℝ => (∑ j ∈ range K, Real.exp (z j + t * d j) * d j) / ∑ j ∈ range K, Real.exp (z j + t * d j))
      (((∑ j ∈ range K, Real.exp (z j + t * d j) * d j ^ 2) * (∑ j ∈ range K, Real.exp (z j + t * d j)) - (∑ j ∈ range K, Real.exp (z j + t * d j) * d j) ^ 2) /
        (∑ j ∈ range K, Real.exp (z j + t * d j)) ^ 2) t := fun t =>
    ((hA t).div (hS t) (pos t).ne').congr_deriv (by rw [pow_two (∑ j ∈ range K, Real.exp (z j + t * d j) * d j)])
  have m1 := monotone_of_hasDeriv h2 fun t => div_nonneg (by have := cauchy K (fun j => Real.exp (z j + t * d j)) d (fun j => (Real.exp_pos _).le); linarith) (sq_nonneg _)
  have m2 := monotone_of_hasDeriv (f := fun t : ℝ => (∑ j ∈ range K, d j ^ 2) / 2 * t - _) (fun t => (((hasDerivAt_id t).const_mul ((∑ j ∈ range K, d j ^ 2) / 2)).sub (h2 t))) fun t => by
    rw [mul_one, sub_nonneg, div_le_iff₀ (by have := pos t; positivity)]
    exact variance_le K (fun j => Real.exp (z j + t * d j)) d fun j => (Real.exp_pos _).le
  have a1 := tangent_le h1 m1 0 1
  have a2 := le_parabola h1 m2 0 1
  simp only [zero_mul, add_zero, zero_add, one_mul, mul_one, one_pow] at a1 a2
  have e : (∑ j ∈ range K, Real.exp (z j) * d j) / ∑ j ∈ range K, Real.exp (z j) = ∑ j ∈ range K, softmaxAt K z j * d j := by
    rw [sum_div]
    exact sum_congr rfl fun j _ => by unfold softmaxAt; ring
  rw [e] at a1 a2
  refine ⟨a1, a2.trans (le_of_eq ?_)⟩
  unfold lse
  ring

theorem link_lse {K : Nat} (hK : 0 < K) : Link K (1 / 2) (lse K) (softmaxAt K) := ⟨fun z d => (lse_line K hK z d).1, fun z d => (lse_line K hK z d).2⟩

/-! ## Linear models -/

variable {c : ℝ} {N C K : Nat} {x : Nat → Row} {ℓ : Nat → Row → ℝ} {g : Nat → Row → Row}

/-- The error: the mean over the samples of a loss of the outputs. -/
noncomputable def cerr (N C : Nat) (x : Nat → Row) (ℓ : Nat → Row → ℝ) (W b : Nat → Nat → ℝ) : ℝ := 1 / N * ∑ s ∈ range N, ℓ s (lin C x W b s)

/-- Its derivative in direction `V`, `v`. -/
noncomputable def cder (N C K : Nat) (x : Nat → Row) (g : Nat → Row → Row) (W b V v : Nat → Nat → ℝ) : ℝ :=
  1 / N * ∑ s ∈ range N, ∑ j ∈ range K, g s (lin C x W b s) j * lin C x V v s j

theorem cder_smul (W b V v : Nat → Nat → ℝ) (t : ℝ) : cder N C K x g W b (fun k j => t * V k j) (fun k j => t * v k j) = t * cder N C K x g W b V v := by
  unfold cder
  rw [mul_left_comm]
  congr 1
  rw [mul_sum]
  refine sum_congr rfl fun s _ => ?_
  rw [mul_sum]
  refine sum_congr rfl fun j _ => ?_
  have := lin_add C x (fun _ _ => 0) (fun _ _ => 0) V v t s j
  simp only [zero_add] at this
  rw [this, show lin C x (fun _ _ => 0) (fun _ _ => 0) s j = 0 by simp [lin]]
  ring

theorem cder_add (W b V v V' v' : Nat → Nat → ℝ) : cder N C K x g W b (fun k j => V k j + V' k j) (fun k j => v k j + v' k j) = cder N C K x g W b V v + cder N C K x g W b V' v' := by
  unfold cder
  rw [← mul_add, ← sum_add_distrib]
  congr 1
  refine sum_congr rfl fun s _ => ?_
  rw [← sum_add_distrib]
  refine sum_congr rfl fun j _ => ?_
  have := lin_add C x V v V' v' 1 s j
  simp only [one_mul] at this
  rw [this]
  ring

theorem lin_add_one (W b V v : Nat → Nat → ℝ) (s : Nat) :
    lin C x (fun k j => W k j + V k j) (fun k j => b k j + v k j) s = fun j => lin C x W b s j + lin C x V v s j := funext fun j => by
  have := lin_add C x W b V v 1 s j
  simp only [one_mul] at this
  exact this

theorem cerr_lower (hl : ∀ s, s < N → Link K c (ℓ s) (g s)) (W b V v : Nat → Nat → ℝ) :
    cerr N C x ℓ W b + cder N C K x g W b V v ≤ cerr N C x ℓ (fun k j => W k j + V k j) (fun k j => b k j + v k j) := by
  unfold cerr cder
  rw [← mul_add, ← sum_add_distrib]
  refine mul_le_mul_of_nonneg_left (sum_le_sum fun s hs => ?_) (by positivity)
  rw [lin_add_one]
  exact (hl s (mem_range.1 hs)).lower _ _

theorem cerr_upper (hl : ∀ s, s < N → Link K c (ℓ s) (g s)) (W b V v : Nat → Nat → ℝ) :
    cerr N C x ℓ (fun k j => W k j + V k j) (fun k j => b k j + v k j) ≤ cerr N C x ℓ W b + cder N C K x g W b V v + quad c N C K x V v := by
  unfold cerr cder quad
  rw [← mul_add, ← sum_add_distrib, ← mul_add, ← sum_add_distrib]
  refine mul_le_mul_of_nonneg_left (sum_le_sum fun s hs => ?_) (by positivity)
  rw [lin_add_one]
  refine ((hl s (mem_range.1 hs)).upper _ _).trans (le_of_eq ?_)
  rw [mul_sum]
  congr 1
  exact sum_congr rfl fun j _ => by ring

theorem quad_smul (V v : Nat → Nat → ℝ) (t : ℝ) : quad c N C K x (fun k j => t * V k j) (fun k j => t * v k j) = t ^ 2 * quad c N C K x V v := by
  unfold quad
  rw [mul_left_comm]
  congr 1
  rw [mul_sum]
  refine sum_congr rfl fun s _ => ?_
  rw [mul_sum]
  refine sum_congr rfl fun j _ => ?_
  have := lin_add C x (fun _ _ => 0) (fun _ _ => 0) V v t s j
  simp only [zero_add] at this
  rw [this, show lin C x (fun _ _ => 0) (fun _ _ => 0) s j = 0 by simp [lin]]
  ring

/-- What lies between its tangent and a parabola has the slope of the tangent. -/
theorem hasDeriv_of_between {f : ℝ → ℝ} {p r : ℝ} (h1 : ∀ t, f 0 + t * p ≤ f t) (h2 : ∀ t, f t ≤ f 0 + t * p + t ^ 2 * r) : HasDerivAt f p 0 := by
  rw [hasDerivAt_iff_isLittleO_nhds_zero]
  have hO : (fun h : ℝ => f (0 + h) - f 0 - h • p) =O[nhds 0] fun h : ℝ => h ^ 2 := by
    refine Asymptotics.IsBigO.of_bound |r| (Filter.Eventually.of_forall fun h => ?_)
    rw [zero_add, smul_eq_mul, Real.norm_eq_abs, Real.norm_eq_abs, abs_of_nonneg (sq_nonneg h), abs_of_nonneg (by have := h1 h; linarith)]
    have := h2 h
    nlinarith [le_abs_self r, sq_nonneg h]
  exact hO.trans_isLittleO (by simpa using (Asymptotics.isLittleO_pow_pow (𝕜 := ℝ) one_lt_two))

theorem cerr_hasDeriv (hl : ∀ s, s < N → Link K c (ℓ s) (g s)) (W b V v : Nat → Nat → ℝ) :
    HasDerivAt (fun t : ℝ => cerr N C x ℓ (fun k j => W k j + t * V k j) (fun k j => b k j + t * v k j)) (cder N C K x g W b V v) 0 := by
  refine hasDeriv_of_between (r := quad c N C K x V v) (fun t => ?_) fun t => ?_
  · have := cerr_lower (C := C) (x := x) hl W b (fun k j => t * V k j) (fun k j => t * v k j)
    rw [cder_smul] at this
    simpa using this
  · have := cerr_upper (C := C) (x := x) hl W b (fun k j => t * V k j) (fun k j => t * v k j)
    rw [cder_smul, quad_smul] at this
    simpa using this

/-- The gradients with respect to the weights and the biases give the derivative in all directions. -/
theorem cder_eq (hl : ∀ s, s < N → Link K c (ℓ s) (g s)) {W b G h : Nat → Nat → ℝ} (hG : IsGrad C K (fun P => cerr N C x ℓ P b) W G)
    (hh : IsGrad 1 K (fun P => cerr N C x ℓ W P) b h) (V v : Nat → Nat → ℝ) : cder N C K x g W b V v = dotM C K G V + dotM 1 K h v := by
  have h0 := cder_add (N := N) (C := C) (K := K) (x := x) (g := g) W b V (fun _ _ => 0) (fun _ _ => 0) v
  simp only [add_zero, zero_add] at h0
  rw [h0]
  have h1 := cerr_hasDeriv (C := C) (x := x) hl W b V (fun _ _ => 0)
  have h2 := cerr_hasDeriv (C := C) (x := x) hl W b (fun _ _ => 0) v
  simp only [mul_zero, add_zero] at h1 h2
  rw [h1.unique (hG V), h2.unique (hh v)]

/-- One step of gradient descent that is not too long. -/
theorem cstep (hl : ∀ s, s < N → Link K c (ℓ s) (g s)) (hc : 0 ≤ c) {W b G h : Nat → Nat → ℝ} (hG : IsGrad C K (fun P => cerr N C x ℓ P b) W G)
    (hh : IsGrad 1 K (fun P => cerr N C x ℓ W P) b h) {t : ℝ} (ht : 0 < t) (hL : t * (c * ((∑ s ∈ range N, (∑ k ∈ range C, x s k ^ 2 + 1)) / N)) ≤ 1) :
    cerr N C x ℓ (fun k j => W k j - t * G k j) (fun k j => b k j - t * h k j) ≤ cerr N C x ℓ W b - t / 2 * norm2 C K G h ∧
    ∀ V v : Nat → Nat → ℝ, 2 * t * (cerr N C x ℓ (fun k j => W k j - t * G k j) (fun k j => b k j - t * h k j) - cerr N C x ℓ V v) ≤
      norm2 C K (fun k j => W k j - V k j) (fun k j => b k j - v k j) - norm2 C K (fun k j => W k j - t * G k j - V k j) (fun k j => b k j - t * h k j - v k j) := by
  have hn : 0 ≤ norm2 C K G h := add_nonneg (sum_nonneg fun _ _ => sum_nonneg fun _ _ => mul_self_nonneg _) (sum_nonneg fun _ _ => sum_nonneg fun _ _ => mul_self_nonneg _)
  have e1 := cerr_upper (C := C) (x := x) hl W b (fun k j => -t * G k j) (fun k j => -t * h k j)
  rw [cder_smul, quad_smul, cder_eq hl hG hh, neg_pow_two] at e1
  simp only [neg_mul, ← sub_eq_add_neg] at e1
  rw [show dotM C K G G + dotM 1 K h h = norm2 C K G h from rfl] at e1
  have h1 := quad_le c N C K x hc G h
  generalize hS : c * ((∑ s ∈ range N, (∑ k ∈ range C, x s k ^ 2 + 1)) / N) = S at hL h1
  have h2 : t ^ 2 * quad c N C K x G h ≤ t / 2 * norm2 C K G h := by
    calc t ^ 2 * quad c N C K x G h ≤ t ^ 2 * (S / 2 * norm2 C K G h) := mul_le_mul_of_nonneg_left h1 (by positivity)
      _ = t * S * (t / 2 * norm2 C K G h) := by ring
      _ ≤ 1 * (t / 2 * norm2 C K G h) := mul_le_mul_of_nonneg_right hL (by positivity)
      _ = _ := one_mul _
  have h3 : cerr N C x ℓ (fun k j => W k j - t * G k j) (fun k j => b k j - t * h k j) ≤ cerr N C x ℓ W b - t / 2 * norm2 C K G h := by linarith
  refine ⟨h3, fun V v => ?_⟩
  have e2 := cerr_lower (C := C) (x := x) hl W b (fun k j => V k j - W k j) (fun k j => v k j - b k j)
  rw [cder_eq hl hG hh] at e2
  simp only [add_sub_cancel] at e2
  have h5 : norm2 C K (fun k j => W k j - t * G k j - V k j) (fun k j => b k j - t * h k j - v k j) = norm2 C K (fun k j => W k j - V k j) (fun k j => b k j - v k j) +
      2 * t * (dotM C K G (fun k j => V k j - W k j) + dotM 1 K h fun k j => v k j - b k j) + t ^ 2 * norm2 C K G h := by
    unfold norm2
    rw [dist_step, dist_step]
    ring
  rw [h5]
  nlinarith [mul_le_mul_of_nonneg_left h3 ht.le, mul_le_mul_of_nonneg_left e2 ht.le]

end BeeDNN.Linear
