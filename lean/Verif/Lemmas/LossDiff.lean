import Verif.Lemmas.Loss
import Mathlib.Analysis.SpecialFunctions.Trigonometric.DerivHyp
import Mathlib.Analysis.SpecialFunctions.Sqrt
import Mathlib.Analysis.Calculus.Deriv.Abs
import Mathlib.Analysis.Calculus.Deriv.Pow

/-! # The nine losses on differences, elementwise -/

namespace BeeDNN
open Finset Filter Topology

/-- `compute` reduces `φ` of the differences over the samples (divided by `red N`), `compute_gradient` applies
`ψ C` to the differences, and balancing multiplies each gradient row by the weight of its class. -/
structure IsDiffLoss (ℓ : LossFn) (red : Nat → ℝ) (φ : ℝ → ℝ) (ψ : Nat → ℝ → ℝ) : Prop where
  compute : ∀ (N C : Nat) (p t : Nat → Nat → ℝ) (w o : Mat ℝ), w.size = 0 → o.WF →
    ℓ.compute w (Mat.ofFn N C p) (Mat.ofFn N C t) o =
      .ok (Mat.ofFn 1 C (fun _ j => (∑ i ∈ range N, φ (p i j - t i j)) / red N))
  gradient : ∀ (N C : Nat) (p t : Nat → Nat → ℝ) (w o : Mat ℝ), w.size = 0 → o.WF →
    ℓ.gradient w (Mat.ofFn N C p) (Mat.ofFn N C t) o = .ok (Mat.ofFn N C (fun i j => ψ C (p i j - t i j)))
  balanced : ∀ (N C K : Nat) (p t W : Nat → Nat → ℝ) (o : Mat ℝ), o.WF → 0 < K → K ≤ 2147483648 →
    ∀ cls : Nat → Nat, (∀ i, i < N → (Mat.ofFn N C t).getI i = .ok (cls i : ℝ)) → (∀ i, i < N → cls i < K) →
    ℓ.gradient (Mat.ofFn K 1 W) (Mat.ofFn N C p) (Mat.ofFn N C t) o =
      .ok (Mat.ofFn N C (fun i j => ψ C (p i j - t i j) * W (cls i) 0))
  mismatch : ∀ w p t o, t.cols ≠ p.cols ∨ t.rows ≠ p.rows →
    ℓ.compute w p t o = .error .assertFail ∧ ℓ.gradient w p t o = .error .assertFail

theorem isDiffLoss_mean (g : Nat → ℝ) {ℓ : LossFn} {pre : Mat ℝ → Out (Mat ℝ)}
    {post : Mat ℝ → Mat ℝ → Out (Mat ℝ)}
    {φ : ℝ → ℝ} {ψ : Nat → ℝ → ℝ} (hc : ℓ.compute = diffCompute g pre (Mat.colWiseMean g))
    (hg : ∀ w p t o, ℓ.gradient w p t o = diffGradient g (post p) w p t o)
    (hpre : ∀ N C d, pre (Mat.ofFn N C d) = .ok (Mat.ofFn N C (fun i j => φ (d i j))))
    (hpost : ∀ N C p d, post (Mat.ofFn N C p) (Mat.ofFn N C d) = .ok (Mat.ofFn N C (fun i j => ψ C (d i j)))) :
    IsDiffLoss ℓ (fun N => (N : ℝ)) φ ψ where
  compute N C p t w o hw ho := by rw [hc]; exact diffCompute_mean g (hpre N C) hw ho p t
  gradient N C p t w o hw ho := by rw [hg]; exact diffGradient_ofFn g (hpost N C p) hw ho p t
  balanced N C K p t W o ho hK hK2 cls h1 h2 := by
    rw [hg]; exact diffGradient_balanced g (hpost N C p) ho p t W hK hK2 h1 h2
  mismatch w p t o h := by
    rw [hc, hg]
    exact ⟨diff_mismatch h _, diff_mismatch h _⟩

theorem isDiffLoss_sum (g : Nat → ℝ) {ℓ : LossFn} {pre : Mat ℝ → Out (Mat ℝ)}
    {post : Mat ℝ → Mat ℝ → Out (Mat ℝ)}
    {φ : ℝ → ℝ} {ψ : Nat → ℝ → ℝ} (hc : ℓ.compute = diffCompute g pre (Mat.colWiseSum g))
    (hg : ∀ w p t o, ℓ.gradient w p t o = diffGradient g (post p) w p t o)
    (hpre : ∀ N C d, pre (Mat.ofFn N C d) = .ok (Mat.ofFn N C (fun i j => φ (d i j))))
    (hpost : ∀ N C p d, post (Mat.ofFn N C p) (Mat.ofFn N C d) = .ok (Mat.ofFn N C (fun i j => ψ C (d i j)))) :
    IsDiffLoss ℓ (fun _ => 1) φ ψ where
  compute N C p t w o hw ho := by
    rw [hc, diffCompute_sum g (hpre N C) hw ho p t]
    simp only [div_one]
  gradient N C p t w o hw ho := by rw [hg]; exact diffGradient_ofFn g (hpost N C p) hw ho p t
  balanced N C K p t W o ho hK hK2 cls h1 h2 := by
    rw [hg]; exact diffGradient_balanced g (hpost N C p) ho p t W hK hK2 h1 h2
  mismatch w p t o h := by
    rw [hc, hg]
    exact ⟨diff_mismatch h _, diff_mismatch h _⟩

variable (g : Nat → ℝ) (ab : ℝ → ℝ)

theorem isDiff_MSE : IsDiffLoss (lossMSE g) (fun N => (N : ℝ)) (fun x => x * x) (fun C x => x / C) :=
  isDiffLoss_mean g (post := fun p d => d.divScalar (p.cols : ℝ)) rfl (fun _ _ _ _ => rfl)
    (fun _ _ _ => Mat.cwise_ofFn _ _ _ _) (fun _ _ _ _ => Mat.divScalar_ofFn _ _ _ _)

theorem isDiff_Huber : IsDiffLoss (lossHuber g ab) (fun N => (N : ℝ))
    (fun x => if ab x < 1 then 0.5 * (ab x * ab x) else 1 * ab x - 0.5 * 1 * 1)
    (fun _ x => if x > 1 then 1 else if x < -1 then -1 else x) :=
  isDiffLoss_mean g (post := fun _ => _) rfl (fun _ _ _ _ => rfl)
    (fun N C d => by
      simp only [Mat.cwise_ofFn, bind_ok']
      rw [Mat.mapI_ofFn])
    (fun _ _ _ _ => Mat.mapI_ofFn _ _ _ _)

theorem isDiff_PseudoHuber : IsDiffLoss (lossPseudoHuber g) (fun N => (N : ℝ))
    (fun x => 1 * (Real.sqrt (x * x * 1 + 1) - 1)) (fun _ x => x / Real.sqrt (x * x * 1 + 1)) :=
  isDiffLoss_mean g (post := fun _ => _) rfl (fun _ _ _ _ => rfl)
    (fun N C d => by
      simp only [Mat.cwise_ofFn, bind_ok']
      rw [Mat.mapI_ofFn])
    (fun _ _ _ _ => Mat.mapI_ofFn _ _ _ _)

theorem isDiff_MCE : IsDiffLoss (lossMCE g ab) (fun N => (N : ℝ)) (fun x => ab (x * x * x))
    (fun _ x => 3 * x * x * (if x > 0 then 1 else -1)) :=
  isDiffLoss_mean g (post := fun _ => _) rfl (fun _ _ _ _ => rfl)
    (fun N C d => by simp only [Mat.cwise_ofFn, bind_ok'])
    (fun _ _ _ _ => Mat.mapI_ofFn _ _ _ _)

theorem isDiff_MAE : IsDiffLoss (lossMAE g ab) (fun N => (N : ℝ)) (fun x => ab x) (fun _ x => signR x) :=
  isDiffLoss_mean g (post := fun _ => _) rfl (fun _ _ _ _ => rfl)
    (fun _ _ _ => Mat.cwise_ofFn _ _ _ _) (fun _ _ _ _ => Mat.cwise_ofFn _ _ _ _)

theorem isDiff_L2 : IsDiffLoss (lossL2 g) (fun _ => 1) (fun x => x * x) (fun _ x => x) :=
  isDiffLoss_sum g (post := fun _ => _) rfl (fun _ _ _ _ => rfl)
    (fun _ _ _ => Mat.cwise_ofFn _ _ _ _) (fun _ _ _ _ => rfl)

theorem isDiff_L1 : IsDiffLoss (lossL1 g ab) (fun _ => 1) (fun x => ab x) (fun C x => signR x / C) :=
  isDiffLoss_sum g (post := fun p d => do
      let m ← d.cwise signR
      m.divScalar (p.cols : ℝ)) rfl (fun _ _ _ _ => rfl)
    (fun _ _ _ => Mat.cwise_ofFn _ _ _ _)
    (fun _ _ _ _ => by simp only [Mat.cwise_ofFn, bind_ok', Mat.divScalar_ofFn, Mat.ofFn_cols])

theorem isDiff_L3 : IsDiffLoss (lossL3 g ab) (fun _ => 1) (fun x => ab (x * x * x))
    (fun _ x => 3 * x * x * (if x > 0 then 1 else -1)) :=
  isDiffLoss_sum g (post := fun _ => _) rfl (fun _ _ _ _ => rfl)
    (fun N C d => by simp only [Mat.cwise_ofFn, bind_ok'])
    (fun _ _ _ _ => Mat.mapI_ofFn _ _ _ _)

theorem isDiff_LogCosh : IsDiffLoss (lossLogCosh g) (fun N => (N : ℝ)) (fun x => Real.log (Real.cosh x))
    (fun _ x => Real.tanh x) :=
  isDiffLoss_mean g (post := fun _ => _) rfl (fun _ _ _ _ => rfl)
    (fun N C d => by simp only [Mat.cwise_ofFn, bind_ok'])
    (fun _ _ _ _ => Mat.cwise_ofFn _ _ _ _)

/-! ### Sign of `φ` -/

theorem huber_nonneg (x : ℝ) :
    0 ≤ (if |x| < 1 then 0.5 * (|x| * |x|) else 1 * |x| - 0.5 * 1 * 1 : ℝ) ∧
    ((if |x| < 1 then 0.5 * (|x| * |x|) else 1 * |x| - 0.5 * 1 * 1 : ℝ) = 0 ↔ x = 0) := by
  split
  · constructor
    · positivity
    · constructor
      · intro h
        have : |x| = 0 := by
          have h' : |x| * |x| = 0 := by linarith
          exact mul_self_eq_zero.mp h'
        exact abs_eq_zero.mp this
      · rintro rfl; simp
  · next h =>
    constructor
    · linarith
    · constructor
      · intro h'; linarith
      · rintro rfl; simp at h

theorem pseudoHuber_nonneg (x : ℝ) : 0 ≤ (1 * (Real.sqrt (x * x * 1 + 1) - 1) : ℝ) ∧
    ((1 * (Real.sqrt (x * x * 1 + 1) - 1) : ℝ) = 0 ↔ x = 0) := by
  have h0 : 0 ≤ x * x := mul_self_nonneg x
  have h1 : 1 ≤ Real.sqrt (x * x * 1 + 1) := by
    rw [Real.one_le_sqrt]; linarith
  constructor
  · linarith
  · constructor
    · intro h
      have h2 : Real.sqrt (x * x * 1 + 1) = 1 := by linarith
      rw [Real.sqrt_eq_one] at h2
      have : x * x = 0 := by linarith
      exact mul_self_eq_zero.mp this
    · rintro rfl; simp

theorem cube_nonneg (x : ℝ) : 0 ≤ |x * x * x| ∧ (|x * x * x| = 0 ↔ x = 0) :=
  ⟨abs_nonneg _, by simp⟩

theorem logCosh_nonneg (x : ℝ) : 0 ≤ Real.log (Real.cosh x) ∧ (Real.log (Real.cosh x) = 0 ↔ x = 0) := by
  have h := Real.one_le_cosh x
  constructor
  · exact Real.log_nonneg h
  · constructor
    · intro h'
      by_contra hne
      have := Real.one_lt_cosh.mpr hne
      have := Real.log_pos this
      linarith
    · rintro rfl; simp

/-! ### Derivatives of `φ` -/

theorem hasDerivAt_glue {f f1 f2 : ℝ → ℝ} {a d : ℝ} (h1 : HasDerivAt f1 d a) (h2 : HasDerivAt f2 d a)
    (e1 : ∀ᶠ y in 𝓝 a, y ≤ a → f y = f1 y) (e2 : ∀ᶠ y in 𝓝 a, a ≤ y → f y = f2 y) : HasDerivAt f d a := by
  have l : HasDerivWithinAt f d (Set.Iic a) a := by
    refine (h1.hasDerivWithinAt (s := Set.Iic a)).congr_of_eventuallyEq ?_ (e1.self_of_nhds (le_refl _))
    rw [Filter.EventuallyEq, eventually_nhdsWithin_iff]
    exact e1
  have r : HasDerivWithinAt f d (Set.Ici a) a := by
    refine (h2.hasDerivWithinAt (s := Set.Ici a)).congr_of_eventuallyEq ?_ (e2.self_of_nhds (le_refl _))
    rw [Filter.EventuallyEq, eventually_nhdsWithin_iff]
    exact e2
  have := l.union r
  rw [Set.Iic_union_Ici] at this
  exact this.hasDerivAt (by simp)

theorem hasDerivAt_mulSelf (x : ℝ) : HasDerivAt (fun y : ℝ => y * y) (2 * x) x := by
  have := (hasDerivAt_id x).mul (hasDerivAt_id x)
  refine this.congr_deriv ?_
  simp; ring

theorem hasDerivAt_huber (x : ℝ) :
    HasDerivAt (fun x : ℝ => (if |x| < 1 then 0.5 * (|x| * |x|) else 1 * |x| - 0.5 * 1 * 1 : ℝ))
      (if x > 1 then 1 else if x < -1 then -1 else x) x := by
  have hq : ∀ y : ℝ, HasDerivAt (fun y : ℝ => 0.5 * (y * y)) y y := fun y =>
    ((hasDerivAt_mulSelf y).const_mul (0.5 : ℝ)).congr_deriv (by ring)
  have hr : ∀ y : ℝ, HasDerivAt (fun y : ℝ => y - 0.5) 1 y := fun y => (hasDerivAt_id y).sub_const 0.5
  have hl : ∀ y : ℝ, HasDerivAt (fun y : ℝ => -y - 0.5) (-1) y := fun y => (hasDerivAt_neg y).sub_const 0.5
  have eq_q : ∀ y : ℝ, -1 ≤ y → y ≤ 1 →
      (if |y| < 1 then 0.5 * (|y| * |y|) else 1 * |y| - 0.5 * 1 * 1 : ℝ) = 0.5 * (y * y) := by
    intro y ha hb
    split
    · rw [abs_mul_abs_self]
    · next h =>
      have : |y| = 1 := le_antisymm (abs_le.mpr ⟨ha, hb⟩) (not_lt.mp h)
      rw [← abs_mul_abs_self y, this]; norm_num
  have eq_r : ∀ y : ℝ, 1 ≤ y →
      (if |y| < 1 then 0.5 * (|y| * |y|) else 1 * |y| - 0.5 * 1 * 1 : ℝ) = y - 0.5 := by
    intro y ha
    rw [abs_of_nonneg (by linarith), if_neg (by linarith)]; ring
  have eq_l : ∀ y : ℝ, y ≤ -1 →
      (if |y| < 1 then 0.5 * (|y| * |y|) else 1 * |y| - 0.5 * 1 * 1 : ℝ) = -y - 0.5 := by
    intro y ha
    rw [abs_of_nonpos (by linarith), if_neg (by linarith)]; ring
  rcases lt_trichotomy x 1 with h1 | h1 | h1
  · rw [if_neg (by linarith)]
    rcases lt_trichotomy x (-1) with h2 | h2 | h2
    · rw [if_pos h2]
      refine (hl x).congr_of_eventuallyEq ?_
      filter_upwards [eventually_lt_nhds h2] with y hy
      exact eq_l y hy.le
    · subst h2
      rw [if_neg (lt_irrefl _)]
      refine hasDerivAt_glue (hl (-1)) (hq (-1)) (Eventually.of_forall fun y hy => eq_l y hy) ?_
      filter_upwards [eventually_lt_nhds h1] with y hy hy'
      exact eq_q y hy' hy.le
    · rw [if_neg (by linarith)]
      refine (hq x).congr_of_eventuallyEq ?_
      filter_upwards [eventually_lt_nhds h1, eventually_gt_nhds h2] with y hy hy'
      exact eq_q y hy'.le hy.le
  · subst h1
    rw [if_neg (lt_irrefl _), if_neg (by norm_num)]
    refine hasDerivAt_glue (hq 1) (hr 1) ?_ (Eventually.of_forall fun y hy => eq_r y hy)
    filter_upwards [eventually_gt_nhds (show (-1:ℝ) < 1 by norm_num)] with y hy hy'
    exact eq_q y hy.le hy'
  · rw [if_pos h1]
    refine (hr x).congr_of_eventuallyEq ?_
    filter_upwards [eventually_gt_nhds h1] with y hy
    exact eq_r y hy.le

theorem hasDerivAt_pseudoHuber (x : ℝ) :
    HasDerivAt (fun x : ℝ => (1 * (Real.sqrt (x * x * 1 + 1) - 1) : ℝ)) (x / Real.sqrt (x * x * 1 + 1)) x := by
  have h0 : 0 < x * x * 1 + 1 := by have := mul_self_nonneg x; linarith
  have h1 : HasDerivAt (fun y : ℝ => y * y * 1 + 1) (2 * x) x := by
    have := ((hasDerivAt_mulSelf x).mul_const 1).add_const 1
    exact this.congr_deriv (by ring)
  have h2 := ((h1.sqrt h0.ne').sub_const 1).const_mul 1
  refine h2.congr_deriv ?_
  have : Real.sqrt (x * x * 1 + 1) ≠ 0 := (Real.sqrt_pos.mpr h0).ne'
  field_simp

theorem hasDerivAt_absCube (x : ℝ) :
    HasDerivAt (fun x : ℝ => |x * x * x|) (3 * x * x * (if x > 0 then 1 else -1)) x := by
  have hc : ∀ y : ℝ, HasDerivAt (fun y : ℝ => y * y * y) (3 * y * y) y := fun y =>
    ((hasDerivAt_mulSelf y).mul (hasDerivAt_id y)).congr_deriv (by simp; ring)
  have hn : ∀ y : ℝ, HasDerivAt (fun y : ℝ => -(y * y * y)) (-(3 * y * y)) y := fun y => (hc y).neg
  have e1 : ∀ y : ℝ, 0 ≤ y → |y * y * y| = y * y * y := fun y hy => abs_of_nonneg (by positivity)
  have e2 : ∀ y : ℝ, y ≤ 0 → |y * y * y| = -(y * y * y) := fun y hy =>
    abs_of_nonpos (mul_nonpos_of_nonneg_of_nonpos (mul_self_nonneg y) hy)
  rcases lt_trichotomy x 0 with h | h | h
  · rw [if_neg (by linarith)]
    refine ((hn x).congr_deriv (by ring)).congr_of_eventuallyEq ?_
    filter_upwards [eventually_lt_nhds h] with y hy
    exact e2 y hy.le
  · subst h
    refine hasDerivAt_glue ((hn 0).congr_deriv (by simp)) ((hc 0).congr_deriv (by simp))
      (Eventually.of_forall fun y hy => e2 y hy) (Eventually.of_forall fun y hy => e1 y hy)
  · rw [if_pos h, mul_one]
    refine (hc x).congr_of_eventuallyEq ?_
    filter_upwards [eventually_gt_nhds h] with y hy
    exact e1 y hy.le

theorem hasDerivAt_absR {x : ℝ} (hx : x ≠ 0) : HasDerivAt (fun x : ℝ => |x|) (signR x) x := by
  unfold signR
  rcases lt_or_gt_of_ne hx with h | h
  · rw [if_neg (by linarith)]; exact hasDerivAt_abs_neg h
  · rw [if_pos h.le]; exact hasDerivAt_abs_pos h

theorem hasDerivAt_logCosh (x : ℝ) : HasDerivAt (fun x : ℝ => Real.log (Real.cosh x)) (Real.tanh x) x := by
  have := (Real.hasDerivAt_cosh x).log (Real.cosh_pos x).ne'
  rwa [← Real.tanh_eq_sinh_div_cosh] at this

end BeeDNN
