import Verif.Lemmas.LayersRect
import Verif.Props.LayersMisc
import Verif.Props.LayersBasic
import Mathlib.Analysis.SpecialFunctions.ExpDeriv

/-!
# Time-distributed layers and rectifiers (claims C42, C46, C87, C88, C89)

`N` samples of `T` frames of `F` values each; frame `t` of a sample is columns `t*F, …, t*F+F-1`.
-/

namespace BeeDNN
open Finset

variable {α : Type}

/-! ## C42 -/

/-- C42: the bias layer adds the bias to each frame of each sample. -/
theorem C42_bias [Zero α] [Add α] (g : Nat → α) (mOut : Mat α) (ho : mOut.WF) (N T F : Nat) (hF : 0 < F)
    (b x : Nat → Nat → α) :
    ∃ y : Nat → Nat → α, tdBiasForward g F (Mat.ofFn 1 F b) (Mat.ofFn N (T * F) x) mOut = .ok (Mat.ofFn N (T * F) y) ∧
      ∀ s t k, s < N → t < T → k < F → y s (t * F + k) = x s (t * F + k) + b 0 k := by
  refine ⟨_, tdBiasForward_ofFn g ho N T F hF b x, ?_⟩
  intro s t k _ _ hk
  rw [idx_mod hk]

/-- C42: the dense layer applies the dense map to each frame of each sample: the output has
`T*O` columns, and frame `t` of it is what the ordinary dense layer computes from frame `t` of the input. -/
theorem C42_dense [Zero α] [Add α] [Mul α] (g : Nat → α) (mOut : Mat α) (ho : mOut.WF) (N T F O : Nat) (hF : 0 < F)
    (W b x : Nat → Nat → α) :
    ∃ y : Nat → Nat → α, tdDenseForward g F O (Mat.ofFn F O W) (Mat.ofFn 1 O b) (Mat.ofFn N (T * F) x) mOut =
        .ok (Mat.ofFn N (T * O) y) ∧
      ∀ s t, s < N → t < T →
        denseForward g (Mat.ofFn F O W) (Mat.ofFn 1 O b) (Mat.ofFn 1 F (fun _ k => x s (t * F + k))) ⟨0, 0, []⟩ =
          .ok (Mat.ofFn 1 O (fun _ o => y s (t * O + o))) := by
  refine ⟨_, tdDenseForward_ofFn g ho N T F O hF W b x, ?_⟩
  intro s t _ _
  rw [denseForward_ofFn g 1 F O _ W b (by rfl)]
  congr 1
  apply Mat.ofFn_congr
  intro i o _ ho
  rw [idx_mod ho, idx_div ho]

/-- C42 for the dot layer. -/
theorem C42_dot [Zero α] [Add α] [Mul α] (g : Nat → α) (mOut : Mat α) (ho : mOut.WF) (N T F O : Nat) (hF : 0 < F)
    (W x : Nat → Nat → α) :
    ∃ y : Nat → Nat → α, tdDotForward g F O (Mat.ofFn F O W) (Mat.ofFn N (T * F) x) mOut =
        .ok (Mat.ofFn N (T * O) y) ∧
      ∀ s t, s < N → t < T →
        dotForward g (Mat.ofFn F O W) (Mat.ofFn 1 F (fun _ k => x s (t * F + k))) ⟨0, 0, []⟩ =
          .ok (Mat.ofFn 1 O (fun _ o => y s (t * O + o))) := by
  refine ⟨_, tdDotForward_ofFn g ho N T F O hF W x, ?_⟩
  intro s t _ _
  rw [dotForward_ofFn g 1 F O _ W (by rfl)]
  congr 1
  apply Mat.ofFn_congr
  intro i o _ ho
  rw [idx_mod ho, idx_div ho]

/-- C42: a frame size of 0 is a division by zero; a sample length that is no multiple of the frame size fails
an assertion. -/
theorem C42_bad_frames [Zero α] [Add α] [Mul α] (g : Nat → α) (w b mIn mOut : Mat α) (F O : Nat) :
    (tdDenseForward g 0 O w b mIn mOut = .error .divByZero ∧ tdDotForward g 0 O w mIn mOut = .error .divByZero) ∧
    (0 < F → 0 < mIn.rows → mIn.cols % F ≠ 0 →
      tdDenseForward g F O w b mIn mOut = .error .assertFail ∧ tdDotForward g F O w mIn mOut = .error .assertFail) := by
  refine ⟨⟨rfl, rfl⟩, ?_⟩
  intro hF hR hC
  have h : ¬ mIn.size = mIn.cols / F * mIn.rows * F := by
    intro h
    have h2 : mIn.rows * mIn.cols = mIn.rows * (mIn.cols / F * F) := by
      calc mIn.rows * mIn.cols = mIn.size := rfl
        _ = _ := by rw [h]; ring
    have h3 := Nat.eq_of_mul_eq_mul_left hR h2
    have h4 := Nat.div_add_mod mIn.cols F
    rw [Nat.mul_comm F] at h4
    omega
  have hv : mIn.viewResize (mIn.cols / F * mIn.rows) F = .error .assertFail := by
    unfold Mat.viewResize
    rw [check_false h]
    rfl
  unfold tdDenseForward tdDotForward
  rw [if_neg (by omega), if_neg (by omega)]
  constructor
  · show (mIn.viewResize (mIn.cols / F * mIn.rows) F >>= _) = _
    rw [hv]; rfl
  · show (mIn.viewResize (mIn.cols / F * mIn.rows) F >>= _) = _
    rw [hv]; rfl

example : tdDenseForward (fun _ => (9 : Int)) 2 1 ⟨2, 1, [1, 10]⟩ ⟨1, 1, [100]⟩ ⟨2, 4, [1, 2, 3, 4, 5, 6, 7, 8]⟩ ⟨0, 0, []⟩ =
    .ok ⟨2, 2, [121, 143, 165, 187]⟩ := by decide

/-! ## C87 -/

/-- Sum over all frames of all samples, one frame after the other. -/
theorem sum_frames (N T O : Nat) (f : Nat → Nat → ℝ) :
    ∑ p ∈ range (T * N), ∑ o ∈ range O, f (p / T) (p % T * O + o) = ∑ s ∈ range N, ∑ j ∈ range (T * O), f s j := by
  rw [Nat.mul_comm T N, sum_range_mul N T (fun s t => ∑ o ∈ range O, f s (t * O + o))]
  apply sum_congr rfl
  intro s _
  rw [← sum_range_mul T O (fun t o => f s (t * O + o))]
  apply sum_congr rfl
  intro j _
  congr 1
  rw [Nat.mul_comm]; exact Nat.div_add_mod j O

theorem dotM_frames (N T F O : Nat) (x W b gr : Nat → Nat → ℝ) :
    dotM (T * N) O (fun p j => gr (p / T) (p % T * O + j)) (affineOut F (fun p k => x (p / T) (p % T * F + k)) W b) =
      dotM N (T * O) gr (tdOut F O x W b) := by
  unfold dotM
  rw [← sum_frames N T O (fun s j => gr s j * tdOut F O x W b s j)]
  apply sum_congr rfl; intro p _
  apply sum_congr rfl; intro o ho
  unfold tdOut affineOut
  rw [idx_div (mem_range.mp ho), idx_mod (mem_range.mp ho)]

/-- C87: the weight gradient of the time-distributed dot and dense layers is the gradient of the batch
average of `⟨gr, output⟩`, and the input gradient the gradient of `⟨gr, output⟩`. -/
theorem C87_weight_and_input (g : Nat → ℝ) (dense : Bool) (N T F O : Nat) (hF : 0 < F) (hO : 0 < O)
    (W b x gr : Nat → Nat → ℝ) (old : Grads ℝ) (h1 : old.gW.WF) (h2 : old.gB.WF) (h3 : old.gIn.WF) :
    ∃ (gW gIn : Nat → Nat → ℝ) (gB : Mat ℝ),
      tdDenseBackward g dense false F O (Mat.ofFn F O W) (Mat.ofFn N (T * F) x) (Mat.ofFn N (T * O) gr) old =
        .ok ⟨Mat.ofFn F O gW, gB, Mat.ofFn N (T * F) gIn⟩ ∧
      IsGrad F O (fun W => (1 / (N : ℝ)) * dotM N (T * O) gr (tdOut F O x W b)) W gW ∧
      IsGrad N (T * F) (fun x => dotM N (T * O) gr (tdOut F O x W b)) x gIn := by
  have h := tdDenseBackward_ofFn g dense false N T F O hF hO W x gr h1 h2 h3
  simp only [Bool.false_eq_true, if_false] at h
  refine ⟨_, _, _, h, ?_, ?_⟩
  · have e := weight_grad (1 / (N : ℝ)) (T * N) F O (fun p k => x (p / T) (p % T * F + k)) W b
      (fun p j => gr (p / T) (p % T * O + j))
    simp only [dotM_frames] at e
    simp only [accN_eq_sum]
    exact e
  · simp only [accN_eq_sum]
    intro V
    have e := input_grad (T * N) F O (fun p k => x (p / T) (p % T * F + k)) W b
      (fun p j => gr (p / T) (p % T * O + j)) (fun p k => V (p / T) (p % T * F + k))
    have e2 : dotM (T * N) F (fun p k => ∑ j ∈ range O, gr (p / T) (p % T * O + j) * W k j)
        (fun p k => V (p / T) (p % T * F + k)) =
        dotM N (T * F) (fun s k => ∑ j ∈ range O, gr s (k / F * O + j) * W (k % F) j) V := by
      unfold dotM
      rw [← sum_frames N T F (fun s k => (∑ j ∈ range O, gr s (k / F * O + j) * W (k % F) j) * V s k)]
      apply sum_congr rfl; intro p _
      apply sum_congr rfl; intro k hk
      rw [idx_div (mem_range.mp hk), idx_mod (mem_range.mp hk)]
    rw [e2] at e
    refine e.congr_of_eventuallyEq (Filter.Eventually.of_forall fun t => ?_)
    exact (dotM_frames N T F O (fun i j => x i j + t * V i j) W b gr).symm

/-- C87, violated for the bias: the bias gradient of the dense layer is the true gradient divided by the number
of frames. -/
theorem C87_bias_partial (g : Nat → ℝ) (N T F O : Nat) (hF : 0 < F) (hO : 0 < O) (W b x gr : Nat → Nat → ℝ)
    (old : Grads ℝ) (h1 : old.gW.WF) (h2 : old.gB.WF) (h3 : old.gIn.WF) :
    ∃ (gW gIn : Mat ℝ) (gB : Nat → Nat → ℝ),
      tdDenseBackward g true false F O (Mat.ofFn F O W) (Mat.ofFn N (T * F) x) (Mat.ofFn N (T * O) gr) old =
        .ok ⟨gW, Mat.ofFn 1 O gB, gIn⟩ ∧
      IsGrad 1 O (fun b => (1 / (T : ℝ)) * ((1 / (N : ℝ)) * dotM N (T * O) gr (tdOut F O x W b))) b gB := by
  have h := tdDenseBackward_ofFn g true false N T F O hF hO W x gr h1 h2 h3
  simp only [Bool.false_eq_true, if_false, if_true] at h
  refine ⟨_, _, _, h, ?_⟩
  have e := bias_grad (T * N) O (fun p j => ∑ k ∈ range F, x (p / T) (p % T * F + k) * W k j) b
      (fun p j => gr (p / T) (p % T * O + j)) (1 / (T : ℝ) * (1 / (N : ℝ)))
  have e3 : ∀ b : Nat → Nat → ℝ, dotM (T * N) O (fun p j => gr (p / T) (p % T * O + j)) (fun p j =>
      ∑ k ∈ range F, x (p / T) (p % T * F + k) * W k j + b 0 j) = dotM N (T * O) gr (tdOut F O x W b) :=
    fun b => dotM_frames N T F O x W b gr
  simp only [e3] at e
  simp only [accN_eq_sum, ← mul_assoc]
  have e4 : (fun (_ : Nat) j => (∑ i ∈ range (T * N), gr (i / T) (i % T * O + j)) / ((T * N : Nat) : ℝ)) =
      fun _ j => (∑ s ∈ range (T * N), gr (s / T) (s % T * O + j)) * (1 / (T : ℝ) * (1 / (N : ℝ))) := by
    funext _ j
    rw [Nat.cast_mul, div_eq_mul_one_div, one_div_mul_one_div]
  rw [e4]
  exact e

/-- C87, violated: with two frames or more the bias gradient is not the gradient of the batch average, as soon
as the true one is not zero. -/
theorem C87_bias_wrong (g : Nat → ℝ) (N T F O : Nat) (hF : 0 < F) (hO : 0 < O) (hT : 2 ≤ T) (W b x gr : Nat → Nat → ℝ)
    (old : Grads ℝ) (h1 : old.gW.WF) (h2 : old.gB.WF) (h3 : old.gIn.WF) (gW gIn : Mat ℝ) (gB G : Nat → Nat → ℝ)
    (hb : tdDenseBackward g true false F O (Mat.ofFn F O W) (Mat.ofFn N (T * F) x) (Mat.ofFn N (T * O) gr) old =
        .ok ⟨gW, Mat.ofFn 1 O gB, gIn⟩)
    (hG : IsGrad 1 O (fun b => (1 / (N : ℝ)) * dotM N (T * O) gr (tdOut F O x W b)) b G)
    (j : Nat) (hj : j < O) (hne : G 0 j ≠ 0) : gB 0 j = G 0 j / T ∧ gB 0 j ≠ G 0 j := by
  obtain ⟨gW', gIn', gB', hb', hg'⟩ := C87_bias_partial g N T F O hF hO W b x gr old h1 h2 h3
  rw [hb] at hb'
  have hB : Mat.ofFn 1 O gB = Mat.ofFn 1 O gB' := by
    have := Except.ok.inj hb'
    injection this
  have e1 : gB 0 j = gB' 0 j := Mat.ofFn_inj hB 0 j (by omega) hj
  have hG2 : IsGrad 1 O (fun b => (1 / (T : ℝ)) * ((1 / (N : ℝ)) * dotM N (T * O) gr (tdOut F O x W b))) b
      (fun i j => G i j / T) := by
    intro V
    refine ((hG V).const_mul (1 / (T : ℝ))).congr_deriv ?_
    unfold dotM
    simp only [mul_sum]
    apply sum_congr rfl; intro i _
    apply sum_congr rfl; intro k _
    ring
  have e2 := IsGrad.unique hg' hG2 (a := 0) (by omega) hj
  have hT0 : (T : ℝ) ≠ 0 := by positivity
  have e3 : gB 0 j = G 0 j / T := e1.trans e2
  refine ⟨e3, ?_⟩
  rw [e3]
  intro h
  rw [div_eq_iff hT0] at h
  have h5 : G 0 j * ((T : ℝ) - 1) = 0 := by linarith
  rcases mul_eq_zero.mp h5 with h6 | h6
  · exact hne h6
  · have : (2 : ℝ) ≤ T := by exact_mod_cast hT
    linarith

/-- C87 for the time-distributed bias layer: the input gradient is passed on; the bias gradient is the mean
over all frames and samples (`1/T` of the gradient of the batch average). -/
theorem C87_tdBias [Zero α] [Add α] [Div α] [NatCast α] (g : Nat → α) (N T F : Nat) (hF : 0 < F) (gr : Nat → Nat → α)
    (old : Grads α) (h2 : old.gB.WF) (h3 : old.gIn.WF) :
    tdBiasBackward g false F (Mat.ofFn N (T * F) gr) old =
      .ok ⟨old.gW, Mat.ofFn 1 F (fun _ j => accN (N * T) (fun p => gr (p / T) (p % T * F + j)) / ((N * T : Nat) : α)),
        Mat.ofFn N (T * F) gr⟩ := by
  rw [tdBiasBackward_ofFn g false N T F hF gr h2 h3]
  rfl

example : tdDenseBackward (fun _ => (9 : Rat)) true false 1 1 ⟨1, 1, [3]⟩ ⟨1, 2, [1, 2]⟩ ⟨1, 2, [10, 20]⟩ emptyGrads =
    .ok ⟨⟨1, 1, [50]⟩, ⟨1, 1, [15]⟩, ⟨1, 2, [30, 60]⟩⟩ := by decide +kernel

/-! ## C46: values -/

/-- C46: PRelu computes `x` or, for negative entries, `x` times the parameter of the column; the parameters do
not change. -/
theorem C46_prelu_forward (g : Nat → ℝ) (gw mOut : Mat ℝ) (ho : mOut.WF) (N C : Nat) (hC : 0 < C) (x w : Nat → Nat → ℝ) :
    preluForward g (Mat.ofFn 1 C w) gw (Mat.ofFn N C x) mOut =
      .ok (Mat.ofFn 1 C w, gw, Mat.ofFn N C (fun s j => preluFn (w 0 j) (x s j))) :=
  preluForward_ofFn g ho N C hC x w

/-- C46: a new PRelu layer creates its parameters, all 1/4, at the first call. -/
theorem C46_prelu_first (g : Nat → ℝ) (gw mOut : Mat ℝ) (ho : mOut.WF) (N C : Nat) (hC : 0 < C) (x : Nat → Nat → ℝ) :
    preluForward g ⟨0, 0, []⟩ gw (Mat.ofFn N C x) mOut =
      .ok (Mat.ofFn 1 C (fun _ _ => 0.25), gw.resize g 1 C, Mat.ofFn N C (fun s j => preluFn 0.25 (x s j))) :=
  preluForward_first g (w := ⟨0, 0, []⟩) (by rfl) rfl ho N C hC x

/-- C46: PELU. -/
theorem C46_pelu_forward (g : Nat → ℝ) (gw mOut : Mat ℝ) (ho : mOut.WF) (N C : Nat) (hC : 0 < C) (x w : Nat → Nat → ℝ) :
    peluForward g (Mat.ofFn 2 C w) gw (Mat.ofFn N C x) mOut =
      .ok (Mat.ofFn 2 C w, gw, Mat.ofFn N C (fun s j => peluFn (w 0 j) (w 1 j) (x s j))) :=
  peluForward_ofFn g ho N C hC x w

/-- C46: a new PELU layer starts with `a = b = 1`. -/
theorem C46_pelu_first (g : Nat → ℝ) (gw mOut : Mat ℝ) (ho : mOut.WF) (N C : Nat) (hC : 0 < C) (x : Nat → Nat → ℝ) :
    peluForward g ⟨0, 0, []⟩ gw (Mat.ofFn N C x) mOut =
      .ok (Mat.ofFn 2 C (fun _ _ => 1), gw.resize g 2 C, Mat.ofFn N C (fun s j => peluFn 1 1 (x s j))) :=
  peluForward_first g (w := ⟨0, 0, []⟩) (by rfl) rfl ho N C hC x

/-- C46: TERELU. -/
theorem C46_terelu_forward (g : Nat → ℝ) (alpha mu : ℝ) (gw mOut : Mat ℝ) (ho : mOut.WF) (N C : Nat) (hC : 0 < C)
    (x w : Nat → Nat → ℝ) :
    tereluForward g alpha mu (Mat.ofFn 1 C w) gw (Mat.ofFn N C x) mOut =
      .ok (Mat.ofFn 1 C w, gw, Mat.ofFn N C (fun s j => tereluFn alpha mu (w 0 j) (x s j))) :=
  tereluForward_ofFn g alpha mu ho N C hC x w

/-- C46: a new TERELU layer starts with `β = 1`. -/
theorem C46_terelu_first (g : Nat → ℝ) (alpha mu : ℝ) (gw mOut : Mat ℝ) (ho : mOut.WF) (N C : Nat) (hC : 0 < C)
    (x : Nat → Nat → ℝ) :
    tereluForward g alpha mu ⟨0, 0, []⟩ gw (Mat.ofFn N C x) mOut =
      .ok (Mat.ofFn 1 C (fun _ _ => 1), gw.resize g 1 C, Mat.ofFn N C (fun s j => tereluFn alpha mu 1 (x s j))) :=
  tereluForward_first g alpha mu (w := ⟨0, 0, []⟩) (by rfl) rfl ho N C hC x

/-- C46: RRelu in test mode has the mean of the two inverse parameters as negative slope, and keeps its state. -/
theorem C46_rrelu_test (g : Nat → ℝ) (alpha1 alpha2 : ℝ) (_h1 : alpha1 ≠ 0) (_h2 : alpha2 ≠ 0) (draw : Nat → ℝ)
    (slopes mOut : Mat ℝ) (ho : mOut.WF) (N C : Nat) (x : Nat → Nat → ℝ) :
    rreluForward g alpha1 alpha2 false draw slopes (Mat.ofFn N C x) mOut =
      .ok (slopes, Mat.ofFn N C (fun s j => preluFn ((1 / alpha1 + 1 / alpha2) / 2) (x s j))) := by
  rw [rreluForward_test g alpha1 alpha2 draw ho]
  norm_num [div_eq_mul_inv]

/-! ## C46: derivatives -/

theorem hasDerivAt_prelu (w x : ℝ) (hx : x ≠ 0) : HasDerivAt (preluFn w) (if x < 0 then w else 1) x := by
  rcases lt_or_gt_of_ne hx with h | h
  · rw [if_pos h]
    refine (((hasDerivAt_id x).mul_const w).congr_deriv (one_mul w)).congr_of_eventuallyEq ?_
    filter_upwards [Iio_mem_nhds h] with v hv
    exact if_pos hv
  · rw [if_neg (not_lt.mpr h.le)]
    refine (hasDerivAt_id x).congr_of_eventuallyEq ?_
    filter_upwards [Ioi_mem_nhds h] with v hv
    exact if_neg (not_lt.mpr (le_of_lt hv))

theorem hasDerivAt_expm1 (a b x : ℝ) : HasDerivAt (fun v => a * (Real.exp (v / b) - 1)) (a / b * Real.exp (x / b)) x := by
  have h := ((((hasDerivAt_id x).div_const b).exp).sub_const 1).const_mul a
  refine h.congr_deriv ?_
  simp only [id]
  ring

theorem hasDerivAt_pelu (a b x : ℝ) : HasDerivAt (peluFn a b)
    (if 0 < x then a / b else a / b * Real.exp (x / b)) x := by
  have hlin : HasDerivAt (fun v : ℝ => v * (a / b)) (a / b) x :=
    ((hasDerivAt_id x).mul_const (a / b)).congr_deriv (one_mul _)
  rcases lt_trichotomy x 0 with h | h | h
  · rw [if_neg (not_lt.mpr h.le)]
    refine (hasDerivAt_expm1 a b x).congr_of_eventuallyEq ?_
    filter_upwards [Iio_mem_nhds h] with v hv
    exact if_neg (not_lt.mpr (le_of_lt hv))
  · subst h
    rw [if_neg (lt_irrefl 0)]
    have e0 : a / b * Real.exp (0 / b) = a / b := by simp
    refine hasDerivAt_glue (hasDerivAt_expm1 a b 0) (hlin.congr_deriv e0.symm) ?_ ?_
    · exact Filter.Eventually.of_forall fun v hv => if_neg (not_lt.mpr hv)
    · refine Filter.Eventually.of_forall fun v hv => ?_
      rcases eq_or_lt_of_le hv with h | h
      · subst h; simp [peluFn]
      · exact if_pos h
  · rw [if_pos h]
    refine hlin.congr_of_eventuallyEq ?_
    filter_upwards [Ioi_mem_nhds h] with v hv
    exact if_pos hv

/-- TERELU with the parameters of the library (`α = μ = 1`) is differentiable except at 1, and at 1 too if
`β = 1`. -/
theorem hasDerivAt_terelu (b x : ℝ) (hx : x ≠ 1 ∨ b = 1) : HasDerivAt (tereluFn 1 1 b)
    (if x ≤ 0 then Real.exp x else if 1 ≤ x then b * Real.exp (1 - x) else 1) x := by
  have hL : ∀ x, HasDerivAt (fun v : ℝ => (1 : ℝ) * (Real.exp v - 1)) (Real.exp x) x := fun x => by
    have := hasDerivAt_expm1 1 1 x
    simpa using this
  have hR : ∀ x, HasDerivAt (fun v : ℝ => b * (1 - (Real.exp (1 - v) - 1))) (b * Real.exp (1 - x)) x := fun x => by
    have h := ((((hasDerivAt_id x).const_sub 1).exp.sub_const 1).const_sub 1).const_mul b
    refine h.congr_deriv ?_
    simp only [id]; ring
  rcases lt_trichotomy x 0 with h | h | h
  · rw [if_pos h.le]
    refine (hL x).congr_of_eventuallyEq ?_
    filter_upwards [Iio_mem_nhds h] with v hv
    exact if_pos (le_of_lt hv)
  · subst h
    rw [if_pos (le_refl 0)]
    refine hasDerivAt_glue (hL 0) ((hasDerivAt_id 0).congr_deriv (by simp)) ?_ ?_
    · exact Filter.Eventually.of_forall fun v hv => if_pos hv
    · filter_upwards [Iio_mem_nhds (zero_lt_one' ℝ)] with v hv h0
      rcases eq_or_lt_of_le h0 with e | e
      · subst e; simp [tereluFn]
      · unfold tereluFn
        rw [if_neg (not_le.mpr e), if_neg (not_le.mpr hv)]; rfl
  · rw [if_neg (not_le.mpr h)]
    rcases lt_trichotomy x 1 with h1 | h1 | h1
    · rw [if_neg (not_le.mpr h1)]
      refine (hasDerivAt_id x).congr_of_eventuallyEq ?_
      filter_upwards [Iio_mem_nhds h1, Ioi_mem_nhds h] with v hv hv0
      unfold tereluFn
      rw [if_neg (not_le.mpr hv0), if_neg (not_le.mpr hv)]; rfl
    · subst h1
      have hb : b = 1 := by
        rcases hx with hx | hx
        · exact absurd rfl hx
        · exact hx
      subst hb
      rw [if_pos (le_refl 1)]
      refine hasDerivAt_glue ((hasDerivAt_id 1).congr_deriv (by simp)) (hR 1) ?_ ?_
      · filter_upwards [Ioi_mem_nhds h] with v hv h1
        unfold tereluFn
        rw [if_neg (not_le.mpr hv)]
        rcases eq_or_lt_of_le h1 with e | e
        · subst e; simp
        · rw [if_neg (not_le.mpr e)]; rfl
      · filter_upwards [Ioi_mem_nhds h] with v hv h1
        unfold tereluFn
        rw [if_neg (not_le.mpr hv), if_pos h1]
    · rw [if_pos h1.le]
      refine (hR x).congr_of_eventuallyEq ?_
      filter_upwards [Ioi_mem_nhds h1] with v hv
      unfold tereluFn
      have : (1:ℝ) < v := hv
      rw [if_neg (not_le.mpr (by linarith)), if_pos this.le]

/-- Gradient of `⟨gr, f(x)⟩` for a function per column. -/
theorem isGrad_col {N C : Nat} {f d : Nat → ℝ → ℝ} {x gr G : Nat → Nat → ℝ}
    (h : ∀ s j, s < N → j < C → HasDerivAt (f j) (d j (x s j)) (x s j))
    (hG : ∀ s j, s < N → j < C → G s j = gr s j * d j (x s j)) :
    IsGrad N C (fun x => dotM N C gr (fun s j => f j (x s j))) x G := by
  apply isGrad_sep2 (f := fun s j v => gr s j * f j v)
  intro s j hs hj
  rw [hG s j hs hj]
  exact (h s j hs hj).const_mul _

/-- C46: PRelu back-propagates its derivative with respect to the input wherever no entry is 0. -/
theorem C46_prelu_input (g : Nat → ℝ) (gIn : Mat ℝ) (hg : gIn.WF) (N C : Nat) (w gw x gr : Nat → Nat → ℝ)
    (hx : ∀ s j, s < N → j < C → x s j ≠ 0) :
    ∃ (gW : Mat ℝ) (y : Nat → Nat → ℝ),
      preluBackward g false (Mat.ofFn 1 C w) (Mat.ofFn 1 C gw) (Mat.ofFn N C x) (Mat.ofFn N C gr) gIn =
        .ok (gW, Mat.ofFn N C y) ∧
      IsGrad N C (fun x => dotM N C gr (fun s j => preluFn (w 0 j) (x s j))) x y := by
  have h := preluBackward_ofFn g false hg N C w gw x gr
  simp only [Bool.false_eq_true, if_false] at h
  refine ⟨_, _, h, ?_⟩
  refine isGrad_col (x := x) (d := fun j v => if v < 0 then w 0 j else 1) (fun s j hs hj => hasDerivAt_prelu (w 0 j) _ (hx s j hs hj)) ?_
  intro s j _ _
  split <;> simp

/-- C46: PELU with parameters at least 1/10 (see `C46_pelu_constraint`) back-propagates its derivative with
respect to the input, at every input. -/
theorem C46_pelu_input (g : Nat → ℝ) (gIn : Mat ℝ) (hg : gIn.WF) (N C : Nat) (w gw x gr : Nat → Nat → ℝ)
    (hw : ∀ p j, p < 2 → j < C → 0.1 ≤ w p j) :
    ∃ (gW : Mat ℝ) (y : Nat → Nat → ℝ),
      peluBackward g false (Mat.ofFn 2 C w) (Mat.ofFn 2 C gw) (Mat.ofFn N C x) (Mat.ofFn N C gr) gIn =
        .ok (Mat.ofFn 2 C w, gW, Mat.ofFn N C y) ∧
      IsGrad N C (fun x => dotM N C gr (fun s j => peluFn (w 0 j) (w 1 j) (x s j))) x y := by
  have h := peluBackward_ofFn g false hg N C w gw x gr
  simp only [Bool.false_eq_true, if_false] at h
  have e : Mat.ofFn 2 C (fun p j => max 0.1 (w p j)) = Mat.ofFn 2 C w := by
    apply Mat.ofFn_congr
    intro p j hp hj
    exact max_eq_right (hw p j hp hj)
  rw [e] at h
  refine ⟨_, _, h, ?_⟩
  refine isGrad_col (x := x) (d := fun j v => if 0 < v then w 0 j / w 1 j else w 0 j / w 1 j * Real.exp (v / w 1 j))
    (fun s j _ _ => hasDerivAt_pelu (w 0 j) (w 1 j) _) ?_
  intro s j _ hj
  rw [max_eq_right (hw 0 j (by omega) hj), max_eq_right (hw 1 j (by omega) hj)]

/-- C46: back-propagation of PELU first raises all parameters to at least 1/10; its result is that for the
raised parameters. -/
theorem C46_pelu_constraint (g : Nat → ℝ) (first : Bool) (gIn : Mat ℝ) (hg : gIn.WF) (N C : Nat)
    (w gw x gr : Nat → Nat → ℝ) :
    ∃ (w' : Nat → Nat → ℝ) (gW y : Mat ℝ), (∀ p j, 0.1 ≤ w' p j) ∧ (∀ p j, 0.1 ≤ w p j → w' p j = w p j) ∧
      peluBackward g first (Mat.ofFn 2 C w) (Mat.ofFn 2 C gw) (Mat.ofFn N C x) (Mat.ofFn N C gr) gIn =
        .ok (Mat.ofFn 2 C w', gW, y) ∧
      peluBackward g first (Mat.ofFn 2 C w') (Mat.ofFn 2 C gw) (Mat.ofFn N C x) (Mat.ofFn N C gr) gIn =
        .ok (Mat.ofFn 2 C w', gW, y) := by
  refine ⟨fun p j => max 0.1 (w p j), _, _, fun p j => le_max_left _ _, fun p j h => max_eq_right h,
    peluBackward_ofFn g first hg N C w gw x gr, ?_⟩
  have h := peluBackward_ofFn g first hg N C (fun p j => max 0.1 (w p j)) gw x gr
  simp only [max_eq_right (le_max_left (0.1 : ℝ) _)] at h
  exact h

/-- C46: TERELU back-propagates its derivative with respect to the input wherever it is differentiable. -/
theorem C46_terelu_input (g : Nat → ℝ) (gIn : Mat ℝ) (hg : gIn.WF) (N C : Nat) (w gw x gr : Nat → Nat → ℝ)
    (hx : ∀ s j, s < N → j < C → x s j ≠ 1 ∨ w 0 j = 1) :
    ∃ (gW : Mat ℝ) (y : Nat → Nat → ℝ),
      tereluBackward g 1 1 false (Mat.ofFn 1 C w) (Mat.ofFn 1 C gw) (Mat.ofFn N C x) (Mat.ofFn N C gr) gIn =
        .ok (gW, Mat.ofFn N C y) ∧
      IsGrad N C (fun x => dotM N C gr (fun s j => tereluFn 1 1 (w 0 j) (x s j))) x y := by
  have h := tereluBackward_ofFn g 1 1 false hg N C w gw x gr
  simp only [Bool.false_eq_true, if_false] at h
  refine ⟨_, _, h, ?_⟩
  refine isGrad_col (x := x) (d := fun j v => if v ≤ 0 then Real.exp v else if 1 ≤ v then w 0 j * Real.exp (1 - v) else 1)
    (fun s j hs hj => hasDerivAt_terelu (w 0 j) _ (hx s j hs hj)) ?_
  intro s j _ _
  split
  · rw [one_mul]
  · split
    · rfl
    · rw [mul_one]

/-- Inputs and parameters meeting the hypotheses of the three theorems. -/
example : (∀ s j, s < 2 → j < 2 → (fun s j : Nat => (s : ℝ) - j + 1 / 2) s j ≠ 0) ∧
    (∀ p j, p < 2 → j < 2 → (0.1 : ℝ) ≤ (fun p _ : Nat => (p : ℝ) + 1) p j) ∧
    (∀ s j, s < 2 → j < 2 → (fun s j : Nat => (s : ℝ) - j + 1 / 2) s j ≠ 1 ∨ (fun _ _ : Nat => (3 : ℝ)) 0 j = 1) := by
  refine ⟨?_, ?_, ?_⟩
  · intro s j hs hj; interval_cases s <;> interval_cases j <;> norm_num
  · intro p j hp hj; interval_cases p <;> norm_num
  · intro s j hs hj; left; interval_cases s <;> interval_cases j <;> norm_num

/-! ## C89: RRelu in training -/

/-- C89: in training RRelu uses one slope per entry, the draws, and back-propagation then uses exactly these
slopes: its result is the gradient of that forward pass wherever no entry is 0. -/
theorem C89_rrelu_train (g : Nat → ℝ) (alpha1 alpha2 : ℝ) (hle : 1 / alpha1 ≤ 1 / alpha2) (draw : Nat → ℝ)
    (slopes mOut gIn : Mat ℝ) (hsl : slopes.WF) (ho : mOut.WF) (hg : gIn.WF) (N C : Nat) (x gr : Nat → Nat → ℝ)
    (hx : ∀ s j, s < N → j < C → x s j ≠ 0) :
    ∃ (slopes' : Mat ℝ) (y : Nat → Nat → ℝ), rreluForward g alpha1 alpha2 true draw slopes (Mat.ofFn N C x) mOut =
        .ok (slopes', Mat.ofFn N C (fun s j => preluFn (draw (s * C + j)) (x s j))) ∧
      rreluBackward g false slopes' (Mat.ofFn N C x) (Mat.ofFn N C gr) gIn = .ok (Mat.ofFn N C y) ∧
      IsGrad N C (fun x => dotM N C gr (fun s j => preluFn (draw (s * C + j)) (x s j))) x y := by
  refine ⟨_, _, rreluForward_train g alpha1 alpha2 hle draw hsl ho N C x, rreluBackward_ofFn g hg N C _ x gr, ?_⟩
  apply isGrad_sep2 (f := fun s j v => gr s j * preluFn (draw (s * C + j)) v)
  intro s j hs hj
  refine ((hasDerivAt_prelu (draw (s * C + j)) _ (hx s j hs hj)).const_mul (gr s j)).congr_deriv ?_
  split <;> simp

/-- C89: with slopes in the range of the distribution, every output entry lies between the two extreme slopes. -/
theorem C89_rrelu_range (inv1 inv2 d x : ℝ) (h1 : inv1 ≤ d) (h2 : d ≤ inv2) (hx : x < 0) :
    x * inv2 ≤ preluFn d x ∧ preluFn d x ≤ x * inv1 := by
  unfold preluFn
  rw [if_pos hx]
  exact ⟨mul_le_mul_of_nonpos_left h2 hx.le, mul_le_mul_of_nonpos_left h1 hx.le⟩

/-- C89, precondition of the code: if the first inverse slope is the larger one (for positive parameters:
`alpha1 < alpha2`) the call in training mode has undefined behaviour, for every input. -/
theorem C89_rrelu_order (g : Nat → ℝ) (alpha1 alpha2 : ℝ) (h0 : 0 < alpha1) (h : alpha1 < alpha2) (draw : Nat → ℝ)
    (slopes mOut : Mat ℝ) (ho : mOut.WF) (N C : Nat) (x : Nat → Nat → ℝ) :
    rreluForward g alpha1 alpha2 true draw slopes (Mat.ofFn N C x) mOut = .error .libPrecondition := by
  unfold rreluForward setRandomUniform
  have : 1 / alpha2 < 1 / alpha1 := one_div_lt_one_div_of_lt h0 h
  simp only [Mat.assign_ofFn g ho, bind_ok']
  rw [if_pos trivial, if_pos this]
  rfl

/-- C89: back-propagation through a layer that was never run in training mode fails as soon as the first
entry is negative. -/
theorem C89_rrelu_untrained (g : Nat → ℝ) (gIn : Mat ℝ) (hg : gIn.WF) (N C : Nat) (hN : 0 < N) (hC : 0 < C)
    (x gr : Nat → Nat → ℝ) (hx : x 0 0 < 0) :
    rreluBackward g false ⟨0, 0, []⟩ (Mat.ofFn N C x) (Mat.ofFn N C gr) gIn = .error .assertFail := by
  unfold rreluBackward
  have hpos : 0 < N * C := Nat.mul_pos hN hC
  have hs : (Mat.ofFn N C gr).size = N * C := by simp
  rw [if_neg (by decide), Mat.assign_ofFn g hg, bind_ok', hs]
  refine forN_error hpos (t := Mat.ofFn N C gr) rfl ?_
  rw [Mat.getI_ofFn hpos, bind_ok', Nat.zero_div, Nat.zero_mod, if_pos hx, Mat.getI_ofFn hpos, bind_ok']
  rfl

/-- The default parameters 8 and 3 (LayerRRelu.h) satisfy the hypothesis of `C89_rrelu_train`. -/
example : (1 : ℝ) / 8 ≤ 1 / 3 := by norm_num

/-! ## C88: gradients of the parameters -/

/-- C88: the parameter gradient of PRelu is the gradient of the batch average of `⟨gr, output⟩`. -/
theorem C88_prelu (g : Nat → ℝ) (first : Bool) (gIn : Mat ℝ) (hg : gIn.WF) (N C : Nat) (w gw x gr : Nat → Nat → ℝ) :
    ∃ (gW : Nat → Nat → ℝ) (y : Mat ℝ),
      preluBackward g first (Mat.ofFn 1 C w) (Mat.ofFn 1 C gw) (Mat.ofFn N C x) (Mat.ofFn N C gr) gIn =
        .ok (Mat.ofFn 1 C gW, y) ∧
      IsGrad 1 C (fun w => (1 / (N : ℝ)) * dotM N C gr (fun s j => preluFn (w 0 j) (x s j))) w gW := by
  refine ⟨_, _, preluBackward_ofFn g first hg N C w gw x gr, ?_⟩
  apply isGrad_of_linear (1 / (N : ℝ)) (out := fun w s j => preluFn (w 0 j) (x s j))
    (D := fun V s j => if x s j < 0 then x s j * V 0 j else 0)
  · intro V t s j
    unfold preluFn
    split
    · ring
    · ring
  · intro V
    unfold dotM
    rw [range_one, sum_singleton, sum_comm, mul_sum]
    apply sum_congr rfl; intro j _
    rw [div_mul_eq_mul_div, sum_mul, sum_div, mul_sum]
    apply sum_congr rfl; intro s _
    by_cases h : x s j < 0
    · simp only [if_pos h]; ring
    · simp only [if_neg h]; ring

/-- Gradient with respect to two parameters per column of a sum over the samples. -/
theorem isGrad_params {N C P : Nat} {f : (Nat → ℝ) → Nat → Nat → ℝ} {w G : Nat → Nat → ℝ} (c : ℝ) (d : Nat → Nat → Nat → ℝ)
    (h : ∀ V : Nat → ℝ, ∀ s j, s < N → j < C →
      HasDerivAt (fun t : ℝ => f (fun p => w p j + t * V p) s j) (∑ p ∈ range P, d p s j * V p) 0)
    (hG : ∀ p j, p < P → j < C → G p j = c * ∑ s ∈ range N, d p s j) :
    IsGrad P C (fun w => c * dotM N C (fun _ _ => 1) (fun s j => f (fun p => w p j) s j)) w G := by
  intro V
  have h1 : HasDerivAt (fun t : ℝ => ∑ s ∈ range N, ∑ j ∈ range C, 1 * f (fun p => w p j + t * V p j) s j)
      (∑ s ∈ range N, ∑ j ∈ range C, 1 * ∑ p ∈ range P, d p s j * V p j) 0 := by
    apply HasDerivAt.fun_sum; intro s hs
    apply HasDerivAt.fun_sum; intro j hj
    exact (h (fun p => V p j) s j (mem_range.mp hs) (mem_range.mp hj)).const_mul 1
  refine (h1.const_mul c).congr_deriv ?_
  unfold dotM
  simp only [one_mul]
  rw [sum_comm]
  have e : ∀ j, ∑ s ∈ range N, ∑ p ∈ range P, d p s j * V p j = ∑ p ∈ range P, (∑ s ∈ range N, d p s j) * V p j := by
    intro j
    rw [sum_comm]
    apply sum_congr rfl; intro p _
    rw [sum_mul]
  simp only [e]
  rw [sum_comm, mul_sum]
  apply sum_congr rfl; intro p hp
  rw [mul_sum]
  apply sum_congr rfl; intro j hj
  rw [hG p j (mem_range.mp hp) (mem_range.mp hj)]
  ring

theorem hasDerivAt_pelu_params (a b x : ℝ) (hb : b ≠ 0) (va vb : ℝ) :
    HasDerivAt (fun t : ℝ => peluFn (a + t * va) (b + t * vb) x)
      ((if 0 < x then x / b else Real.exp (x / b) - 1) * va +
        (if 0 < x then -a * (x / (b * b)) else -a * (x / (b * b)) * Real.exp (x / b)) * vb) 0 := by
  have ha' : HasDerivAt (fun t : ℝ => a + t * va) va 0 :=
    (((hasDerivAt_id (0 : ℝ)).mul_const va).const_add a).congr_deriv (one_mul va)
  have hb' : HasDerivAt (fun t : ℝ => b + t * vb) vb 0 :=
    (((hasDerivAt_id (0 : ℝ)).mul_const vb).const_add b).congr_deriv (one_mul vb)
  have hb0 : b + 0 * vb ≠ 0 := by simpa using hb
  unfold peluFn
  by_cases hx : 0 < x
  · simp only [if_pos hx]
    refine ((ha'.div hb' hb0).const_mul x).congr_deriv ?_
    simp only [zero_mul, add_zero]
    field_simp
    ring
  · simp only [if_neg hx]
    have h1 := (hasDerivAt_const (0 : ℝ) x).div hb' hb0
    refine (ha'.mul ((h1.exp).sub_const 1)).congr_deriv ?_
    simp only [zero_mul, add_zero, zero_sub, Pi.div_apply]
    field_simp

/-- C88 for PELU, in part: the parameter gradient is the gradient of the batch average of the plain sum of the
outputs, whatever the incoming gradient `gr` is.  Missing (and false, see `C88_pelu_wrong`): the gradient of
`⟨gr, output⟩`; it is right only if all entries of `gr` are 1. -/
theorem C88_pelu_partial (g : Nat → ℝ) (first : Bool) (gIn : Mat ℝ) (hg : gIn.WF) (N C : Nat) (w gw x gr : Nat → Nat → ℝ)
    (hw : ∀ p j, p < 2 → j < C → 0.1 ≤ w p j) :
    ∃ (gW : Nat → Nat → ℝ) (w' y : Mat ℝ),
      peluBackward g first (Mat.ofFn 2 C w) (Mat.ofFn 2 C gw) (Mat.ofFn N C x) (Mat.ofFn N C gr) gIn =
        .ok (w', Mat.ofFn 2 C gW, y) ∧
      IsGrad 2 C (fun w => (1 / (N : ℝ)) * dotM N C (fun _ _ => 1) (fun s j => peluFn (w 0 j) (w 1 j) (x s j))) w gW := by
  refine ⟨_, _, _, peluBackward_ofFn g first hg N C w gw x gr, ?_⟩
  refine isGrad_params (P := 2) (f := fun v s j => peluFn (v 0) (v 1) (x s j)) _ (fun p s j =>
    if p = 0 then (if 0 < x s j then x s j / w 1 j else Real.exp (x s j / w 1 j) - 1)
    else (if 0 < x s j then -w 0 j * (x s j / (w 1 j * w 1 j))
      else -w 0 j * (x s j / (w 1 j * w 1 j)) * Real.exp (x s j / w 1 j))) ?_ ?_
  · intro V s j _ hj
    have hb : w 1 j ≠ 0 := by
      have := hw 1 j (by omega) hj
      intro h; rw [h] at this; norm_num at this
    refine (hasDerivAt_pelu_params (w 0 j) (w 1 j) (x s j) hb (V 0) (V 1)).congr_deriv ?_
    simp only [sum_range_succ, range_zero, sum_empty, zero_add, if_true, one_ne_zero, if_false]
  · intro p j _ hj
    dsimp only
    rw [max_eq_right (hw 0 j (by omega) hj), max_eq_right (hw 1 j (by omega) hj), div_eq_mul_one_div, mul_comm]

/-- C88 for PELU, violated: with the gradient 0 coming from the loss, the parameter gradient is not 0. -/
theorem C88_pelu_wrong (g : Nat → ℝ) : ∃ (gW : Nat → Nat → ℝ) (w' y : Mat ℝ),
    peluBackward g false (Mat.ofFn 2 1 (fun _ _ => 1)) (Mat.ofFn 2 1 (fun _ _ => 0)) (Mat.ofFn 1 1 (fun _ _ => 1))
      (Mat.ofFn 1 1 (fun _ _ => 0)) ⟨0, 0, []⟩ = .ok (w', Mat.ofFn 2 1 gW, y) ∧
    ¬ IsGrad 2 1 (fun w => (1 / ((1 : Nat) : ℝ)) * dotM 1 1 (fun _ _ => 0) (fun _ j => peluFn (w 0 j) (w 1 j) 1))
      (fun _ _ => 1) gW := by
  obtain ⟨gW, w', y, h, hG⟩ := C88_pelu_partial g false ⟨0, 0, []⟩ (by rfl) 1 1 (fun _ _ => 1) (fun _ _ => 0)
    (fun _ _ => 1) (fun _ _ => 0) (by intros; norm_num)
  refine ⟨gW, w', y, h, ?_⟩
  intro hbad
  have h1 := hG (fun p _ => if p = 0 then 1 else 0)
  have h2 := hbad (fun p _ => if p = 0 then 1 else 0)
  have h3 : HasDerivAt (fun t : ℝ => (1 + t : ℝ)) 1 0 := (hasDerivAt_id (0 : ℝ)).const_add 1
  have h4 : HasDerivAt (fun _ : ℝ => (0 : ℝ)) 0 0 := hasDerivAt_const _ _
  have e1 : dotM 2 1 gW (fun p _ => if p = 0 then 1 else 0) = 1 := by
    refine h1.unique (h3.congr_of_eventuallyEq (Filter.Eventually.of_forall fun t => ?_))
    simp [dotM, peluFn]
  have e2 : dotM 2 1 gW (fun p _ => if p = 0 then 1 else 0) = 0 := by
    refine h2.unique (h4.congr_of_eventuallyEq (Filter.Eventually.of_forall fun t => ?_))
    simp [dotM]
  linarith

/-- C88 for TERELU, in part: same as `C88_pelu_partial`; only a gradient `gr` of ones gives the right result. -/
theorem C88_terelu_partial (g : Nat → ℝ) (alpha mu : ℝ) (hmu : 0 < mu) (first : Bool) (gIn : Mat ℝ) (hg : gIn.WF) (N C : Nat)
    (w gw x gr : Nat → Nat → ℝ) :
    ∃ (gW : Nat → Nat → ℝ) (y : Mat ℝ),
      tereluBackward g alpha mu first (Mat.ofFn 1 C w) (Mat.ofFn 1 C gw) (Mat.ofFn N C x) (Mat.ofFn N C gr) gIn =
        .ok (Mat.ofFn 1 C gW, y) ∧
      IsGrad 1 C (fun w => (1 / (N : ℝ)) * dotM N C (fun _ _ => 1) (fun s j => tereluFn alpha mu (w 0 j) (x s j))) w gW := by
  refine ⟨_, _, tereluBackward_ofFn g alpha mu first hg N C w gw x gr, ?_⟩
  refine isGrad_params (P := 1) (f := fun v s j => tereluFn alpha mu (v 0) (x s j)) _ (fun _ s j =>
    if mu ≤ x s j then mu - (Real.exp (mu - x s j) - 1) else 0) ?_ ?_
  · intro V s j _ _
    rw [sum_range_one]
    unfold tereluFn
    by_cases h1 : x s j ≤ 0
    · simp only [if_pos h1, if_neg (not_le.mpr (lt_of_le_of_lt h1 hmu)), zero_mul]
      exact hasDerivAt_const _ _
    · simp only [if_neg h1]
      by_cases h2 : mu ≤ x s j
      · simp only [if_pos h2]
        refine ((((hasDerivAt_id (0 : ℝ)).mul_const (V 0)).const_add (w 0 j)).mul_const _).congr_deriv ?_
        ring
      · simp only [if_neg h2, zero_mul]
        exact hasDerivAt_const _ _
  · intro p j _ _
    rw [div_eq_mul_one_div, mul_comm]

/-- C88 for TERELU, violated: with the gradient 0 coming from the loss, the parameter gradient is not 0. -/
theorem C88_terelu_wrong (g : Nat → ℝ) : ∃ (gW : Nat → Nat → ℝ) (y : Mat ℝ),
    tereluBackward g 1 1 false (Mat.ofFn 1 1 (fun _ _ => 1)) (Mat.ofFn 1 1 (fun _ _ => 0)) (Mat.ofFn 1 1 (fun _ _ => 1))
      (Mat.ofFn 1 1 (fun _ _ => 0)) ⟨0, 0, []⟩ = .ok (Mat.ofFn 1 1 gW, y) ∧
    ¬ IsGrad 1 1 (fun w => (1 / ((1 : Nat) : ℝ)) * dotM 1 1 (fun _ _ => 0) (fun _ j => tereluFn 1 1 (w 0 j) 1))
      (fun _ _ => 1) gW := by
  obtain ⟨gW, y, h, hG⟩ := C88_terelu_partial g 1 1 one_pos false ⟨0, 0, []⟩ (by rfl) 1 1 (fun _ _ => 1) (fun _ _ => 0)
    (fun _ _ => 1) (fun _ _ => 0)
  refine ⟨gW, y, h, ?_⟩
  intro hbad
  have h1 := hG (fun _ _ => 1)
  have h2 := hbad (fun _ _ => 1)
  have h3 : HasDerivAt (fun t : ℝ => (1 + t : ℝ)) 1 0 := (hasDerivAt_id (0 : ℝ)).const_add 1
  have h4 : HasDerivAt (fun _ : ℝ => (0 : ℝ)) 0 0 := hasDerivAt_const _ _
  have e1 : dotM 1 1 gW (fun _ _ => 1) = 1 := by
    refine h1.unique (h3.congr_of_eventuallyEq (Filter.Eventually.of_forall fun t => ?_))
    simp [dotM, tereluFn, not_le.mpr (zero_lt_one' ℝ)]
  have e2 : dotM 1 1 gW (fun _ _ => 1) = 0 := by
    refine h2.unique (h4.congr_of_eventuallyEq (Filter.Eventually.of_forall fun t => ?_))
    simp [dotM]
  linarith

end BeeDNN
