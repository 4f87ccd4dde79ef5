import Verif.Spec.PyAct
import Verif.Lemmas.ActivationsGood
import Verif.Props.Activations
import Mathlib.Analysis.Calculus.Deriv.Abs

/-! # Lemmas: the activations of the Python library -/

namespace BeeDNN
open Set Filter Topology

/-- Wherever the function of the activation has a derivative, `dydx` is it. -/
def PyAct.Good (a : PyAct) : Prop := ∀ x, DifferentiableAt ℝ a.f x → HasDerivAt a.f (a.d x) x

/-- The same functions as in the C++ library. -/
theorem PyAct.Good.of_cpp {a : PyAct} {A : Activation} (h : BeeDNN.Good A) (hf : ∀ x, a.f x = A.apply x) (hd : ∀ x, a.d x = A.derivation x) : a.Good := by
  intro x hx
  have e : a.f = A.apply := funext hf
  rw [e] at hx ⊢
  rw [hd]
  exact (h x trivial).2 hx

theorem PyAct.Good.of_goodOn {a : PyAct} {f d : ℝ → ℝ} {K : List ℝ} (h : GoodOn (fun _ => True) f d K) (hf : ∀ x, a.f x = f x) (hd : ∀ x, a.d x = d x) : a.Good := by
  intro x hx
  have e : a.f = f := funext hf
  rw [e] at hx ⊢
  rw [hd]
  exact (h x trivial).2 hx

/-- A jump towards the right. -/
theorem not_diff_right {f g : ℝ → ℝ} {a : ℝ} (hg : ContinuousAt g a) (hne : f a ≠ g a) (h : ∀ y, a < y → y < a + 1 → f y = g y) : ¬DifferentiableAt ℝ f a := by
  intro hd
  have h1 : Tendsto f (𝓝[>] a) (𝓝 (f a)) := hd.continuousAt.tendsto.mono_left nhdsWithin_le_nhds
  have h2 : Tendsto g (𝓝[>] a) (𝓝 (g a)) := hg.tendsto.mono_left nhdsWithin_le_nhds
  have e : f =ᶠ[𝓝[>] a] g := by
    filter_upwards [Ioo_mem_nhdsGT (show a < a + 1 by linarith)] with y hy
    exact h y hy.1 hy.2
  exact hne (tendsto_nhds_unique h1 (h2.congr' e.symm))

/-- A jump towards the left. -/
theorem not_diff_left {f g : ℝ → ℝ} {a : ℝ} (hg : ContinuousAt g a) (hne : f a ≠ g a) (h : ∀ y, y < a → a - 1 < y → f y = g y) : ¬DifferentiableAt ℝ f a := by
  intro hd
  have h1 : Tendsto f (𝓝[<] a) (𝓝 (f a)) := hd.continuousAt.tendsto.mono_left nhdsWithin_le_nhds
  have h2 : Tendsto g (𝓝[<] a) (𝓝 (g a)) := hg.tendsto.mono_left nhdsWithin_le_nhds
  have e : f =ᶠ[𝓝[<] a] g := by
    filter_upwards [Ioo_mem_nhdsLT (show a - 1 < a by linarith)] with y hy
    exact h y hy.2 hy.1
  exact hne (tendsto_nhds_unique h1 (h2.congr' e.symm))

/-- The same functions as in the C++ library but for points where there is no derivative. -/
theorem PyAct.Good.of_off {a : PyAct} {A : Activation} (h : BeeDNN.Good A) {K : List ℝ} (hf : ∀ x, x ∉ K → a.f x = A.apply x)
    (hd : ∀ x, x ∉ K → a.d x = A.derivation x) (hK : ∀ x, x ∈ K → ¬DifferentiableAt ℝ a.f x) : a.Good := by
  intro x hx
  by_cases hk : x ∈ K
  · exact absurd hx (hK x hk)
  have e : a.f =ᶠ[𝓝 x] A.apply := by
    have hc : IsClosed {y | y ∈ K} := (List.finite_toSet K).isClosed
    filter_upwards [hc.isOpen_compl.mem_nhds hk] with y hy
    exact hf y hy
  rw [hd x hk]
  exact ((h x trivial).2 (hx.congr_of_eventuallyEq e.symm)).congr_of_eventuallyEq e

namespace PyAct

theorem hardELU_eq {x : ℝ} (h0 : x ≠ -2) : hardELU.f x = Act.hardELU.apply x := by
  simp only [hardELU, Act.hardELU]
  rcases lt_or_gt_of_ne h0 with h | h
  · have c : ¬(x < 0 ∧ x > -2) := by rintro ⟨-, k⟩; linarith
    simp only [if_neg c]
    rw [if_pos h, if_neg (by linarith), if_pos h.le]
  · rcases lt_or_ge x 0 with g | g
    · have c : x < 0 ∧ x > -2 := ⟨g, h⟩
      simp only [if_pos c]
      rw [if_neg (by linarith), if_neg (by linarith), if_neg (by linarith)]
    · have c : ¬(x < 0 ∧ x > -2) := by rintro ⟨k, -⟩; linarith
      simp only [if_neg c]
      rw [if_neg (by linarith), if_pos g]

theorem hardShrink_eq {x : ℝ} (h0 : x ≠ -0.5) (h1 : x ≠ 0.5) : hardShrink.f x = Act.hardShrink.apply x := by
  simp only [hardShrink, Act.hardShrink]
  rcases lt_or_gt_of_ne h0 with h | h <;> rcases lt_or_gt_of_ne h1 with g | g
  · rw [if_neg (by rintro ⟨-, k⟩; linarith), if_neg (by linarith), if_pos h]
  · linarith
  · rw [if_pos ⟨g, h⟩, if_neg (by linarith), if_neg (by linarith)]
  · rw [if_neg (by rintro ⟨k, -⟩; linarith), if_pos g]

theorem good_absolute : absolute.Good := by
  intro x hx
  rcases lt_trichotomy x 0 with h | rfl | h
  · have := hasDerivAt_abs_neg h
    simpa [absolute, npSign, h, not_lt.2 h.le] using this
  · exact absurd hx not_differentiableAt_abs_zero
  · have := hasDerivAt_abs_pos h
    simpa [absolute, npSign, h] using this

theorem good_bipolar : bipolar.Good :=
  PyAct.Good.of_off Act.good_bipolar (K := [0])
    (fun x hx => by
      have h0 : x ≠ 0 := by simpa using hx
      simp only [bipolar, npSign, Act.bipolar, gt_iff_lt]
      split_ifs with h1 h2 <;> first | rfl | exact absurd (le_antisymm (not_lt.1 h1) (not_lt.1 h2)) h0)
    (fun x _ => mul_zero x)
    (fun x hx => by
      obtain rfl : x = 0 := by simpa using hx
      exact not_diff_right (g := fun _ => 1) continuousAt_const (by simp [bipolar, npSign]) fun y hy _ => by simp [bipolar, npSign, hy])

theorem good_hardELU : hardELU.Good :=
  PyAct.Good.of_off Act.good_hardELU (K := [-2])
    (fun x hx => by
      have h0 : x ≠ -2 := by simpa using hx
      exact hardELU_eq h0)
    (fun x hx => by
      have h0 : x ≠ -2 := by simpa using hx
      simp only [hardELU, Act.hardELU]
      rcases lt_or_gt_of_ne h0 with h | h
      · rw [if_pos h, if_neg (by linarith), if_pos h.le]
      · rw [if_neg (by linarith)]
        rcases lt_or_ge x 0 with g | g
        · rw [if_pos ⟨g, h⟩, if_neg (by linarith), if_neg (by linarith)]
        · rw [if_neg (by rintro ⟨k, -⟩; linarith), if_pos g])
    (fun x hx => by
      obtain rfl : x = -2 := by simpa using hx
      refine not_diff_right (g := fun x => x * 0.5) (by fun_prop) (by simp only [hardELU]; norm_num) fun y hy hy' => ?_
      simp only [hardELU]
      have c : y < 0 ∧ y > -2 := ⟨by linarith, hy⟩
      simp only [if_pos c]
      rw [if_neg (by linarith)])

theorem good_hardShrink : hardShrink.Good :=
  PyAct.Good.of_off Act.good_hardShrink (K := [-0.5, 0.5])
    (fun x hx => by
      have h0 : x ≠ -0.5 ∧ x ≠ 0.5 := by simpa using hx
      exact hardShrink_eq h0.1 h0.2)
    (fun x hx => by
      have h0 : x ≠ -0.5 ∧ x ≠ 0.5 := by simpa using hx
      simp only [hardShrink, Act.hardShrink]
      rcases lt_or_gt_of_ne h0.1 with h | h <;> rcases lt_or_gt_of_ne h0.2 with g | g
      · rw [if_neg (by rintro ⟨-, k⟩; linarith), if_neg (by linarith), if_pos h]
      · linarith
      · rw [if_pos ⟨g, h⟩, if_neg (by linarith), if_neg (by linarith)]
      · rw [if_neg (by rintro ⟨k, -⟩; linarith), if_pos g])
    (fun x hx => by
      have h0 : x = -0.5 ∨ x = 0.5 := by simpa using hx
      rcases h0 with rfl | rfl
      · refine not_diff_right (g := fun _ => 0) continuousAt_const (by simp only [hardShrink]; norm_num) fun y hy hy' => ?_
        simp only [hardShrink]
        rw [if_pos ⟨by linarith, hy⟩]
      · refine not_diff_left (g := fun _ => 0) continuousAt_const (by simp only [hardShrink]; norm_num) fun y hy hy' => ?_
        simp only [hardShrink]
        rw [if_pos ⟨hy, by linarith⟩])

theorem good_leakyRELU : leakyRELU.Good :=
  PyAct.Good.of_cpp Act.good_leakyRelu (fun x => by simp only [leakyRELU, Act.leakyRelu]; split_ifs <;> first | rfl | linarith | ring1)
    (fun x => by simp only [leakyRELU, Act.leakyRelu]; split_ifs <;> first | rfl | linarith)

theorem good_leakyRELU256 : leakyRELU256.Good :=
  PyAct.Good.of_cpp Act.good_leakyRelu256 (fun x => by simp only [leakyRELU256, Act.leakyRelu256]; split_ifs <;> first | rfl | linarith | ring1)
    (fun x => by simp only [leakyRELU256, Act.leakyRelu256]; split_ifs <;> first | rfl | linarith)

theorem good_hardTanh : hardTanh.Good :=
  PyAct.Good.of_cpp Act.good_hardTanh (fun x => by simp only [hardTanh, Act.hardTanh]; split_ifs <;> first | rfl | linarith) (fun _ => rfl)

theorem good_relu : relu.Good :=
  PyAct.Good.of_cpp Act.good_relu (fun x => by simp only [relu, Act.relu]; split_ifs <;> ring) (fun _ => rfl)

theorem good_relu6 : relu6.Good :=
  PyAct.Good.of_goodOn (GoodOn.ite_lt (S := fun _ => True) (a := 0) (f1 := fun _ => 0) (d1 := fun _ => 0) (GoodOn.leaf fun x _ => hasDerivAt_const x _)
    (GoodOn.ite_gt (a := 6) (f1 := fun x => x) (d1 := fun _ => 1) (f2 := fun _ => 6) (d2 := fun _ => 0) (GoodOn.leaf fun x _ => hasDerivAt_id x)
      (GoodOn.leaf fun x _ => hasDerivAt_const x _) (by simp)) (by norm_num))
    (fun _ => rfl) (fun x => by simp only [relu6]; split_ifs <;> first | rfl | linarith)

theorem good_swish : swish.Good :=
  PyAct.Good.of_cpp Act.good_swish (fun x => by simp only [swish, Act.swish]; ring) (fun _ => rfl)

theorem good_siLU : siLU.Good :=
  PyAct.Good.of_cpp Act.good_silu (fun x => by simp only [siLU, Act.silu]; ring) (fun _ => rfl)

theorem good_table : ∀ p ∈ table, p.1 ≠ "Logit" → p.2.Good := by
  simp only [table, List.forall_mem_cons]
  exact ⟨fun _ => good_absolute, fun _ => .of_cpp Act.good_asinh (fun _ => rfl) fun _ => rfl, fun _ => .of_cpp Act.good_atan (fun _ => rfl) fun _ => rfl,
    fun _ => .of_cpp Act.good_bent (fun _ => rfl) fun _ => rfl, fun _ => .of_cpp Act.good_binaryStep (fun _ => rfl) fun x => mul_zero x,
    fun _ => good_bipolar, fun _ => .of_cpp Act.good_bipolarSigmoid (fun _ => rfl) fun _ => rfl,
    fun _ => .of_cpp Act.good_complementaryLogLog (fun _ => rfl) fun _ => rfl, fun _ => .of_cpp Act.good_divideBy256 (fun _ => rfl) fun _ => rfl,
    fun _ => .of_cpp Act.good_dsilu (fun _ => rfl) fun _ => rfl, fun _ => .of_cpp Act.good_gauss (fun _ => rfl) fun _ => rfl,
    fun _ => good_hardTanh, fun _ => good_hardELU, fun _ => good_hardShrink, fun _ => good_leakyRELU, fun _ => good_leakyRELU256,
    fun _ => .of_cpp Act.good_logSigmoid (fun _ => rfl) fun _ => rfl, fun h => absurd rfl h, fun _ => good_relu, fun _ => good_relu6,
    fun _ => .of_cpp Act.good_sigmoid (fun _ => rfl) fun _ => rfl, fun _ => .of_cpp Act.good_softPlus (fun _ => rfl) fun _ => rfl,
    fun _ => .of_cpp Act.good_softSign (fun _ => rfl) fun _ => rfl, fun _ => good_swish, fun _ => good_siLU,
    fun _ => .of_cpp Act.good_sin (fun _ => rfl) fun _ => rfl, fun _ => .of_cpp Act.good_tanh (fun _ => rfl) fun _ => rfl,
    fun _ => .of_cpp Act.good_tanhShrink (fun _ => rfl) fun _ => rfl, by simp⟩

end PyAct

end BeeDNN
