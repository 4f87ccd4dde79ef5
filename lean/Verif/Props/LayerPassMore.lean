import Verif.Spec.LayerPass
import Verif.Lemmas.FitsPool
import Verif.Props.LayersMisc
import Verif.Props.LayersRect
import Verif.Props.Pooling
import Verif.Props.Conv

/-! # C19, C20, C22, C26, C31, C32, C40, C41, C42 on layer objects: a forward pass and then a backward pass

As in LayerPass, for the classes that Mlp describes as part of a network. -/

namespace BeeDNN
open Finset Layer

/-- A sum over all frames of all samples. -/
theorem sum_frames1 (N T F : Nat) (d : Nat → Nat → ℝ) (j : Nat) : ∑ p ∈ range (N * T), d (p / T) (p % T * F + j) = ∑ s ∈ range N, ∑ t ∈ range T, d s (t * F + j) :=
  sum_range_mul N T (fun s t => d s (t * F + j))

theorem sum_frames2 (N T F O : Nat) (x d : Nat → Nat → ℝ) (k j : Nat) :
    ∑ p ∈ range (N * T), x (p / T) (p % T * F + k) * d (p / T) (p % T * O + j) = ∑ s ∈ range N, ∑ t ∈ range T, x s (t * F + k) * d s (t * O + j) :=
  sum_range_mul N T (fun s t => x s (t * F + k) * d s (t * O + j))

section
variable {l : Layer} {e e' : Env} {N C : Nat} {x d : Nat → Nat → ℝ} {o gi : Mat ℝ}

/-- C19, C20: a dense layer. -/
theorem C20_dense_pass {i n m : Nat} {W b : Nat → Nat → ℝ} (hk : l.kind = .dense n i) (hw : l.weight = Mat.ofFn n m W) (hb : l.bias = Mat.ofFn 1 m b)
    (hgw : l.gradWeight.WF) (hgb : l.gradBias.WF) (ho : o.WF) (hg : gi.WF) :
    l.pass e e' (Mat.ofFn N n x) (Mat.ofFn N m d) o gi =
      .ok ({ l with gradWeight := Mat.ofFn n m (fun k j => (∑ s ∈ range N, x s k * d s j) / N), gradBias := Mat.ofFn 1 m (fun _ j => (∑ s ∈ range N, d s j) / N) },
        Mat.ofFn N m (fun s j => ∑ k ∈ range n, x s k * W k j + b 0 j), if l.first then gi else Mat.ofFn N n (fun s k => ∑ j ∈ range m, d s j * W k j)) := by
  simp only [Layer.pass, Layer.forward, hk, hw, hb, denseForward_ofFn e.g N n m x W b ho, bind_ok', pure_ok, Layer.backprop]
  rw [denseBackward_ofFn e'.g _ N n m x W d (by exact hgw) (by exact hgb) (by exact hg), bind_ok']
  simp only [accN_eq_sum, mul_one_div]
  rw [← hk, ← hw, ← hb]
  rfl

/-- C19, C20: a layer of weights only. -/
theorem C20_dot_pass {i n m : Nat} {W : Nat → Nat → ℝ} (hk : l.kind = .dot n i) (hw : l.weight = Mat.ofFn n m W) (hgw : l.gradWeight.WF) (ho : o.WF) (hg : gi.WF) :
    l.pass e e' (Mat.ofFn N n x) (Mat.ofFn N m d) o gi =
      .ok ({ l with gradWeight := Mat.ofFn n m (fun k j => (∑ s ∈ range N, x s k * d s j) / N) },
        Mat.ofFn N m (fun s j => ∑ k ∈ range n, x s k * W k j), if l.first then gi else Mat.ofFn N n (fun s k => ∑ j ∈ range m, d s j * W k j)) := by
  simp only [Layer.pass, Layer.forward, hk, hw, dotForward_ofFn e.g N n m x W ho, bind_ok', pure_ok, Layer.backprop]
  rw [dotBackward_ofFn e'.g _ N n m x W d (by exact hgw) (by exact hg), bind_ok']
  simp only [accN_eq_sum, mul_one_div]
  rw [← hk, ← hw]
  rfl

/-- C22: an activation layer. -/
theorem C22_activation_pass {a : Activation} (hk : l.kind = .activation a) (ho : o.WF) (hg : gi.WF) :
    l.pass e e' (Mat.ofFn N C x) (Mat.ofFn N C d) o gi =
      .ok (l, Mat.ofFn N C (fun i j => a.apply (x i j)), if l.first then gi else Mat.ofFn N C (fun i j => a.derivation (x i j) * d i j)) := by
  simp only [Layer.pass, Layer.forward, hk, activationForward_ofFn e.g a.apply N C x ho, bind_ok', pure_ok, Layer.backprop,
    activationBackward_ofFn e'.g _ a.derivation N C x d hg]

/-- C26: a softmax layer. -/
theorem C26_softmax_pass (hk : l.kind = .softmax) (ho : o.WF) (hg : gi.WF) :
    l.pass e e' (Mat.ofFn N C x) (Mat.ofFn N C d) o gi = .ok (l, Mat.ofFn N C (fun i j => softmaxAt C (x i) j),
      if l.first then gi else Mat.ofFn N C (fun i j => d i j * (softmaxAt C (x i) j * (1 - softmaxAt C (x i) j)))) := by
  simp only [Layer.pass, Layer.forward, hk, softmaxForward_ofFn e.g N C x ho, bind_ok', pure_ok, Layer.backprop]
  cases l.first
  · simp only [softmaxBackward_ofFn e'.g N C x d hg, bind_ok', Bool.false_eq_true, if_false]
  · simp only [softmaxBackward, if_true, bind_ok', pure_ok]

/-- C40: a concatenated ReLU layer. -/
theorem C40_crelu_pass (hk : l.kind = .crelu) (ho : o.WF) (hg : gi.WF) :
    l.pass e e' (Mat.ofFn N C x) (Mat.ofFn N (C * 2) d) o gi = .ok (l,
      Mat.ofFn N (C * 2) (fun i j => if j < C then max (x i j) 0 else max (-x i (j - C)) 0),
      if l.first then gi else Mat.ofFn N C (fun i j => if 0 < x i j then d i j else -d i (j + C))) := by
  have key : (fun s j => if j < C then (if 0 ≤ x s j then x s j else 0) else (if 0 ≤ x s (j - C) then 0 else -x s (j - C))) =
      fun i j => if j < C then max (x i j) 0 else max (-x i (j - C)) 0 := by
    funext i j
    split
    · split
      · rw [max_eq_left ‹_›]
      · rw [max_eq_right (by linarith)]
    · split
      · rw [max_eq_right (by linarith)]
      · rw [max_eq_left (by linarith)]
  simp only [Layer.pass, Layer.forward, hk, creluForward_ofFn e.g ho N C x, bind_ok', pure_ok, Layer.backprop, key]
  cases l.first
  · simp only [creluBackward_ofFn e'.g hg N C x d, bind_ok', Bool.false_eq_true, if_false]
  · simp only [creluBackward, if_true, bind_ok', pure_ok]

/-- C41: a gated activation layer: the first half of the columns goes through the first activation, the second half through
the second one. -/
theorem C41_gated_pass {a₁ a₂ : Activation} (hk : l.kind = .gated (some a₁) (some a₂)) (hN : 0 < N) (hC : 0 < C) (ho : o.WF) (hg : gi.WF) :
    l.pass e e' (Mat.ofFn N (2 * C) x) (Mat.ofFn N C d) o gi = .ok (l,
      Mat.ofFn N C (fun i j => a₁.apply (x i j) * a₂.apply (x i (j + C))),
      if l.first then gi else Mat.ofFn N (2 * C) (fun i j => if j < C then d i j * a₂.apply (x i (j + C)) * a₁.derivation (x i j)
        else d i (j - C) * a₁.apply (x i (j - C)) * a₂.derivation (x i j))) := by
  have hs : ¬ (Mat.ofFn N (2 * C) x).size = 0 := by
    rw [Mat.ofFn_size]
    have := Nat.mul_pos hN (Nat.mul_pos (by decide : 0 < 2) hC)
    omega
  have hc : check ((Mat.ofFn N (2 * C) x).cols % 2 = 0) = .ok () := check_true (by rw [Mat.ofFn_cols]; omega)
  simp only [Layer.pass, Layer.forward, hk, gatedFwd, hc, if_neg hs, gatedFns, bind_ok', pure_ok, Layer.backprop, gatedBwd, gatedForward_ofFn e.g a₁.apply a₂.apply ho N C x]
  cases l.first
  · simp only [gatedBackward_ofFn e'.g a₁.apply a₂.apply a₁.derivation a₂.derivation hg N C x d, bind_ok', Bool.false_eq_true, if_false]
  · simp only [if_true, bind_ok']

/-- C42: a bias layer for frames; the gradient is the mean over samples and frames. -/
theorem C42_tdBias_pass {T F : Nat} {b : Nat → Nat → ℝ} (hk : l.kind = .tdBias F) (hF : 0 < F) (hb : l.bias = Mat.ofFn 1 F b) (hgb : l.gradBias.WF) (ho : o.WF) (hg : gi.WF) :
    l.pass e e' (Mat.ofFn N (T * F) x) (Mat.ofFn N (T * F) d) o gi =
      .ok ({ l with gradBias := Mat.ofFn 1 F (fun _ j => (∑ s ∈ range N, ∑ t ∈ range T, d s (t * F + j)) / (N * T : Nat)) },
        Mat.ofFn N (T * F) (fun s j => x s j + b 0 (j % F)), if l.first then gi else Mat.ofFn N (T * F) d) := by
  simp only [Layer.pass, Layer.forward, hk, hb, tdBiasForward_ofFn e.g ho N T F hF b x, bind_ok', pure_ok, Layer.backprop]
  rw [tdBiasBackward_ofFn e'.g _ N T F hF d (by exact hgb) (by exact hg), bind_ok']
  simp only [accN_eq_sum, sum_frames1]
  rw [← hk, ← hb]
  rfl

/-- C42: a layer of weights for frames.  It leaves its bias gradient alone. -/
theorem C42_tdDot_pass {T F O : Nat} {W : Nat → Nat → ℝ} (hk : l.kind = .tdDot F O) (hF : 0 < F) (hO : 0 < O) (hw : l.weight = Mat.ofFn F O W)
    (hgw : l.gradWeight.WF) (hgb : l.gradBias.WF) (ho : o.WF) (hg : gi.WF) :
    l.pass e e' (Mat.ofFn N (T * F) x) (Mat.ofFn N (T * O) d) o gi =
      .ok ({ l with gradWeight := Mat.ofFn F O (fun k j => (∑ s ∈ range N, ∑ t ∈ range T, x s (t * F + k) * d s (t * O + j)) / N) },
        Mat.ofFn N (T * O) (fun s j => ∑ k ∈ range F, x s (j / O * F + k) * W k (j % O)),
        if l.first then gi else Mat.ofFn N (T * F) (fun s k => ∑ j ∈ range O, d s (k / F * O + j) * W (k % F) j)) := by
  simp only [Layer.pass, Layer.forward, hk, hw, tdDotForward_ofFn e.g ho N T F O hF W x, bind_ok', pure_ok, Layer.backprop]
  rw [tdDenseBackward_ofFn e'.g _ _ N T F O hF hO W x d (by exact hgw) (by exact hgb) (by exact hg), bind_ok']
  simp only [accN_eq_sum, mul_one_div, Nat.mul_comm T N, sum_frames2, Bool.false_eq_true, if_false]
  rw [← hk, ← hw]
  rfl

/-- C42: a dense layer for frames.  The weights get the mean over the samples of the sums over the frames, the biases the mean
over samples and frames. -/
theorem C42_tdDense_pass {T F O : Nat} {W b : Nat → Nat → ℝ} (hk : l.kind = .tdDense F O) (hF : 0 < F) (hO : 0 < O) (hw : l.weight = Mat.ofFn F O W)
    (hb : l.bias = Mat.ofFn 1 O b) (hgw : l.gradWeight.WF) (hgb : l.gradBias.WF) (ho : o.WF) (hg : gi.WF) :
    l.pass e e' (Mat.ofFn N (T * F) x) (Mat.ofFn N (T * O) d) o gi =
      .ok ({ l with gradWeight := Mat.ofFn F O (fun k j => (∑ s ∈ range N, ∑ t ∈ range T, x s (t * F + k) * d s (t * O + j)) / N),
                    gradBias := Mat.ofFn 1 O (fun _ j => (∑ s ∈ range N, ∑ t ∈ range T, d s (t * O + j)) / (N * T : Nat)) },
        Mat.ofFn N (T * O) (fun s j => ∑ k ∈ range F, x s (j / O * F + k) * W k (j % O) + b 0 (j % O)),
        if l.first then gi else Mat.ofFn N (T * F) (fun s k => ∑ j ∈ range O, d s (k / F * O + j) * W (k % F) j)) := by
  simp only [Layer.pass, Layer.forward, hk, hw, hb, tdDenseForward_ofFn e.g ho N T F O hF W b x, bind_ok', pure_ok, Layer.backprop]
  rw [tdDenseBackward_ofFn e'.g _ _ N T F O hF hO W x d (by exact hgw) (by exact hgb) (by exact hg), bind_ok']
  simp only [accN_eq_sum, mul_one_div, Nat.mul_comm T N, sum_frames1, sum_frames2, if_true]
  rw [← hk, ← hw, ← hb]
  rfl

/-- C31: a global average pooling layer. -/
theorem C31_globalAvgPool_pass {R S K : Nat} {v : Nat → Nat → Nat → Nat → ℝ} (hk : l.kind = .globalAvgPool R S K) (ho : o.WF) (hg : gi.WF) :
    l.pass e e' (imgMat N K R S v) (Mat.ofFn N K d) o gi =
      .ok (l, Mat.ofFn N K (fun s k => (∑ t ∈ range (R * S), v s k (t / S) (t % S)) / (R * S : Nat)),
        if l.first then gi else imgMat N K R S (fun s k _ _ => d s k / (R * S : Nat))) := by
  simp only [Layer.pass, Layer.forward, hk, globalAvgPoolForward_imgMat e.g v ho, bind_ok', pure_ok, Layer.backprop, accN_eq_sum, mul_one_div]
  cases l.first
  · simp only [globalAvgPoolBackward_imgMat e'.g d hg, bind_ok', Bool.false_eq_true, if_false, mul_one_div]
  · simp only [globalAvgPoolBackward, if_true, bind_ok']

/-- C31: an average pooling layer. -/
theorem C31_avgPool_pass {R S K rf cf : Nat} {p : Pool} (hp : Pool.create R S K rf cf = .ok p) {v u : Nat → Nat → Nat → Nat → ℝ} (hk : l.kind = .avgPool p)
    (h1 : 0 < rf) (h2 : 0 < cf) (ho : o.WF) (hg : gi.WF) :
    l.pass e e' (imgMat N K R S v) (imgMat N K (R / rf) (S / cf) u) o gi =
      .ok (l, imgMat N K (R / rf) (S / cf) (fun s k r c => (∑ t ∈ range (rf * cf), v s k (r * rf + t / cf) (c * cf + t % cf)) / (rf * cf : Nat)),
        if l.first then gi else imgMat N K R S (fun s k r c => if r / rf < R / rf ∧ c / cf < S / cf then u s k (r / rf) (c / cf) / (rf * cf : Nat) else 0)) := by
  obtain rfl := Except.ok.inj (hp.symm.trans (Pool.create_eq h1 h2))
  simp only [Layer.pass, Layer.forward, hk, avgPoolForward_imgMat e.g v ho, bind_ok', pure_ok, Layer.backprop, accN_eq_sum, mul_one_div]
  cases l.first
  · simp only [avgPoolBackward_imgMat e'.g h1 h2 u hg, bind_ok', Bool.false_eq_true, if_false, mul_one_div, zero_add]
  · simp only [avgPoolBackward, if_true, bind_ok']

/-- C32: a padding layer. -/
theorem C32_zeroPad_pass {R S K b : Nat} {v u : Nat → Nat → Nat → Nat → ℝ} (hk : l.kind = .zeroPad R S K b) (ho : o.WF) (hg : gi.WF) :
    l.pass e e' (imgMat N K R S v) (imgMat N K (R + 2 * b) (S + 2 * b) u) o gi =
      .ok (l, imgMat N K (R + 2 * b) (S + 2 * b) (fun s k r c => if (b ≤ r ∧ r < R + b) ∧ b ≤ c ∧ c < S + b then v s k (r - b) (c - b) else 0),
        if l.first then gi else imgMat N K R S (fun s k r c => u s k (r + b) (c + b))) := by
  simp only [Layer.pass, Layer.forward, hk, zeroPadForward_imgMat e.g v ho, bind_ok', pure_ok, Layer.backprop]
  cases l.first
  · simp only [zeroPadBackward_imgMat e'.g u hg, bind_ok', Bool.false_eq_true, if_false]
  · simp only [zeroPadBackward, if_true, bind_ok']

end

/-! ## Examples -/

private noncomputable def env : Env := { g := fun _ => 5, gi := fun _ => 0, fl := id, lim := fun _ => 2, rng := fun n => n, draw := fun n => n, drawX := fun n => n }

private theorem ok_of_eq {α : Type} {x : Out α} {a : α} (h : x = .ok a) : x.isOk = true := by rw [h]; rfl

private noncomputable def xs : Nat → Nat → ℝ := fun i j => i - j
private noncomputable def ds : Nat → Nat → ℝ := fun i j => i * j + 1

/-- A layer with weights and biases. -/
private noncomputable abbrev lay (k : LayerKind) : Layer :=
  { kind := k, first := false, train := true, weight := Mat.ofFn 2 3 fun i j => i + j, bias := Mat.ofFn 1 3 fun _ j => j, gradWeight := Mat.ofFn 1 2 fun _ _ => 9 }

example : ((lay (.dense 2 3)).pass env env (Mat.ofFn 4 2 xs) (Mat.ofFn 4 3 ds) ⟨0, 0, []⟩ ⟨0, 0, []⟩).isOk = true :=
  ok_of_eq (C20_dense_pass (W := fun i j => (i : ℝ) + j) (b := fun _ j => (j : ℝ)) rfl rfl rfl (Mat.ofFn_WF ..) rfl rfl rfl)

example : ((lay (.dot 2 3)).pass env env (Mat.ofFn 4 2 xs) (Mat.ofFn 4 3 ds) ⟨0, 0, []⟩ ⟨0, 0, []⟩).isOk = true :=
  ok_of_eq (C20_dot_pass (W := fun i j => (i : ℝ) + j) rfl rfl (Mat.ofFn_WF ..) rfl rfl)

example : ((lay (.activation Act.relu)).pass env env (Mat.ofFn 4 2 xs) (Mat.ofFn 4 2 ds) ⟨0, 0, []⟩ ⟨0, 0, []⟩).isOk = true :=
  ok_of_eq (C22_activation_pass rfl rfl rfl)

example : ((lay .softmax).pass env env (Mat.ofFn 4 2 xs) (Mat.ofFn 4 2 ds) ⟨0, 0, []⟩ ⟨0, 0, []⟩).isOk = true := ok_of_eq (C26_softmax_pass rfl rfl rfl)

example : ((lay .crelu).pass env env (Mat.ofFn 4 2 xs) (Mat.ofFn 4 4 ds) ⟨0, 0, []⟩ ⟨0, 0, []⟩).isOk = true := ok_of_eq (C40_crelu_pass rfl rfl rfl)

/-- GLU: the first half times the sigmoid of the second half. -/
example : Layer.forward env (lay (.gated (some Act.identity) (some Act.sigmoid))) (Mat.ofFn 4 6 xs) ⟨0, 0, []⟩ =
    .ok (lay (.gated (some Act.identity) (some Act.sigmoid)), Mat.ofFn 4 3 (fun i j => Act.identity.apply (xs i j) * Act.sigmoid.apply (xs i (j + 3)))) := by
  have h := C41_gated_pass (l := lay (.gated (some Act.identity) (some Act.sigmoid))) (e := env) (e' := env) (N := 4) (C := 3) (x := xs) (d := ds) (o := ⟨0, 0, []⟩) (gi := ⟨0, 0, []⟩)
    rfl (by decide) (by decide) rfl rfl
  obtain ⟨⟨l', Y⟩, h1, h2⟩ := ok_bind h
  obtain ⟨⟨l'', D⟩, h3, h4⟩ := ok_bind h2
  have hl : l' = lay (.gated (some Act.identity) (some Act.sigmoid)) := by
    simp only [Layer.forward] at h1
    obtain ⟨_, -, h5⟩ := ok_bind h1
    injection h5 with h5
    injection h5 with h5
    exact h5.symm
  injection h4 with h4
  injection h4 with h4 h5
  injection h5 with h5
  rw [show (6 : Nat) = 2 * 3 from rfl, h1, hl, h5]

example : ((lay (.tdBias 3)).pass env env (Mat.ofFn 4 (2 * 3) xs) (Mat.ofFn 4 (2 * 3) ds) ⟨0, 0, []⟩ ⟨0, 0, []⟩).isOk = true :=
  ok_of_eq (C42_tdBias_pass (b := fun _ j => (j : ℝ)) rfl (by decide) rfl rfl rfl rfl)

example : ((lay (.tdDot 2 3)).pass env env (Mat.ofFn 4 (5 * 2) xs) (Mat.ofFn 4 (5 * 3) ds) ⟨0, 0, []⟩ ⟨0, 0, []⟩).isOk = true :=
  ok_of_eq (C42_tdDot_pass (W := fun i j => (i : ℝ) + j) rfl (by decide) (by decide) rfl (Mat.ofFn_WF ..) rfl rfl rfl)

example : ((lay (.tdDense 2 3)).pass env env (Mat.ofFn 4 (5 * 2) xs) (Mat.ofFn 4 (5 * 3) ds) ⟨0, 0, []⟩ ⟨0, 0, []⟩).isOk = true :=
  ok_of_eq (C42_tdDense_pass (W := fun i j => (i : ℝ) + j) (b := fun _ j => (j : ℝ)) rfl (by decide) (by decide) rfl rfl (Mat.ofFn_WF ..) rfl rfl rfl)

private noncomputable def im : Nat → Nat → Nat → Nat → ℝ := fun s k r c => s + k * r - c

example : ((lay (.globalAvgPool 2 3 4)).pass env env (imgMat 5 4 2 3 im) (Mat.ofFn 5 4 ds) ⟨0, 0, []⟩ ⟨0, 0, []⟩).isOk = true :=
  ok_of_eq (C31_globalAvgPool_pass rfl rfl rfl)

example : ((lay (.avgPool (Pool.std 5 4 2 2 2))).pass env env (imgMat 3 2 5 4 im) (imgMat 3 2 (5 / 2) (4 / 2) im) ⟨0, 0, []⟩ ⟨0, 0, []⟩).isOk = true :=
  ok_of_eq (C31_avgPool_pass (v := im) (u := im) (rf := 2) (cf := 2) (Pool.create_eq (by decide) (by decide)) rfl (by decide) (by decide) rfl rfl)

example : ((lay (.zeroPad 5 4 2 1)).pass env env (imgMat 3 2 5 4 im) (imgMat 3 2 (5 + 2 * 1) (4 + 2 * 1) im) ⟨0, 0, []⟩ ⟨0, 0, []⟩).isOk = true :=
  ok_of_eq (C32_zeroPad_pass (v := im) (u := im) rfl rfl rfl)

end BeeDNN
