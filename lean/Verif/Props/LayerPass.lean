import Verif.Spec.LayerPass
import Verif.Lemmas.FitsPool
import Verif.Props.LayersMisc
import Verif.Props.Pooling

/-! # C26, C29, C30, C37, C38, C45, C46, C88, C89 on layer objects: a forward pass and then a backward pass

The theorems about the passes of the single classes are about the functions of their members.  Here the same is said about layer objects, where
the class decides which functions are called (virtual functions) and what is kept from one call to the next. -/

namespace BeeDNN
open Finset Layer

section
variable {l : Layer} {e e' : Env} {N C : Nat} {x d : Nat → Nat → ℝ} {o gi : Mat ℝ}

/-- C26: a softmin layer. -/
theorem C26_softmin_pass (hk : l.kind = .softmin) (ho : o.WF) (hg : gi.WF) :
    l.pass e e' (Mat.ofFn N C x) (Mat.ofFn N C d) o gi = .ok (l, Mat.ofFn N C (fun i j => softmaxAt C (fun k => -x i k) j),
      if l.first then gi else Mat.ofFn N C (fun i j => -(d i j * (softmaxAt C (fun k => -x i k) j * (1 - softmaxAt C (fun k => -x i k) j))))) := by
  simp only [Layer.pass, Layer.forward, hk, softminForward_ofFn e.g N C x ho, bind_ok', pure_ok, Layer.backprop]
  cases l.first
  · simp only [softminBackward_ofFn e'.g N C x d hg, bind_ok', Bool.false_eq_true, if_false]
  · simp only [softminBackward, if_true, bind_ok', pure_ok]

/-- C37: a dropout layer in training: forward and backward pass keep the same entries. -/
theorem C37_dropout_pass {r : ℝ} (hk : l.kind = .dropout r) (hr : r ≠ 0) (ht : l.train = true) (hm : l.mask.WF) (ho : o.WF) (hg : gi.WF) :
    ∃ m, l.pass e e' (Mat.ofFn N C x) (Mat.ofFn N C d) o gi = .ok ({ l with mask := m },
      Mat.ofFn N C (fun i j => if e.rng (i * C + j) % 65536 < e.lim (1 - r) then x i j / (1 - r) else 0),
      if l.first then gi else Mat.ofFn N C (fun i j => if e.rng (i * C + j) % 65536 < e.lim (1 - r) then d i j / (1 - r) else 0)) := by
  have key : ∀ y : Nat → Nat → ℝ, (fun i j => y i j * dropFactor e.lim r e.rng C i j) =
      fun i j => if e.rng (i * C + j) % 65536 < e.lim (1 - r) then y i j / (1 - r) else 0 := by
    intro y
    funext i j
    unfold dropFactor
    split
    · rw [one_mul, mul_one_div]
    · rw [zero_mul, mul_zero]
  simp only [Layer.pass, Layer.forward, hk, ht, dropoutForward_train e.g e.lim r hr e.rng hm ho N C x, bind_ok', pure_ok, Layer.backprop]
  cases l.first
  · simp only [dropoutBackward_ofFn e'.g r hr hg N C _ d, bind_ok', Bool.false_eq_true, if_false, key]
    exact ⟨_, rfl⟩
  · simp only [dropoutBackward, if_true, bind_ok', pure_ok, key]
    exact ⟨_, rfl⟩

/-- C37: outside of training a dropout layer does nothing. -/
theorem C37_dropout_object {r : ℝ} (hk : l.kind = .dropout r) (ht : l.train = false) (ho : o.WF) :
    l.forward e (Mat.ofFn N C x) o = .ok (l, Mat.ofFn N C x) := by
  simp only [Layer.forward, hk, ht, dropoutForward_test e.g e.lim false r (.inl rfl) e.rng ho N C x, bind_ok', pure_ok]
  rw [← hk, ← ht]

/-- C38: outside of training noise layers and Gaussian dropout layers do nothing. -/
theorem C38_noise_object {r : ℝ} (hk : l.kind = .gaussianNoise r ∨ l.kind = .uniformNoise r ∨ l.kind = .gaussianDropout r) (ht : l.train = false) (ho : o.WF) :
    l.forward e (Mat.ofFn N C x) o = .ok (l, Mat.ofFn N C x) := by
  rcases hk with hk | hk | hk
  · simp only [Layer.forward, hk, ht, C38_noise_test e.g r e.draw o ho N C x, bind_ok', pure_ok]
  · simp only [Layer.forward, hk, ht, C38_noise_test e.g r e.draw o ho N C x, bind_ok', pure_ok]
  · simp only [Layer.forward, hk, ht, C38_gaussianDropout_test e.g e.draw l.mask o ho N C x, bind_ok', pure_ok]
    rw [← hk, ← ht]

/-- C38: in training a noise layer adds the draws and hands the gradient on. -/
theorem C38_noise_pass {r : ℝ} (hk : l.kind = .gaussianNoise r ∨ l.kind = .uniformNoise r) (hr : 0 < r) (ht : l.train = true) (ho : o.WF) (hg : gi.WF) :
    l.pass e e' (Mat.ofFn N C x) (Mat.ofFn N C d) o gi =
      .ok (l, Mat.ofFn N C (fun i j => x i j + e.draw (i * C + j)), if l.first then gi else Mat.ofFn N C d) := by
  rcases hk with hk | hk <;>
    (simp only [Layer.pass, Layer.forward, hk, ht, noiseForward_ofFn e.g true r e.draw ho N C x, bind_ok', pure_ok, Layer.backprop, noiseBackward, true_and, if_pos hr]
     cases l.first <;> simp only [Bool.false_eq_true, if_false, if_true, Mat.assign_ofFn e'.g hg, bind_ok', pure_ok])

/-- C38: in training a random flip layer hands the images on; in the first layer it has no backward pass. -/
theorem C38_flip_object {R S K : Nat} (hk : l.kind = .randomFlip R S K) (ht : l.train = true) (ho : o.WF) :
    l.forward e (Mat.ofFn N (R * S * K) x) o = .ok (l, Mat.ofFn N (R * S * K) x) ∧
      (l.first = true → ∀ X G, l.backprop e' X G gi = .ok (l, gi)) := by
  constructor
  · have := C38_flip_train e.g R S K e.rng l.mask o ho N (fun i => px R S (x i))
    rw [← ofFn_px] at this
    simp only [Layer.forward, hk, ht, this, bind_ok', pure_ok]
    rw [← hk, ← ht]
  · intro hf X G
    simp only [Layer.backprop, hk, hf, flipBackward, if_true, bind_ok', pure_ok]

/-- C45: a gain layer; the gradient of the gains is the wrong one (C45_gain_weight_gradient_wrong). -/
theorem C45_gain_pass {w : Nat → Nat → ℝ} (hk : l.kind = .gain) (hw : l.weight = Mat.ofFn 1 C w) (hC : 0 < C) (hgw : l.gradWeight.WF) (ho : o.WF) (hg : gi.WF) :
    l.pass e e' (Mat.ofFn N C x) (Mat.ofFn N C d) o gi =
      .ok ({ l with weight := Mat.ofFn 1 C w, gradWeight := Mat.ofFn 1 C (fun _ j => (∑ a ∈ range C, ∑ s ∈ range N, x s a * d s j) / C) },
        Mat.ofFn N C (fun i j => x i j * w 0 j), if l.first then gi else Mat.ofFn N C (fun i j => d i j * w 0 j)) := by
  simp only [Layer.pass, Layer.forward, hk, hw, gainForward_ofFn e.g N C hC x w ho, bind_ok', pure_ok, Layer.backprop]
  rw [gainBackward_ofFn e'.g _ N C x w d (by exact hgw) (by exact hg), bind_ok']
  simp only [accN_eq_sum]
  rfl

/-- C45: an affine layer; the gradient of the gains is the wrong one. -/
theorem C45_affine_pass {w b : Nat → Nat → ℝ} (hk : l.kind = .affine) (hw : l.weight = Mat.ofFn 1 C w) (hb : l.bias = Mat.ofFn 1 C b) (hC : 0 < C)
    (hgw : l.gradWeight.WF) (hgb : l.gradBias.WF) (ho : o.WF) (hg : gi.WF) :
    l.pass e e' (Mat.ofFn N C x) (Mat.ofFn N C d) o gi =
      .ok ({ l with weight := Mat.ofFn 1 C w, bias := Mat.ofFn 1 C b,
                    gradWeight := Mat.ofFn 1 C (fun _ j => (∑ a ∈ range C, ∑ s ∈ range N, x s a * d s j) / C),
                    gradBias := Mat.ofFn 1 C (fun _ j => (∑ s ∈ range N, d s j) / N) },
        Mat.ofFn N C (fun i j => x i j * w 0 j + b 0 j), if l.first then gi else Mat.ofFn N C (fun i j => d i j * w 0 j)) := by
  simp only [Layer.pass, Layer.forward, hk, hw, hb, affineForward_ofFn e.g N C hC x w b ho, bind_ok', pure_ok, Layer.backprop]
  rw [affineBackward_ofFn e'.g _ N C x w d (by exact hgw) (by exact hgb) (by exact hg), bind_ok']
  simp only [accN_eq_sum]
  rfl

/-- C45: a global bias layer. -/
theorem C45_globalBias_pass {b b' : Nat → Nat → ℝ} (hk : l.kind = .globalBias) (hb : l.bias = Mat.ofFn 1 1 b) (hgb : l.gradBias = Mat.ofFn 1 1 b')
    (ho : o.WF) (hg : gi.WF) :
    l.pass e e' (Mat.ofFn N C x) (Mat.ofFn N C d) o gi =
      .ok ({ l with gradBias := Mat.ofFn 1 1 (fun _ _ => (∑ i ∈ range N, ∑ j ∈ range C, d i j) / (N * C : Nat)) },
        Mat.ofFn N C (fun i j => x i j + b 0 0), if l.first then gi else Mat.ofFn N C d) := by
  simp only [Layer.pass, Layer.forward, hk, hb, globalBiasForward_ofFn e.g N C x b ho, bind_ok', pure_ok, Layer.backprop]
  rw [globalBiasBackward_ofFn e'.g _ N C d b' (by exact hgb) (by exact hg), bind_ok']
  simp only [accN_eq_sum, sum_range_mul N C (fun i j => d i j)]
  rw [← hk, ← hb]
  rfl

/-- C45: a global gain layer; the gradient of the gain is the wrong one. -/
theorem C45_globalGain_pass {w w' : Nat → Nat → ℝ} (hk : l.kind = .globalGain) (hw : l.weight = Mat.ofFn 1 1 w) (hgw : l.gradWeight = Mat.ofFn 1 1 w')
    (ho : o.WF) (hg : gi.WF) :
    l.pass e e' (Mat.ofFn N C x) (Mat.ofFn N C d) o gi =
      .ok ({ l with gradWeight := Mat.ofFn 1 1 (fun _ _ => (∑ a ∈ range C, ∑ b ∈ range C, ∑ s ∈ range N, x s a * d s b) / (C * C : Nat)) },
        Mat.ofFn N C (fun i j => x i j * w 0 0), if l.first then gi else Mat.ofFn N C (fun i j => d i j * w 0 0)) := by
  simp only [Layer.pass, Layer.forward, hk, hw, globalGainForward_ofFn e.g N C x w ho, bind_ok', pure_ok, Layer.backprop]
  rw [globalGainBackward_ofFn e'.g _ N C x w d w' (by exact hgw) (by exact hg), bind_ok']
  simp only [accN_eq_sum, sum_range_mul C C (fun a b => ∑ s ∈ range N, x s a * d s b)]
  rw [← hk, ← hw]
  rfl

/-- C45: a global affine layer; the gradient of the gain is the wrong one. -/
theorem C45_globalAffine_pass {w b w' b' : Nat → Nat → ℝ} (hk : l.kind = .globalAffine) (hw : l.weight = Mat.ofFn 1 1 w) (hb : l.bias = Mat.ofFn 1 1 b)
    (hgw : l.gradWeight = Mat.ofFn 1 1 w') (hgb : l.gradBias = Mat.ofFn 1 1 b') (ho : o.WF) (hg : gi.WF) :
    l.pass e e' (Mat.ofFn N C x) (Mat.ofFn N C d) o gi =
      .ok ({ l with gradWeight := Mat.ofFn 1 1 (fun _ _ => (∑ a ∈ range C, ∑ b ∈ range C, ∑ s ∈ range N, x s a * d s b) / (C * C : Nat)),
                    gradBias := Mat.ofFn 1 1 (fun _ _ => (∑ i ∈ range N, ∑ j ∈ range C, d i j) / (N * C : Nat)) },
        Mat.ofFn N C (fun i j => x i j * w 0 0 + b 0 0), if l.first then gi else Mat.ofFn N C (fun i j => d i j * w 0 0)) := by
  simp only [Layer.pass, Layer.forward, hk, hw, hb, globalAffineForward_ofFn e.g N C x w b ho, bind_ok', pure_ok, Layer.backprop]
  rw [globalAffineBackward_ofFn e'.g _ N C x w d w' b' (by exact hgw) (by exact hgb) (by exact hg), bind_ok']
  simp only [accN_eq_sum, sum_range_mul C C (fun a b => ∑ s ∈ range N, x s a * d s b), sum_range_mul N C (fun i j => d i j)]
  rw [← hk, ← hw, ← hb]
  rfl

/-- C46, C88: a PRelu layer. -/
theorem C46_prelu_pass {w w' : Nat → Nat → ℝ} (hk : l.kind = .prelu) (hw : l.weight = Mat.ofFn 1 C w) (hgw : l.gradWeight = Mat.ofFn 1 C w') (hC : 0 < C)
    (ho : o.WF) (hg : gi.WF) :
    l.pass e e' (Mat.ofFn N C x) (Mat.ofFn N C d) o gi =
      .ok ({ l with weight := Mat.ofFn 1 C w, gradWeight := Mat.ofFn 1 C (fun _ j => (∑ s ∈ range N, if x s j < 0 then x s j * d s j else 0) / N) },
        Mat.ofFn N C (fun i j => preluFn (w 0 j) (x i j)), if l.first then gi else Mat.ofFn N C (fun i j => if x i j < 0 then d i j * w 0 j else d i j)) := by
  simp only [Layer.pass, Layer.forward, hk, hw, hgw, preluForward_ofFn e.g ho N C hC x w, bind_ok', pure_ok, Layer.backprop]
  rw [preluBackward_ofFn e'.g _ hg N C w w' x d, bind_ok']
  rfl

/-- C46, C88: a PELU layer. -/
theorem C46_pelu_pass {w w' : Nat → Nat → ℝ} (hk : l.kind = .pelu) (hw : l.weight = Mat.ofFn 2 C w) (hgw : l.gradWeight = Mat.ofFn 2 C w') (hC : 0 < C)
    (ho : o.WF) (hg : gi.WF) (hmin : ∀ p j, 0.1 ≤ w p j) :
    l.pass e e' (Mat.ofFn N C x) (Mat.ofFn N C d) o gi =
      .ok ({ l with weight := Mat.ofFn 2 C w, gradWeight := Mat.ofFn 2 C (fun p j => (∑ s ∈ range N,
              if p = 0 then (if 0 < x s j then x s j / w 1 j else Real.exp (x s j / w 1 j) - 1)
              else (if 0 < x s j then -w 0 j * (x s j / (w 1 j * w 1 j)) else -w 0 j * (x s j / (w 1 j * w 1 j)) * Real.exp (x s j / w 1 j))) / N) },
        Mat.ofFn N C (fun i j => peluFn (w 0 j) (w 1 j) (x i j)),
        if l.first then gi else Mat.ofFn N C (fun i j => d i j * if 0 < x i j then w 0 j / w 1 j else w 0 j / w 1 j * Real.exp (x i j / w 1 j))) := by
  have hmax : ∀ p j, max 0.1 (w p j) = w p j := fun p j => max_eq_right (hmin p j)
  simp only [Layer.pass, Layer.forward, hk, hw, hgw, peluForward_ofFn e.g ho N C hC x w, bind_ok', pure_ok, Layer.backprop]
  rw [peluBackward_ofFn e'.g _ hg N C w w' x d, bind_ok']
  simp only [hmax]
  rfl

/-- C46, C88: a TERELU layer. -/
theorem C46_terelu_pass {w w' : Nat → Nat → ℝ} (hk : l.kind = .terelu) (hw : l.weight = Mat.ofFn 1 C w) (hgw : l.gradWeight = Mat.ofFn 1 C w') (hC : 0 < C)
    (ho : o.WF) (hg : gi.WF) :
    l.pass e e' (Mat.ofFn N C x) (Mat.ofFn N C d) o gi =
      .ok ({ l with weight := Mat.ofFn 1 C w, gradWeight := Mat.ofFn 1 C (fun _ j => (∑ s ∈ range N, if 1 ≤ x s j then 1 - (Real.exp (1 - x s j) - 1) else 0) / N) },
        Mat.ofFn N C (fun i j => tereluFn 1 1 (w 0 j) (x i j)),
        if l.first then gi else Mat.ofFn N C (fun i j =>
          if x i j ≤ 0 then d i j * (1 * Real.exp (x i j)) else if 1 ≤ x i j then d i j * (w 0 j * Real.exp (1 - x i j)) else d i j)) := by
  simp only [Layer.pass, Layer.forward, hk, hw, hgw, tereluForward_ofFn e.g 1 1 ho N C hC x w, bind_ok', pure_ok, Layer.backprop]
  rw [tereluBackward_ofFn e'.g 1 1 _ hg N C w w' x d, bind_ok']
  rfl

/-- C46: the first forward pass of the parametric rectifiers makes the parameters. -/
theorem C46_first_pass (hC : 0 < C) (hw : l.weight.WF) (h0 : l.weight.size = 0) (ho : o.WF) :
    (l.kind = .prelu → l.forward e (Mat.ofFn N C x) o = .ok ({ l with weight := Mat.ofFn 1 C (fun _ _ => 0.25), gradWeight := l.gradWeight.resize e.g 1 C },
      Mat.ofFn N C (fun i j => preluFn 0.25 (x i j)))) ∧
    (l.kind = .pelu → l.forward e (Mat.ofFn N C x) o = .ok ({ l with weight := Mat.ofFn 2 C (fun _ _ => 1), gradWeight := l.gradWeight.resize e.g 2 C },
      Mat.ofFn N C (fun i j => peluFn 1 1 (x i j)))) ∧
    (l.kind = .terelu → l.forward e (Mat.ofFn N C x) o = .ok ({ l with weight := Mat.ofFn 1 C (fun _ _ => 1), gradWeight := l.gradWeight.resize e.g 1 C },
      Mat.ofFn N C (fun i j => tereluFn 1 1 1 (x i j)))) := by
  refine ⟨fun hk => ?_, fun hk => ?_, fun hk => ?_⟩
  · simp only [Layer.forward, hk, preluForward_first e.g hw h0 ho N C hC x, bind_ok', pure_ok]
  · simp only [Layer.forward, hk, peluForward_first e.g hw h0 ho N C hC x, bind_ok', pure_ok]
  · simp only [Layer.forward, hk, tereluForward_first e.g 1 1 hw h0 ho N C hC x, bind_ok', pure_ok]

/-- C89: a layer with random slopes in training: the backward pass uses the slopes of the forward pass. -/
theorem C89_rrelu_pass {a₁ a₂ : ℝ} (hk : l.kind = .rrelu a₁ a₂) (hle : 1 / a₁ ≤ 1 / a₂) (ht : l.train = true) (hm : l.mask.WF) (ho : o.WF) (hg : gi.WF) :
    ∃ m, l.pass e e' (Mat.ofFn N C x) (Mat.ofFn N C d) o gi = .ok ({ l with mask := m },
      Mat.ofFn N C (fun i j => preluFn (e.draw (i * C + j)) (x i j)),
      if l.first then gi else Mat.ofFn N C (fun i j => if x i j < 0 then d i j * e.draw (i * C + j) else d i j)) := by
  simp only [Layer.pass, Layer.forward, hk, ht, rreluForward_train e.g a₁ a₂ hle e.draw hm ho N C x, bind_ok', pure_ok, Layer.backprop]
  cases l.first
  · simp only [rreluBackward_ofFn e'.g hg N C _ x d, bind_ok', Bool.false_eq_true, if_false]
    exact ⟨_, rfl⟩
  · simp only [rreluBackward, if_true, bind_ok', pure_ok]
    exact ⟨_, rfl⟩

/-- C29 on layer objects: a max pooling layer in training, as it is: the gradient goes to the winners of the first channel of the first sample. -/
theorem C29_maxPool_pass {K R S rf cf : Nat} {p : Pool} (hp : Pool.create R S K rf cf = .ok p) (hk : l.kind = .maxPool p) (ht : l.train = true)
    (hf : l.first = false) (hrf : 0 < rf) (hcf : 0 < cf) (hN : 0 < N) (hK : 0 < K) (hfl : ∀ i : Nat, i < R * S → e.fl i = i)
    (x : Nat → Nat → Nat → Nat → ℝ) (hlow : ∀ s k r c, s < N → k < K → r < R → c < S → low < x s k r c)
    (ho : o.WF) (hM : l.maxIndex.WF) (hG : gi.WF) (gr : Nat → Nat → Nat → Nat → ℝ) (w : Nat → Nat → Nat → Nat → Nat) (hw : IsWinner N K R S rf cf x w) :
    ∃ idx y, l.pass e e' (imgMat N K R S x) (imgMat N K (R / rf) (S / cf) gr) o gi =
      .ok ({ l with maxIndex := idx }, imgMat N K (R / rf) (S / cf) y,
        imgMat N K R S (fun s k ri ci => if ri / rf < R / rf ∧ ci / cf < S / cf ∧ ri % rf * cf + ci % cf = w 0 0 (ri / rf) (ci / cf)
          then gr s k (ri / rf) (ci / cf) else 0)) ∧
      ∀ s k r c, s < N → k < K → r < R / rf → c < S / cf →
        (∃ i j, i < rf ∧ j < cf ∧ y s k r c = x s k (r * rf + i) (c * cf + j)) ∧ (∀ i j, i < rf → j < cf → x s k (r * rf + i) (c * cf + j) ≤ y s k r c) := by
  obtain ⟨p₁, y, idx₁, a1, a2, a3⟩ := C28_maxpool e.g e.gi e.fl low true hrf hcf x hlow ho hM
  obtain ⟨p₂, y₂, idx, b1, b2, b3⟩ := C29_actual e.g e'.g e.gi e.fl low hrf hcf hN hK hfl x hlow ho hM hG gr w hw
  obtain rfl : p = p₁ := Except.ok.inj (hp.symm.trans a1)
  obtain rfl : p = p₂ := Except.ok.inj (hp.symm.trans b1)
  obtain ⟨rfl, rfl⟩ := Prod.mk.inj (Except.ok.inj (b2.symm.trans a2))
  refine ⟨idx, y, ?_, a3⟩
  simp only [Layer.pass, Layer.forward, hk, ht, hf, b2, bind_ok', pure_ok, Layer.backprop, b3]

/-- C30 on layer objects: a global max pooling layer in training. -/
theorem C30_globalMaxPool_pass {K R S : Nat} (hk : l.kind = .globalMaxPool R S K) (ht : l.train = true) (hf : l.first = false)
    (hR : 0 < R) (hS : 0 < S) (hfl : ∀ i : Nat, i < R * S * K → e.fl i = i) (x : Nat → Nat → Nat → Nat → ℝ)
    (hlow : ∀ s k r c, s < N → k < K → r < R → c < S → low < x s k r c) (ho : o.WF) (hM : l.maxIndex.WF) (hG : gi.WF) :
    ∃ idx y d', ∃ wr wc : Nat → Nat → Nat, l.pass e e' (imgMat N K R S x) (Mat.ofFn N K d) o gi =
      .ok ({ l with maxIndex := idx }, Mat.ofFn N K y, imgMat N K R S d') ∧
      ∀ s k, s < N → k < K →
        (wr s k < R ∧ wc s k < S ∧ y s k = x s k (wr s k) (wc s k)) ∧
        (∀ r c, r < R → c < S → x s k r c ≤ y s k) ∧
        (∀ r c, r < R → c < S → d' s k r c = if r = wr s k ∧ c = wc s k then d s k else 0) := by
  obtain ⟨y, idx, d', wr, wc, h1, -, h2, h3⟩ := C30_globalmax e.g e'.g e.gi e.fl low hR hS hfl x hlow ho hM hG d
  refine ⟨idx, y, d', wr, wc, ?_, h3⟩
  simp only [Layer.pass, Layer.forward, hk, ht, hf, h1, bind_ok', pure_ok, Layer.backprop, h2]

end

/-! ## Examples -/

/-- An environment with exact conversions and some random numbers. -/
private noncomputable def env : Env := { g := fun _ => 5, gi := fun _ => 0, fl := id, lim := fun _ => 2, rng := fun n => n, draw := fun n => n, drawX := fun n => n }

private theorem ok_of_eq {α : Type} {x : Out α} {a : α} (h : x = .ok a) : x.isOk = true := by rw [h]; rfl

/-- A softmin layer that is not the first, two samples of three columns. -/
example : (Layer.pass env env { kind := .softmin, first := false, train := true } (Mat.ofFn 2 3 fun i j => i + j) (Mat.ofFn 2 3 fun _ j => j) ⟨0, 0, []⟩ ⟨0, 0, []⟩).isOk = true :=
  ok_of_eq (C26_softmin_pass rfl rfl rfl)

/-- A dropout layer with rate 1/2 in training: the first two entries are kept and doubled in both passes. -/
example : ∃ m, Layer.pass env env { kind := .dropout 0.5, first := false, train := true } (Mat.ofFn 1 3 fun _ j => j) (Mat.ofFn 1 3 fun _ _ => 1) ⟨0, 0, []⟩ ⟨0, 0, []⟩ =
    .ok ({ kind := .dropout 0.5, first := false, train := true, mask := m }, Mat.ofFn 1 3 (fun i j => if (i * 3 + j) % 65536 < 2 then (j : ℝ) / (1 - 0.5) else 0),
      Mat.ofFn 1 3 (fun i j => if (i * 3 + j) % 65536 < 2 then 1 / (1 - 0.5) else 0)) :=
  C37_dropout_pass (l := { kind := .dropout 0.5, first := false, train := true }) (e := env) (e' := env) rfl (by norm_num) rfl rfl rfl rfl

example : Layer.forward env { kind := .dropout 0.5, train := false } (Mat.ofFn 1 3 fun _ j => j) ⟨0, 0, []⟩ = .ok ({ kind := .dropout 0.5, train := false }, Mat.ofFn 1 3 fun _ j => j) :=
  C37_dropout_object rfl rfl rfl

example : Layer.forward env { kind := .gaussianNoise 0.5, train := false } (Mat.ofFn 1 3 fun _ j => j) ⟨0, 0, []⟩ =
    .ok ({ kind := .gaussianNoise 0.5, train := false }, Mat.ofFn 1 3 fun _ j => j) :=
  C38_noise_object (.inl rfl) rfl rfl

example : Layer.pass env env { kind := .uniformNoise 0.5, first := true, train := true } (Mat.ofFn 1 3 fun _ j => j) (Mat.ofFn 1 3 fun _ j => j) ⟨0, 0, []⟩ ⟨1, 1, [7]⟩ =
    .ok ({ kind := .uniformNoise 0.5, first := true, train := true }, Mat.ofFn 1 3 (fun i j => (j : ℝ) + ((i * 3 + j : Nat) : ℝ)), ⟨1, 1, [7]⟩) :=
  C38_noise_pass (e := env) (e' := env) (.inr rfl) (by norm_num) rfl rfl rfl

example : Layer.forward env { kind := .randomFlip 2 2 1, train := true } (Mat.ofFn 1 (2 * 2 * 1) fun _ j => j) ⟨0, 0, []⟩ = .ok ({ kind := .randomFlip 2 2 1, train := true }, Mat.ofFn 1 (2 * 2 * 1) fun _ j => j) :=
  (C38_flip_object (e := env) (x := fun _ j => (j : ℝ)) (o := ⟨0, 0, []⟩) (e' := env) (gi := ⟨0, 0, []⟩) rfl rfl rfl).1

/-- A layer of one parameter for each of two columns, which is not the first. -/
private noncomputable abbrev two (k : LayerKind) : Layer :=
  { kind := k, first := false, train := true, weight := Mat.ofFn 1 2 fun _ j => j + 2, bias := Mat.ofFn 1 2 fun _ j => j, gradWeight := Mat.ofFn 1 2 fun _ _ => 9, gradBias := Mat.ofFn 1 2 fun _ _ => 9 }

/-- A layer of one parameter, which is not the first. -/
private noncomputable abbrev one (k : LayerKind) : Layer :=
  { kind := k, first := false, train := true, weight := Mat.ofFn 1 1 fun _ _ => 2, bias := Mat.ofFn 1 1 fun _ _ => 3, gradWeight := Mat.ofFn 1 1 fun _ _ => 9, gradBias := Mat.ofFn 1 1 fun _ _ => 9 }

private noncomputable def xs : Nat → Nat → ℝ := fun i j => i - j
private noncomputable def ds : Nat → Nat → ℝ := fun i j => i * j + 1

example : ((two .gain).pass env env (Mat.ofFn 3 2 xs) (Mat.ofFn 3 2 ds) ⟨0, 0, []⟩ ⟨0, 0, []⟩).isOk = true :=
  ok_of_eq (C45_gain_pass (w := fun _ j => (j : ℝ) + 2) rfl rfl (by norm_num) (Mat.ofFn_WF ..) rfl rfl)

example : ((two .affine).pass env env (Mat.ofFn 3 2 xs) (Mat.ofFn 3 2 ds) ⟨0, 0, []⟩ ⟨0, 0, []⟩).isOk = true :=
  ok_of_eq (C45_affine_pass (w := fun _ j => (j : ℝ) + 2) (b := fun _ j => (j : ℝ)) rfl rfl rfl (by norm_num) (Mat.ofFn_WF ..) (Mat.ofFn_WF ..) rfl rfl)

example : ((one .globalBias).pass env env (Mat.ofFn 3 2 xs) (Mat.ofFn 3 2 ds) ⟨0, 0, []⟩ ⟨0, 0, []⟩).isOk = true :=
  ok_of_eq (C45_globalBias_pass (b := fun _ _ => 3) (b' := fun _ _ => 9) rfl rfl rfl rfl rfl)

example : ((one .globalGain).pass env env (Mat.ofFn 3 2 xs) (Mat.ofFn 3 2 ds) ⟨0, 0, []⟩ ⟨0, 0, []⟩).isOk = true :=
  ok_of_eq (C45_globalGain_pass (w := fun _ _ => 2) (w' := fun _ _ => 9) rfl rfl rfl rfl rfl)

example : ((one .globalAffine).pass env env (Mat.ofFn 3 2 xs) (Mat.ofFn 3 2 ds) ⟨0, 0, []⟩ ⟨0, 0, []⟩).isOk = true :=
  ok_of_eq (C45_globalAffine_pass (w := fun _ _ => 2) (b := fun _ _ => 3) (w' := fun _ _ => 9) (b' := fun _ _ => 9) rfl rfl rfl rfl rfl rfl rfl)

example : ((two .prelu).pass env env (Mat.ofFn 3 2 xs) (Mat.ofFn 3 2 ds) ⟨0, 0, []⟩ ⟨0, 0, []⟩).isOk = true :=
  ok_of_eq (C46_prelu_pass (w := fun _ j => (j : ℝ) + 2) (w' := fun _ _ => 9) rfl rfl rfl (by norm_num) rfl rfl)

example : (Layer.pass env env { kind := .pelu, weight := Mat.ofFn 2 2 fun p j => p + j + 1, gradWeight := Mat.ofFn 2 2 fun _ _ => 9 }
    (Mat.ofFn 3 2 xs) (Mat.ofFn 3 2 ds) ⟨0, 0, []⟩ ⟨0, 0, []⟩).isOk = true :=
  ok_of_eq (C46_pelu_pass (w := fun p j => (p : ℝ) + j + 1) (w' := fun _ _ => 9) rfl rfl rfl (by norm_num) rfl rfl (fun p j => by
    have hp : (0 : ℝ) ≤ p := Nat.cast_nonneg p
    have hj : (0 : ℝ) ≤ j := Nat.cast_nonneg j
    norm_num; linarith))

example : ((two .terelu).pass env env (Mat.ofFn 3 2 xs) (Mat.ofFn 3 2 ds) ⟨0, 0, []⟩ ⟨0, 0, []⟩).isOk = true :=
  ok_of_eq (C46_terelu_pass (w := fun _ j => (j : ℝ) + 2) (w' := fun _ _ => 9) rfl rfl rfl (by norm_num) rfl rfl)

example : (Layer.forward env { kind := .prelu } (Mat.ofFn 3 2 xs) ⟨0, 0, []⟩).isOk = true :=
  ok_of_eq ((C46_first_pass (l := { kind := .prelu }) (o := ⟨0, 0, []⟩) (by norm_num) rfl rfl rfl).1 rfl)

example : ∃ m, Layer.pass env env { kind := .rrelu 8 3, first := false, train := true } (Mat.ofFn 3 2 xs) (Mat.ofFn 3 2 ds) ⟨0, 0, []⟩ ⟨0, 0, []⟩ = .ok ({ kind := .rrelu 8 3, first := false, train := true, mask := m },
    Mat.ofFn 3 2 (fun i j => preluFn ((i * 2 + j : Nat) : ℝ) (xs i j)), Mat.ofFn 3 2 (fun i j => if xs i j < 0 then ds i j * ((i * 2 + j : Nat) : ℝ) else ds i j)) :=
  C89_rrelu_pass (l := { kind := .rrelu 8 3, first := false, train := true }) (e := env) (e' := env) rfl (by norm_num) rfl rfl rfl rfl

/-- Pooling of one image of 2×2 pixels by 2×2, with the maximum in the first pixel. -/
example : ∃ idx y, Layer.pass env env { kind := .maxPool (Pool.std 2 2 1 2 2), first := false, train := true } (imgMat 1 1 2 2 fun _ _ r c => -r - c) (imgMat 1 1 1 1 fun _ _ _ _ => 5)
      ⟨0, 0, []⟩ ⟨0, 0, []⟩ = .ok ({ kind := .maxPool (Pool.std 2 2 1 2 2), first := false, train := true, maxIndex := idx }, imgMat 1 1 1 1 y, imgMat 1 1 2 2 fun _ _ r c =>
        if r / 2 < 1 ∧ c / 2 < 1 ∧ r % 2 * 2 + c % 2 = 0 then 5 else 0) := by
  obtain ⟨idx, y, h, -⟩ := C29_maxPool_pass (l := { kind := .maxPool (Pool.std 2 2 1 2 2), first := false, train := true }) (e := env) (e' := env) (N := 1) (K := 1) (R := 2) (S := 2) (rf := 2) (cf := 2)
    (o := ⟨0, 0, []⟩) (gi := ⟨0, 0, []⟩) (Pool.create_eq (by norm_num) (by norm_num)) rfl rfl rfl (by norm_num) (by norm_num) (by norm_num) (by norm_num) (fun _ _ => rfl)
    (fun _ _ r c => -r - c) (fun _ _ r c _ _ hr hc => by
      have : (r : ℝ) < 2 := by exact_mod_cast hr
      have : (c : ℝ) < 2 := by exact_mod_cast hc
      unfold low; linarith) rfl rfl rfl (fun _ _ _ _ => 5) (fun _ _ _ _ => 0) (by
      intro s k r c _ _ hr hc
      obtain rfl : r = 0 := by omega
      obtain rfl : c = 0 := by omega
      refine ⟨by norm_num, fun t _ => ?_, fun t ht => absurd ht (Nat.not_lt_zero _)⟩
      have h1 : (0 : ℝ) ≤ (t / 2 : Nat) := Nat.cast_nonneg _
      have h2 : (0 : ℝ) ≤ (t % 2 : Nat) := Nat.cast_nonneg _
      simp only [Nat.zero_mul, Nat.zero_add, Nat.zero_div, Nat.zero_mod, Nat.cast_zero]
      linarith)
  exact ⟨idx, y, h⟩

example : ∃ (idx : Mat Int) (y : Nat → Nat → ℝ), y 0 0 = 0 ∧ ∃ d', Layer.pass env env { kind := .globalMaxPool 2 2 1, first := false, train := true } (imgMat 1 1 2 2 fun _ _ r c => -r - c) (Mat.ofFn 1 1 fun _ _ => 5)
      ⟨0, 0, []⟩ ⟨0, 0, []⟩ = .ok ({ kind := .globalMaxPool 2 2 1, first := false, train := true, maxIndex := idx }, Mat.ofFn 1 1 y, imgMat 1 1 2 2 d') := by
  obtain ⟨idx, y, d', wr, wc, h, h3⟩ := C30_globalMaxPool_pass (l := { kind := .globalMaxPool 2 2 1, first := false, train := true }) (e := env) (e' := env) (N := 1) (K := 1) (R := 2) (S := 2)
    (d := fun _ _ => 5) (o := ⟨0, 0, []⟩) (gi := ⟨0, 0, []⟩) rfl rfl rfl (by norm_num) (by norm_num) (fun _ _ => rfl)
    (fun _ _ r c => -r - c) (fun _ _ r c _ _ hr hc => by
      have : (r : ℝ) < 2 := by exact_mod_cast hr
      have : (c : ℝ) < 2 := by exact_mod_cast hc
      unfold low; linarith) rfl rfl rfl
  refine ⟨idx, y, ?_, d', h⟩
  obtain ⟨⟨-, -, h1⟩, h2, -⟩ := h3 0 0 (by norm_num) (by norm_num)
  have := h2 0 0 (by norm_num) (by norm_num)
  have a1 : (0 : ℝ) ≤ wr 0 0 := Nat.cast_nonneg _
  have a2 : (0 : ℝ) ≤ wc 0 0 := Nat.cast_nonneg _
  norm_num at this
  linarith

end BeeDNN
