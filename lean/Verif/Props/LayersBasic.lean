import Verif.Lemmas.LayersBasic
import Verif.Lemmas.Gradient
import Verif.Props.Matrix
import Mathlib.Data.Rat.Defs
import Mathlib.Tactic.NormNum

/-!
# Dense, dot, bias, gain, affine and activation layers (claims C19, C20, C22, C45)

`Mat.ofFn R C f` is the `R × C` matrix with entries `f i j`; every well-formed matrix is of this form.
`N` is the number of samples.  `old` are the matrices overwritten by back-propagation, `g` fresh memory.
-/

namespace BeeDNN
open Finset

variable {α : Type}

/-- Output of the affine map `x W + b`, entry `(s,j)`. -/
def affineOut (n : Nat) (x W b : Nat → Nat → ℝ) (s j : Nat) : ℝ :=
  (∑ k ∈ range n, x s k * W k j) + b 0 j

/-- Three empty gradient matrices (the state of a new layer). -/
def emptyGrads : Grads α := ⟨⟨0, 0, []⟩, ⟨0, 0, []⟩, ⟨0, 0, []⟩⟩

/-! ## C19 -/

/-- C19: the dense layer, with bare scalar operations, for every previous content of the output. -/
theorem C19_dense [Zero α] [Add α] [Mul α] (g : Nat → α) (N n m : Nat) (x W b : Nat → Nat → α)
    (mOut : Mat α) (ho : mOut.WF) :
    denseForward g (Mat.ofFn n m W) (Mat.ofFn 1 m b) (Mat.ofFn N n x) mOut =
      .ok (Mat.ofFn N m (fun s j => accN n (fun k => x s k * W k j) + b 0 j)) :=
  denseForward_ofFn g N n m x W b ho

/-- C19: over the reals this is the affine map. -/
theorem C19_dense_real (g : Nat → ℝ) (N n m : Nat) (x W b : Nat → Nat → ℝ) (mOut : Mat ℝ)
    (ho : mOut.WF) :
    denseForward g (Mat.ofFn n m W) (Mat.ofFn 1 m b) (Mat.ofFn N n x) mOut =
      .ok (Mat.ofFn N m (affineOut n x W b)) := by
  rw [denseForward_ofFn g N n m x W b ho]
  congr 1
  apply Mat.ofFn_congr
  intro i j _ _
  rw [accN_eq_sum]; rfl

/-- C19: the dot layer. -/
theorem C19_dot [Zero α] [Add α] [Mul α] (g : Nat → α) (N n m : Nat) (x W : Nat → Nat → α)
    (mOut : Mat α) (ho : mOut.WF) :
    dotForward g (Mat.ofFn n m W) (Mat.ofFn N n x) mOut =
      .ok (Mat.ofFn N m (fun s j => accN n (fun k => x s k * W k j))) :=
  dotForward_ofFn g N n m x W ho

/-- C19: a sample of the wrong width is a fault, as is a bias that does not fit the weights. -/
theorem C19_mismatch [Zero α] [Add α] [Mul α] (g : Nat → α) (w b mIn mOut : Mat α)
    (h : mIn.cols ≠ w.rows ∨ w.cols ≠ b.cols) :
    denseForward g w b mIn mOut = .error .assertFail := by
  unfold denseForward
  by_cases h1 : mIn.cols = w.rows
  · have h2 : w.cols ≠ b.cols := by
      rcases h with h | h
      · exact absurd h1 h
      · exact h
    rw [check_true h1, check_false h2]; rfl
  · rw [check_false h1]; rfl

example : denseForward (fun _ => 77) (Mat.mk 2 2 [1, 2, 3, 4]) (Mat.mk 1 2 [10, 20]) (Mat.mk 2 2 [1, 0, 1, 1])
    (Mat.mk 1 1 [5] : Mat Int) = .ok ⟨2, 2, [11, 22, 14, 26]⟩ := by decide

/-! ## C20 -/

/-- C20: what back-propagation computes, with bare scalar operations; a first layer leaves the input
gradient untouched. -/
theorem C20_dense [Zero α] [One α] [Add α] [Mul α] [Div α] [NatCast α] (g : Nat → α) (first : Bool)
    (N n m : Nat) (x W gr : Nat → Nat → α) (old : Grads α) (h1 : old.gW.WF) (h2 : old.gB.WF)
    (h3 : old.gIn.WF) :
    denseBackward g first (Mat.ofFn n m W) (Mat.ofFn N n x) (Mat.ofFn N m gr) old =
      .ok ⟨Mat.ofFn n m (fun k j => accN N (fun s => x s k * gr s j) * (1 / (N : α))),
        Mat.ofFn 1 m (fun _ j => accN N (fun s => gr s j) / (N : α)),
        if first then old.gIn
        else Mat.ofFn N n (fun s k => accN m (fun j => gr s j * W k j))⟩ :=
  denseBackward_ofFn g first N n m x W gr h1 h2 h3

theorem sum3_rotate (N m n : Nat) (f : Nat → Nat → Nat → ℝ) :
    ∑ s ∈ range N, ∑ j ∈ range m, ∑ k ∈ range n, f s j k =
      ∑ k ∈ range n, ∑ j ∈ range m, ∑ s ∈ range N, f s j k := by
  have h1 : ∀ s ∈ range N, ∑ j ∈ range m, ∑ k ∈ range n, f s j k =
      ∑ k ∈ range n, ∑ j ∈ range m, f s j k := fun s _ => sum_comm
  rw [sum_congr rfl h1, sum_comm]
  apply sum_congr rfl
  intro k _
  exact sum_comm

theorem weight_grad (c : ℝ) (N n m : Nat) (x W b gr : Nat → Nat → ℝ) :
    IsGrad n m (fun W => c * dotM N m gr (affineOut n x W b)) W
      (fun k j => (∑ s ∈ range N, x s k * gr s j) * c) := by
  apply isGrad_of_linear c (D := fun V s j => ∑ k ∈ range n, x s k * V k j)
  · intro V t s j
    unfold affineOut
    simp only [mul_add, sum_add_distrib, mul_sum]
    have : ∑ k ∈ range n, x s k * (t * V k j) = ∑ k ∈ range n, t * (x s k * V k j) :=
      sum_congr rfl (fun k _ => by ring)
    rw [this]; ring
  · intro V
    unfold dotM
    simp only [mul_sum, sum_mul]
    rw [sum3_rotate]
    apply sum_congr rfl; intro s _
    apply sum_congr rfl; intro j _
    apply sum_congr rfl; intro k _
    ring

theorem bias_grad (N m : Nat) (out : Nat → Nat → ℝ) (b gr : Nat → Nat → ℝ) (c : ℝ) :
    IsGrad 1 m (fun b => c * dotM N m gr (fun s j => out s j + b 0 j)) b
      (fun _ j => (∑ s ∈ range N, gr s j) * c) := by
  apply isGrad_of_linear c (out := fun b s j => out s j + b 0 j) (D := fun V _ j => V 0 j)
  · intro V t s j; ring
  · intro V
    unfold dotM
    simp only [range_one, sum_singleton, mul_sum, sum_mul]
    rw [sum_comm]
    apply sum_congr rfl; intro s _
    apply sum_congr rfl; intro j _
    ring

theorem input_grad (N n m : Nat) (x W b gr : Nat → Nat → ℝ) :
    IsGrad N n (fun x => dotM N m gr (affineOut n x W b)) x
      (fun s k => ∑ j ∈ range m, gr s j * W k j) := by
  apply isGrad_of_linear' (out := fun x => affineOut n x W b)
    (D := fun V s j => ∑ k ∈ range n, V s k * W k j)
  · intro V t s j
    unfold affineOut
    have : ∑ k ∈ range n, (x s k + t * V s k) * W k j =
        ∑ k ∈ range n, x s k * W k j + t * ∑ k ∈ range n, V s k * W k j := by
      rw [mul_sum, ← sum_add_distrib]
      apply sum_congr rfl; intro k _; ring
    rw [this]; ring
  · intro V
    unfold dotM
    apply sum_congr rfl; intro s _
    simp only [mul_sum, sum_mul]
    rw [sum_comm]
    apply sum_congr rfl; intro j _
    apply sum_congr rfl; intro k _
    ring

/-- C20: the weight and bias gradients are the gradients of the batch average of `⟨g, output⟩`, and the
input gradient is the gradient of `⟨g, output⟩`, for every upstream gradient `gr`. -/
theorem C20_dense_true_gradients (g : Nat → ℝ) (N n m : Nat) (x W b gr : Nat → Nat → ℝ)
    (old : Grads ℝ) (h1 : old.gW.WF) (h2 : old.gB.WF) (h3 : old.gIn.WF) :
    ∃ gW gB gIn : Nat → Nat → ℝ,
      denseBackward g false (Mat.ofFn n m W) (Mat.ofFn N n x) (Mat.ofFn N m gr) old =
        .ok ⟨Mat.ofFn n m gW, Mat.ofFn 1 m gB, Mat.ofFn N n gIn⟩ ∧
      IsGrad n m (fun W => (1 / (N : ℝ)) * dotM N m gr (affineOut n x W b)) W gW ∧
      IsGrad 1 m (fun b => (1 / (N : ℝ)) * dotM N m gr (affineOut n x W b)) b gB ∧
      IsGrad N n (fun x => dotM N m gr (affineOut n x W b)) x gIn := by
  have h := denseBackward_ofFn g false N n m x W gr h1 h2 h3
  simp only [Bool.false_eq_true, if_false] at h
  refine ⟨_, _, _, h, ?_, ?_, ?_⟩
  · simp only [accN_eq_sum]
    exact weight_grad _ N n m x W b gr
  · simp only [accN_eq_sum, div_eq_mul_one_div (∑ i ∈ range N, gr i _)]
    exact bias_grad N m _ b gr _
  · simp only [accN_eq_sum]
    exact input_grad N n m x W b gr

/-- C20 for the dot layer. -/
theorem C20_dot_true_gradients (g : Nat → ℝ) (N n m : Nat) (x W gr : Nat → Nat → ℝ)
    (old : Grads ℝ) (h1 : old.gW.WF) (h3 : old.gIn.WF) :
    ∃ gW gIn : Nat → Nat → ℝ,
      dotBackward g false (Mat.ofFn n m W) (Mat.ofFn N n x) (Mat.ofFn N m gr) old =
        .ok ⟨Mat.ofFn n m gW, old.gB, Mat.ofFn N n gIn⟩ ∧
      IsGrad n m (fun W => (1 / (N : ℝ)) * dotM N m gr (affineOut n x W (fun _ _ => 0))) W gW ∧
      IsGrad N n (fun x => dotM N m gr (affineOut n x W (fun _ _ => 0))) x gIn := by
  have h := dotBackward_ofFn g false N n m x W gr h1 h3
  simp only [Bool.false_eq_true, if_false] at h
  refine ⟨_, _, h, ?_, ?_⟩
  · simp only [accN_eq_sum]
    exact weight_grad _ N n m x W _ gr
  · simp only [accN_eq_sum]
    exact input_grad N n m x W _ gr

/-- C20: marked as first layer, the dot layer leaves the input gradient untouched. -/
theorem C20_dot_first [Zero α] [One α] [Add α] [Mul α] [Div α] [NatCast α] (g : Nat → α)
    (N n m : Nat) (x W gr : Nat → Nat → α) (old : Grads α) (h1 : old.gW.WF) (h3 : old.gIn.WF) :
    ∃ gW, dotBackward g true (Mat.ofFn n m W) (Mat.ofFn N n x) (Mat.ofFn N m gr) old =
        .ok ⟨gW, old.gB, old.gIn⟩ :=
  ⟨_, dotBackward_ofFn g true N n m x W gr h1 h3⟩

example : denseBackward (fun _ => 77) false (Mat.mk 1 1 [3]) (Mat.mk 2 1 [1, 5]) (Mat.mk 2 1 [2, 4])
    (emptyGrads : Grads Rat) = .ok ⟨⟨1, 1, [11]⟩, ⟨1, 1, [3]⟩, ⟨2, 1, [6, 12]⟩⟩ := by decide +kernel

/-! ## C22 -/

/-- C22: forward. -/
theorem C22_forward [Inhabited α] (g : Nat → α) (act : α → α) (N C : Nat) (x : Nat → Nat → α)
    (mOut : Mat α) (ho : mOut.WF) :
    activationForward g act (Mat.ofFn N C x) mOut = .ok (Mat.ofFn N C (fun s j => act (x s j))) :=
  activationForward_ofFn g act N C x ho

/-- C22: backward (a first layer does nothing). -/
theorem C22_backward [Inhabited α] [Mul α] (g : Nat → α) (first : Bool) (der : α → α) (N C : Nat)
    (x gr : Nat → Nat → α) (gIn : Mat α) (hi : gIn.WF) :
    activationBackward g first der (Mat.ofFn N C x) (Mat.ofFn N C gr) gIn =
      .ok (if first then gIn else Mat.ofFn N C (fun s j => der (x s j) * gr s j)) :=
  activationBackward_ofFn g first der N C x gr hi

/-- C22: if `der` is the derivative of `act` at the inputs, the result is the gradient of
`⟨g, act(x)⟩`. -/
theorem C22_chain_rule (g : Nat → ℝ) (act der : ℝ → ℝ) (N C : Nat) (x gr : Nat → Nat → ℝ)
    (hd : ∀ s j, s < N → j < C → HasDerivAt act (der (x s j)) (x s j)) (gIn : Mat ℝ) (hi : gIn.WF) :
    ∃ gI : Nat → Nat → ℝ,
      activationBackward g false der (Mat.ofFn N C x) (Mat.ofFn N C gr) gIn = .ok (Mat.ofFn N C gI) ∧
      IsGrad N C (fun x => dotM N C gr (fun s j => act (x s j))) x gI := by
  have h := activationBackward_ofFn g false der N C x gr hi
  simp only [Bool.false_eq_true, if_false] at h
  exact ⟨_, h, isGrad_cwise hd⟩

/-- C22: shapes that differ are a fault. -/
theorem C22_mismatch [Mul α] (g : Nat → α) (first : Bool) (der : α → α) (mIn gOut gIn : Mat α)
    (h : mIn.rows ≠ gOut.rows ∨ mIn.cols ≠ gOut.cols) :
    activationBackward g first der mIn gOut gIn = .error .assertFail := by
  unfold activationBackward
  by_cases h1 : mIn.rows = gOut.rows
  · have h2 : mIn.cols ≠ gOut.cols := by
      rcases h with h | h
      · exact absurd h1 h
      · exact h
    rw [check_true h1, check_false h2]; rfl
  · rw [check_false h1]; rfl

example : activationForward (fun _ => 9) (fun x => x * x) (Mat.mk 1 3 [1, 2, 3]) (Mat.mk 0 0 [] : Mat Int) =
    .ok ⟨1, 3, [1, 4, 9]⟩ := by decide

/-! ## C45 -/

/-- C45: bias layer, forward with an existing bias. -/
theorem C45_bias_forward [Zero α] [Add α] (g : Nat → α) (fresh : Nat → Mat α) (N C : Nat) (hC : 0 < C)
    (x b : Nat → Nat → α) (mOut : Mat α) (ho : mOut.WF) :
    biasForward g fresh (Mat.ofFn 1 C b) (Mat.ofFn N C x) mOut =
      .ok (Mat.ofFn 1 C b, Mat.ofFn N C (fun s j => x s j + b 0 j)) :=
  biasForward_ofFn g fresh N C hC x b ho

/-- C45: bias layer, first forward: the bias is created by the initializer for the width of the data. -/
theorem C45_bias_first_forward [Zero α] [Add α] (g : Nat → α) (N C : Nat) (x f : Nat → Nat → α)
    (b mOut : Mat α) (fresh : Nat → Mat α) (hf : fresh C = Mat.ofFn 1 C f) (hb : b.size = 0)
    (ho : mOut.WF) :
    biasForward g fresh b (Mat.ofFn N C x) mOut =
      .ok (Mat.ofFn 1 C f, Mat.ofFn N C (fun s j => x s j + f 0 j)) :=
  biasForward_first g N C x f fresh hf hb ho

/-- C45: bias layer, true gradients. -/
theorem C45_bias_gradients (g : Nat → ℝ) (N C : Nat) (x b gr : Nat → Nat → ℝ) (old : Grads ℝ)
    (h2 : old.gB.WF) (h3 : old.gIn.WF) :
    ∃ gB gIn : Nat → Nat → ℝ,
      biasBackward g false (Mat.ofFn N C gr) old = .ok ⟨old.gW, Mat.ofFn 1 C gB, Mat.ofFn N C gIn⟩ ∧
      IsGrad 1 C (fun b => (1 / (N : ℝ)) * dotM N C gr (fun s j => x s j + b 0 j)) b gB ∧
      IsGrad N C (fun x => dotM N C gr (fun s j => x s j + b 0 j)) x gIn := by
  have h := biasBackward_ofFn g false N C gr h2 h3
  simp only [Bool.false_eq_true, if_false] at h
  refine ⟨_, _, h, ?_, ?_⟩
  · simp only [accN_eq_sum, div_eq_mul_one_div (∑ i ∈ range N, gr i _)]
    exact bias_grad N C _ b gr _
  · exact isGrad_of_linear' (out := fun x s j => x s j + b 0 j) (D := fun V => V)
      (fun V t s j => by ring) (fun V => rfl)

/-- C45: gain layer, forward with existing gains, and at the first call (gains 1). -/
theorem C45_gain_forward [Zero α] [One α] [Mul α] (g : Nat → α) (N C : Nat) (hC : 0 < C)
    (x w : Nat → Nat → α) (mOut : Mat α) (ho : mOut.WF) :
    gainForward g (Mat.ofFn 1 C w) (Mat.ofFn N C x) mOut =
      .ok (Mat.ofFn 1 C w, Mat.ofFn N C (fun s j => x s j * w 0 j)) ∧
    gainForward g ⟨0, 0, []⟩ (Mat.ofFn N C x) mOut =
      .ok (Mat.ofFn 1 C (fun _ _ => 1), Mat.ofFn N C (fun s j => x s j * 1)) :=
  ⟨gainForward_ofFn g N C hC x w ho, gainForward_first g N C x rfl rfl ho⟩

theorem gain_input_grad (N C : Nat) (x w b gr : Nat → Nat → ℝ) :
    IsGrad N C (fun x => dotM N C gr (fun s j => x s j * w 0 j + b 0 j)) x
      (fun s j => gr s j * w 0 j) := by
  apply isGrad_of_linear' (out := fun x s j => x s j * w 0 j + b 0 j) (D := fun V s j => V s j * w 0 j)
  · intro V t s j; ring
  · intro V
    unfold dotM
    apply sum_congr rfl; intro s _
    apply sum_congr rfl; intro j _
    ring

/-- C45: gain layer, the input gradient is the true one.  The weight gradient is what the code
computes; see `C45_gain_weight_gradient_wrong`. -/
theorem C45_gain_backward (g : Nat → ℝ) (N C : Nat) (x w gr : Nat → Nat → ℝ) (old : Grads ℝ)
    (h1 : old.gW.WF) (h3 : old.gIn.WF) :
    ∃ gIn : Nat → Nat → ℝ,
      gainBackward g false (Mat.ofFn 1 C w) (Mat.ofFn N C x) (Mat.ofFn N C gr) old =
        .ok ⟨Mat.ofFn 1 C (fun _ j => (∑ a ∈ range C, ∑ s ∈ range N, x s a * gr s j) / (C : ℝ)), old.gB,
          Mat.ofFn N C gIn⟩ ∧
      IsGrad N C (fun x => dotM N C gr (fun s j => x s j * w 0 j)) x gIn := by
  have h := gainBackward_ofFn g false N C x w gr h1 h3
  simp only [Bool.false_eq_true, if_false, accN_eq_sum] at h
  refine ⟨_, h, ?_⟩
  simpa using gain_input_grad N C x w (fun _ _ => 0) gr

/-- C45 (not claimed, for the record): the weight gradient of the gain layer is not a multiple of the
gradient of the loss: here it is 1/2 for both columns, while the output does not depend at all on
the first gain. -/
theorem C45_gain_weight_gradient_wrong :
    ∃ x gr w : Nat → Nat → ℝ,
      (∀ g : Nat → ℝ, gainBackward g true (Mat.ofFn 1 2 w) (Mat.ofFn 1 2 x) (Mat.ofFn 1 2 gr) emptyGrads =
        .ok ⟨Mat.ofFn 1 2 (fun _ _ => 1 / 2), ⟨0, 0, []⟩, ⟨0, 0, []⟩⟩) ∧
      IsGrad 1 2 (fun w => dotM 1 2 gr (fun s j => x s j * w 0 j)) w
        (fun _ j => if j = 0 then 0 else 1) := by
  refine ⟨fun _ j => if j = 0 then 0 else 1, fun _ _ => 1, fun _ _ => 1, ?_, ?_⟩
  · intro g
    rw [gainBackward_ofFn g true 1 2 _ _ _ (old := emptyGrads) rfl rfl]
    congr 2
    apply Mat.ofFn_congr
    intro i j _ _
    rw [accN_eq_sum]
    simp [accN_eq_sum, Finset.sum_range_succ]
  · apply isGrad_of_linear' (out := fun w s j => (if j = 0 then 0 else 1) * w 0 j)
      (D := fun V s j => (if j = 0 then 0 else 1) * V 0 j)
    · intro V t s j; ring
    · intro V
      simp [dotM, Finset.sum_range_succ]

/-- C45: affine layer, forward with existing parameters, and at the first call (gains 1, bias 0). -/
theorem C45_affine_forward [Zero α] [One α] [Add α] [Mul α] (g : Nat → α) (N C : Nat) (hC : 0 < C)
    (x w b : Nat → Nat → α) (mOut : Mat α) (ho : mOut.WF) :
    affineForward g (Mat.ofFn 1 C w) (Mat.ofFn 1 C b) (Mat.ofFn N C x) mOut =
      .ok (Mat.ofFn 1 C w, Mat.ofFn 1 C b, Mat.ofFn N C (fun s j => x s j * w 0 j + b 0 j)) ∧
    affineForward g ⟨0, 0, []⟩ ⟨0, 0, []⟩ (Mat.ofFn N C x) mOut =
      .ok (Mat.ofFn 1 C (fun _ _ => 1), Mat.ofFn 1 C (fun _ _ => 0),
        Mat.ofFn N C (fun s j => x s j * 1 + 0)) :=
  ⟨affineForward_ofFn g N C hC x w b ho, affineForward_first g N C x rfl rfl rfl ho⟩

/-- C45: affine layer, bias and input gradients are the true ones. -/
theorem C45_affine_gradients (g : Nat → ℝ) (N C : Nat) (x w b gr : Nat → Nat → ℝ) (old : Grads ℝ)
    (h1 : old.gW.WF) (h2 : old.gB.WF) (h3 : old.gIn.WF) :
    ∃ gW gB gIn : Nat → Nat → ℝ,
      affineBackward g false (Mat.ofFn 1 C w) (Mat.ofFn N C x) (Mat.ofFn N C gr) old =
        .ok ⟨Mat.ofFn 1 C gW, Mat.ofFn 1 C gB, Mat.ofFn N C gIn⟩ ∧
      IsGrad 1 C (fun b => (1 / (N : ℝ)) * dotM N C gr (fun s j => x s j * w 0 j + b 0 j)) b gB ∧
      IsGrad N C (fun x => dotM N C gr (fun s j => x s j * w 0 j + b 0 j)) x gIn := by
  have h := affineBackward_ofFn g false N C x w gr h1 h2 h3
  simp only [Bool.false_eq_true, if_false] at h
  refine ⟨_, _, _, h, ?_, ?_⟩
  · simp only [accN_eq_sum, div_eq_mul_one_div (∑ i ∈ range N, gr i _)]
    exact bias_grad N C _ b gr _
  · exact gain_input_grad N C x w b gr

/-- C45: the layers with one scalar, forward. -/
theorem C45_global_forward [Zero α] [Add α] [Mul α] (g : Nat → α) (N C : Nat) (x w b : Nat → Nat → α)
    (mOut : Mat α) (ho : mOut.WF) :
    globalBiasForward g (Mat.ofFn 1 1 b) (Mat.ofFn N C x) mOut =
      .ok (Mat.ofFn N C (fun s j => x s j + b 0 0)) ∧
    globalGainForward g (Mat.ofFn 1 1 w) (Mat.ofFn N C x) mOut =
      .ok (Mat.ofFn N C (fun s j => x s j * w 0 0)) ∧
    globalAffineForward g (Mat.ofFn 1 1 w) (Mat.ofFn 1 1 b) (Mat.ofFn N C x) mOut =
      .ok (Mat.ofFn N C (fun s j => x s j * w 0 0 + b 0 0)) :=
  ⟨globalBiasForward_ofFn g N C x b ho, globalGainForward_ofFn g N C x w ho,
    globalAffineForward_ofFn g N C x w b ho⟩

/-- C45: the layers with one scalar, true input gradients. -/
theorem C45_global_input_gradients (g : Nat → ℝ) (N C : Nat) (x w b gr o o' : Nat → Nat → ℝ)
    (gIn : Mat ℝ) (h3 : gIn.WF) :
    ∃ gW gB gI : Nat → Nat → ℝ,
      globalBiasBackward g false (Mat.ofFn N C gr) ⟨Mat.ofFn 1 1 o, Mat.ofFn 1 1 o', gIn⟩ =
        .ok ⟨Mat.ofFn 1 1 o, Mat.ofFn 1 1 gB, Mat.ofFn N C gr⟩ ∧
      globalGainBackward g false (Mat.ofFn 1 1 w) (Mat.ofFn N C x) (Mat.ofFn N C gr)
          ⟨Mat.ofFn 1 1 o, Mat.ofFn 1 1 o', gIn⟩ =
        .ok ⟨Mat.ofFn 1 1 gW, Mat.ofFn 1 1 o', Mat.ofFn N C gI⟩ ∧
      globalAffineBackward g false (Mat.ofFn 1 1 w) (Mat.ofFn N C x) (Mat.ofFn N C gr)
          ⟨Mat.ofFn 1 1 o, Mat.ofFn 1 1 o', gIn⟩ =
        .ok ⟨Mat.ofFn 1 1 gW, Mat.ofFn 1 1 gB, Mat.ofFn N C gI⟩ ∧
      IsGrad N C (fun x => dotM N C gr (fun s j => x s j + b 0 0)) x gr ∧
      IsGrad N C (fun x => dotM N C gr (fun s j => x s j * w 0 0 + b 0 0)) x gI := by
  have e1 := globalBiasBackward_ofFn g false N C gr o' (old := ⟨Mat.ofFn 1 1 o, Mat.ofFn 1 1 o', gIn⟩) rfl h3
  have e2 := globalGainBackward_ofFn g false N C x w gr o
    (old := ⟨Mat.ofFn 1 1 o, Mat.ofFn 1 1 o', gIn⟩) rfl h3
  have e3 := globalAffineBackward_ofFn g false N C x w gr o o'
    (old := ⟨Mat.ofFn 1 1 o, Mat.ofFn 1 1 o', gIn⟩) rfl rfl h3
  simp only [Bool.false_eq_true, if_false] at e1 e2 e3
  refine ⟨_, _, _, e1, e2, e3, ?_, ?_⟩
  · exact isGrad_of_linear' (out := fun x s j => x s j + b 0 0) (D := fun V => V)
      (fun V t s j => by ring) (fun V => rfl)
  · exact gain_input_grad N C x (fun _ _ => w 0 0) (fun _ _ => b 0 0) gr

/-- C45, partial: the bias gradient of GlobalBias (and of GlobalAffine) is the batch-averaged true gradient
divided by the number of columns.  Missing: it is the batch-averaged gradient only for one column, see
`C45_globalBias_gradient_wrong`. -/
theorem C45_globalBias_gradient_partial (g : Nat → ℝ) (N C : Nat) (x b gr o o' : Nat → Nat → ℝ)
    (gIn : Mat ℝ) (h3 : gIn.WF) :
    ∃ gB : Nat → Nat → ℝ,
      globalBiasBackward g true (Mat.ofFn N C gr) ⟨Mat.ofFn 1 1 o, Mat.ofFn 1 1 o', gIn⟩ =
        .ok ⟨Mat.ofFn 1 1 o, Mat.ofFn 1 1 gB, gIn⟩ ∧
      IsGrad 1 1 (fun b => (1 / (N : ℝ)) * (1 / (C : ℝ)) * dotM N C gr (fun s j => x s j + b 0 0)) b gB := by
  have e1 := globalBiasBackward_ofFn g true N C gr o' (old := ⟨Mat.ofFn 1 1 o, Mat.ofFn 1 1 o', gIn⟩) rfl h3
  refine ⟨_, e1, ?_⟩
  apply isGrad_of_linear _ (out := fun b s j => x s j + b 0 0) (D := fun V _ _ => V 0 0)
  · intro V t s j; ring
  · intro V
    have hs : accN (N * C) (fun k => gr (k / C) (k % C)) =
        ∑ s ∈ range N, ∑ j ∈ range C, gr s j := by
      rw [accN_eq_sum, sum_range_mul]
    rw [hs]
    unfold dotM
    simp only [range_one, sum_singleton, ← sum_mul]
    push_cast
    rw [div_eq_mul_one_div, one_div_mul_one_div]
    ring

/-- C45 is violated by GlobalBias on two columns. -/
theorem C45_globalBias_gradient_wrong :
    ∃ gr b : Nat → Nat → ℝ, ∀ (g : Nat → ℝ) (o o' : Nat → Nat → ℝ), ∃ gB : Nat → Nat → ℝ,
      globalBiasBackward g true (Mat.ofFn 1 2 gr) ⟨Mat.ofFn 1 1 o, Mat.ofFn 1 1 o', ⟨0, 0, []⟩⟩ =
        .ok ⟨Mat.ofFn 1 1 o, Mat.ofFn 1 1 gB, ⟨0, 0, []⟩⟩ ∧
      ¬ IsGrad 1 1 (fun b => (1 / ((1 : Nat) : ℝ)) * dotM 1 2 gr (fun _ _ => b 0 0)) b gB := by
  refine ⟨fun _ _ => 1, fun _ _ => 0, fun g o o' => ⟨_, globalBiasBackward_ofFn g true 1 2 _ o'
    (old := ⟨Mat.ofFn 1 1 o, Mat.ofFn 1 1 o', ⟨0, 0, []⟩⟩) rfl rfl, ?_⟩⟩
  intro h
  have h2 : IsGrad 1 1 (fun b => (1 / ((1 : Nat) : ℝ)) * dotM 1 2 (fun _ _ => 1) (fun _ _ => b 0 0))
      (fun _ _ => 0) (fun _ _ => 2) := by
    apply isGrad_of_linear _ (out := fun b _ _ => b 0 0) (D := fun V _ _ => V 0 0)
    · intro V t s j; ring
    · intro V
      simp [dotM]
  have := h.unique h2 (a := 0) (b := 0) (by decide) (by decide)
  rw [accN_eq_sum] at this
  norm_num at this

/-- C45: channel bias layer, forward (channels of `R × C` pixels). -/
theorem C45_channelBias_forward [Inhabited α] [Add α] (g : Nat → α) (N H R C : Nat)
    (x b : Nat → Nat → α) (mOut : Mat α) (ho : mOut.WF) :
    channelBiasForward g H R C (Mat.ofFn 1 H b) (Mat.ofFn N (H * (R * C)) x) mOut =
      .ok (Mat.ofFn N (H * (R * C)) (fun s k => x s k + b 0 (k / (R * C)))) :=
  channelBiasForward_ofFn g N H R C x b ho

/-- C45: channel bias layer, backward: the input gradient is the true one, the bias gradient is the
batch-averaged true gradient times the number of pixels `R*C` (the scaling error of `channelWiseMean`, C14). -/
theorem C45_channelBias_gradients (g : Nat → ℝ) (N H R C : Nat) (x b gr : Nat → Nat → ℝ) (old : Grads ℝ)
    (h2 : old.gB.WF) (h3 : old.gIn.WF) :
    ∃ gB gIn : Nat → Nat → ℝ,
      channelBiasBackward g false H R C (Mat.ofFn N (H * (R * C)) gr) old =
        .ok ⟨old.gW, Mat.ofFn 1 H gB, Mat.ofFn N (H * (R * C)) gIn⟩ ∧
      IsGrad 1 H (fun b => ((R * C : Nat) : ℝ) * (1 / (N : ℝ)) *
        dotM N (H * (R * C)) gr (fun s k => x s k + b 0 (k / (R * C)))) b gB ∧
      IsGrad N (H * (R * C)) (fun x =>
        dotM N (H * (R * C)) gr (fun s k => x s k + b 0 (k / (R * C)))) x gIn := by
  have h := channelBiasBackward_ofFn g false N H R C gr h2 h3
  simp only [Bool.false_eq_true, if_false] at h
  refine ⟨_, _, h, ?_, ?_⟩
  · apply isGrad_of_linear _ (out := fun b s k => x s k + b 0 (k / (R * C)))
      (D := fun V _ k => V 0 (k / (R * C)))
    · intro V t s j; ring
    · intro V
      unfold dotM
      have e : ∀ s, ∑ k ∈ range (H * (R * C)), gr s k * V 0 (k / (R * C)) =
          ∑ h ∈ range H, ∑ k ∈ range (R * C), gr s (h * (R * C) + k) * V 0 h := by
        intro s
        rw [← sum_range_mul H (R * C) (fun h k => gr s (h * (R * C) + k) * V 0 h)]
        apply sum_congr rfl; intro k _
        rw [Nat.div_add_mod']
      simp only [e, range_one, sum_singleton, accN_eq_sum]
      have e2 : ∀ h, ∑ k ∈ range (N * (R * C)), gr (k / (R * C)) (h * (R * C) + k % (R * C)) =
          ∑ s ∈ range N, ∑ k ∈ range (R * C), gr s (h * (R * C) + k) := by
        intro h
        exact sum_range_mul N (R * C) (fun s k => gr s (h * (R * C) + k))
      simp only [e2]
      rw [sum_comm (s := range N)]
      simp only [mul_sum, sum_mul]
      apply sum_congr rfl; intro i _
      apply sum_congr rfl; intro j _
      apply sum_congr rfl; intro k _
      push_cast
      ring
  · exact isGrad_of_linear' (out := fun x s k => x s k + b 0 (k / (R * C))) (D := fun V => V)
      (fun V t s j => by ring) (fun V => rfl)

example : ∃ gIn, channelBiasBackward (fun _ => 77) false 1 1 2 (Mat.mk 1 2 [4, 5]) (emptyGrads : Grads Rat) =
    .ok ⟨⟨0, 0, []⟩, ⟨1, 1, [18]⟩, gIn⟩ := ⟨⟨1, 2, [4, 5]⟩, by decide +kernel⟩

example : ∃ b, gainForward (fun _ => 77) (Mat.mk 0 0 []) (Mat.mk 1 2 [4, 5]) (Mat.mk 0 0 [] : Mat Int) =
    .ok (⟨1, 2, [1, 1]⟩, b) ∧ b = ⟨1, 2, [4, 5]⟩ := ⟨_, rfl, by decide⟩
example : globalAffineForward (fun _ => 77) (Mat.mk 1 1 [3]) (Mat.mk 1 1 [1]) (Mat.mk 1 2 [4, 5])
    (Mat.mk 0 0 [] : Mat Int) = .ok ⟨1, 2, [13, 16]⟩ := by decide

end BeeDNN
