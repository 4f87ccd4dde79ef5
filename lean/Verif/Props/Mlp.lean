import Verif.Lemmas.MlpLoss
import Verif.Lemmas.MlpStart
import Verif.Lemmas.MlpFit
import Verif.Props.Activations
import Verif.Props.Net

/-! # Training feed-forward networks descends the gradient of the error: C91, C95, C96 -/

namespace BeeDNN
open Finset

theorem Mlp.Exact.rate {m : Mlp} (h : m.Exact) (N : Nat) (b : Bool) {i : Nat} (hi : i < m.depth) : m.rate N b i = 1 := by
  have e1 : ∀ k : PlyKind, k.Exact → k.inRate = 1 ∧ k.parRate b N = 1 := by
    intro k hk
    cases k <;> first | exact hk.elim | exact ⟨rfl, rfl⟩
  rw [Mlp.rate, (e1 _ (h i hi)).2, one_mul]
  exact prod_eq_one fun k hk => (e1 _ (h _ (by have := mem_range.mp hk; omega))).1

theorem Mlp.Exact.like {m m' : Mlp} (h : m.Exact) (hl : Mlp.Like m m') : m'.Exact := fun i hi => by
  rw [hl.kind i]
  exact h i (by rw [← hl.depth]; exact hi)

theorem Mlp.Steps.descends {s : String} {lr : ℝ} {N : Nat} {x y : Nat → Row} {m m' : Mlp} (h : Mlp.Steps (m.rate N) s lr N x y m m')
    (hm : m.Exact) : Mlp.Descends s lr N x y m m' := by
  refine ⟨h.like, fun b i hi hb => ?_⟩
  obtain ⟨G, h1, h2⟩ := h.step b i hi hb
  refine ⟨G, h1, fun k j => ?_⟩
  rw [h2 k j, hm.rate N b hi, one_mul]

/-- C95: a trainer set to plain gradient descent and any of the twelve losses takes a feed-forward network as its
network: layers of any of the fifteen kinds of `PlyKind` in any number and of any sizes, with truths that fit the loss.
Then any number of batches of any sizes train without fault, and every batch for whose samples the derivatives exist
and are used right (`Regular`) moves each matrix of weights or biases by `lr` times the gradient of the error of this
batch times the rate of the layer.  The rate is 1 except behind and in convolutions, channel biases and time
distributed biases (see `C95_not_descent`). -/
theorem C95_training {eps : ℝ} (heps : 0 < eps) (w : World) (t : Trainer) (n : Nat) (m : Mlp) (h : Represents w n m) (hl : t.loss ∈ listLoss)
    (ho : t.optName = "SGD") (hr : t.reg = none) (hw : t.lossWeight.size = 0) (hi : ∀ a ∈ t.inOut, a.WF) (hg : ∀ a ∈ t.gradient, a.WF)
    (g : Nat → ℝ) (K D : Nat) (e : Nat → Nat → Nat → Env) (N : Nat → Nat) (_hN : ∀ k, k < K → 0 < N k) (x y : Nat → Nat → Row)
    (hT : ∀ k, k < K → TruthFits t.loss (m.width m.depth) D (N k) (y k)) :
    ∃ w₁ t₁, Trainer.setNet g w t n = .ok (w₁, t₁) ∧ ∃ (w₂ : World) (t₂ : Trainer) (ms : Nat → Mlp),
      forN K (fun k (s : World × Trainer) => Trainer.trainBatch (fun x => |x|) eps (e k) s.1 s.2
        (Mat.ofFn (N k) (m.width 0) (x k)) (Mat.ofFn (N k) D (y k))) (w₁, t₁) = .ok (w₂, t₂) ∧
      ms 0 = m ∧ Represents w₂ n (ms K) ∧
      ∀ k, k < K → Mlp.Like (ms k) (ms (k + 1)) ∧ ((∀ i, i < N k → (ms k).Regular eps t.loss (x k i) (y k i)) →
        Mlp.Steps ((ms k).rate (N k)) t.loss (if t.lr = -1 then 0.01 else t.lr) (N k) (x k) (y k) (ms k) (ms (k + 1))) := by
  obtain ⟨w₁, t₁, s1, s2, s3, s4, s5⟩ := Trainer.setNet_mlp (g := g) h hi hg (k := .sgd) (by rw [ho]; rfl)
  refine ⟨w₁, t₁, s1, ?_⟩
  have hloss : t₁.loss = t.loss := by rw [← s5]
  have hweight : t₁.lossWeight = t.lossWeight := by rw [← s5]
  have hreg₁ : t₁.reg = none := by rw [← s5]; exact hr
  have hopt : ∀ o ∈ t₁.opts, o.kind = .sgd ∧ o.lr = if t.lr = -1 then 0.01 else t.lr := by
    rw [s4]
    intro o ho
    rw [List.eq_of_mem_replicate ho]
    exact ⟨rfl, rfl⟩
  obtain ⟨ψ, l1, l2⟩ := lossOk_of_mem eps hl (h.ok.pos _ (Nat.le_refl m.depth)) D
  generalize hlr : (if t.lr = -1 then (0.01 : ℝ) else t.lr) = lr at hopt ⊢
  clear s1 s4 s5
  have key : ∀ K', K' ≤ K → ∃ (w₂ : World) (t₂ : Trainer) (ms : Nat → Mlp),
      forN K' (fun k (s : World × Trainer) => Trainer.trainBatch (fun x => |x|) eps (e k) s.1 s.2
        (Mat.ofFn (N k) (m.width 0) (x k)) (Mat.ofFn (N k) D (y k))) (w₁, t₁) = .ok (w₂, t₂) ∧
      ms 0 = m ∧ t₂.Going w₂ n (ms K') ∧ Mlp.Like m (ms K') ∧ t₂.loss = t.loss ∧ t₂.lossWeight = t.lossWeight ∧ t₂.reg = none ∧
      (∀ o ∈ t₂.opts, o.kind = .sgd ∧ o.lr = lr) ∧
      ∀ k, k < K' → Mlp.Like (ms k) (ms (k + 1)) ∧ ((∀ i, i < N k → (ms k).Regular eps t.loss (x k i) (y k i)) →
        Mlp.Steps ((ms k).rate (N k)) t.loss lr (N k) (x k) (y k) (ms k) (ms (k + 1))) := by
    intro K'
    induction K' with
    | zero => exact fun _ => ⟨w₁, t₁, fun _ => m, rfl, rfl, s2, Mlp.Like.refl m, hloss, hweight, hreg₁, hopt, fun k hk => absurd hk (Nat.not_lt_zero k)⟩
    | succ K' ih =>
      intro hK'
      obtain ⟨w₂, t₂, ms, i1, i2, i3, i4, i5, i6, i9, i7, i8⟩ := ih (by omega)
      have hd : (ms K').depth = m.depth := i4.depth
      have hwd : (ms K').width = m.width := i4.width
      obtain ⟨w₃, t₃, m', b1, b2, b3, b4, b5, b6, b7, b8, -⟩ := Trainer.trainBatch_mlp (ab := fun x => |x|) (eps := eps) (e := e K') i3
        (D := D) (Γ := lossGrad eps t.loss ψ) (by rw [i5, hd, hwd]; exact l1) (by rw [i6]; exact hw) (N K') (x K') (y K')
        (by rw [i5, hd, hwd]; exact hT K' (by omega)) True lr (fun _ => i9) (fun _ => i7)
      refine ⟨w₃, t₃, fun k => if k ≤ K' then ms k else m', ?_, by simp [i2], by simpa using b2, ?_, ?_, ?_, ?_, b7 trivial, ?_⟩
      · rw [forN_succ, i1]
        rw [hwd] at b1
        exact b1
      · simp only [show ¬ K' + 1 ≤ K' by omega, if_false]
        exact i4.trans b3
      · rw [← b4.same]; exact i5
      · rw [← b4.same]; exact i6
      · rw [← b4.same]; exact i9
      · intro k hk
        by_cases hkK : k < K'
        · simp only [show k ≤ K' by omega, show k + 1 ≤ K' by omega, if_true]
          exact i8 k hkK
        · obtain rfl : k = K' := by omega
          simp only [le_refl, show ¬ k + 1 ≤ k by omega, if_true, if_false]
          refine ⟨b3, fun hreg => ⟨b3, fun b i hi hb => ⟨_, Mlp.grad_error i3.rep.ok heps hl (by rw [hd, hwd]; exact l2) (N k) (x k) (y k)
            (by rw [hd, hwd]; exact hT k (by omega)) hreg b hi hb, fun p q => ?_⟩⟩⟩
          rw [b8 trivial b i hi hb]
          rfl
  obtain ⟨w₂, t₂, ms, k1, k2, k3, -, -, -, -, -, k8⟩ := key K le_rfl
  exact ⟨w₂, t₂, ms, k1, k2, k3.rep, k8⟩

/-- C95: the rates are positive, so every parameter matrix moves against its gradient. -/
theorem C95_rate_pos {m : Mlp} (h : m.Ok) {N : Nat} (hN : 0 < N) (b : Bool) (i : Nat) (hi : i < m.depth) : 0 < m.rate N b i := by
  unfold Mlp.rate
  refine mul_pos ?_ (prod_pos fun k hk => ?_)
  · have hf := h.fits i hi
    have hw := h.pos i hi.le
    revert hf
    unfold PlyKind.parRate PlyKind.Fits
    cases (m.ply i).kind <;> intro hf <;> try exact one_pos
    · rw [hf.1] at hw
      exact Nat.cast_pos.2 (Nat.pos_of_mul_pos_right hw)
    · exact Nat.cast_pos.2 hN
    · rw [hf.1] at hw
      exact one_div_pos.2 (Nat.cast_pos.2 (Nat.pos_of_mul_pos_right hw))
    · rw [hf.1] at hw
      dsimp only
      split
      · exact one_div_pos.2 (Nat.cast_pos.2 (Nat.pos_of_mul_pos_right hw))
      · exact one_pos
  · have hk := mem_range.1 hk
    have hf := h.fits (m.depth - 1 - k) (by omega)
    have hw := h.pos (m.depth - 1 - k + 1) (by omega)
    revert hf
    unfold PlyKind.inRate PlyKind.Fits
    cases (m.ply (m.depth - 1 - k)).kind <;> intro hf <;> try exact one_pos
    rw [hf.2.1] at hw
    have h1 := Nat.pos_of_mul_pos_left hw
    have h2 := hf.2.2.2.2.1
    have h3 := hf.2.2.2.2.2
    exact one_div_pos.2 (Nat.cast_pos.2 (Nat.mul_pos (Nat.mul_pos h2 h3) h1))

/-- Rates that are not 1: a convolution of 2x2 pixels with three output channels behind an image bias. -/
example : Mlp.rate ⟨2, fun i => if i ≤ 1 then 16 else 27, fun i => if i = 0 then { kind := .channelBias 4 4 1 } else { kind := .conv 4 4 1 2 2 3 1 1 }⟩ 5 true 0 =
    16 * (1 / 12) := by
  simp [Mlp.rate, PlyKind.parRate, PlyKind.inRate]
  norm_num

/-- A step that uses the rate `r` for a matrix whose gradient is not zero is not gradient descent unless `r = 1`. -/
theorem C95_not_descent {s : String} {lr : ℝ} {N : Nat} {x y : Nat → Row} {m m' : Mlp} {rate : Bool → Nat → ℝ}
    (h : Mlp.Steps rate s lr N x y m m') (hlr : lr ≠ 0) {b : Bool} {i : Nat} (hi : i < m.depth) (hb : (m.ply i).has b = true) (hr : rate b i ≠ 1)
    {k j : Nat} (hk : k < (m.shape b i).1) (hj : j < (m.shape b i).2)
    (hG : ∃ G, IsGrad (m.shape b i).1 (m.shape b i).2 (fun P => (m.setPar b i P).error s N x y) ((m.ply i).par b) G ∧ G k j ≠ 0) :
    ¬ Mlp.Descends s lr N x y m m' := by
  intro hd
  obtain ⟨G, g1, g2⟩ := hG
  obtain ⟨G₁, a1, a2⟩ := h.step b i hi hb
  obtain ⟨G₂, b1, b2⟩ := hd.step b i hi hb
  have e1 := IsGrad.unique a1 g1 hk hj
  have e2 := IsGrad.unique b1 g1 hk hj
  have e3 := (a2 k j).symm.trans (b2 k j)
  rw [e1, e2] at e3
  have e4 : lr * G k j * (rate b i - 1) = 0 := by linarith
  rcases mul_eq_zero.1 e4 with e | e
  · rcases mul_eq_zero.1 e with e | e
    · exact hlr e
    · exact g2 e
  · exact hr (by linarith)

/-! ## C91 -/

/-- C91: a trainer set to plain gradient descent and one of the nine distance losses takes as network a feed-forward
network (dense, dot product, bias, activation, gated activation, concatenated ReLU, average pooling, padding and time
distributed dot product layers in any number and of any widths); then any number of batches of any sizes train without
fault, and every batch moves all weights and biases by exactly `lr` times the gradient of the error of this batch with
respect to them – provided the derivatives exist where they are taken. -/
theorem C91_training {eps : ℝ} (heps : 0 < eps) (w : World) (t : Trainer) (n : Nat) (m : Mlp) (h : Represents w n m) (hm : m.Exact)
    (hl : t.loss ∈ distanceLosses)
    (ho : t.optName = "SGD") (hr : t.reg = none) (hw : t.lossWeight.size = 0) (hi : ∀ a ∈ t.inOut, a.WF) (hg : ∀ a ∈ t.gradient, a.WF)
    (g : Nat → ℝ) (K : Nat) (e : Nat → Nat → Nat → Env) (N : Nat → Nat) (hN : ∀ k, k < K → 0 < N k) (x y : Nat → Nat → Row) :
    ∃ w₁ t₁, Trainer.setNet g w t n = .ok (w₁, t₁) ∧ ∃ (w₂ : World) (t₂ : Trainer) (ms : Nat → Mlp),
      forN K (fun k (s : World × Trainer) => Trainer.trainBatch (fun x => |x|) eps (e k) s.1 s.2
        (Mat.ofFn (N k) (m.width 0) (x k)) (Mat.ofFn (N k) (m.width m.depth) (y k))) (w₁, t₁) = .ok (w₂, t₂) ∧
      ms 0 = m ∧ Represents w₂ n (ms K) ∧
      ∀ k, k < K → Mlp.Like (ms k) (ms (k + 1)) ∧ ((∀ i, i < N k → (ms k).SmoothAt (x k i)) →
        (t.loss ∈ kinkAtZero → ∀ i, i < N k → ∀ j, j < m.width m.depth → (ms k).out (x k i) j ≠ y k i j) →
        Mlp.Descends t.loss (if t.lr = -1 then 0.01 else t.lr) (N k) (x k) (y k) (ms k) (ms (k + 1))) := by
  obtain ⟨d1, d2⟩ := distanceLosses_fits hl
  obtain ⟨w₁, t₁, h1, w₂, t₂, ms, h2, h3, h4, h5⟩ := C95_training heps w t n m h d1 ho hr hw hi hg g K (m.width m.depth) e N hN x y
    (fun k _ => d2 _ _ _)
  have lk : ∀ k, k ≤ K → Mlp.Like m (ms k) := by
    intro k
    induction k with
    | zero => intro _; rw [h3]; exact Mlp.Like.refl m
    | succ k ih => exact fun hk => (ih (by omega)).trans (h5 k (by omega)).1
  refine ⟨w₁, t₁, h1, w₂, t₂, ms, h2, h3, h4, fun k hk => ⟨(h5 k hk).1, fun hs hkink => ((h5 k hk).2 fun i hi => ?_).descends (hm.like (lk k hk.le))⟩⟩
  have hne : ¬ (t.loss = "CategoricalCrossEntropy" ∨ t.loss = "SparseCategoricalCrossEntropy") := by
    rintro (h | h) <;> rw [h] at hl <;> exact absurd hl (by decide)
  rw [Mlp.Regular, if_neg hne, (lk k hk.le).depth, (lk k hk.le).width]
  refine ⟨hs i hi, fun hk' => hkink (by simpa [kinkAtZero] using hk') i hi, fun h => ?_⟩
  rw [h] at hl
  exact absurd hl (by decide)

/-- An activation that is differentiable everywhere and has the right derivative function. -/
def SmoothAct (a : Activation) : Prop :=
  ∃ s, getActivation s = some a ∧ kinks s = [] ∧ s ∉ ["SineReLU", "Logit", "TanhExp", "SQ-RBF"] ∧ s ∉ ["GELU", "SoftSteps"]

/-- Layers that are differentiable everywhere, and whose backward pass is the derivative. -/
def PlyKind.Smooth : PlyKind → Prop
  | .act a => SmoothAct a
  | .gated a₁ a₂ => SmoothAct a₁ ∧ SmoothAct a₂
  | .crelu | .softmax => False
  | _ => True

/-- The first `d` layers are differentiable everywhere. -/
def Mlp.SmoothBefore (m : Mlp) (d : Nat) : Prop := ∀ i, i < d → (m.ply i).kind.Smooth

/-- All layers are differentiable everywhere. -/
def Mlp.Smooth (m : Mlp) : Prop := m.SmoothBefore m.depth

theorem SmoothAct.at {a : Activation} (h : SmoothAct a) (x : ℝ) : HasDerivAt a.apply (a.derivation x) x := by
  obtain ⟨s, h1, h2, h3, h4⟩ := h
  exact C23_differentiable s a h1 h3 h4 _ (by rw [h2]; exact List.not_mem_nil)

theorem Mlp.SmoothBefore.to {m : Mlp} {d : Nat} (h : m.SmoothBefore d) (v : Row) : m.SmoothTo d v := by
  intro i hi
  have hs := h i hi
  revert hs
  cases (m.ply i).kind with
  | act a => exact fun hs j _ => hs.at _
  | gated a₁ a₂ => exact fun hs => ⟨fun j _ => hs.1.at _, fun j _ => hs.2.at _⟩
  | crelu => exact fun hs => hs.elim
  | softmax => exact fun hs => hs.elim
  | _ => exact fun _ => trivial

theorem Mlp.SmoothBefore.like {m m' : Mlp} {d : Nat} (h : m.SmoothBefore d) (hl : Mlp.Like m m') : m'.SmoothBefore d := fun i hi => by
  rw [hl.kind i]
  exact h i hi

theorem Mlp.Smooth.at {m : Mlp} (h : m.Smooth) (v : Row) : m.SmoothAt v := Mlp.SmoothBefore.to h v

theorem Mlp.Smooth.like {m m' : Mlp} (h : m.Smooth) (hl : Mlp.Like m m') : m'.Smooth := by
  unfold Mlp.Smooth
  rw [hl.depth]
  exact Mlp.SmoothBefore.like h hl

/-- C91: with smooth activations (Tanh, Sigmoid, Swish, …) and a loss without kink there is nothing to be provided:
every batch is one step of gradient descent. -/
theorem C91_smooth {eps : ℝ} (heps : 0 < eps) (w : World) (t : Trainer) (n : Nat) (m : Mlp) (h : Represents w n m) (hx : m.Exact) (hm : m.Smooth)
    (hl : t.loss ∈ distanceLosses)
    (hk : t.loss ∉ kinkAtZero) (ho : t.optName = "SGD") (hr : t.reg = none) (hw : t.lossWeight.size = 0) (hi : ∀ a ∈ t.inOut, a.WF)
    (hg : ∀ a ∈ t.gradient, a.WF) (g : Nat → ℝ) (K : Nat) (e : Nat → Nat → Nat → Env) (N : Nat → Nat) (hN : ∀ k, k < K → 0 < N k)
    (x y : Nat → Nat → Row) :
    ∃ w₁ t₁, Trainer.setNet g w t n = .ok (w₁, t₁) ∧ ∃ (w₂ : World) (t₂ : Trainer) (ms : Nat → Mlp),
      forN K (fun k (s : World × Trainer) => Trainer.trainBatch (fun x => |x|) eps (e k) s.1 s.2
        (Mat.ofFn (N k) (m.width 0) (x k)) (Mat.ofFn (N k) (m.width m.depth) (y k))) (w₁, t₁) = .ok (w₂, t₂) ∧
      ms 0 = m ∧ Represents w₂ n (ms K) ∧
      ∀ k, k < K → Mlp.Descends t.loss (if t.lr = -1 then 0.01 else t.lr) (N k) (x k) (y k) (ms k) (ms (k + 1)) := by
  obtain ⟨w₁, t₁, h1, w₂, t₂, ms, h2, h3, h4, h5⟩ := C91_training heps w t n m h hx hl ho hr hw hi hg g K e N hN x y
  refine ⟨w₁, t₁, h1, w₂, t₂, ms, h2, h3, h4, fun k hk' => ?_⟩
  have : ∀ k, k ≤ K → (ms k).Smooth := by
    intro k
    induction k with
    | zero => intro _; rw [h3]; exact hm
    | succ k ih =>
      intro hk'
      exact (ih (by omega)).like (h5 k (by omega)).1
  exact (h5 k hk').2 (fun i _ => (this k (by omega)).at _) (fun h => absurd h hk)

/-! ## C96 -/

/-- The predictions are not closer than `eps` to 0 or 1. -/
def Mlp.Unsaturated (eps : ℝ) (m : Mlp) (v : Row) : Prop := ∀ j, j < m.width m.depth → eps < m.out v j ∧ m.out v j < 1 - eps

/-- A classifier: smooth layers followed by softmax. -/
structure Mlp.Classifier (m : Mlp) : Prop where
  last : (m.ply (m.depth - 1)).kind = .softmax
  smooth : m.SmoothBefore (m.depth - 1)

theorem Mlp.Classifier.like {m m' : Mlp} (h : m.Classifier) (hl : Mlp.Like m m') : m'.Classifier where
  last := by rw [hl.kind, hl.depth]; exact h.last
  smooth := by rw [hl.depth]; exact h.smooth.like hl

theorem Mlp.Classifier.regular {m : Mlp} (h : m.Classifier) {eps : ℝ} {s : String} (hs : s ∈ ["CategoricalCrossEntropy", "SparseCategoricalCrossEntropy"])
    {v y : Row} (hv : m.Unsaturated eps v) (hy : s = "CategoricalCrossEntropy" → ∑ j ∈ range (m.width m.depth), y j = 1) : m.Regular eps s v y := by
  rw [Mlp.Regular, if_pos (by simpa using hs)]
  exact ⟨h.last, h.smooth.to v, hv, hy⟩

/-- C96: a classifier that ends with softmax, trained with the categorical cross entropy on truths that are
distributions, or with the sparse categorical cross entropy on class numbers, trains without fault, and each batch none
of whose predictions is closer than `eps` to 0 or 1 is one step of gradient descent for the mean cross entropy
`-Σ y_j log p_j` of this batch. -/
theorem C96_training {eps : ℝ} (heps : 0 < eps) (w : World) (t : Trainer) (n : Nat) (m : Mlp) (h : Represents w n m) (hx : m.Exact) (hm : m.Classifier)
    (hl : t.loss ∈ ["CategoricalCrossEntropy", "SparseCategoricalCrossEntropy"])
    (ho : t.optName = "SGD") (hr : t.reg = none) (hw : t.lossWeight.size = 0) (hi : ∀ a ∈ t.inOut, a.WF) (hg : ∀ a ∈ t.gradient, a.WF)
    (g : Nat → ℝ) (K D : Nat) (e : Nat → Nat → Nat → Env) (N : Nat → Nat) (hN : ∀ k, k < K → 0 < N k) (x y : Nat → Nat → Row)
    (hT : ∀ k, k < K → TruthFits t.loss (m.width m.depth) D (N k) (y k))
    (hs : t.loss = "CategoricalCrossEntropy" → ∀ k, k < K → ∀ i, i < N k → ∑ j ∈ range (m.width m.depth), y k i j = 1) :
    ∃ w₁ t₁, Trainer.setNet g w t n = .ok (w₁, t₁) ∧ ∃ (w₂ : World) (t₂ : Trainer) (ms : Nat → Mlp),
      forN K (fun k (s : World × Trainer) => Trainer.trainBatch (fun x => |x|) eps (e k) s.1 s.2
        (Mat.ofFn (N k) (m.width 0) (x k)) (Mat.ofFn (N k) D (y k))) (w₁, t₁) = .ok (w₂, t₂) ∧
      ms 0 = m ∧ Represents w₂ n (ms K) ∧
      ∀ k, k < K → Mlp.Like (ms k) (ms (k + 1)) ∧ ((∀ i, i < N k → (ms k).Unsaturated eps (x k i)) →
        Mlp.Descends t.loss (if t.lr = -1 then 0.01 else t.lr) (N k) (x k) (y k) (ms k) (ms (k + 1))) := by
  have hl' : t.loss ∈ listLoss := by
    simp only [List.mem_cons, List.not_mem_nil, or_false] at hl
    rcases hl with h | h <;> rw [h] <;> decide
  obtain ⟨w₁, t₁, h1, w₂, t₂, ms, h2, h3, h4, h5⟩ := C95_training heps w t n m h hl' ho hr hw hi hg g K D e N hN x y hT
  have lk : ∀ k, k ≤ K → Mlp.Like m (ms k) := by
    intro k
    induction k with
    | zero => intro _; rw [h3]; exact Mlp.Like.refl m
    | succ k ih => exact fun hk => (ih (by omega)).trans (h5 k (by omega)).1
  refine ⟨w₁, t₁, h1, w₂, t₂, ms, h2, h3, h4, fun k hk => ⟨(h5 k hk).1, fun hu => ((h5 k hk).2 fun i hi => ?_).descends (hx.like (lk k hk.le))⟩⟩
  exact (hm.like (lk k hk.le)).regular hl (hu i hi) (fun h => by rw [(lk k hk.le).depth, (lk k hk.le).width]; exact hs h k hk i hi)

/-! ## A perceptron -/

/-- Two inputs, a dense layer with one output, and Tanh. -/
noncomputable def mlpWitness : Mlp :=
  { depth := 2, width := fun i => if i = 0 then 2 else 1
    ply := fun i => if i = 0 then { kind := .dense, weight := fun i _ => (i : ℝ) + 1, bias := fun _ _ => 3 } else { kind := .act Act.tanh } }

/-- Network 0 is this perceptron. -/
noncomputable def mlpWorld : World :=
  { heap := [some denseWitness, some { kind := .activation Act.tanh }], nets := fun n => if n = 0 then { layers := [0, 1] } else {} }

theorem mlpWitness_ok : mlpWitness.Ok where
  depth := by decide
  pos := fun i _ => by simp only [mlpWitness]; split <;> decide
  fits := fun i hi => by
    by_cases h0 : i = 0
    · simp [mlpWitness, h0, PlyKind.Fits]
    · simp [mlpWitness, h0, PlyKind.Fits]
      exact ⟨"Tanh", rfl⟩

theorem mlpWorld_represents : Represents mlpWorld 0 mlpWitness where
  ok := mlpWitness_ok
  nodup := by simp [mlpWorld]
  count := rfl
  layer := fun i a hi => by
    match i with
    | 0 =>
      obtain rfl : 0 = a := by simpa [mlpWorld] using hi
      exact ⟨denseWitness, rfl, denseWitness_valid, ⟨⟨2, 1, rfl⟩, fun _ => rfl, fun _ => rfl⟩, fun h => absurd h (by decide)⟩
    | 1 =>
      obtain rfl : 1 = a := by simpa [mlpWorld] using hi
      exact ⟨{ kind := .activation Act.tanh }, rfl, Layer.valid_new (.activation Act.tanh) "" "" ⟨"Tanh", rfl⟩,
        ⟨rfl, fun h => (by cases h), fun h => (by cases h)⟩, fun _ => rfl⟩
    | i + 2 => simp [mlpWorld] at hi

theorem mlpWitness_exact : mlpWitness.Exact := by
  intro i hi
  by_cases h0 : i = 0 <;> simp [mlpWitness, h0, PlyKind.Exact]

theorem mlpWitness_smooth : mlpWitness.Smooth := by
  intro i hi
  by_cases h0 : i = 0
  · simp [mlpWitness, h0, PlyKind.Smooth]
  · simp only [mlpWitness, h0, PlyKind.Smooth, if_false]
    exact ⟨"Tanh", rfl, rfl, by decide, by decide⟩

example : Represents mlpWorld 0 mlpWitness ∧ mlpWitness.Smooth ∧ mlpWitness.Exact ∧ (mlpWitness.ply 0).has true = true :=
  ⟨mlpWorld_represents, mlpWitness_smooth, mlpWitness_exact, rfl⟩

/-- The default trainer with the optimizer SGD meets the hypotheses, e.g. for ten batches of four samples. -/
example {eps : ℝ} (heps : 0 < eps) (g : Nat → ℝ) (e : Nat → Nat → Nat → Env) (x y : Nat → Nat → Row) :=
  C91_smooth heps mlpWorld { optName := "SGD" } 0 mlpWitness mlpWorld_represents mlpWitness_exact mlpWitness_smooth (by decide) (by decide) rfl rfl rfl
    (fun _ h => absurd h List.not_mem_nil) (fun _ h => absurd h List.not_mem_nil) g 10 e (fun _ => 4) (fun _ _ => by decide) x y

/-- Two inputs, a dense layer with two outputs, and softmax: all predictions are one half. -/
noncomputable def clsWitness : Mlp :=
  { depth := 2, width := fun _ => 2, ply := fun i => if i = 0 then { kind := .dense } else { kind := .softmax } }

/-- Network 0 is this classifier. -/
noncomputable def clsWorld : World :=
  { heap := [some { kind := .dense 2 2, weight := Mat.ofFn 2 2 (fun _ _ => 0), bias := Mat.ofFn 1 2 (fun _ _ => 0), wInit := "GlorotUniform", bInit := "Zeros" },
      some { kind := .softmax }], nets := fun n => if n = 0 then { layers := [0, 1] } else {} }

theorem clsWorld_represents : Represents clsWorld 0 clsWitness where
  ok :=
    { depth := by decide
      pos := fun i _ => by simp [clsWitness]
      fits := fun i hi => by by_cases h0 : i = 0 <;> simp [clsWitness, h0, PlyKind.Fits] }
  nodup := by simp [clsWorld]
  count := rfl
  layer := fun i a hi => by
    match i with
    | 0 =>
      obtain rfl : 0 = a := by simpa [clsWorld] using hi
      exact ⟨_, rfl, ⟨Mat.ofFn_WF .., rfl, Mat.ofFn_WF .., rfl, rfl, rfl, rfl, rfl, rfl, rfl, rfl, rfl,
        fun m hm => absurd hm List.not_mem_nil, by simp [LayerKind.usesWeight], by simp [LayerKind.usesBias], fun _ => ⟨rfl, rfl, rfl⟩, trivial⟩,
        ⟨⟨2, 2, rfl⟩, fun _ => rfl, fun _ => rfl⟩, fun h => absurd h (by decide)⟩
    | 1 =>
      obtain rfl : 1 = a := by simpa [clsWorld] using hi
      exact ⟨_, rfl, Layer.valid_new .softmax "" "" trivial, ⟨rfl, fun h => (by cases h), fun h => (by cases h)⟩, fun _ => rfl⟩
    | i + 2 => simp [clsWorld] at hi

theorem clsWitness_exact : clsWitness.Exact := by
  intro i hi
  by_cases h0 : i = 0 <;> simp [clsWitness, h0, PlyKind.Exact]

theorem clsWitness_classifier : clsWitness.Classifier where
  last := rfl
  smooth := fun i hi => by
    obtain rfl : i = 0 := by simp [clsWitness] at hi; omega
    exact trivial

theorem clsWitness_unsaturated (v : Row) : clsWitness.Unsaturated 1e-8 v := by
  intro j hj
  have : clsWitness.out v j = 1 / 2 := by
    simp [Mlp.out, clsWitness, Mlp.hidden, Ply.apply, softmaxAt]
  rw [this]
  norm_num

/-- The hypotheses of C96 are met, with both losses: ten batches of four samples of class 1. -/
example (g : Nat → ℝ) (e : Nat → Nat → Nat → Env) (x : Nat → Nat → Row) :=
  C96_training (eps := 1e-8) (by norm_num) clsWorld { optName := "SGD", loss := "SparseCategoricalCrossEntropy" } 0 clsWitness clsWorld_represents clsWitness_exact
    clsWitness_classifier (by decide) rfl rfl rfl (fun _ h => absurd h List.not_mem_nil) (fun _ h => absurd h List.not_mem_nil) g 10 1 e (fun _ => 4)
    (fun _ _ => by decide) x (fun _ _ _ => 1)
    (fun k _ => by rw [TruthFits, if_pos rfl]; exact ⟨rfl, by decide, fun i _ => ⟨1, by decide, by simp⟩⟩) (fun h => absurd h (by decide))
example (g : Nat → ℝ) (e : Nat → Nat → Nat → Env) (x : Nat → Nat → Row) :=
  C96_training (eps := 1e-8) (by norm_num) clsWorld { optName := "SGD", loss := "CategoricalCrossEntropy" } 0 clsWitness clsWorld_represents clsWitness_exact
    clsWitness_classifier (by decide) rfl rfl rfl (fun _ h => absurd h List.not_mem_nil) (fun _ h => absurd h List.not_mem_nil) g 10 2 e (fun _ => 4)
    (fun _ _ => by decide) x (fun _ _ j => if j = 1 then 1 else 0)
    (fun k _ => by rw [TruthFits, if_neg (by decide)]; exact ⟨rfl, fun h => absurd h (by decide)⟩) (fun _ k _ i _ => by simp [clsWitness])

/-! ## A convolution -/

/-- Images of one pixel, and a kernel of one weight. -/
noncomputable def convWitness : Mlp :=
  { depth := 1, width := fun _ => 1, ply := fun _ => { kind := .conv 1 1 1 1 1 1 1 1, weight := fun _ _ => 1 } }

/-- The geometry of this layer. -/
def convGeometry : Conv :=
  { inRows := 1, inCols := 1, inCh := 1, kRows := 1, kCols := 1, outCh := 1, rowStride := 1, colStride := 1, outRows := 1, outCols := 1, lut := [0] }

theorem convGeometry_eq : Conv.create 1 1 1 1 1 1 1 1 = .ok convGeometry := by decide

/-- Network 0 is this network. -/
noncomputable def convWorld : World :=
  { heap := [some { kind := .conv convGeometry, weight := Mat.ofFn 1 1 (fun _ _ => 1), wInit := "HeUniform" }]
    nets := fun n => if n = 0 then { layers := [0] } else {} }

theorem convWorld_represents : Represents convWorld 0 convWitness where
  ok :=
    { depth := by decide
      pos := fun i _ => by simp [convWitness]
      fits := fun i hi => by simp [convWitness, PlyKind.Fits, convOutSize] }
  nodup := by simp [convWorld]
  count := rfl
  layer := fun i a hi => by
    match i with
    | 0 =>
      obtain rfl : 0 = a := by simpa [convWorld] using hi
      exact ⟨_, rfl, ⟨Mat.ofFn_WF .., rfl, rfl, rfl, rfl, rfl, rfl, rfl, rfl, rfl, rfl, rfl,
        fun m hm => absurd hm List.not_mem_nil, by simp [LayerKind.usesWeight], fun _ => rfl, fun _ => ⟨rfl, rfl, rfl⟩, ⟨1, 1, 1, 1, 1, 1, 1, 1, convGeometry_eq⟩⟩,
        ⟨⟨convGeometry, convGeometry_eq, rfl⟩, fun _ => rfl, fun h => (by cases h)⟩, fun h => absurd h (by decide)⟩
    | i + 1 => simp [convWorld] at hi

theorem convWitness_out (P : Nat → Nat → ℝ) (v : Row) : (convWitness.setPar false 0 P).out v 0 = P 0 0 * v 0 := by
  show Ply.apply 1 { kind := .conv 1 1 1 1 1 1 1 1, weight := P } v 0 = _
  simp [Ply.apply, planes, convOutSize, px]

theorem convWitness_error (P : Nat → Nat → ℝ) :
    (convWitness.setPar false 0 P).error "MeanSquaredError" 2 (fun _ _ => 1) (fun _ _ => 0) = P 0 0 * P 0 0 / 2 := by
  unfold Mlp.error sampleError
  rw [show (convWitness.setPar false 0 P).width (convWitness.setPar false 0 P).depth = 1 from rfl]
  simp only [String.reduceEq, if_false, range_one, sum_singleton, convWitness_out, pointError, if_true, sum_const, card_range]
  push_cast
  simp only [nsmul_eq_mul]
  push_cast
  ring

theorem convWitness_grad : IsGrad 1 1 (fun P => (convWitness.setPar false 0 P).error "MeanSquaredError" 2 (fun _ _ => 1) (fun _ _ => 0)) (fun _ _ => 1) (fun _ _ => 1) := by
  simp only [convWitness_error]
  intro V
  have d : HasDerivAt (fun t : ℝ => 1 + t * V 0 0) (V 0 0) 0 := by
    simpa using ((hasDerivAt_id (0 : ℝ)).mul_const (V 0 0)).const_add 1
  refine ((d.mul d).div_const 2).congr_deriv ?_
  simp [dotM]

/-- C95: training a convolution is not gradient descent.  Two samples with the single pixel 1 and truth 0, weight 1: the
gradient of the error is 1, and the step is twice that long, because the gradient of a convolution is added up over the
samples of the batch instead of averaged. -/
theorem C95_convolution_wrong {eps : ℝ} (heps : 0 < eps) (g : Nat → ℝ) (e : Nat → Nat → Env) :
    ∃ (w₁ : World) (t₁ : Trainer) (w₂ : World) (t₂ : Trainer) (m' : Mlp), Trainer.setNet g convWorld { optName := "SGD" } 0 = .ok (w₁, t₁) ∧
      Trainer.trainBatch (fun x => |x|) eps e w₁ t₁ (Mat.ofFn 2 1 (fun _ _ => 1)) (Mat.ofFn 2 1 (fun _ _ => 0)) = .ok (w₂, t₂) ∧
      Represents w₂ 0 m' ∧ (m'.ply 0).weight 0 0 = 1 - 0.01 * 2 ∧
      IsGrad 1 1 (fun P => (convWitness.setPar false 0 P).error "MeanSquaredError" 2 (fun _ _ => 1) (fun _ _ => 0)) (fun _ _ => 1) (fun _ _ => 1) ∧
      ¬ Mlp.Descends "MeanSquaredError" 0.01 2 (fun _ _ => 1) (fun _ _ => 0) convWitness m' := by
  obtain ⟨w₁, t₁, h1, w₂, t₂, ms, h2, h3, h4, h5⟩ := C95_training heps convWorld { optName := "SGD" } 0 convWitness convWorld_represents (by decide) rfl rfl rfl
    (fun _ h => absurd h List.not_mem_nil) (fun _ h => absurd h List.not_mem_nil) g 1 1 (fun _ => e) (fun _ => 2) (fun _ _ => by decide)
    (fun _ _ _ => 1) (fun _ _ _ => 0) (fun k _ => by rw [TruthFits, if_neg (by decide)]; exact ⟨rfl, fun h => absurd h (by decide)⟩)
  have st := (h5 0 (by decide)).2 (fun i _ => by
    rw [h3, Mlp.Regular, if_neg (by decide)]
    exact ⟨fun i _ => trivial, fun h => absurd h (by decide), fun h => absurd h (by decide)⟩)
  rw [h3, if_pos rfl] at st
  have hG := convWitness_grad
  have hrate : convWitness.rate 2 false 0 = 2 := by
    simp [Mlp.rate, convWitness, PlyKind.parRate]
  refine ⟨w₁, t₁, w₂, t₂, ms 1, h1, h2, h4, ?_, hG, ?_⟩
  · obtain ⟨G, g1, g2⟩ := st.step false 0 (by decide) rfl
    have := IsGrad.unique g1 hG (a := 0) (b := 0) (by decide) (by decide)
    have h := g2 0 0
    rw [hrate, this] at h
    refine h.trans ?_
    show (1 : ℝ) - 0.01 * (2 * 1) = _
    norm_num
  · exact C95_not_descent st (by norm_num) (b := false) (i := 0) (by decide) rfl (by rw [hrate]; norm_num) (k := 0) (j := 0) (by decide) (by decide)
      ⟨_, hG, by norm_num⟩

end BeeDNN
