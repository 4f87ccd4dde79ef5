import Verif.Lemmas.MlpStep
import Verif.Props.Mlp

/-! # C97: a small step makes the error smaller -/

namespace BeeDNN
open Finset

/-- All gradients of the error are zero. -/
def Mlp.Stationary (m : Mlp) (loss : String) (N : Nat) (x y : Nat → Row) : Prop :=
  ∀ b i, i < m.depth → (m.ply i).has b = true →
    IsGrad (m.shape b i).1 (m.shape b i).2 (fun P => (m.setPar b i P).error loss N x y) ((m.ply i).par b) (fun _ _ => 0)

/-- C97: one step with positive rates, short enough, makes the error of the batch smaller unless all gradients are zero. -/
theorem C97_step {m : Mlp} (h : m.Ok) {eps : ℝ} (heps : 0 < eps) {loss : String} (hl : loss ∈ listLoss) {N D : Nat} {x y : Nat → Row}
    (hT : TruthFits loss (m.width m.depth) D N y) (hr : ∀ i, i < N → m.Regular eps loss (x i) (y i)) (hs : ¬ m.Stationary loss N x y)
    {rate : Bool → Nat → ℝ} (hrate : ∀ b i, i < m.depth → 0 < rate b i) :
    ∃ δ > 0, ∀ lr, 0 < lr → lr < δ → ∀ m', Mlp.Steps rate loss lr N x y m m' → m'.error loss N x y < m.error loss N x y := by
  obtain ⟨ψ, -, hψ⟩ := lossOk_of_mem eps hl (h.pos _ (Nat.le_refl m.depth)) D
  have hgrad := fun b i (hi : i < m.depth) hb => Mlp.grad_error h heps hl hψ N x y hT hr b hi hb
  have hder := Mlp.error_deriv h heps hl hψ N x y hT hr
  generalize (fun k => lossGrad eps loss ψ (m.out (x k)) (y k)) = Γ at hgrad hder
  have hd := hder (fun i b k j => -(rate b i * m.grad N x Γ b i k j))
  have hsq : ∀ i b, dotM (m.shape b i).1 (m.shape b i).2 (m.grad N x Γ b i) (fun k j => -(rate b i * m.grad N x Γ b i k j)) =
      -(rate b i * dotM (m.shape b i).1 (m.shape b i).2 (m.grad N x Γ b i) (m.grad N x Γ b i)) := by
    intro i b
    simp only [dotM, mul_sum, ← sum_neg_distrib]
    exact sum_congr rfl fun _ _ => sum_congr rfl fun _ _ => by ring
  have hnn : ∀ i b, 0 ≤ dotM (m.shape b i).1 (m.shape b i).2 (m.grad N x Γ b i) (m.grad N x Γ b i) := fun i b =>
    sum_nonneg fun _ _ => sum_nonneg fun _ _ => mul_self_nonneg _
  have hneg : (∑ i ∈ range m.depth, ∑ b : Bool, if (m.ply i).has b = true then dotM (m.shape b i).1 (m.shape b i).2 (m.grad N x Γ b i)
      (fun k j => -(rate b i * m.grad N x Γ b i k j)) else 0) < 0 := by
    unfold Mlp.Stationary at hs
    push Not at hs
    obtain ⟨b, i, hi, hb, hz⟩ := hs
    have hpos : 0 < dotM (m.shape b i).1 (m.shape b i).2 (m.grad N x Γ b i) (m.grad N x Γ b i) := by
      refine lt_of_le_of_ne (hnn i b) fun h0 => hz ?_
      have hzero : ∀ k j, k < (m.shape b i).1 → j < (m.shape b i).2 → m.grad N x Γ b i k j = 0 := by
        intro k j hk hj
        have h1 := (sum_eq_zero_iff_of_nonneg (fun _ _ => sum_nonneg fun _ _ => mul_self_nonneg _)).1 h0.symm k (mem_range.2 hk)
        exact mul_self_eq_zero.1 ((sum_eq_zero_iff_of_nonneg (fun _ _ => mul_self_nonneg _)).1 h1 j (mem_range.2 hj))
      intro V
      refine (hgrad b i hi hb V).congr_deriv ?_
      exact sum_congr rfl fun k hk => sum_congr rfl fun j hj => by rw [hzero k j (mem_range.1 hk) (mem_range.1 hj)]
    have hterm : ∀ i, i < m.depth → ∀ b, (if (m.ply i).has b = true then dotM (m.shape b i).1 (m.shape b i).2 (m.grad N x Γ b i)
        (fun k j => -(rate b i * m.grad N x Γ b i k j)) else 0) ≤ 0 := by
      intro i hi b
      split
      · rw [hsq]
        have := mul_nonneg (hrate b i hi).le (hnn i b)
        linarith
      · exact le_rfl
    refine sum_neg' (fun i hi => sum_nonpos fun b _ => hterm i (mem_range.1 hi) b) ⟨i, mem_range.2 hi, ?_⟩
    refine sum_neg' (fun b _ => hterm i hi b) ⟨b, mem_univ b, ?_⟩
    rw [if_pos hb, hsq]
    have := mul_pos (hrate b i hi) hpos
    linarith
  rw [hasDerivAt_iff_tendsto_slope] at hd
  have hev := hd.eventually (gt_mem_nhds hneg)
  rw [eventually_nhdsWithin_iff, Metric.eventually_nhds_iff] at hev
  obtain ⟨δ, hδ, hball⟩ := hev
  refine ⟨δ, hδ, fun lr h0 h1 m' hst => ?_⟩
  have hlt := hball (show dist lr 0 < δ by rw [Real.dist_eq, sub_zero, abs_of_pos h0]; exact h1) (show lr ∈ ({0} : Set ℝ)ᶜ from h0.ne')
  have hm0 : m.move (fun i b k j => -(rate b i * m.grad N x Γ b i k j)) 0 = m := by
    obtain ⟨d, w, p⟩ := m
    simp [Mlp.move, Ply.move]
  simp only [slope, vsub_eq_sub, smul_eq_mul, hm0, sub_zero] at hlt
  have hlt' := (mul_neg_iff.1 hlt).resolve_right (fun h => absurd h.1 (not_lt.2 (inv_pos.2 h0).le))
  have key : m'.error loss N x y = (m.move (fun i b k j => -(rate b i * m.grad N x Γ b i k j)) lr).error loss N x y := by
    refine Mlp.error_congr (m := m.move (fun i b k j => -(rate b i * m.grad N x Γ b i k j)) lr) ⟨h.depth, h.pos, h.fits⟩
      ⟨hst.like.depth, hst.like.width, hst.like.kind⟩ hT fun i hi b hb k j hk hj => ?_
    obtain ⟨G, g1, g2⟩ := hst.step b i hi hb
    rw [g2, IsGrad.unique g1 (hgrad b i hi hb) hk hj]
    cases b
    · show (m.ply i).weight k j - _ = (m.ply i).weight k j + _
      ring
    · show (m.ply i).bias k j - _ = (m.ply i).bias k j + _
      ring
  rw [key]
  linarith [hlt'.2]

/-- C97: for every feed-forward network of the fifteen kinds of layers, every one of the twelve losses and every batch
whose samples are regular there is a learning rate such that with this and every smaller one a batch of training with
plain gradient descent makes the error of the batch smaller, unless all gradients are zero. -/
theorem C97_training {eps : ℝ} (heps : 0 < eps) (w : World) (t : Trainer) (n : Nat) (m : Mlp) (h : Represents w n m) (hl : t.loss ∈ listLoss)
    (ho : t.optName = "SGD") (hr : t.reg = none) (hw : t.lossWeight.size = 0) (hi : ∀ a ∈ t.inOut, a.WF) (hg : ∀ a ∈ t.gradient, a.WF)
    {N D : Nat} (hN : 0 < N) {x y : Nat → Row} (hT : TruthFits t.loss (m.width m.depth) D N y)
    (hreg : ∀ i, i < N → m.Regular eps t.loss (x i) (y i)) (hs : ¬ m.Stationary t.loss N x y) :
    ∃ δ > 0, ∀ lr, 0 < lr → lr < δ → ∀ (g : Nat → ℝ) (e : Nat → Nat → Env), ∃ (w₁ : World) (t₁ : Trainer) (w₂ : World) (t₂ : Trainer) (m' : Mlp),
      Trainer.setNet g w { t with lr := lr } n = .ok (w₁, t₁) ∧
      Trainer.trainBatch (fun x => |x|) eps e w₁ t₁ (Mat.ofFn N (m.width 0) x) (Mat.ofFn N D y) = .ok (w₂, t₂) ∧
      Represents w₂ n m' ∧ Mlp.Like m m' ∧ m'.error t.loss N x y < m.error t.loss N x y := by
  obtain ⟨δ, hδ, key⟩ := C97_step h.ok heps hl hT hreg hs (rate := m.rate N) (fun b i hi => C95_rate_pos h.ok hN b i hi)
  refine ⟨δ, hδ, fun lr h0 h1 g e => ?_⟩
  obtain ⟨w₁, t₁, s1, w₂, t₂, ms, s2, s3, s4, s5⟩ := C95_training heps w { t with lr := lr } n m h hl ho hr hw hi hg g 1 D (fun _ => e) (fun _ => N)
    (fun _ _ => hN) (fun _ => x) (fun _ => y) (fun _ _ => hT)
  obtain ⟨a1, a2⟩ := s5 0 Nat.one_pos
  rw [s3] at a1 a2
  have a3 := a2 hreg
  dsimp only at a3
  rw [if_neg (by linarith)] at a3
  exact ⟨w₁, t₁, w₂, t₂, ms 1, s1, s2, s4, a1, key lr h0 h1 _ a3⟩

/-- The convolution of C95 with two samples: the gradient is 1. -/
theorem convWitness_notStationary : ¬ convWitness.Stationary "MeanSquaredError" 2 (fun _ _ => 1) (fun _ _ => 0) := by
  intro h
  have h0 : IsGrad 1 1 (fun P => (convWitness.setPar false 0 P).error "MeanSquaredError" 2 (fun _ _ => 1) (fun _ _ => 0)) (fun _ _ => 1) (fun _ _ => 0) :=
    h false 0 (by decide) rfl
  have h1 := convWitness_grad
  have := IsGrad.unique h0 h1 (a := 0) (b := 0) (by decide) (by decide)
  norm_num at this

example {eps : ℝ} (heps : 0 < eps) :=
  C97_training heps convWorld { optName := "SGD" } 0 convWitness convWorld_represents (by decide) rfl rfl rfl
    (fun _ h => absurd h List.not_mem_nil) (fun _ h => absurd h List.not_mem_nil) (N := 2) (D := 1) (by decide) (x := fun _ _ => 1) (y := fun _ _ => 0)
    (by rw [TruthFits, if_neg (by decide)]; exact ⟨rfl, fun h => absurd h (by decide)⟩)
    (fun i _ => by
      rw [Mlp.Regular, if_neg (by decide)]
      exact ⟨fun i _ => trivial, fun h => absurd h (by decide), fun h => absurd h (by decide)⟩) convWitness_notStationary

end BeeDNN
