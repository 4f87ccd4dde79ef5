import Verif.Lemmas.Repeat
import Verif.Lemmas.Program

/-! # Full batches: samples that all occur equally often (C147) -/

namespace BeeDNN
open Finset Trainer

section
variable {w₁ w₂ : World} {t₁ t₂ : Trainer} {n₁ b₁ n₂ b₂ : Nat} {m : Mlp} {N D k : Nat} {x y : Nat → Row} {π : Nat → Nat}

/-- C147 (partial: networks without convolution): with all samples in one batch and any optimizer, it does not matter if every sample is given `k` times, in any order: both trainings give the same weights
and biases, and networks with the same outputs. -/
theorem C147_repeat_partial (hk0 : 0 < k) (hπ : ∀ i, i < k * N → π i < N) (hc : ∀ s, s < N → ((range (k * N)).filter fun i => π i = s).card = k)
    (h₁ : FitSetup w₁ t₁ n₁ b₁ m N D x y) (h₂ : FitSetup w₂ t₂ n₂ b₂ m (k * N) D (fun i => x (π i)) (fun i => y (π i)))
    (hconv : ∀ i, i < m.depth → ∀ R S K kR kC O rs cs, (m.ply i).kind ≠ .conv R S K kR kC O rs cs)
    (hm : m.Smooth) (hl : t₁.loss ∈ distanceLosses) (hk : t₁.loss ∉ kinkAtZero) {kd : OptKind} (o₁ : createOptimizer t₁.optName = some kd) (o₂ : t₂.optName = t₁.optName)
    (e1 : t₂.loss = t₁.loss) (e2 : t₂.lr = t₁.lr) (e4 : t₂.mom = t₁.mom) (e5 : t₂.decay = t₁.decay) (e3 : t₂.epochs = t₁.epochs)
    (f₁ : t₁.batchSize = 0 ∨ (N : Int) ≤ t₁.batchSize) (f₂ : t₂.batchSize = 0 ∨ ((k * N : Nat) : Int) ≤ t₂.batchSize)
    (k₁ : t₁.keepBest = false) (k₂ : t₂.keepBest = false) (c₁ : t₁.reboostEvery = -1) (c₂ : t₂.reboostEvery = -1) {eps : ℝ} (heps : 0 < eps) (r₁ r₂ : FitEnv) :
    ∃ (w₁' w₂' : World) (t₁' t₂' : Trainer) (s₁ s₂ : List (List (Option Layer))) (m₁ m₂ : Mlp),
      fit (fun x => |x|) eps r₁ w₁ t₁ n₁ b₁ = .ok (w₁', t₁', s₁) ∧ fit (fun x => |x|) eps r₂ w₂ t₂ n₂ b₂ = .ok (w₂', t₂', s₂) ∧
      Represents w₁' n₁ m₁ ∧ Represents w₂' n₂ m₂ ∧ Mlp.Same m₁ m₂ ∧ ∀ (v : Row) j, j < m.width m.depth → m₂.out v j = m₁.out v j := by
  obtain ⟨w₁', w₂', t₁', t₂', s₁, s₂, ms, ns, a1, b1, a3, b3, a2, b2⟩ := fit_pair h₁ h₂ hm hl hk o₁ o₂ e1 e2 e4 e5 e3 f₁ f₂ k₁ k₂ c₁ c₂ heps r₁ r₂
  have q2 := a2.same_data h₁.samples h₂.samples h₁.net.ok h₁.truth (fun a => a.error_repeat hk0 hπ hc _ x y) (fun b l hl => by
    unfold Mlp.rate
    congr 1
    have := hconv l hl
    cases hp : (m.ply l).kind <;> first | rfl | exact absurd hp (this _ _ _ _ _ _ _ _)) b2 _ le_rfl
  have q1 := a2.like t₁.epochs.toNat 0 (by omega)
  exact ⟨w₁', w₂', t₁', t₂', s₁, s₂, _, _, a1, b1, a3, b3, q2, fun v j hj => q2.out (q1.ok h₁.net.ok) v (by rw [q1.depth, q1.width]; exact hj)⟩

/-- C147 as claimed fails for convolution layers: giving every sample `k` times makes the first step of SGD `k` times as long for their weights, because the gradients of the samples are added and not averaged. -/
theorem C147_conv (hk0 : 0 < k) (hπ : ∀ i, i < k * N → π i < N) (hc : ∀ s, s < N → ((range (k * N)).filter fun i => π i = s).card = k)
    (h₁ : FitSetup w₁ t₁ n₁ b₁ m N D x y) (h₂ : FitSetup w₂ t₂ n₂ b₂ m (k * N) D (fun i => x (π i)) (fun i => y (π i)))
    {l : Nat} (hl' : l < m.depth) {R S K kR kC O rs cs : Nat} (hconv : (m.ply l).kind = .conv R S K kR kC O rs cs)
    (hm : m.Smooth) (hl : t₁.loss ∈ distanceLosses) (hk : t₁.loss ∉ kinkAtZero) (o₁ : t₁.optName = "SGD") (o₂ : t₂.optName = "SGD")
    (e1 : t₂.loss = t₁.loss) (e2 : t₂.lr = t₁.lr) (e4 : t₂.mom = t₁.mom) (e5 : t₂.decay = t₁.decay) (e3 : t₁.epochs = 1) (e3' : t₂.epochs = 1)
    (f₁ : t₁.batchSize = 0 ∨ (N : Int) ≤ t₁.batchSize) (f₂ : t₂.batchSize = 0 ∨ ((k * N : Nat) : Int) ≤ t₂.batchSize)
    (k₁ : t₁.keepBest = false) (k₂ : t₂.keepBest = false) (c₁ : t₁.reboostEvery = -1) (c₂ : t₂.reboostEvery = -1) {eps : ℝ} (heps : 0 < eps) (r₁ r₂ : FitEnv) :
    ∃ (w₁' w₂' : World) (t₁' t₂' : Trainer) (s₁ s₂ : List (List (Option Layer))) (m₁ m₂ : Mlp),
      fit (fun x => |x|) eps r₁ w₁ t₁ n₁ b₁ = .ok (w₁', t₁', s₁) ∧ fit (fun x => |x|) eps r₂ w₂ t₂ n₂ b₂ = .ok (w₂', t₂', s₂) ∧
      Represents w₁' n₁ m₁ ∧ Represents w₂' n₂ m₂ ∧
      ∀ o j, o < O → j < kR * kC * K → (m₂.ply l).weight o j - (m.ply l).weight o j = k * ((m₁.ply l).weight o j - (m.ply l).weight o j) := by
  obtain ⟨w₁', w₂', t₁', t₂', s₁, s₂, ms, ns, a1, b1, a3, b3, a2, b2⟩ := fit_pair h₁ h₂ hm hl hk (kd := .sgd) (by rw [o₁]; rfl) (by rw [o₁, o₂]) e1 e2 e4 e5 (by rw [e3, e3']) f₁ f₂ k₁ k₂ c₁ c₂ heps r₁ r₂
  rw [show t₁.epochs.toNat = 1 by rw [e3]; rfl] at a2 b2 a3 b3
  refine ⟨w₁', w₂', t₁', t₂', s₁, s₂, _, _, a1, b1, a3, b3, fun o j ho hj => ?_⟩
  have hb : (m.ply l).has false = true := by rw [Ply.has, hconv]; rfl
  have hs : m.shape false l = (O, kR * kC * K) := by rw [Mlp.shape, hconv]; rfl
  obtain ⟨σ, d, p1, p2, p3⟩ := a2.rule
  obtain ⟨σ', d', q1, q2, q3⟩ := b2.rule
  rw [nbBatches_one h₁.samples le_rfl] at p2 p3
  rw [nbBatches_one h₂.samples le_rfl] at q2 q3
  have u1 := p3 1 0 (.inr ⟨rfl, rfl⟩) false l hl' hb o j (by rw [hs]; exact ho) (by rw [hs]; exact hj)
  have u2 := q3 1 0 (.inr ⟨rfl, rfl⟩) false l hl' hb o j (by rw [hs]; exact ho) (by rw [hs]; exact hj)
  have v1 := p2 0 0 one_pos one_pos (fun _ _ => trivial)
  have v2 := q2 0 0 one_pos one_pos (fun _ _ => trivial)
  rw [a2.first] at v1
  rw [b2.first] at v2
  obtain ⟨G, g1, g2⟩ := v1 false l hl' hb
  obtain ⟨G', g3, g4⟩ := v2 false l hl' hb
  rw [show batchEnd N N 0 - batchStart N 0 = N by unfold batchEnd batchStart; omega] at g1 g2
  rw [show batchEnd (k * N) (k * N) 0 - batchStart (k * N) 0 = k * N by unfold batchEnd batchStart; omega] at g3 g4
  simp only [batchStart, Nat.zero_mul, Nat.zero_add, error_perm (p1 0 one_pos)] at g1
  simp only [batchStart, Nat.zero_mul, Nat.zero_add] at g3
  have hG := (Mlp.Same.refl m).grad_data h₁.net.ok h₁.truth (fun a => (error_perm (x := fun i => x (π i)) (y := fun i => y (π i)) (q1 0 one_pos)).trans (a.error_repeat hk0 hπ hc _ x y)) hl' hb g1 g3 (p := o) (q := j) (by rw [hs]; exact ho) (by rw [hs]; exact hj)
  have hr : m.rate (k * N) false l = k * m.rate N false l := by
    rw [Mlp.rate, Mlp.rate, hconv]
    simp only [PlyKind.parRate]
    push_cast
    ring
  have step : ∀ (a : Mlp) (δ : Nat → ℝ), (a.ply l).par false o j = (Coord.run Real.sqrt (fun x => |x|) (bookSettings t₁.optName t₁.lr t₁.mom t₁.decay) .sgd ((m.ply l).par false o j) δ (1 * 1 + 0)).w →
      (a.ply l).weight o j = (m.ply l).weight o j - (bookSettings t₁.optName t₁.lr t₁.mom t₁.decay).lr * δ 0 := fun a δ h => h
  rw [step _ _ u1, step _ _ u2]
  have w1 : d 0 false l o j = _ := g2 o j
  have w2 : d' 0 false l o j = _ := g4 o j
  rw [w1, w2, hr, hG]
  ring

end

/-! ## Instances -/

/-- The points `(0,1)`, `(1,3)`, `(2,5)`, each twice. -/
noncomputable def lineTwice : Trainer :=
  { lineTrainer 3 false with train := some (Mat.ofFn 6 1 (fun i _ => ((i % 3 : Nat) : ℝ)), Mat.ofFn 6 1 (fun i _ => 2 * ((i % 3 : Nat) : ℝ) + 1)) }

theorem lineTwice_setup : FitSetup lineWorld lineTwice 0 1 lineNet (2 * 3) 1 (fun i => (fun i _ => (i : ℝ) : Nat → Row) (i % 3)) (fun i => (fun i _ => 2 * (i : ℝ) + 1 : Nat → Row) (i % 3)) :=
  { lineTrainer_setup 3 (by decide) false with
    samples := by decide
    train := rfl
    truth := (distanceLosses_fits (by show "MeanSquaredError" ∈ distanceLosses; decide)).2 _ _ _ }

example {eps : ℝ} (heps : 0 < eps) (r₁ r₂ : FitEnv) := C147_repeat_partial (k := 2) (t₁ := { lineTrainer 3 false with optName := "Adam" }) (t₂ := { lineTwice with optName := "Adam" })
  (π := fun i => i % 3) (by decide) (fun i _ => Nat.mod_lt _ (by decide)) (by decide) { lineTrainer_setup 3 (by decide) false with } { lineTwice_setup with }
  (fun i _ => by simp [lineNet]) (fun i _ => by simp [lineNet, PlyKind.Smooth]) (by show "MeanSquaredError" ∈ distanceLosses; decide) (by show "MeanSquaredError" ∉ kinkAtZero; decide)
  (kd := .adam) rfl rfl rfl rfl rfl rfl rfl (.inl rfl) (.inl rfl) rfl rfl rfl rfl heps r₁ r₂

/-- A convolution of images of 4×4 pixels with one kernel of 3×3, trained on two images and on the same images three times each. -/
example (env : Nat → Env) {eps : ℝ} (heps : 0 < eps) (r₁ r₂ : FitEnv) : ∃ (w w₁' w₂' : World) (t₁ t₂ t₁' t₂' : Trainer) (s₁ s₂ : List (List (Option Layer))) (m m₁ m₂ : Mlp),
    Represents w 0 m ∧ fit (fun x => |x|) eps r₁ w t₁ 0 1 = .ok (w₁', t₁', s₁) ∧ fit (fun x => |x|) eps r₂ w t₂ 0 1 = .ok (w₂', t₂', s₂) ∧ Represents w₁' 0 m₁ ∧ Represents w₂' 0 m₂ ∧
      ∀ o j, o < 1 → j < 3 * 3 * 1 → (m₂.ply 0).weight o j - (m.ply 0).weight o j = (3 : Nat) * ((m₁.ply 0).weight o j - (m.ply 0).weight o j) := by
  obtain ⟨w, m, -, h2, h3, h4, h5⟩ := program_setup (depth := 1) (width := fun i => if i = 0 then 16 else 4) (kind := fun _ => .conv 4 4 1 3 3 1 1 1) (wi := fun _ => "Zeros") (bi := fun _ => "Zeros")
    (by simp [initNames]) (by simp [initNames]) one_pos (fun i _ => by split <;> decide) (fun i hi => by
      obtain rfl : i = 0 := by omega
      exact ⟨by simp, by simp [PlyKind.Fits, convOutSize]⟩) env
  have hs := fun N x y hN => h5 N 4 x y ⟨"MeanSquaredError", "SGD", 1 / 10, 1, 0, false⟩ hN ((distanceLosses_fits (s := "MeanSquaredError") (by decide)).2 _ _ _) (by decide) le_rfl
  obtain ⟨w₁', w₂', t₁', t₂', s₁, s₂, m₁, m₂, c1, c2, c3, c4, c5⟩ := C147_conv (k := 3) (N := 2) (x := fun i j => (i : ℝ) + j) (y := fun i _ => i) (π := fun i => i % 2) (by decide)
    (fun i _ => Nat.mod_lt _ (by decide)) (by decide) (hs 2 _ _ (by decide)) (hs (3 * 2) _ _ (by decide)) (l := 0) (by omega) (h4 0 one_pos)
    (fun i hi => by
      rw [h4 i (by omega)]
      simp [PlyKind.Smooth])
    (by show "MeanSquaredError" ∈ distanceLosses; decide) (by show "MeanSquaredError" ∉ kinkAtZero; decide) rfl rfl rfl rfl rfl rfl rfl rfl (.inl rfl) (.inl rfl) rfl rfl rfl rfl heps r₁ r₂
  exact ⟨w, w₁', w₂', _, _, t₁', t₂', s₁, s₂, m, m₁, m₂, (hs 2 (fun i j => (i : ℝ) + j) (fun i _ => i) (by decide)).net, c1, c2, c3, c4, c5⟩

end BeeDNN
