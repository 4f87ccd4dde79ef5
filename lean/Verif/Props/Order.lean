import Verif.Props.Linear
import Verif.Lemmas.MlpStep
import Verif.Spec.Order

/-! # Full batches: the order of the samples does not matter (C119) -/

namespace BeeDNN
open Finset Trainer

theorem Mlp.Same.refl (m : Mlp) : Mlp.Same m m := ⟨⟨rfl, rfl, fun _ => rfl⟩, fun _ _ _ _ _ _ _ _ => rfl⟩

theorem Mlp.Same.out {m m' : Mlp} (h : Mlp.Same m m') (hok : m.Ok) (v : Row) {j : Nat} (hj : j < m.width m.depth) : m'.out v j = m.out v j := by
  unfold Mlp.out
  rw [h.like.depth]
  exact Mlp.hidden_congr hok h.like h.par v _ le_rfl j hj

theorem Mlp.setPar_kind (m : Mlp) (b : Bool) (i : Nat) (V : Nat → Nat → ℝ) (k : Nat) : ((m.setPar b i V).ply k).kind = (m.ply k).kind := by
  show (if k = i then (m.ply i).setPar b V else m.ply k).kind = _
  split
  · rename_i h
    rw [h]
    cases b <;> rfl
  · rfl

theorem Mlp.setPar_like (m : Mlp) (b : Bool) (i : Nat) (V : Nat → Nat → ℝ) : Mlp.Like m (m.setPar b i V) := ⟨rfl, rfl, m.setPar_kind b i V⟩

/-- Changing the same parameter matrix to the same entries. -/
theorem Mlp.Same.setPar {m m' : Mlp} (h : Mlp.Same m m') (b : Bool) (i : Nat) {V V' : Nat → Nat → ℝ}
    (hV : ∀ k j, k < (m.shape b i).1 → j < (m.shape b i).2 → V' k j = V k j) : Mlp.Same (m.setPar b i V) (m'.setPar b i V') where
  like := ⟨h.like.depth, h.like.width, fun k => by rw [Mlp.setPar_kind, Mlp.setPar_kind, h.like.kind]⟩
  par := fun i' hi' b' hb k j hk hj => by
    rw [Ply.has, Mlp.setPar_kind, ← Ply.has] at hb
    rw [Mlp.shape, Mlp.setPar_kind] at hk hj
    have e : ∀ (a : Mlp) (U : Nat → Nat → ℝ), ((a.setPar b i U).ply i').par b' = if i' = i ∧ b' = b then U else (a.ply i').par b' := fun a U => by
      show (if i' = i then (a.ply i).setPar b U else a.ply i').par b' = _
      by_cases h1 : i' = i
      · rw [if_pos h1, h1]
        by_cases h2 : b' = b
        · rw [if_pos ⟨rfl, h2⟩, h2]
          cases b <;> rfl
        · rw [if_neg fun hh => h2 hh.2]
          cases b <;> cases b' <;> first | rfl | exact absurd rfl h2
      · rw [if_neg h1, if_neg fun hh => h1 hh.1]
    rw [e, e]
    by_cases hc : i' = i ∧ b' = b
    · rw [if_pos hc, if_pos hc]
      rw [hc.1, hc.2] at hk hj
      exact hV k j hk hj
    · rw [if_neg hc, if_neg hc]
      exact h.par i' hi' b' hb k j hk hj

/-- The same networks have the same gradients. -/
theorem Mlp.Same.steps {rate : Bool → Nat → ℝ} {loss : String} {lr : ℝ} {N D : Nat} {x y x' y' : Nat → Row} {m m' m₁ m₁' : Mlp} (h : Mlp.Same m m') (hok : m.Ok)
    (hT : TruthFits loss (m.width m.depth) D N y) (hs : Mlp.Steps rate loss lr N x y m m₁) (hs' : Mlp.Steps rate loss lr N x' y' m' m₁')
    (he : ∀ a : Mlp, a.error loss N x' y' = a.error loss N x y) : Mlp.Same m₁ m₁' where
  like := by
    have l1 := hs.like
    have l2 := hs'.like
    exact ⟨by rw [l2.depth, h.like.depth, l1.depth], by rw [l2.width, h.like.width, l1.width], fun i => by rw [l2.kind, h.like.kind, l1.kind]⟩
  par := fun i hi b hb k j hk hj => by
    rw [hs.like.depth] at hi
    rw [Ply.has, hs.like.kind, ← Ply.has] at hb
    have hsh : m₁.shape b i = m.shape b i := by rw [Mlp.shape, Mlp.shape, hs.like.kind, hs.like.width]
    have hsh' : m'.shape b i = m.shape b i := by rw [Mlp.shape, Mlp.shape, h.like.kind, h.like.width]
    rw [hsh] at hk hj
    obtain ⟨G, g1, g2⟩ := hs.step b i hi hb
    obtain ⟨G', g3, g4⟩ := hs'.step b i (by rw [h.like.depth]; exact hi) (by rw [Ply.has, h.like.kind]; exact hb)
    rw [g2, g4, h.par i hi b hb k j hk hj]
    rw [hsh'] at g3
    have : IsGrad (m.shape b i).1 (m.shape b i).2 (fun P => (m.setPar b i P).error loss N x y) ((m.ply i).par b) G' := fun V => by
      have q := g3 V
      have hf : (fun t : ℝ => (m'.setPar b i (fun k j => (m'.ply i).par b k j + t * V k j)).error loss N x' y') =
          fun t : ℝ => (m.setPar b i (fun k j => (m.ply i).par b k j + t * V k j)).error loss N x y := funext fun t => by
        rw [he]
        have hsame := h.setPar b i (V := fun k j => (m.ply i).par b k j + t * V k j) (V' := fun k j => (m'.ply i).par b k j + t * V k j)
          fun k j hk hj => by rw [h.par i hi b hb k j hk hj]
        exact Mlp.error_congr ((m.setPar_like b i _).ok hok) hsame.like hT hsame.par
      rw [hf] at q
      exact q
    rw [IsGrad.unique this g1 hk hj]

/-- An epoch with all samples in one batch. -/
theorem Mlp.Epoch.full_step {loss : String} {lr eps : ℝ} {N D : Nat} (hN : 0 < N) {x y : Nat → Row} {m m' : Mlp} {r : Nat}
    (h : Mlp.Epoch (fun N' x' y' m₁ m₂ => (∀ i, i < N' → m₁.Regular eps loss (x' i) (y' i)) → Mlp.Steps (m₁.rate N') loss lr N' x' y' m₁ m₂) N N D x y m m' r)
    (hr : ∀ i, i < N → m.Regular eps loss (x i) (y i)) : Mlp.Steps (m.rate N) loss lr N x y m m' := by
  obtain ⟨σ, ms, h1, h2, h3, h4, -⟩ := h
  have hb := nbBatches_one hN (le_refl N)
  rw [hb] at h3 h4
  have h5 := h4 0 one_pos
  rw [h2, h3, show batchEnd N N 0 - batchStart N 0 = N by unfold batchEnd batchStart; omega] at h5
  simp only [batchStart, Nat.zero_mul, Nat.zero_add] at h5
  have h6 := h5 fun i hi => hr _ (perm_lt h1 hi)
  refine ⟨h6.like, fun b i hi hh => ?_⟩
  obtain ⟨G, g1, g2⟩ := h6.step b i hi hh
  refine ⟨G, fun V => ?_, g2⟩
  have := g1 V
  simp only [error_perm h1] at this
  exact this

/-- C119: gradient descent with all samples in one batch does not depend on the order of the samples nor on the random numbers of the shuffles.  Two trainings of the same network with the same settings,
one on the samples `x` and one on the same samples in another order `π`, with any random numbers: both give the same weights and biases, and networks with the same outputs. -/
theorem C119_order {w₁ w₂ : World} {t₁ t₂ : Trainer} {n₁ b₁ n₂ b₂ : Nat} {m : Mlp} {N D : Nat} {x y : Nat → Row} {π : Nat → Nat}
    (h₁ : FitSetup w₁ t₁ n₁ b₁ m N D x y) (h₂ : FitSetup w₂ t₂ n₂ b₂ m N D (fun i => x (π i)) (fun i => y (π i))) (hπ : ((List.range N).map π).Perm (List.range N))
    (hm : m.Smooth) (hl : t₁.loss ∈ distanceLosses) (hk : t₁.loss ∉ kinkAtZero) (o₁ : t₁.optName = "SGD") (o₂ : t₂.optName = "SGD") (e1 : t₂.loss = t₁.loss) (e2 : t₂.lr = t₁.lr)
    (e3 : t₂.epochs = t₁.epochs) (f₁ : t₁.batchSize = 0 ∨ (N : Int) ≤ t₁.batchSize) (f₂ : t₂.batchSize = 0 ∨ (N : Int) ≤ t₂.batchSize)
    (k₁ : t₁.keepBest = false) (k₂ : t₂.keepBest = false) {eps : ℝ} (heps : 0 < eps) (r₁ r₂ : FitEnv) :
    ∃ (w₁' w₂' : World) (t₁' t₂' : Trainer) (s₁ s₂ : List (List (Option Layer))) (m₁ m₂ : Mlp),
      fit (fun x => |x|) eps r₁ w₁ t₁ n₁ b₁ = .ok (w₁', t₁', s₁) ∧ fit (fun x => |x|) eps r₂ w₂ t₂ n₂ b₂ = .ok (w₂', t₂', s₂) ∧
      Represents w₁' n₁ m₁ ∧ Represents w₂' n₂ m₂ ∧ Mlp.Same m₁ m₂ ∧ ∀ (v : Row) j, j < m.width m.depth → m₂.out v j = m₁.out v j := by
  obtain ⟨w₁', t₁', s₁, ms, ra, ja, a1, a2, a3, -, a5, -, a7⟩ := C95_fit h₁ o₁ heps r₁
  obtain ⟨w₂', t₂', s₂, ns, rb, jb, b1, b2, b3, -, b5, -, b7⟩ := C95_fit h₂ o₂ heps r₂
  have hfull : ∀ B : Int, (B = 0 ∨ (N : Int) ≤ B) → (if B = 0 then N else min B.toNat N) = N := fun B hB => by split <;> omega
  rw [hfull _ f₁] at a3
  rw [hfull _ f₂, e1, e2, e3] at b3
  rw [a7 k₁] at a5
  rw [b7 k₂, e3] at b5
  have reg : ∀ (a : Mlp), Mlp.Like m a → ∀ (v z : Row), a.Regular eps t₁.loss v z := fun a ha v z => by
    rw [Mlp.Regular, if_neg (by rintro (h | h) <;> rw [h] at hl <;> exact absurd hl (by decide))]
    exact ⟨(hm.like ha).at _, fun h => absurd (by simpa [kinkAtZero] using h) hk, fun h => by rw [h] at hl; exact absurd hl (by decide)⟩
  have key : ∀ i, i ≤ t₁.epochs.toNat → Mlp.Like m (ms i) ∧ Mlp.Same (ms i) (ns i) := by
    intro i
    induction i with
    | zero =>
      intro _
      rw [a2, b2]
      exact ⟨⟨rfl, rfl, fun _ => rfl⟩, Mlp.Same.refl m⟩
    | succ i ih =>
      intro hi
      obtain ⟨c1, c2⟩ := ih (by omega)
      have d1 := (a3 i hi).full_step h₁.samples fun s _ => reg _ c1 _ _
      have d2 := (b3 i hi).full_step h₂.samples fun s _ => reg _ (c1.trans c2.like) _ _
      have hrate : (ns i).rate N = (ms i).rate N := by
        funext b q
        unfold Mlp.rate
        rw [c2.like.depth, c2.like.kind]
        congr 1
        exact prod_congr rfl fun k _ => by rw [c2.like.kind]
      rw [hrate] at d2
      refine ⟨c1.trans d1.like, c2.steps (c1.ok h₁.net.ok) (by rw [c1.depth, c1.width]; exact h₁.truth) d1 d2 fun a => error_perm hπ⟩
  obtain ⟨q1, q2⟩ := key _ (le_refl _)
  refine ⟨w₁', w₂', t₁', t₂', s₁, s₂, _, _, a1, b1, a5, b5, q2, fun v j hj => q2.out (q1.ok h₁.net.ok) v (by rw [q1.depth, q1.width]; exact hj)⟩

/-- The samples of `lineTrainer` in reverse order, as a batch that is larger than their number. -/
noncomputable def lineReversed : Trainer :=
  { lineTrainer 3 false with batchSize := 7, train := some (Mat.ofFn 3 1 (fun i _ => ((2 - i : Nat) : ℝ)), Mat.ofFn 3 1 (fun i _ => 2 * ((2 - i : Nat) : ℝ) + 1)) }

theorem lineReversed_setup : FitSetup lineWorld lineReversed 0 1 lineNet 3 1 (fun i => (fun i _ => (i : ℝ) : Nat → Row) (2 - i)) (fun i => (fun i _ => 2 * (i : ℝ) + 1 : Nat → Row) (2 - i)) :=
  { lineTrainer_setup 3 (by decide) false with
    train := rfl
    truth := (distanceLosses_fits (by show "MeanSquaredError" ∈ distanceLosses; decide)).2 _ _ _
    batchSize := by show (0 : Int) ≤ 7; decide }

/-- The hypotheses of `C119_order` are met: the points `(0,1)`, `(1,3)`, `(2,5)`, and the same in reverse order. -/
example {eps : ℝ} (heps : 0 < eps) (r₁ r₂ : FitEnv) := C119_order (lineTrainer_setup 3 (by decide) false) lineReversed_setup (π := fun i => 2 - i) (by decide)
  (fun i _ => by simp [lineNet, PlyKind.Smooth]) (by show "MeanSquaredError" ∈ distanceLosses; decide) (by show "MeanSquaredError" ∉ kinkAtZero; decide) rfl rfl rfl rfl rfl (.inl rfl)
  (.inr (by show (3 : Int) ≤ 7; decide)) rfl rfl heps r₁ r₂

end BeeDNN
