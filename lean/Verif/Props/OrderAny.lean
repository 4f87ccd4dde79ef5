import Verif.Props.Order
import Verif.Props.MlpRule

/-! # Full batches with any optimizer: the order of the samples does not matter (C119) -/

namespace BeeDNN
open Finset Trainer

/-- The rule for one number depends on the gradients used so far only. -/
theorem Coord.run_congr_w (sq ab : ℝ → ℝ) (h : Hyper ℝ) (k : OptKind) (w : ℝ) {d d' : Nat → ℝ} {T : Nat} (hd : ∀ t, t < T → d t = d' t) :
    (Coord.run sq ab h k w d T).w = (Coord.run sq ab h k w d' T).w := by
  rcases T with _ | T
  · cases k <;> rfl
  have : ∀ S, S ≤ T + 1 → Coord.run sq ab h k w d S = Coord.run sq ab h k w d' S := by
    intro S
    induction S with
    | zero => intro _; rw [Coord.run, Coord.run, hd 0 (by omega)]
    | succ S ih => intro hS; rw [Coord.run, Coord.run, ih (by omega), hd S (by omega)]
  rw [this _ le_rfl]

/-- The same networks have the same gradients. -/
theorem Mlp.Same.grad {loss : String} {N D : Nat} {x y x' y' : Nat → Row} {m m' : Mlp} (h : Mlp.Same m m') (hok : m.Ok) (hT : TruthFits loss (m.width m.depth) D N y)
    (he : ∀ a : Mlp, a.error loss N x' y' = a.error loss N x y) {b : Bool} {i : Nat} (hi : i < m.depth) (hb : (m.ply i).has b = true) {G G' : Nat → Nat → ℝ}
    (g : IsGrad (m.shape b i).1 (m.shape b i).2 (fun P => (m.setPar b i P).error loss N x y) ((m.ply i).par b) G)
    (g' : IsGrad (m'.shape b i).1 (m'.shape b i).2 (fun P => (m'.setPar b i P).error loss N x' y') ((m'.ply i).par b) G')
    {p q : Nat} (hp : p < (m.shape b i).1) (hq : q < (m.shape b i).2) : G' p q = G p q := by
  have hsh' : m'.shape b i = m.shape b i := by rw [Mlp.shape, Mlp.shape, h.like.kind, h.like.width]
  rw [hsh'] at g'
  have : IsGrad (m.shape b i).1 (m.shape b i).2 (fun P => (m.setPar b i P).error loss N x y) ((m.ply i).par b) G' := fun V => by
    have q := g' V
    have hf : (fun t : ℝ => (m'.setPar b i (fun k j => (m'.ply i).par b k j + t * V k j)).error loss N x' y') =
        fun t : ℝ => (m.setPar b i (fun k j => (m.ply i).par b k j + t * V k j)).error loss N x y := funext fun t => by
      rw [he]
      have hsame := h.setPar b i (V := fun k j => (m.ply i).par b k j + t * V k j) (V' := fun k j => (m'.ply i).par b k j + t * V k j)
        fun k j hk hj => by rw [h.par i hi b hb k j hk hj]
      exact Mlp.error_congr ((m.setPar_like b i _).ok hok) hsame.like hT hsame.par
    rw [hf] at q
    exact q
  exact IsGrad.unique this g hp hq

theorem Mlp.Like.rate {m m' : Mlp} (h : Mlp.Like m m') (N : Nat) : m'.rate N = m.rate N := by
  funext b q
  unfold Mlp.rate
  rw [h.depth, h.kind]
  congr 1
  exact prod_congr rfl fun k _ => by rw [h.kind]

/-- Two trainings with all samples in one batch, on the same samples in two orders, are the same. -/
theorem Mlp.Training.same {loss : String} {kind : OptKind} {h : Hyper ℝ} {N D E : Nat} (hN : 0 < N) {x y x' y' : Nat → Row} {m : Mlp} {ms ns : Nat → Nat → Mlp}
    (hok : m.Ok) (hT : TruthFits loss (m.width m.depth) D N y) (he : ∀ a : Mlp, a.error loss N x' y' = a.error loss N x y)
    (h₁ : Mlp.Training (fun _ _ _ => True) loss kind h N N E x y m ms) (h₂ : Mlp.Training (fun _ _ _ => True) loss kind h N N E x' y' m ns) :
    ∀ i, i ≤ E → Mlp.Same (ms i 0) (ns i 0) := by
  have hone := nbBatches_one hN (le_refl N)
  obtain ⟨σ, d, a1, a2, a3⟩ := h₁.rule
  obtain ⟨σ', d', b1, b2, b3⟩ := h₂.rule
  rw [hone] at a2 a3 b2 b3
  have la : ∀ i, i ≤ E → Mlp.Like m (ms i 0) := fun i hi => h₁.like i 0 (by omega)
  have lb : ∀ i, i ≤ E → Mlp.Like m (ns i 0) := fun i hi => h₂.like i 0 (by omega)
  have same : ∀ i, i ≤ E → (∀ t, t < i → ∀ b l, l < m.depth → (m.ply l).has b = true → ∀ p q, p < (m.shape b l).1 → q < (m.shape b l).2 → d' t b l p q = d t b l p q) →
      Mlp.Same (ms i 0) (ns i 0) := fun i hi hd =>
    { like := ⟨by rw [(lb i hi).depth, (la i hi).depth], by rw [(lb i hi).width, (la i hi).width], fun k => by rw [(lb i hi).kind, (la i hi).kind]⟩
      par := fun l hl b hb p q hp hq => by
        rw [(la i hi).depth] at hl
        rw [Ply.has, (la i hi).kind, ← Ply.has] at hb
        have hsh : (ms i 0).shape b l = m.shape b l := by rw [Mlp.shape, Mlp.shape, (la i hi).kind, (la i hi).width]
        rw [hsh] at hp hq
        rw [a3 i 0 (by omega) b l hl hb p q hp hq, b3 i 0 (by omega) b l hl hb p q hp hq]
        exact Coord.run_congr_w _ _ _ _ _ fun t ht => hd t (by omega) b l hl hb p q hp hq }
  have key : ∀ i, i ≤ E → ∀ t, t < i → ∀ b l, l < m.depth → (m.ply l).has b = true → ∀ p q, p < (m.shape b l).1 → q < (m.shape b l).2 → d' t b l p q = d t b l p q := by
    intro i
    induction i with
    | zero => intro _ t ht; omega
    | succ i ih =>
      intro hi t ht
      by_cases hti : t < i
      · exact ih (by omega) t hti
      obtain rfl : t = i := by omega
      intro b l hl hb p q hp hq
      have hs := same t (by omega) (ih (by omega))
      have lt := la t (by omega)
      have hl' : l < (ms t 0).depth := by rw [lt.depth]; exact hl
      have hb' : ((ms t 0).ply l).has b = true := by rw [Ply.has, lt.kind]; exact hb
      have hsh : (ms t 0).shape b l = m.shape b l := by rw [Mlp.shape, Mlp.shape, lt.kind, lt.width]
      obtain ⟨G, g1, g2⟩ := a2 t 0 hi one_pos (fun _ _ => trivial) b l hl' hb'
      obtain ⟨G', g3, g4⟩ := b2 t 0 hi one_pos (fun _ _ => trivial) b l (by rw [hs.like.depth]; exact hl') (by rw [Ply.has, hs.like.kind]; exact hb')
      rw [Nat.mul_one, Nat.add_zero] at g2 g4
      rw [show batchEnd N N 0 - batchStart N 0 = N by unfold batchEnd batchStart; omega] at g1 g2 g3 g4
      simp only [batchStart, Nat.zero_mul, Nat.zero_add, error_perm (a1 t hi)] at g1
      simp only [batchStart, Nat.zero_mul, Nat.zero_add, error_perm (b1 t hi)] at g3
      rw [g2, g4, hs.like.rate, hs.grad (lt.ok hok) (by rw [lt.depth, lt.width]; exact hT) he hl' hb' g1 g3 (by rw [hsh]; exact hp) (by rw [hsh]; exact hq)]
  exact fun i hi => same i hi (key i hi)

/-- C119, any optimizer: with any of the fifteen optimizers, training with all samples in one batch does not depend on the order of the samples nor on the random numbers of the shuffles. -/
theorem C119_any_optimizer {w₁ w₂ : World} {t₁ t₂ : Trainer} {n₁ b₁ n₂ b₂ : Nat} {m : Mlp} {N D : Nat} {x y : Nat → Row} {π : Nat → Nat}
    (h₁ : FitSetup w₁ t₁ n₁ b₁ m N D x y) (h₂ : FitSetup w₂ t₂ n₂ b₂ m N D (fun i => x (π i)) (fun i => y (π i))) (hπ : ((List.range N).map π).Perm (List.range N))
    (hm : m.Smooth) (hl : t₁.loss ∈ distanceLosses) (hk : t₁.loss ∉ kinkAtZero) {k : OptKind} (o₁ : createOptimizer t₁.optName = some k) (o₂ : t₂.optName = t₁.optName)
    (e1 : t₂.loss = t₁.loss) (e2 : t₂.lr = t₁.lr) (e4 : t₂.mom = t₁.mom) (e5 : t₂.decay = t₁.decay) (e3 : t₂.epochs = t₁.epochs)
    (f₁ : t₁.batchSize = 0 ∨ (N : Int) ≤ t₁.batchSize) (f₂ : t₂.batchSize = 0 ∨ (N : Int) ≤ t₂.batchSize)
    (k₁ : t₁.keepBest = false) (k₂ : t₂.keepBest = false) (c₁ : t₁.reboostEvery = -1) (c₂ : t₂.reboostEvery = -1) {eps : ℝ} (heps : 0 < eps) (r₁ r₂ : FitEnv) :
    ∃ (w₁' w₂' : World) (t₁' t₂' : Trainer) (s₁ s₂ : List (List (Option Layer))) (m₁ m₂ : Mlp),
      fit (fun x => |x|) eps r₁ w₁ t₁ n₁ b₁ = .ok (w₁', t₁', s₁) ∧ fit (fun x => |x|) eps r₂ w₂ t₂ n₂ b₂ = .ok (w₂', t₂', s₂) ∧
      Represents w₁' n₁ m₁ ∧ Represents w₂' n₂ m₂ ∧ Mlp.Same m₁ m₂ ∧ ∀ (v : Row) j, j < m.width m.depth → m₂.out v j = m₁.out v j := by
  have reg : ∀ (a : Mlp), Mlp.Like m a → ∀ (v z : Row), a.Regular eps t₁.loss v z := fun a ha v z => by
    rw [Mlp.Regular, if_neg (by rintro (h | h) <;> rw [h] at hl <;> exact absurd hl (by decide))]
    exact ⟨(hm.like ha).at _, fun h => absurd (by simpa [kinkAtZero] using h) hk, fun h => by rw [h] at hl; exact absurd hl (by decide)⟩
  obtain ⟨w₁', t₁', s₁, ms, ja, a1, a2, a3, -, a5⟩ := fit_training h₁ o₁ c₁ heps r₁ (ok := fun _ _ _ => True) fun a v _ ha _ _ => reg a ha v _
  obtain ⟨w₂', t₂', s₂, ns, jb, b1, b2, b3, -, b5⟩ := fit_training h₂ (by rw [o₂]; exact o₁) c₂ heps r₂ (ok := fun _ _ _ => True) fun a v _ ha _ _ => by rw [e1]; exact reg a ha v _
  have hfull : ∀ B : Int, (B = 0 ∨ (N : Int) ≤ B) → (if B = 0 then N else min B.toNat N) = N := fun B hB => by split <;> omega
  rw [hfull _ f₁] at a2
  rw [hfull _ f₂, o₂, e1, e2, e3, e4, e5] at b2
  rw [a5 k₁] at a3
  rw [b5 k₂, e3] at b3
  have q2 := a2.same h₁.samples h₁.net.ok h₁.truth (fun a => error_perm hπ) b2 _ le_rfl
  have q1 := a2.like t₁.epochs.toNat 0 (by omega)
  exact ⟨w₁', w₂', t₁', t₂', s₁, s₂, _, _, a1, b1, a3, b3, q2, fun v j hj => q2.out (q1.ok h₁.net.ok) v (by rw [q1.depth, q1.width]; exact hj)⟩

/-- The hypotheses of `C119_any_optimizer` are met: the points `(0,1)`, `(1,3)`, `(2,5)`, and the same in reverse order, with the optimizer Adam. -/
example {eps : ℝ} (heps : 0 < eps) (r₁ r₂ : FitEnv) := C119_any_optimizer (t₁ := { lineTrainer 3 false with optName := "Adam" }) (t₂ := { lineReversed with optName := "Adam" })
  { lineTrainer_setup 3 (by decide) false with } { lineReversed_setup with } (π := fun i => 2 - i) (by decide)
  (fun i _ => by simp [lineNet, PlyKind.Smooth]) (by show "MeanSquaredError" ∈ distanceLosses; decide) (by show "MeanSquaredError" ∉ kinkAtZero; decide) (k := .adam) rfl rfl rfl rfl
  rfl rfl rfl (.inl rfl) (.inr (by show (3 : Int) ≤ 7; decide)) rfl rfl rfl rfl heps r₁ r₂

end BeeDNN
