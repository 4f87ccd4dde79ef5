import Verif.Props.OrderAny

/-! # Lemmas: full batches in which every sample occurs equally often -/

namespace BeeDNN
open Finset Trainer

/-- The mean over samples that each occur `k` times is the mean over the samples. -/
theorem Mlp.error_repeat {π : Nat → Nat} {N k : Nat} (hk : 0 < k) (hπ : ∀ i, i < k * N → π i < N) (hc : ∀ s, s < N → ((range (k * N)).filter fun i => π i = s).card = k)
    (m : Mlp) (loss : String) (x y : Nat → Row) : m.error loss (k * N) (fun i => x (π i)) (fun i => y (π i)) = m.error loss N x y := by
  unfold Mlp.error
  rw [← sum_fiberwise_of_maps_to (s := range (k * N)) (t := range N) (g := π) fun i hi => mem_range.2 (hπ i (mem_range.1 hi))]
  have : ∀ s ∈ range N, ∑ i ∈ range (k * N) with π i = s, sampleError loss (m.width m.depth) (m.out (x (π i))) (y (π i)) =
      k * sampleError loss (m.width m.depth) (m.out (x s)) (y s) := fun s hs => by
    rw [sum_congr rfl fun i hi => by rw [(mem_filter.1 hi).2], sum_const, hc s (mem_range.1 hs), nsmul_eq_mul]
  rw [sum_congr rfl this, ← mul_sum, ← mul_assoc]
  congr 1
  have : (k : ℝ) ≠ 0 := by exact_mod_cast hk.ne'
  push_cast
  rcases eq_or_ne (N : ℝ) 0 with h | h
  · simp [h]
  · field_simp

/-- The same networks have the same gradients for data with the same error. -/
theorem Mlp.Same.grad_data {loss : String} {N N' D : Nat} {x y x' y' : Nat → Row} {m m' : Mlp} (h : Mlp.Same m m') (hok : m.Ok) (hT : TruthFits loss (m.width m.depth) D N y)
    (he : ∀ a : Mlp, a.error loss N' x' y' = a.error loss N x y) {b : Bool} {i : Nat} (hi : i < m.depth) (hb : (m.ply i).has b = true) {G G' : Nat → Nat → ℝ}
    (g : IsGrad (m.shape b i).1 (m.shape b i).2 (fun P => (m.setPar b i P).error loss N x y) ((m.ply i).par b) G)
    (g' : IsGrad (m'.shape b i).1 (m'.shape b i).2 (fun P => (m'.setPar b i P).error loss N' x' y') ((m'.ply i).par b) G')
    {p q : Nat} (hp : p < (m.shape b i).1) (hq : q < (m.shape b i).2) : G' p q = G p q := by
  simp only [he] at g'
  exact h.grad hok hT (fun _ => rfl) hi hb g g' hp hq

/-- Two trainings with all samples in one batch, on data with the same error, are the same. -/
theorem Mlp.Training.same_data {loss : String} {kind : OptKind} {h : Hyper ℝ} {N N' D E : Nat} (hN : 0 < N) (hN' : 0 < N') {x y x' y' : Nat → Row} {m : Mlp} {ms ns : Nat → Nat → Mlp}
    (hok : m.Ok) (hT : TruthFits loss (m.width m.depth) D N y) (he : ∀ a : Mlp, a.error loss N' x' y' = a.error loss N x y)
    (hr : ∀ b l, l < m.depth → m.rate N' b l = m.rate N b l)
    (h₁ : Mlp.Training (fun _ _ _ => True) loss kind h N N E x y m ms) (h₂ : Mlp.Training (fun _ _ _ => True) loss kind h N' N' E x' y' m ns) :
    ∀ i, i ≤ E → Mlp.Same (ms i 0) (ns i 0) := by
  have hone := nbBatches_one hN (le_refl N)
  have hone' := nbBatches_one hN' (le_refl N')
  obtain ⟨σ, d, a1, a2, a3⟩ := h₁.rule
  obtain ⟨σ', d', b1, b2, b3⟩ := h₂.rule
  rw [hone] at a2 a3
  rw [hone'] at b2 b3
  have la : ∀ i, i ≤ E → Mlp.Like m (ms i 0) := fun i hi => h₁.like i 0 (by omega)
  have lb : ∀ i, i ≤ E → Mlp.Like m (ns i 0) := fun i hi => h₂.like i 0 (by omega)
  have same : ∀ i, i ≤ E → (∀ t, t < i → ∀ b l, l < m.depth → (m.ply l).has b = true → ∀ p q, p < (m.shape b l).1 → q < (m.shape b l).2 → d' t b l p q = d t b l p q) →
      Mlp.Same (ms i 0) (ns i 0) := fun i hi hd =>
    { like := ⟨by rw [(lb i hi).depth, (la i hi).depth], by rw [(lb i hi).width, (la i hi).width], fun k => by rw [(lb i hi).kind, (la i hi).kind]⟩
      par := fun l hl b hb p q hp hq => by
        rw [(la i hi).depth] at hl
        rw [Ply.has, (la i hi).kind, ← Ply.has] at hb
        have hsh : (ms i 0).shape b l = m.shape b l := by rw [Mlp.shape, Mlp.shape, (la i hi).kind, (la i hi).width]
        rw [hsh] at hp hq
        rw [a3 i 0 (by omega) b l hl hb p q hp hq, b3 i 0 (by omega) b l hl hb p q hp hq]
        exact Coord.run_congr_w _ _ _ _ _ fun t ht => hd t (by omega) b l hl hb p q hp hq }
  have key : ∀ i, i ≤ E → ∀ t, t < i → ∀ b l, l < m.depth → (m.ply l).has b = true → ∀ p q, p < (m.shape b l).1 → q < (m.shape b l).2 → d' t b l p q = d t b l p q := by
    intro i
    induction i with
    | zero => intro _ t ht; omega
    | succ i ih =>
      intro hi t ht
      by_cases hti : t < i
      · exact ih (by omega) t hti
      obtain rfl : t = i := by omega
      intro b l hl hb p q hp hq
      have hs := same t (by omega) (ih (by omega))
      have lt := la t (by omega)
      have hl' : l < (ms t 0).depth := by rw [lt.depth]; exact hl
      have hb' : ((ms t 0).ply l).has b = true := by rw [Ply.has, lt.kind]; exact hb
      have hsh : (ms t 0).shape b l = m.shape b l := by rw [Mlp.shape, Mlp.shape, lt.kind, lt.width]
      obtain ⟨G, g1, g2⟩ := a2 t 0 hi one_pos (fun _ _ => trivial) b l hl' hb'
      obtain ⟨G', g3, g4⟩ := b2 t 0 hi one_pos (fun _ _ => trivial) b l (by rw [hs.like.depth]; exact hl') (by rw [Ply.has, hs.like.kind]; exact hb')
      rw [Nat.mul_one, Nat.add_zero] at g2 g4
      rw [show batchEnd N N 0 - batchStart N 0 = N by unfold batchEnd batchStart; omega] at g1 g2
      rw [show batchEnd N' N' 0 - batchStart N' 0 = N' by unfold batchEnd batchStart; omega] at g3 g4
      simp only [batchStart, Nat.zero_mul, Nat.zero_add, error_perm (a1 t hi)] at g1
      simp only [batchStart, Nat.zero_mul, Nat.zero_add, error_perm (b1 t hi)] at g3
      rw [g2, g4, hs.like.rate, lt.rate, lt.rate, hr b l hl,
        hs.grad_data (lt.ok hok) (by rw [lt.depth, lt.width]; exact hT) he hl' hb' g1 g3 (by rw [hsh]; exact hp) (by rw [hsh]; exact hq)]
  exact fun i hi => same i hi (key i hi)

/-- Two trainings of the same network with the same settings and all samples in one batch, on different data. -/
theorem fit_pair {w₁ w₂ : World} {t₁ t₂ : Trainer} {n₁ b₁ n₂ b₂ : Nat} {m : Mlp} {N D : Nat} {x y : Nat → Row} (h₁ : FitSetup w₁ t₁ n₁ b₁ m N D x y) {N' : Nat} {x' y' : Nat → Row} (h₂ : FitSetup w₂ t₂ n₂ b₂ m N' D x' y')
    (hm : m.Smooth) (hl : t₁.loss ∈ distanceLosses) (hk : t₁.loss ∉ kinkAtZero) {kd : OptKind} (o₁ : createOptimizer t₁.optName = some kd) (o₂ : t₂.optName = t₁.optName)
    (e1 : t₂.loss = t₁.loss) (e2 : t₂.lr = t₁.lr) (e4 : t₂.mom = t₁.mom) (e5 : t₂.decay = t₁.decay) (e3 : t₂.epochs = t₁.epochs)
    (f₁ : t₁.batchSize = 0 ∨ (N : Int) ≤ t₁.batchSize) (f₂ : t₂.batchSize = 0 ∨ (N' : Int) ≤ t₂.batchSize)
    (k₁ : t₁.keepBest = false) (k₂ : t₂.keepBest = false) (c₁ : t₁.reboostEvery = -1) (c₂ : t₂.reboostEvery = -1) {eps : ℝ} (heps : 0 < eps) (r₁ r₂ : FitEnv) :
    ∃ (w₁' w₂' : World) (t₁' t₂' : Trainer) (s₁ s₂ : List (List (Option Layer))) (ms ns : Nat → Nat → Mlp),
      fit (fun x => |x|) eps r₁ w₁ t₁ n₁ b₁ = .ok (w₁', t₁', s₁) ∧ fit (fun x => |x|) eps r₂ w₂ t₂ n₂ b₂ = .ok (w₂', t₂', s₂) ∧
      Represents w₁' n₁ (ms t₁.epochs.toNat 0) ∧ Represents w₂' n₂ (ns t₁.epochs.toNat 0) ∧
      Mlp.Training (fun _ _ _ => True) t₁.loss kd (bookSettings t₁.optName t₁.lr t₁.mom t₁.decay) N N t₁.epochs.toNat x y m ms ∧
      Mlp.Training (fun _ _ _ => True) t₁.loss kd (bookSettings t₁.optName t₁.lr t₁.mom t₁.decay) N' N' t₁.epochs.toNat x' y' m ns := by
  have reg : ∀ (a : Mlp), Mlp.Like m a → ∀ (v z : Row), a.Regular eps t₁.loss v z := fun a ha v z => by
    rw [Mlp.Regular, if_neg (by rintro (h | h) <;> rw [h] at hl <;> exact absurd hl (by decide))]
    exact ⟨(hm.like ha).at _, fun h => absurd (by simpa [kinkAtZero] using h) hk, fun h => by rw [h] at hl; exact absurd hl (by decide)⟩
  obtain ⟨w₁', t₁', s₁, ms, ja, a1, a2, a3, -, a5⟩ := fit_training h₁ o₁ c₁ heps r₁ (ok := fun _ _ _ => True) fun a v _ ha _ _ => reg a ha v _
  obtain ⟨w₂', t₂', s₂, ns, jb, b1, b2, b3, -, b5⟩ := fit_training h₂ (by rw [o₂]; exact o₁) c₂ heps r₂ (ok := fun _ _ _ => True) fun a v _ ha _ _ => by rw [e1]; exact reg a ha v _
  have hfull : ∀ (M : Nat) (B : Int), (B = 0 ∨ (M : Int) ≤ B) → (if B = 0 then M else min B.toNat M) = M := fun M B hB => by split <;> omega
  rw [hfull _ _ f₁] at a2
  rw [hfull _ _ f₂, o₂, e1, e2, e3, e4, e5] at b2
  rw [a5 k₁] at a3
  rw [b5 k₂, e3] at b3
  exact ⟨w₁', w₂', t₁', t₂', s₁, s₂, ms, ns, a1, b1, a3, b3, a2, b2⟩

end BeeDNN
