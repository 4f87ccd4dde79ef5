import Verif.Lemmas.Symmetry
import Verif.Lemmas.TrainEval
import Mathlib.Logic.Equiv.Basic

/-! # Hidden units have no names: C126 -/

namespace BeeDNN
open Finset Trainer

/-- C126: networks that differ by the numbering of their hidden units predict the same, whatever layers are around. -/
theorem C126_predict {ρ : Nat → Equiv.Perm Nat} {m m' : Mlp} (hm : Mlp.Renumbered ρ m m') {w w' : World} {n n' : Nat} (h : Represents w n m) (h' : Represents w' n' m')
    {e e' : Nat → Env} (N : Nat) (x : Nat → Row) {o o' : Mat ℝ} (ho : o.WF) (ho' : o'.WF) :
    ∃ (v v' : World) (p : Mat ℝ), w.predict e n (Mat.ofFn N (m.width 0) x) o = .ok (v, p) ∧ w'.predict e' n' (Mat.ofFn N (m.width 0) x) o' = .ok (v', p) := by
  obtain ⟨v, h1, -⟩ := h.predict (e := e) N x o ho
  obtain ⟨v', h2, -⟩ := h'.predict (e := e') N x o' ho'
  rw [hm.like.width, hm.like.depth] at h2
  refine ⟨v, v', _, h1, ?_⟩
  rw [h2, Mat.ofFn_congr fun i j _ hj => hm.out h.ok (x i) hj]

/-- C126: training keeps the symmetry.  If two units may change places in the network that goes into a training (with any optimizer, any batches in any order), they may at any
time of it.  `ok` is what is known of the samples (nothing for smooth networks and losses, regularity else). -/
theorem C126_training {ρ : Nat → Equiv.Perm Nat} {ok : Mlp → Row → Row → Prop} {loss : String} {kind : OptKind} {h : Hyper ℝ} {N B E D : Nat} {x y : Nat → Row} {m : Mlp} {ms : Nat → Nat → Mlp}
    (hN : 0 < B) (ht : Mlp.Training ok loss kind h N B E x y m ms) (hok : m.Ok) (hT : TruthFits loss (m.width m.depth) D N y) (hm : Mlp.Renumbered ρ m m)
    (hg : ∀ i j s, i < E → j < nbBatches N B → s < N → ok (ms i j) (x s) (y s)) :
    ∀ i j, i < E ∧ j ≤ nbBatches N B ∨ i = E ∧ j = 0 → Mlp.Renumbered ρ (ms i j) (ms i j) := by
  obtain ⟨σ, d, a1, a2, a3⟩ := ht.rule
  have hlt : ∀ i j s, i < E → j < nbBatches N B → s < batchEnd N B j - batchStart B j → σ i (batchStart B j + s) < N := fun i j s hi hj hs =>
    perm_lt (a1 i hi) (by unfold batchEnd at hs; omega)
  exact Mlp.renumbered_of_rules hm hok (D := D) (nj := fun j => batchEnd N B j - batchStart B j) (x := fun i j s => x (σ i (batchStart B j + s)))
    (y := fun i j s => y (σ i (batchStart B j + s))) (x' := fun i j s => x (σ i (batchStart B j + s))) (y' := fun i j s => y (σ i (batchStart B j + s)))
    (fun i j hi hj => hT.sub fun s hs => ⟨_, hlt i j s hi hj hs, rfl⟩) (fun _ _ _ _ _ => rfl)
    (fun i j hi hj s hs => hg i j _ hi hj (hlt i j s hi hj hs)) (fun i j hi hj s hs => hg i j _ hi hj (hlt i j s hi hj hs)) ht.like ht.like a2 a2 a3 a3

theorem regular_of_smooth {m : Mlp} {loss : String} (hm : m.Smooth) (hl : loss ∈ distanceLosses) (hk : loss ∉ kinkAtZero) {eps : ℝ} (a : Mlp) (ha : Mlp.Like m a) (v z : Row) :
    a.Regular eps loss v z := by
  rw [Mlp.Regular, if_neg (by rintro (h | h) <;> rw [h] at hl <;> exact absurd hl (by decide))]
  exact ⟨(hm.like ha).at _, fun h => absurd (by simpa [kinkAtZero] using h) hk, fun h => by rw [h] at hl; exact absurd hl (by decide)⟩

/-- C126: units that may change places in the network given to `fit` may change places in the result: with any optimizer, any batch size and any random numbers of the shuffles, a symmetry is never broken. -/
theorem C126_symmetric {ρ : Nat → Equiv.Perm Nat} {w : World} {t : Trainer} {n b : Nat} {m : Mlp} {N D : Nat} {x y : Nat → Row} (h : FitSetup w t n b m N D x y)
    (hm : m.Smooth) (hl : t.loss ∈ distanceLosses) (hk : t.loss ∉ kinkAtZero) {k : OptKind} (ho : createOptimizer t.optName = some k) (hre : t.reboostEvery = -1)
    (hs : Mlp.Renumbered ρ m m) {eps : ℝ} (heps : 0 < eps) (e : FitEnv) :
    ∃ (w' : World) (t' : Trainer) (s : List (List (Option Layer))) (m' : Mlp), fit (fun x => |x|) eps e w t n b = .ok (w', t', s) ∧ Represents w' n m' ∧ Mlp.Like m m' ∧
      Mlp.Renumbered ρ m' m' ∧ ∀ (v : Row) l, l ≤ m.depth → ∀ j, j < m.width l → m'.hidden v l j = m'.hidden v l (ρ l j) := by
  obtain ⟨w', t', s, ms, j, a1, a2, a3, a4, -⟩ := fit_training h ho hre heps e (ok := fun _ _ _ => True) fun a v _ ha _ _ => regular_of_smooth hm hl hk a ha v _
  have hj : j < t.epochs.toNat ∧ 0 ≤ nbBatches N (if t.batchSize = 0 then N else min t.batchSize.toNat N) ∨ j = t.epochs.toNat ∧ 0 = 0 := by omega
  have lk := a2.like j 0 hj
  have q := C126_training (by have := h.samples; have := h.batchSize; split <;> omega) a2 h.net.ok h.truth hs (fun _ _ _ _ _ _ => trivial) j 0 hj
  exact ⟨w', t', s, ms j 0, a1, a3, lk, q, fun v l hl i hi => q.hidden (lk.ok h.net.ok) v (by rw [lk.depth]; exact hl) (by rw [lk.width]; exact hi)⟩

/-- C126: it does not matter for training either.  A network and the same network with renumbered hidden units are trained with the same settings on all samples at once, with any optimizer and any random numbers:
the results differ by the same renumbering, and predict the same. -/
theorem C126_fit {ρ : Nat → Equiv.Perm Nat} {w₁ w₂ : World} {t₁ t₂ : Trainer} {n₁ b₁ n₂ b₂ : Nat} {m m' : Mlp} {N D : Nat} {x y : Nat → Row}
    (h₁ : FitSetup w₁ t₁ n₁ b₁ m N D x y) (h₂ : FitSetup w₂ t₂ n₂ b₂ m' N D x y) (hs : Mlp.Renumbered ρ m m')
    (hm : m.Smooth) (hl : t₁.loss ∈ distanceLosses) (hk : t₁.loss ∉ kinkAtZero) {k : OptKind} (o₁ : createOptimizer t₁.optName = some k) (o₂ : t₂.optName = t₁.optName)
    (e1 : t₂.loss = t₁.loss) (e2 : t₂.lr = t₁.lr) (e4 : t₂.mom = t₁.mom) (e5 : t₂.decay = t₁.decay) (e3 : t₂.epochs = t₁.epochs)
    (f₁ : t₁.batchSize = 0 ∨ (N : Int) ≤ t₁.batchSize) (f₂ : t₂.batchSize = 0 ∨ (N : Int) ≤ t₂.batchSize)
    (k₁ : t₁.keepBest = false) (k₂ : t₂.keepBest = false) (c₁ : t₁.reboostEvery = -1) (c₂ : t₂.reboostEvery = -1) {eps : ℝ} (heps : 0 < eps) (r₁ r₂ : FitEnv) :
    ∃ (w₁' w₂' : World) (t₁' t₂' : Trainer) (s₁ s₂ : List (List (Option Layer))) (m₁ m₂ : Mlp),
      fit (fun x => |x|) eps r₁ w₁ t₁ n₁ b₁ = .ok (w₁', t₁', s₁) ∧ fit (fun x => |x|) eps r₂ w₂ t₂ n₂ b₂ = .ok (w₂', t₂', s₂) ∧
      Represents w₁' n₁ m₁ ∧ Represents w₂' n₂ m₂ ∧ Mlp.Renumbered ρ m₁ m₂ ∧ ∀ (v : Row) j, j < m.width m.depth → m₂.out v j = m₁.out v j := by
  obtain ⟨w₁', t₁', s₁, ms, ja, a1, a2, a3, -, a5⟩ := fit_training h₁ o₁ c₁ heps r₁ (ok := fun _ _ _ => True) fun a v _ ha _ _ => regular_of_smooth hm hl hk a ha v _
  obtain ⟨w₂', t₂', s₂, ns, jb, b1, b2, b3, -, b5⟩ := fit_training h₂ (by rw [o₂]; exact o₁) c₂ heps r₂ (ok := fun _ _ _ => True) fun a v _ ha _ _ => by
    rw [e1]; exact regular_of_smooth hm hl hk a (hs.like.trans ha) v _
  have hfull : ∀ B : Int, (B = 0 ∨ (N : Int) ≤ B) → (if B = 0 then N else min B.toNat N) = N := fun B hB => by split <;> omega
  rw [hfull _ f₁] at a2
  rw [hfull _ f₂, o₂, e1, e2, e3, e4, e5] at b2
  rw [a5 k₁] at a3
  rw [b5 k₂, e3] at b3
  have hone := nbBatches_one h₁.samples (le_refl N)
  obtain ⟨σ, d, q1, q2, q3⟩ := a2.rule
  obtain ⟨σ', d', q1', q2', q3'⟩ := b2.rule
  have la := a2.like
  have lb := b2.like
  have hlt : ∀ j s, s < batchEnd N N j - batchStart N j → batchStart N j + s < N := fun j s hs => by unfold batchEnd at hs; omega
  have q := Mlp.renumbered_of_rules hs h₁.net.ok (D := D) (nj := fun j => batchEnd N N j - batchStart N j) (x := fun i j s => x (σ i (batchStart N j + s)))
    (y := fun i j s => y (σ i (batchStart N j + s))) (x' := fun i j s => x (σ' i (batchStart N j + s))) (y' := fun i j s => y (σ' i (batchStart N j + s)))
    (fun i j hi hj => h₁.truth.sub fun s hs => ⟨_, perm_lt (q1 i hi) (hlt j s hs), rfl⟩) (fun i j hi hj a => by
      obtain rfl : j = 0 := by omega
      rw [show batchEnd N N 0 - batchStart N 0 = N by unfold batchEnd batchStart; omega]
      simp only [batchStart, Nat.zero_mul, Nat.zero_add]
      rw [error_perm (q1 i hi), error_perm (q1' i hi)])
    (fun _ _ _ _ _ _ => trivial) (fun _ _ _ _ _ _ => trivial) la lb q2 q2' q3 q3' t₁.epochs.toNat 0 (.inr ⟨rfl, rfl⟩)
  have lk := la t₁.epochs.toNat 0 (.inr ⟨rfl, rfl⟩)
  exact ⟨w₁', w₂', t₁', t₂', s₁, s₂, _, _, a1, b1, a3, b3, q, fun v j hj => q.out (lk.ok h₁.net.ok) v (by rw [lk.depth, lk.width]; exact hj)⟩

/-- Twins may change places. -/
theorem Mlp.Twins.renumbered {m : Mlp} {l a b : Nat} (h : m.Twins l a b) :
    Mlp.Renumbered (fun k => if k = l + 1 ∨ k = l + 2 then Equiv.swap a b else 1) m m where
  like := Mlp.Like.refl m
  units := fun k hk j hj => by
    split
    · rename_i hc
      have := h.inside
      have hw : m.width k = m.width (l + 1) := by
        rcases hc with rfl | rfl
        · rfl
        · exact h.same
      exact Equiv.swap_apply_of_ne_of_ne (by omega) (by omega)
    · rfl
  input := if_neg (by omega)
  output := if_neg (by have := h.depth; omega)
  follows := fun k hk => by
    by_cases h0 : k = l
    · rw [h0, h.before]; trivial
    by_cases h1 : k = l + 1
    · obtain ⟨f, hf⟩ := h.between
      rw [h1, hf, if_pos (by omega), if_pos (by omega)]
      rfl
    by_cases h2 : k = l + 2
    · rw [h2, h.after]; trivial
    rw [if_neg (by omega), if_neg (by omega)]
    cases (m.ply k).kind <;> first | trivial | exact rfl | exact ⟨rfl, rfl⟩
  par := fun k hk c hc p q hp hq => by
    have sw : ∀ {f : Nat → ℝ}, f a = f b → ∀ i, f (Equiv.swap a b i) = f i := fun {f} hf i => by
      rw [Equiv.swap_apply_def]
      split
      · rename_i hi; rw [hi, hf]
      · split
        · rename_i hi; rw [hi, hf]
        · rfl
    by_cases h0 : k = l
    · subst h0
      rw [if_neg (show ¬(k = k + 1 ∨ k = k + 2) by omega), if_pos (show k + 1 = k + 1 ∨ k + 1 = k + 2 by omega)]
      rw [Mlp.shape, h.before] at hp hq
      cases c
      · exact (sw (f := fun q => (m.ply k).weight p q) (h.weight p hp) q).symm
      · obtain rfl : p = 0 := by simpa [PlyKind.shape] using hp
        exact (sw (f := fun q => (m.ply k).bias 0 q) h.bias q).symm
    by_cases h1 : k = l + 1
    · obtain ⟨f, hf⟩ := h.between
      rw [h1, Ply.has, hf] at hc
      cases c <;> cases hc
    by_cases h2 : k = l + 2
    · subst h2
      rw [if_pos (show l + 2 = l + 1 ∨ l + 2 = l + 2 by omega), if_neg (show ¬(l + 2 + 1 = l + 1 ∨ l + 2 + 1 = l + 2) by omega)]
      rw [Mlp.shape, h.after] at hp hq
      cases c
      · exact (sw (f := fun p => (m.ply (l + 2)).weight p q) (h.out q hq) p).symm
      · rfl
    rw [if_neg (show ¬(k = l + 1 ∨ k = l + 2) by omega), if_neg (show ¬(k + 1 = l + 1 ∨ k + 1 = l + 2) by omega)]
    cases c <;> rfl

/-- C126: two hidden units that start with the same weights and biases, and that the next layer treats alike, stay twins for ever: `fit`, with any optimizer, any batch size, any number of epochs and any random numbers,
never makes a difference between them.  (So layers must not be filled with one constant.) -/
theorem C126_twins {w : World} {t : Trainer} {n b : Nat} {m : Mlp} {N D : Nat} {x y : Nat → Row} (h : FitSetup w t n b m N D x y)
    (hm : m.Smooth) (hl : t.loss ∈ distanceLosses) (hk : t.loss ∉ kinkAtZero) {k : OptKind} (ho : createOptimizer t.optName = some k) (hre : t.reboostEvery = -1)
    {l i j : Nat} (ht : m.Twins l i j) {eps : ℝ} (heps : 0 < eps) (e : FitEnv) :
    ∃ (w' : World) (t' : Trainer) (s : List (List (Option Layer))) (m' : Mlp), fit (fun x => |x|) eps e w t n b = .ok (w', t', s) ∧ Represents w' n m' ∧ Mlp.Like m m' ∧ m'.Twins l i j := by
  obtain ⟨w', t', s, m', a1, a2, lk, a3, -⟩ := C126_symmetric h hm hl hk ho hre ht.renumbered heps e
  refine ⟨w', t', s, m', a1, a2, lk, ?_⟩
  have hd := ht.depth
  have p0 := a3.par l (by rw [lk.depth]; omega)
  have p2 := a3.par (l + 2) (by rw [lk.depth]; omega)
  simp only [Mlp.shape, lk.kind, lk.width, Ply.has, ht.before, ht.after] at p0 p2
  have hi := ht.inside
  exact
    { depth := by rw [lk.depth]; exact hd
      inside := by rw [lk.width]; exact hi
      same := by rw [lk.width]; exact ht.same
      before := by rw [lk.kind]; exact ht.before
      between := by rw [lk.kind]; exact ht.between
      after := by rw [lk.kind]; exact ht.after
      weight := fun p hp => by
        rw [lk.width] at hp
        have := p0 false rfl p i hp hi.1
        simpa [Ply.par] using this
      bias := by
        have := p0 true rfl 0 i Nat.one_pos hi.1
        simpa [Ply.par] using this
      out := fun q hq => by
        rw [lk.width] at hq
        have := p2 false rfl i q (by show i < m.width (l + 2); rw [ht.same]; exact hi.1) hq
        simpa [Ply.par] using this }

/-! ## A network with two hidden units -/

/-- One input, two hidden units with weights `a` and `b`, Tanh, and one output with the same weights. -/
noncomputable def pairNet (a b : ℝ) : Mlp :=
  { depth := 3, width := fun i => if i = 1 ∨ i = 2 then 2 else 1
    ply := fun i => if i = 0 then { kind := .dense, weight := fun _ j => if j = 0 then a else b } else if i = 1 then { kind := .act Act.tanh } else
      { kind := .dense, weight := fun i _ => if i = 0 then a else b } }

/-- Network 0 is this network. -/
noncomputable def pairWorld (a b : ℝ) : World :=
  { heap := [some { kind := .dense 1 2, weight := Mat.ofFn 1 2 (fun _ j => if j = 0 then a else b), bias := Mat.ofFn 1 2 (fun _ _ => 0), wInit := "GlorotUniform", bInit := "Zeros" },
      some { kind := .activation Act.tanh },
      some { kind := .dense 2 1, weight := Mat.ofFn 2 1 (fun i _ => if i = 0 then a else b), bias := Mat.ofFn 1 1 (fun _ _ => 0), wInit := "GlorotUniform", bInit := "Zeros" }]
    nets := fun n => if n = 0 then { layers := [0, 1, 2] } else {} }

theorem pairNet_ok (a b : ℝ) : (pairNet a b).Ok where
  depth := by show 0 < 3; decide
  pos := fun i _ => by simp only [pairNet]; split <;> decide
  fits := fun i hi => by
    have hi : i < 3 := hi
    interval_cases i
    · trivial
    · exact ⟨rfl, "Tanh", rfl⟩
    · trivial

theorem pairWorld_represents (a b : ℝ) : Represents (pairWorld a b) 0 (pairNet a b) where
  ok := pairNet_ok a b
  nodup := by simp [pairWorld]
  count := rfl
  layer := fun i c hi => by
    match i with
    | 0 =>
      obtain rfl : 0 = c := by simpa [pairWorld] using hi
      exact ⟨_, rfl, ⟨Mat.ofFn_WF .., rfl, Mat.ofFn_WF .., rfl, rfl, rfl, rfl, rfl, rfl, rfl, rfl, rfl,
        fun m hm => absurd hm List.not_mem_nil, by simp [LayerKind.usesWeight], by simp [LayerKind.usesBias], fun _ => ⟨rfl, rfl, rfl⟩, trivial⟩,
        ⟨⟨1, 2, rfl⟩, fun _ => rfl, fun _ => rfl⟩, fun h => absurd h (by decide)⟩
    | 1 =>
      obtain rfl : 1 = c := by simpa [pairWorld] using hi
      exact ⟨_, rfl, Layer.valid_new (.activation Act.tanh) "" "" ⟨"Tanh", rfl⟩, ⟨rfl, fun h => (by cases h), fun h => (by cases h)⟩, fun _ => rfl⟩
    | 2 =>
      obtain rfl : 2 = c := by simpa [pairWorld] using hi
      exact ⟨_, rfl, ⟨Mat.ofFn_WF .., rfl, Mat.ofFn_WF .., rfl, rfl, rfl, rfl, rfl, rfl, rfl, rfl, rfl,
        fun m hm => absurd hm List.not_mem_nil, by simp [LayerKind.usesWeight], by simp [LayerKind.usesBias], fun _ => ⟨rfl, rfl, rfl⟩, trivial⟩,
        ⟨⟨2, 1, rfl⟩, fun _ => rfl, fun _ => rfl⟩, fun _ => rfl⟩
    | i + 3 => simp [pairWorld] at hi

/-- Samples 0, 1, 2, 3 with the squares as truths. -/
noncomputable def pairTrainer (B : Int) : Trainer :=
  { optName := "Adam", loss := "MeanSquaredError", epochs := 100, batchSize := B, keepBest := false
    train := some (Mat.ofFn 4 1 (fun i _ => (i : ℝ)), Mat.ofFn 4 1 (fun i _ => (i : ℝ) ^ 2)) }

theorem pairTrainer_setup (a b : ℝ) (B : Int) (hB : 0 ≤ B) : FitSetup (pairWorld a b) (pairTrainer B) 0 1 (pairNet a b) 4 1 (fun i _ => (i : ℝ)) (fun i _ => (i : ℝ) ^ 2) where
  net := pairWorld_represents a b
  owned :=
    { live := fun n c hc => by
        by_cases hn : n = 0
        · rw [hn] at hc
          have : c = 0 ∨ c = 1 ∨ c = 2 := by simpa [pairWorld] using hc
          rcases this with rfl | rfl | rfl <;> exact ⟨_, rfl⟩
        · simp [pairWorld, hn] at hc
      nodup := fun n => by by_cases hn : n = 0 <;> simp [pairWorld, hn]
      disjoint := fun n k c hc hk => by
        by_cases hn : n = 0
        · by_cases hk' : k = 0
          · rw [hn, hk']
          · simp [pairWorld, hk'] at hk
        · simp [pairWorld, hn] at hc }
  slot := by decide
  fresh := rfl
  inOut := fun _ h => absurd h List.not_mem_nil
  gradient := fun _ h => absurd h List.not_mem_nil
  samples := by decide
  train := rfl
  truth := by
    rw [TruthFits, if_neg (by show ¬ "MeanSquaredError" = _; decide)]
    exact ⟨rfl, fun h => absurd (show "MeanSquaredError" = _ from h) (by decide)⟩
  valid := fun d h => by cases h
  valBatch := by show (0 : Int) < 128; decide
  batchSize := hB
  loss := by show "MeanSquaredError" ∈ listLoss; decide
  reg := rfl
  balancing := rfl
  patience := .inl rfl

theorem pairNet_smooth (a b : ℝ) : (pairNet a b).Smooth := by
  intro i hi
  have hi : i < 3 := hi
  interval_cases i
  · trivial
  · exact mlpWitness_smooth 1 (by decide)
  · trivial

/-- The two units changed places. -/
theorem pairNet_renumbered (a b : ℝ) : Mlp.Renumbered (fun k => if k = 1 ∨ k = 2 then Equiv.swap 0 1 else 1) (pairNet a b) (pairNet b a) where
  like := ⟨rfl, rfl, fun i => by simp only [pairNet]; split <;> [rfl; split <;> rfl]⟩
  units := fun k _ j hj => by
    simp only [pairNet] at hj ⊢
    split
    · rename_i hc
      rw [if_pos hc] at hj
      exact Equiv.swap_apply_of_ne_of_ne (by omega) (by omega)
    · rfl
  input := rfl
  output := rfl
  follows := fun l hl => by
    have hl : l < 3 := hl
    interval_cases l
    · trivial
    · rfl
    · trivial
  par := fun l hl c hc p q hp hq => by
    have hl : l < 3 := hl
    interval_cases l
    · have hq : q < 2 := hq
      cases c
      · interval_cases q
        · show b = if (Equiv.swap 0 1) 0 = 0 then a else b
          simp
        · show a = if (Equiv.swap 0 1) 1 = 0 then a else b
          simp
      · rfl
    · cases c <;> cases hc
    · cases c
      · have hp : p < 2 := hp
        interval_cases p
        · show b = if (Equiv.swap 0 1) 0 = 0 then a else b
          simp
        · show a = if (Equiv.swap 0 1) 1 = 0 then a else b
          simp
      · rfl

theorem pairNet_twins (a : ℝ) : (pairNet a a).Twins 0 0 1 where
  depth := by show 2 < 3; decide
  inside := by show 0 < 2 ∧ 1 < 2; decide
  same := rfl
  before := rfl
  between := ⟨_, rfl⟩
  after := rfl
  weight := fun p _ => by simp [pairNet]
  bias := rfl
  out := fun q _ => by simp [pairNet]

example (N : Nat) (x : Nat → Row) (e e' : Nat → Env) := C126_predict (pairNet_renumbered 1 2) (pairWorld_represents 1 2) (pairWorld_represents 2 1) (e := e) (e' := e') N x Mat.WF_empty Mat.WF_empty

example {eps : ℝ} (heps : 0 < eps) (r₁ r₂ : FitEnv) := C126_fit (pairTrainer_setup 1 2 0 le_rfl) (pairTrainer_setup 2 1 0 le_rfl) (pairNet_renumbered 1 2) (pairNet_smooth 1 2)
  (by show "MeanSquaredError" ∈ distanceLosses; decide) (by show "MeanSquaredError" ∉ kinkAtZero; decide) (k := .adam) rfl rfl rfl rfl rfl rfl rfl (.inl rfl) (.inl rfl) rfl rfl rfl rfl heps r₁ r₂

example {eps : ℝ} (heps : 0 < eps) (e : FitEnv) := C126_twins (pairTrainer_setup 1 1 2 (by decide)) (pairNet_smooth 1 1)
  (by show "MeanSquaredError" ∈ distanceLosses; decide) (by show "MeanSquaredError" ∉ kinkAtZero; decide) (k := .adam) rfl rfl (pairNet_twins 1) heps e

example {eps : ℝ} (heps : 0 < eps) (e : FitEnv) := C126_symmetric (pairTrainer_setup 1 1 2 (by decide)) (pairNet_smooth 1 1)
  (by show "MeanSquaredError" ∈ distanceLosses; decide) (by show "MeanSquaredError" ∉ kinkAtZero; decide) (k := .adam) rfl rfl (pairNet_renumbered 1 1) heps e

/-- The training that `C126_training` speaks of. -/
example (e : FitEnv) : ∃ ms, Mlp.Training (fun _ _ _ => True) "MeanSquaredError" .adam (bookSettings "Adam" (-1) (-1) (-1)) 4 2 100 (fun i _ => (i : ℝ)) (fun i _ => (i : ℝ) ^ 2) (pairNet 1 1) ms ∧
    ∀ i j, i < 100 ∧ j ≤ nbBatches 4 2 ∨ i = 100 ∧ j = 0 → Mlp.Renumbered (fun k => if k = 1 ∨ k = 2 then Equiv.swap 0 1 else 1) (ms i j) (ms i j) := by
  obtain ⟨w', t', seen, ms, j, -, h2, -⟩ := fit_training (pairTrainer_setup 1 1 2 (by decide)) (k := .adam) rfl rfl one_pos e (ok := fun _ _ _ => True)
    fun a v _ ha _ _ => regular_of_smooth (pairNet_smooth 1 1) (by show "MeanSquaredError" ∈ distanceLosses; decide) (by show "MeanSquaredError" ∉ kinkAtZero; decide) a ha v _
  exact ⟨ms, h2, C126_training (by decide) h2 (pairNet_ok 1 1) (pairTrainer_setup 1 1 2 (by decide)).truth (pairNet_renumbered 1 1) fun _ _ _ _ _ _ => trivial⟩

end BeeDNN
