import Verif.Props.KMeans
import Verif.Lemmas.KMeansSettle

/-! # Training of references comes to an end (C118) -/

namespace BeeDNN
open Finset

/-- C118: with the default loss and the whole data set as batch, the references no longer change after `n ^ N` epochs, for `n` references and `N` samples up to `1e18`: `fit` gives
references of the classes drawn, each the mean of the training samples it wins (or without samples). -/
theorem C118_settles {e : KmEnv} (hab : e.ab = fun x => |x|) {t : KMeansTrain} (hv : 0 < t.valBatch) (hk : t.keepBest = false) {k : KMeans} {n C : Nat} {V₀ : Nat → Row}
    {cls₀ : Nat → ℝ} (h : HasRefs k n C V₀ cls₀ "MeanSquaredError") (hn : 0 < n) (hC : 0 < C) {N : Nat} (hN : 0 < N) (x : Nat → Row) (lab : Nat → Int)
    (hlab : ∀ i, i < N → -2147483649 < lab i ∧ lab i < 2147483648) (ht : t.train = some (Mat.ofFn N C x, Mat.ofFn N 1 (fun i _ => (lab i : ℝ))))
    {M : Nat} (hM : 0 < M) {xv : Nat → Row} {yv : Nat → ℝ} (hE : KmEval t C N x (fun i => (lab i : ℝ)) M xv yv)
    (hV : ∀ r, r < n → InBox C (V₀ r)) (hx : ∀ i, i < N → InBox C (x i)) (hxv : ∀ i, i < M → InBox C (xv i))
    (hb : t.batchSize = 0 ∨ (N : Int) ≤ t.batchSize) (hep : (n ^ N : Nat) < t.epochs.toNat) :
    ∃ (V : Nat → Row) (t' : KMeansTrain) (k' : KMeans), t.fit e (some k) = .ok (t', some k') ∧
      HasRefs k' n C V (fun r => lab (e.pick r % N)) "MeanSquaredError" ∧
      MeansOf n C (sampleLoss e.eps "MeanSquaredError" C) (fun r => lab (e.pick r % N)) x (fun i => (lab i : ℝ)) (range N) V V := by
  obtain ⟨V, cls, t', k', h1, h2, h3, h4, -⟩ := C74_bounded hab hv h hn hC hN x lab hlab ht hM hE hV hx hxv
  have hbox : ∀ i, i ≤ t.epochs.toNat → ∀ r, r < n → InBox C (V i r) := by
    intro i
    induction i with
    | zero =>
      intro _ r hr
      rw [(h1 r hr).1]
      exact hx _ (Nat.mod_lt _ hN)
    | succ i ih => exact fun hi => (h2 i hi).box hx (ih (by omega))
  have hm := fun i hi => C74_full_batch hN hb (h2 i hi)
  have hs := settle hn hC hx hbox hm hep
  have hcl : ∀ r, r < n → cls r = lab (e.pick r % N) := fun r hr => (h1 r hr).2
  refine ⟨V t.epochs.toNat, t', k', h3, ?_, ?_⟩
  · obtain ⟨r1, r2, r3⟩ := h4 hk
    exact ⟨r1, r2.trans (Mat.ofFn_congr fun r _ hr _ => hcl r hr), r3⟩
  · have hfix : SameRefs n C (V (n ^ N + 1)) (V t.epochs.toNat) := fun r hr j hj => by
      rw [hs _ (by omega) hep r hr j hj, hs _ hep.le (le_refl _) r hr j hj]
    have hfix' : SameRefs n C (V (n ^ N)) (V t.epochs.toNat) := fun r hr j hj => (hs _ hep.le (le_refl _) r hr j hj).symm
    exact (meansOf_congr (hm _ hep) hfix' hfix).congr_cls hcl

/-- C118: more epochs than `n ^ N` do not change the result. -/
theorem C118_more_epochs {e : KmEnv} (hab : e.ab = fun x => |x|) {t : KMeansTrain} (hv : 0 < t.valBatch) (hk : t.keepBest = false) {k : KMeans} {n C : Nat} {V₀ : Nat → Row}
    {cls₀ : Nat → ℝ} (h : HasRefs k n C V₀ cls₀ "MeanSquaredError") (hn : 0 < n) (hC : 0 < C) {N : Nat} (hN : 0 < N) (x : Nat → Row) (lab : Nat → Int)
    (hlab : ∀ i, i < N → -2147483649 < lab i ∧ lab i < 2147483648) (ht : t.train = some (Mat.ofFn N C x, Mat.ofFn N 1 (fun i _ => (lab i : ℝ))))
    {M : Nat} (hM : 0 < M) {xv : Nat → Row} {yv : Nat → ℝ} (hE : KmEval t C N x (fun i => (lab i : ℝ)) M xv yv)
    (hV : ∀ r, r < n → InBox C (V₀ r)) (hx : ∀ i, i < N → InBox C (x i)) (hxv : ∀ i, i < M → InBox C (xv i))
    (hb : t.batchSize = 0 ∨ (N : Int) ≤ t.batchSize) {E₁ E₂ : Int} (h₁ : (n ^ N : Nat) < E₁) (h₂ : (n ^ N : Nat) < E₂) :
    ∃ t₁ t₂ k₁ k₂, KMeansTrain.fit e { t with epochs := E₁ } (some k) = .ok (t₁, some k₁) ∧ KMeansTrain.fit e { t with epochs := E₂ } (some k) = .ok (t₂, some k₂) ∧
      k₁.refs = k₂.refs ∧ k₁.cls = k₂.cls := by
  have one : ∀ E : Int, ((n ^ N : Nat) : Int) < E → ∃ (V : Nat → Nat → Row) (t' : KMeansTrain) (k' : KMeans),
      KMeansTrain.fit e { t with epochs := E } (some k) = .ok (t', some k') ∧ HasRefs k' n C (V (n ^ N)) (fun r => lab (e.pick r % N)) "MeanSquaredError" ∧
      (∀ r, r < n → V 0 r = x (e.pick r % N)) ∧
      ∀ i, i < n ^ N → MeansOf n C (sampleLoss e.eps "MeanSquaredError" C) (fun r => lab (e.pick r % N)) x (fun i => (lab i : ℝ)) (range N) (V i) (V (i + 1)) := by
    intro E hEE
    have hEn : n ^ N < E.toNat := by omega
    obtain ⟨V, cls, t', k', h1, h2, h3, h4, -⟩ := C74_bounded hab (t := { t with epochs := E }) hv h hn hC hN x lab hlab ht hM hE hV hx hxv
    dsimp only at h2 h4
    have hbox : ∀ i, i ≤ E.toNat → ∀ r, r < n → InBox C (V i r) := by
      intro i
      induction i with
      | zero =>
        intro _ r hr
        rw [(h1 r hr).1]
        exact hx _ (Nat.mod_lt _ hN)
      | succ i ih => exact fun hi => (h2 i hi).box hx (ih (by omega))
    have hm := fun i hi => C74_full_batch hN hb (h2 i hi)
    have hs := settle hn hC hx hbox hm hEn
    have hcl : ∀ r, r < n → cls r = lab (e.pick r % N) := fun r hr => (h1 r hr).2
    refine ⟨V, t', k', h3, ?_, fun r hr => (h1 r hr).1, fun i hi => (hm i (by omega)).congr_cls hcl⟩
    obtain ⟨r1, r2, r3⟩ := h4 hk
    exact ⟨r1.trans (Mat.ofFn_congr fun r c hr hc => hs _ hEn.le (le_refl _) r hr c hc), r2.trans (Mat.ofFn_congr fun r _ hr _ => hcl r hr), r3⟩
  obtain ⟨V, t₁, k₁, a1, a2, a3, a4⟩ := one E₁ h₁
  obtain ⟨W, t₂, k₂, b1, b2, b3, b4⟩ := one E₂ h₂
  have hVW : ∀ i, i ≤ n ^ N → SameRefs n C (V i) (W i) := by
    intro i
    induction i with
    | zero => exact fun _ r hr j _ => by rw [a3 r hr, b3 r hr]
    | succ i ih => exact fun hi => meansOf_same (a4 i hi) (b4 i hi) (ih (by omega))
  refine ⟨t₁, t₂, k₁, k₂, a1, b1, ?_, by rw [a2.cls, b2.cls]⟩
  rw [a2.refs, b2.refs]
  exact Mat.ofFn_congr fun r c hr hc => hVW _ (le_refl _) r hr c hc

/-- C118, what happens with small batches: one reference for samples of one class, batch size 1.  Whatever the shuffles, after any number of epochs the reference is one of the samples (the one in
the last batch of the last epoch) and not their mean: each batch forgets the ones before. -/
theorem C118_batches_wrong {e : KmEnv} (hab : e.ab = fun x => |x|) {t : KMeansTrain} (hv : 0 < t.valBatch) (hk : t.keepBest = false) {k : KMeans} {C : Nat} {V₀ : Nat → Row}
    {cls₀ : Nat → ℝ} (h : HasRefs k 1 C V₀ cls₀ "MeanSquaredError") (hC : 0 < C) {N : Nat} (hN : 3 ≤ N) (x : Nat → Row)
    (ht : t.train = some (Mat.ofFn N C x, Mat.ofFn N 1 (fun _ _ => 0))) (hvl : t.valid = none)
    (hV : ∀ r, r < 1 → InBox C (V₀ r)) (hx : ∀ i, i < N → InBox C (x i)) (hb : t.batchSize = 1) :
    ∃ (p : Nat) (t' : KMeansTrain) (k' : KMeans), p < N ∧ t.fit e (some k) = .ok (t', some k') ∧ k'.refs = Mat.ofFn 1 C (fun _ => x p) := by
  have ht' : t.train = some (Mat.ofFn N C x, Mat.ofFn N 1 (fun i _ => (((fun _ => 0 : Nat → Int) i : Int) : ℝ))) := by
    rw [ht]
    simp
  obtain ⟨V, cls, t', k', h1, h2, h3, h4, -⟩ := C74_bounded hab hv h one_pos hC (by omega : 0 < N) x (fun _ => 0) (fun _ _ => by omega) ht' (by omega : 0 < N)
    (.inl ⟨hvl, rfl, rfl, rfl⟩) hV hx hx
  have hbox : ∀ i, i ≤ t.epochs.toNat → ∀ r, r < 1 → InBox C (V i r) := by
    intro i
    induction i with
    | zero =>
      intro _ r hr
      rw [(h1 r hr).1]
      exact hx _ (Nat.mod_lt _ (by omega))
    | succ i ih => exact fun hi => (h2 i hi).box hx (ih (by omega))
  have hex : ∀ i, i ≤ t.epochs.toNat → ∃ p, p < N ∧ ∀ j, j < C → V i 0 j = x p j := by
    intro i
    cases i with
    | zero => exact fun _ => ⟨_, Nat.mod_lt _ (by omega), fun j _ => by rw [(h1 0 one_pos).1]⟩
    | succ i =>
      intro hi
      rw [hb] at h2
      have hadj : kmAdjusted 1 N = 1 := by
        unfold kmAdjusted
        rw [if_neg (by omega)]
      obtain ⟨σ, W, s1, s2, s3, s4⟩ := h2 i hi
      rw [hadj] at s3 s4
      have hσ : ∀ s, s < N → σ s < N := fun s hs => List.mem_range.1 (s1.mem_iff.1 (List.mem_map.2 ⟨s, List.mem_range.2 hs, rfl⟩))
      have hof : ∀ s, kmBatchOf 1 s = s - 1 := fun s => by
        unfold kmBatchOf
        rw [if_neg (by decide)]
        exact Nat.div_one _
      have hB : kmBatches N 1 = N - 2 + 1 := by
        unfold kmBatches
        rw [hof]
        omega
      have hWbox : ∀ q, q ≤ N - 2 → InBox C (W q 0) := by
        intro q
        induction q with
        | zero => exact fun _ => by rw [s2]; exact hbox i (by omega) 0 one_pos
        | succ q ih =>
          intro hq
          refine (s4 q (by rw [hB]; omega)).box (fun s hs => hx _ (hσ s ?_)) (fun r hr => ?_) 0 one_pos
          · unfold kmBatch at hs
            exact mem_range.1 (mem_filter.1 hs).1
          · obtain rfl : r = 0 := by omega
            exact ih (by omega)
      refine ⟨σ (N - 1), hσ _ (by omega), fun j hj => ?_⟩
      have hlast := (s4 (N - 2) (by rw [hB]; omega) 0 one_pos j hj).2
      rw [hB] at s3
      rw [s3] at hlast
      have hwon : (N - 1) ∈ wonBy 1 (sampleLoss e.eps "MeanSquaredError" C) cls (fun s => x (σ s)) (fun s => (((fun _ => 0 : Nat → Int) (σ s) : Int) : ℝ)) (W (N - 2)) (kmBatch N 1 (N - 2)) 0 := by
        classical
        unfold wonBy kmBatch
        rw [mem_filter, mem_filter, mem_range]
        refine ⟨⟨by omega, by rw [hof]; omega⟩, one_pos, (h1 0 one_pos).2, box_near (hx _ (hσ _ (by omega))) (hWbox _ (le_refl _)), fun q hq _ => ?_, fun q hq => absurd hq (Nat.not_lt_zero q)⟩
        obtain rfl : q = 0 := by omega
        exact le_refl _
      have hone : wonBy 1 (sampleLoss e.eps "MeanSquaredError" C) cls (fun s => x (σ s)) (fun s => (((fun _ => 0 : Nat → Int) (σ s) : Int) : ℝ)) (W (N - 2)) (kmBatch N 1 (N - 2)) 0 = {N - 1} := by
        refine eq_singleton_iff_unique_mem.2 ⟨hwon, fun s hs => ?_⟩
        have hs' := KMeansTrain.wonBy_subset hs
        unfold kmBatch at hs'
        rw [mem_filter, hof] at hs'
        omega
      rw [hone, sum_singleton, card_singleton, Nat.cast_one, div_one] at hlast
      exact hlast (singleton_nonempty _)
  obtain ⟨p, hp, hpe⟩ := hex _ (le_refl _)
  exact ⟨p, t', k', hp, h3, (h4 hk).refs.trans (Mat.ofFn_congr fun r c hr hc => by
    obtain rfl : r = 0 := Nat.lt_one_iff.1 hr
    exact hpe c hc)⟩

theorem six_box (i : Nat) (hi : i < 6) : InBox 1 (fun _ => (i : ℝ)) := fun j _ => by
  have : (i : ℝ) ≤ 6 := by exact_mod_cast hi.le
  rw [abs_of_nonneg (by positivity)]
  linarith

/-- The hypotheses of `C118_settles` and `C118_more_epochs` are met: two references, six samples `i` of classes `3 + 2 * (i % 2)` and the 100 epochs of a new trainer (2 ^ 6 = 64). -/
example (e : KmEnv) (hab : e.ab = fun x => |x|) : ∃ (V : Nat → Row) (t' : KMeansTrain) (k' : KMeans),
    KMeansTrain.fit e { keepBest := false, train := some (Mat.ofFn 6 1 (fun i _ => (i : ℝ)), Mat.ofFn 6 1 (fun i _ => ((3 + 2 * (i % 2 : Nat) : Int) : ℝ))) } (some kmWitness) = .ok (t', some k') ∧
      k'.refs = Mat.ofFn 2 1 V := by
  obtain ⟨V, t', k', h1, h2, -⟩ := C118_settles hab (t := { keepBest := false, train := some (Mat.ofFn 6 1 (fun i _ => (i : ℝ)),
      Mat.ofFn 6 1 (fun i _ => ((3 + 2 * (i % 2 : Nat) : Int) : ℝ))) }) (by decide) rfl kmWitness_has (by omega) one_pos (N := 6) (by omega) (fun i _ => (i : ℝ))
    (fun i => 3 + 2 * (i % 2 : Nat)) (fun i _ => by omega) rfl (M := 6) (by omega) (.inl ⟨rfl, rfl, rfl, rfl⟩)
    (fun r hr => six_box r (by omega)) six_box six_box (.inl rfl) (by decide)
  exact ⟨V, t', k', h1, h2.refs⟩

example (e : KmEnv) (hab : e.ab = fun x => |x|) : ∃ t₁ t₂ k₁ k₂,
    KMeansTrain.fit e { keepBest := false, epochs := 65, train := some (Mat.ofFn 6 1 (fun i _ => (i : ℝ)), Mat.ofFn 6 1 (fun i _ => ((3 + 2 * (i % 2 : Nat) : Int) : ℝ))) } (some kmWitness) =
      .ok (t₁, some k₁) ∧
    KMeansTrain.fit e { keepBest := false, epochs := 1000, train := some (Mat.ofFn 6 1 (fun i _ => (i : ℝ)), Mat.ofFn 6 1 (fun i _ => ((3 + 2 * (i % 2 : Nat) : Int) : ℝ))) } (some kmWitness) =
      .ok (t₂, some k₂) ∧ k₁.refs = k₂.refs ∧ k₁.cls = k₂.cls :=
  C118_more_epochs hab (t := { keepBest := false, train := some (Mat.ofFn 6 1 (fun i _ => (i : ℝ)), Mat.ofFn 6 1 (fun i _ => ((3 + 2 * (i % 2 : Nat) : Int) : ℝ))) })
    (by decide) rfl kmWitness_has (by omega) one_pos (N := 6) (by omega) (fun i _ => (i : ℝ))
    (fun i => 3 + 2 * (i % 2 : Nat)) (fun i _ => by omega) rfl (M := 6) (by omega) (.inl ⟨rfl, rfl, rfl, rfl⟩)
    (fun r hr => six_box r (by omega)) six_box six_box (.inl rfl) (E₁ := 65) (E₂ := 1000) (by decide) (by decide)

/-- The hypotheses of `C118_batches_wrong` are met: the samples `0..5`, whose mean 2.5 is not reached. -/
example (e : KmEnv) (hab : e.ab = fun x => |x|) : ∃ (p : Nat) (t' : KMeansTrain) (k' : KMeans), p < 6 ∧
    KMeansTrain.fit e { keepBest := false, batchSize := 1, train := some (Mat.ofFn 6 1 (fun i _ => (i : ℝ)), Mat.ofFn 6 1 (fun _ _ => 0)) }
      (some { refs := Mat.ofFn 1 1 (fun _ _ => 0), cls := Mat.ofFn 1 1 (fun _ _ => 0) }) = .ok (t', some k') ∧ k'.refs = Mat.ofFn 1 1 (fun _ _ => (p : ℝ)) :=
  C118_batches_wrong hab (V₀ := fun _ _ => 0) (cls₀ := fun _ => 0) (by decide) rfl ⟨rfl, rfl, rfl⟩ one_pos (by omega) (fun i _ => (i : ℝ)) rfl rfl
    (fun _ _ j _ => by norm_num) six_box rfl

end BeeDNN
