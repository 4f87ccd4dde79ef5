import Verif.Lemmas.KMeansTwin
import Verif.Props.KMeans

/-! # KMeans training and uninitialised memory (C113) -/

namespace BeeDNN
open Finset

/-- C113: two runs of `fit` with the same random numbers have the same outcome (result or fault, trainer and model), whatever fresh memory holds and whatever the
references of the two models were before.  What is missing: with `keep best`, which is the default, the references before training must be the same. -/
theorem C113_fit_partial {e f : KmEnv} (hef : e.Twin f) (hab : e.ab = fun x => |x|) {t : KMeansTrain} (hv : 0 < t.valBatch) {k k' : KMeans} {n C : Nat} {loss : String}
    (h : KmSized k n C loss) (h' : KmSized k' n C loss) (hl : DistLoss loss C) (hn : 0 < n) (hC : 0 < C) {N : Nat} (hN : 0 < N) (x : Nat → Row) (lab : Nat → Int)
    (hlab : ∀ i, i < N → -2147483649 < lab i ∧ lab i < 2147483648) (ht : t.train = some (Mat.ofFn N C x, Mat.ofFn N 1 (fun i _ => (lab i : ℝ))))
    {M : Nat} (hM : 0 < M) {xv : Nat → Row} {yv : Nat → ℝ} (hE : KmEval t C N x (fun i => (lab i : ℝ)) M xv yv)
    (hk : t.keepBest = true → k' = k) : t.fit e (some k) = t.fit f (some k') :=
  KMeansTrain.fit_twin hef hab hv h h' hl hn hC hN x lab hlab ht hM hE hk

/-- C113 for a new model: `set_sizes`, then `fit` without `keep best`; the memory of both may hold anything. -/
theorem C113_new {e f : KmEnv} (hef : e.Twin f) (hab : e.ab = fun x => |x|) {t : KMeansTrain} (hv : 0 < t.valBatch) (hk : t.keepBest = false) {n C : Nat}
    (hn : 0 < n) (hC : 0 < C) {N : Nat} (hN : 0 < N) (x : Nat → Row) (lab : Nat → Int) (hlab : ∀ i, i < N → -2147483649 < lab i ∧ lab i < 2147483648)
    (ht : t.train = some (Mat.ofFn N C x, Mat.ofFn N 1 (fun i _ => (lab i : ℝ)))) (hv' : t.valid = none) (g g' : Nat → ℝ) :
    t.fit e (some (KMeans.setSizes g {} C n)) = t.fit f (some (KMeans.setSizes g' {} C n)) :=
  C113_fit_partial hef hab hv (KMeans.setSizes_kmSized g hn hC) (KMeans.setSizes_kmSized g' hn hC) ⟨by decide, by decide, fun h => absurd h (by decide)⟩ hn hC hN x lab hlab ht hN
    (.inl ⟨hv', rfl, rfl, rfl⟩) (fun h => by rw [hk] at h; exact absurd h (by decide))

/-- C113, the code disagrees: with `keep best` a new model whose memory happens to hold zeros stays there, the same program on memory that holds sevens
learns the samples.  All samples are `5, …, 5` of class 0; sizes, number of epochs, batch size and random numbers are arbitrary. -/
theorem C113_memory_wrong {e f : KmEnv} (hab : e.ab = fun x => |x|) (hef : e.Twin f) {t : KMeansTrain} (hv : 0 < t.valBatch) (hk : t.keepBest = true) (hep : 0 < t.epochs)
    {n C N : Nat} (hn : 0 < n) (hC : 0 < C) (hN : 0 < N) (ht : t.train = some (Mat.ofFn N C (fun _ _ => 5), Mat.ofFn N 1 (fun _ _ => 0))) (hv' : t.valid = none) :
    ∃ t₁ k₁ t₂ k₂, t.fit e (some (KMeans.setSizes (fun _ => 0) {} C n)) = .ok (t₁, some k₁) ∧
      t.fit f (some (KMeans.setSizes (fun _ => 7) {} C n)) = .ok (t₂, some k₂) ∧
      k₁.refs = Mat.ofFn n C (fun _ _ => 0) ∧ k₂.refs = Mat.ofFn n C (fun _ _ => 5) := by
  classical
  have ht' : t.train = some (Mat.ofFn N C (fun _ _ => 5), Mat.ofFn N 1 (fun i _ => (((fun _ => 0 : Nat → Int) i : Int) : ℝ))) := by
    rw [ht]
    simp
  have hbox : ∀ v : ℝ, |v| ≤ 7 → InBox C (fun _ => v) := fun v hv j _ => hv.trans (by norm_num)
  have hE : KmEval t C N (fun _ _ => 5) (fun i => (((fun _ => 0 : Nat → Int) i : Int) : ℝ)) N (fun _ _ => 5) (fun _ => 0) := .inl ⟨hv', rfl, rfl, by simp⟩
  have hE0 : 0 < t.epochs.toNat := by omega
  obtain ⟨V, cls, t₁, k₁, a1, a2, a3, -, a4⟩ := C74_bounded hab hv (KMeans.setSizes_sized (fun _ => 0) hn hC) hn hC hN (fun _ _ => 5) (fun _ => 0)
    (fun _ _ => by omega) ht' hN hE (fun _ _ => hbox 0 (by norm_num)) (fun _ _ => hbox 5 (by norm_num [abs_of_nonneg])) (fun _ _ => hbox 5 (by norm_num [abs_of_nonneg]))
  obtain ⟨W, cls', t₂, k₂, b1, b2, b3, -, b4⟩ := C74_bounded (hef.ab.trans hab) hv (KMeans.setSizes_sized (fun _ => 7) hn hC) hn hC hN (fun _ _ => 5) (fun _ => 0)
    (fun _ _ => by omega) ht' hN hE (fun _ _ => hbox 7 (by norm_num [abs_of_nonneg])) (fun _ _ => hbox 5 (by norm_num [abs_of_nonneg])) (fun _ _ => hbox 5 (by norm_num [abs_of_nonneg]))
  refine ⟨t₁, k₁, t₂, k₂, a3, b3, ?_, ?_⟩
  · obtain ⟨j, hj, h1, -, h3⟩ := a4 hk
    rcases Nat.eq_zero_or_pos j with rfl | hj0
    · rw [h1.refs]
      rfl
    · exfalso
      have := h3 0 hj0
      rw [if_pos rfl, if_pos rfl] at this
      have hfull : kmRight n (sampleLoss e.eps "MeanSquaredError" C) (fun _ => 0) (fun _ _ => (0 : ℝ)) N (fun _ _ => 5) (fun _ => 0) = N := by
        unfold kmRight
        rw [filter_true_of_mem fun i _ => ?_, card_range]
        obtain ⟨r, hr⟩ := exists_nearest (d := fun q => sampleLoss e.eps "MeanSquaredError" C (fun _ => 5) ((fun _ _ => (0 : ℝ)) q)) hn
          (box_near (eps := e.eps) (hbox 5 (by norm_num [abs_of_nonneg])) (hbox 0 (by norm_num)))
        exact ⟨r, hr, rfl⟩
      rw [hfull] at this
      have hle : ∀ (c : Nat → ℝ) (U : Nat → Row), kmRight n (sampleLoss e.eps "MeanSquaredError" C) c U N (fun _ _ => 5) (fun _ => 0) ≤ N := fun c U => by
        unfold kmRight
        exact (card_filter_le _ _).trans (card_range N).le
      exact absurd (hle _ _) (not_le.2 this)
  · have hW : ∀ i, i ≤ t.epochs.toNat → ∀ r, r < n → ∀ j, j < C → W i r j = 5 := by
      intro i
      induction i with
      | zero =>
        intro _ r hr j hj
        obtain ⟨q, -⟩ := b1 r hr
        rw [q]
      | succ i ih => exact fun hi => (b2 i (by omega)).const (fun _ _ _ _ => rfl) (ih (by omega))
    obtain ⟨j, hj, h1, h2, -⟩ := b4 hk
    rcases Nat.eq_zero_or_pos j with rfl | hj0
    · exfalso
      have := h2 1 hE0
      rw [if_neg one_ne_zero, if_neg one_ne_zero, if_pos rfl, if_pos rfl] at this
      have hnone : kmRight n (sampleLoss f.eps "MeanSquaredError" C) (fun _ => 7) (fun _ _ => (7 : ℝ)) N (fun _ _ => 5) (fun _ => 0) = 0 := by
        unfold kmRight
        rw [filter_false_of_mem fun i _ => ?_, card_empty]
        rintro ⟨r, -, h⟩
        norm_num at h
      rw [hnone] at this
      have hone : 0 < kmRight n (sampleLoss f.eps "MeanSquaredError" C) cls' (W 1) N (fun _ _ => 5) (fun _ => 0) := by
        unfold kmRight
        refine card_pos.2 ⟨0, mem_filter.2 ⟨mem_range.2 hN, ?_⟩⟩
        obtain ⟨r, hr⟩ := exists_nearest (d := fun q => sampleLoss f.eps "MeanSquaredError" C (fun _ => 5) (W 1 q)) hn
          (box_near (eps := f.eps) (hbox 5 (by norm_num [abs_of_nonneg])) (fun j hj => by rw [hW 1 hE0 0 hn j hj]; norm_num [abs_of_nonneg]))
        obtain ⟨-, q⟩ := b1 r hr.1
        exact ⟨r, hr, by rw [q]; simp⟩
      omega
    · rw [h1.refs, if_neg (by omega)]
      exact Mat.ofFn_congr fun r c hr hc => hW j hj r hr c hc

/-- C113, the code disagrees: when the memory of a new model holds large numbers, `fit` with `keep best` ends in a failed assertion before it looks at the training
data; here `1e20`, for all data up to `1e18`. -/
theorem C113_assert_wrong {e : KmEnv} (hab : e.ab = fun x => |x|) {t : KMeansTrain} (hv : 0 < t.valBatch) (hk : t.keepBest = true)
    {n C N : Nat} (hn : 0 < n) (hC : 0 < C) (hN : 0 < N) (x : Nat → Row) (hx : ∀ i, i < N → InBox C (x i)) (lab : Nat → Int)
    (hlab : ∀ i, i < N → -2147483649 < lab i ∧ lab i < 2147483648) (ht : t.train = some (Mat.ofFn N C x, Mat.ofFn N 1 (fun i _ => (lab i : ℝ)))) (hv' : t.valid = none) :
    t.fit e (some (KMeans.setSizes (fun _ => 10 ^ 20) {} C n)) = .error .assertFail := by
  obtain ⟨V, cls, -, -, -, h⟩ := C74_fit_partial hab hv (KMeans.setSizes_sized (fun _ => 10 ^ 20) hn hC) ⟨by decide, by decide, fun h => absurd h (by decide)⟩ hn hC hN x lab
    hlab ht hN (.inl ⟨hv', rfl, rfl, rfl⟩)
  refine h fun hh => ?_
  obtain ⟨q, hq, hd⟩ := hh.1 hk 0 hN
  have h1 : sampleLoss e.eps "MeanSquaredError" C (x 0) (fun _ => 10 ^ 20) = (∑ j ∈ range C, (x 0 j - 10 ^ 20) ^ 2) / C := rfl
  rw [h1, div_lt_iff₀ (Nat.cast_pos.2 hC)] at hd
  have h2 : ∑ j ∈ range C, kmFar ≤ ∑ j ∈ range C, (x 0 j - 10 ^ 20) ^ 2 := by
    refine sum_le_sum fun j hj => ?_
    have := abs_le.1 (hx 0 hN j (mem_range.1 hj))
    unfold kmFar
    nlinarith [this.1, this.2]
  rw [sum_const, card_range, nsmul_eq_mul, mul_comm] at h2
  exact absurd hd (not_lt.2 h2)

/-- Two runs on memory that holds 1 and 2; the samples `0..8` have classes `0, 1, 2, 0, …`. -/
noncomputable def kmRun (m : ℝ) : KmEnv := ⟨fun _ => m, fun x => |x|, 0, 0, fun i => 5 * i + 1, fun i j => 3 * i + j⟩

noncomputable def kmTrainer (keep : Bool) : KMeansTrain :=
  { epochs := 4, batchSize := 3, keepBest := keep, train := some (Mat.ofFn 9 2 (fun i j => (i + j : ℝ)), Mat.ofFn 9 1 (fun i _ => (((i % 3 : Nat) : Int) : ℝ))) }

theorem kmTrainer_train (keep : Bool) : (kmTrainer keep).train = some (Mat.ofFn 9 2 (fun i j => (i + j : ℝ)), Mat.ofFn 9 1 (fun i _ => (((i % 3 : Nat) : Int) : ℝ))) := rfl

theorem kmLabels : ∀ i, i < 9 → -2147483649 < ((i % 3 : Nat) : Int) ∧ ((i % 3 : Nat) : Int) < 2147483648 := fun i _ => by omega

theorem kmRun_twin (a b : ℝ) : (kmRun a).Twin (kmRun b) := ⟨rfl, rfl, rfl, rfl⟩

/-- The hypotheses of `C113_new` are met. -/
example : (kmTrainer false).fit (kmRun 1) (some (KMeans.setSizes (fun i => i) {} 2 3)) = (kmTrainer false).fit (kmRun 2) (some (KMeans.setSizes (fun _ => 10 ^ 30) {} 2 3)) :=
  C113_new (kmRun_twin 1 2) rfl (by decide) rfl (by omega) (by omega) (by omega) (fun i j => (i + j : ℝ)) (fun i => ((i % 3 : Nat) : Int)) kmLabels
    (kmTrainer_train false) rfl _ _

/-- The hypotheses of `C113_fit_partial` are met with `keep best`. -/
example : (kmTrainer true).fit (kmRun 1) (some (KMeans.setSizes (fun i => i) {} 2 3)) = (kmTrainer true).fit (kmRun 2) (some (KMeans.setSizes (fun i => i) {} 2 3)) :=
  C113_fit_partial (kmRun_twin 1 2) rfl (by decide) (KMeans.setSizes_kmSized _ (by omega) (by omega)) (KMeans.setSizes_kmSized _ (by omega) (by omega))
    ⟨by decide, by decide, fun h => absurd h (by decide)⟩ (by omega) (by omega) (N := 9) (by omega) (fun i j => (i + j : ℝ)) (fun i => ((i % 3 : Nat) : Int)) kmLabels (kmTrainer_train true)
    (M := 9) (by omega) (.inl ⟨rfl, rfl, rfl, rfl⟩) (fun _ => rfl)

/-- The hypotheses of `C113_memory_wrong` are met. -/
example : ∃ t₁ k₁ t₂ k₂, ({ train := some (Mat.ofFn 4 2 (fun _ _ => 5), Mat.ofFn 4 1 (fun _ _ => 0)) } : KMeansTrain).fit (kmRun 0) (some (KMeans.setSizes (fun _ => 0) {} 2 3)) = .ok (t₁, some k₁) ∧
    ({ train := some (Mat.ofFn 4 2 (fun _ _ => 5), Mat.ofFn 4 1 (fun _ _ => 0)) } : KMeansTrain).fit (kmRun 7) (some (KMeans.setSizes (fun _ => 7) {} 2 3)) = .ok (t₂, some k₂) ∧
    k₁.refs = Mat.ofFn 3 2 (fun _ _ => 0) ∧ k₂.refs = Mat.ofFn 3 2 (fun _ _ => 5) :=
  C113_memory_wrong (e := kmRun 0) (f := kmRun 7) rfl (kmRun_twin 0 7) (by decide) rfl (by decide) (by omega) (by omega) (by omega) rfl rfl

/-- The hypotheses of `C113_assert_wrong` are met. -/
example : (kmTrainer true).fit (kmRun 1) (some (KMeans.setSizes (fun _ => 10 ^ 20) {} 2 3)) = .error .assertFail :=
  C113_assert_wrong rfl (by decide) rfl (by omega) (by omega) (N := 9) (by omega) (fun i j => (i + j : ℝ))
    (fun i hi j hj => by
      have h1 : (i : ℝ) ≤ 9 := by exact_mod_cast hi.le
      have h2 : (j : ℝ) ≤ 2 := by exact_mod_cast hj.le
      rw [abs_of_nonneg (by positivity)]
      linarith) (fun i => ((i % 3 : Nat) : Int)) kmLabels (kmTrainer_train true) rfl

end BeeDNN
