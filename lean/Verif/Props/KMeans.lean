import Verif.Lemmas.KMeansBox

/-! # Properties of nearest-reference classification (C73, C74) -/

namespace BeeDNN
open Finset

/-- C73: with references `V r` of classes `cls r` and any loss that the factory makes, `predict_classes` gives each of `N` samples the class of the
first of the nearest references.  What is missing: it needs a reference at distance below `1e38` for every sample; otherwise the outcome is a failed
assertion. -/
theorem C73_nearest_partial (g : Nat → ℝ) (eps : ℝ) {k : KMeans} {n C : Nat} (hn : 0 < n) (hC : 0 < C) {V : Nat → Row} {cls : Nat → ℝ} {loss : String}
    (h : HasRefs k n C V cls loss) (hl : loss ∈ listLoss) (hf : TruthFits loss C C n V) (N : Nat) (x : Nat → Row) {o : Mat ℝ} (ho : o.WF) :
    (KmNear n (sampleLoss eps loss C) V N x → ∃ ρ : Nat → Nat,
      (∀ i, i < N → IsNearest n (fun _ => True) (fun q => sampleLoss eps loss C (x i) (V q)) (ρ i)) ∧
      k.predictClasses g (fun x => |x|) eps (Mat.ofFn N C x) o = .ok (Mat.ofFn N 1 (fun i _ => cls (ρ i)))) ∧
    (¬ KmNear n (sampleLoss eps loss C) V N x → k.predictClasses g (fun x => |x|) eps (Mat.ofFn N C x) o = .error .assertFail) := by
  have hd : DistOk g (fun x => |x|) eps k C (sampleLoss eps loss C) V n := by
    intro a r hr
    rw [computeDist_fits (by rw [h.loss]; exact hl) hC, h.loss]
    rw [h.loss]
    unfold TruthFits at hf ⊢
    split
    · rw [if_pos ‹_›] at hf
      exact ⟨hf.1, hf.2.1, fun i _ => hf.2.2 r hr⟩
    · rw [if_neg ‹_›] at hf
      exact hf
  refine ⟨fun hk => ?_, fun hk => KMeans.predict_far hn hC h.refs h.cls hd ho hk⟩
  have hρ : ∀ j, j < N → ∃ r, IsNearest n (fun _ => True) (fun q => sampleLoss eps loss C (x j) (V q)) r := fun j hj => by
    obtain ⟨q, hq, hq'⟩ := hk j hj
    exact exists_nearest hq hq'
  choose! ρ hρ using hρ
  exact ⟨ρ, hρ, KMeans.predict_ok hn hC h.refs h.cls hd ho ρ hρ⟩

/-- C73 for the default loss and data up to `1e18`, in plain terms: each sample gets the class of the first reference at minimal Euclidean distance. -/
theorem C73_euclid (g : Nat → ℝ) (eps : ℝ) {k : KMeans} {n C : Nat} (hn : 0 < n) (hC : 0 < C) {V : Nat → Row} {cls : Nat → ℝ}
    (h : HasRefs k n C V cls "MeanSquaredError") {N : Nat} {x : Nat → Row} (hx : ∀ i, i < N → InBox C (x i)) (hV : ∀ r, r < n → InBox C (V r)) {o : Mat ℝ} (ho : o.WF) :
    ∃ ρ : Nat → Nat, k.predictClasses g (fun x => |x|) eps (Mat.ofFn N C x) o = .ok (Mat.ofFn N 1 (fun i _ => cls (ρ i))) ∧
      ∀ i, i < N → ρ i < n ∧ (∀ q, q < n → ∑ j ∈ range C, (x i j - V (ρ i) j) ^ 2 ≤ ∑ j ∈ range C, (x i j - V q j) ^ 2) ∧
        ∀ q, q < ρ i → ∑ j ∈ range C, (x i j - V (ρ i) j) ^ 2 < ∑ j ∈ range C, (x i j - V q j) ^ 2 := by
  have hC' : (0 : ℝ) < C := Nat.cast_pos.2 hC
  obtain ⟨ρ, h1, h2⟩ := (C73_nearest_partial g eps hn hC h (by decide) (by rw [TruthFits, if_neg (by decide)]; exact ⟨rfl, fun h => absurd h (by decide)⟩) N x ho).1
    (fun i hi => ⟨0, hn, box_near (hx i hi) (hV 0 hn)⟩)
  refine ⟨ρ, h2, fun i hi => ⟨(h1 i hi).1, fun q hq => ?_, fun q hq => ?_⟩⟩
  · exact (div_le_div_iff_of_pos_right hC').1 ((h1 i hi).2.2.2.1 q hq trivial)
  · exact (div_lt_div_iff_of_pos_right hC').1 ((h1 i hi).2.2.2.2 q hq trivial)

/-- C73: a sample that is `1e38` or more away from all references is a failed assertion, whatever the references are. -/
theorem C73_far_wrong (g : Nat → ℝ) (eps : ℝ) {k : KMeans} {V : Nat → Row} {cls : Nat → ℝ} (h : HasRefs k 1 1 V cls "MeanSquaredError") {o : Mat ℝ} (ho : o.WF) :
    k.predictClasses g (fun x => |x|) eps (Mat.ofFn 1 1 (fun _ _ => V 0 0 + 10 ^ 19)) o = .error .assertFail := by
  refine (C73_nearest_partial g eps one_pos one_pos h (by decide) (by rw [TruthFits, if_neg (by decide)]; exact ⟨rfl, fun h => absurd h (by decide)⟩) 1 _ ho).2 ?_
  intro hh
  obtain ⟨q, hq, hd⟩ := hh 0 one_pos
  obtain rfl : q = 0 := by omega
  have : sampleLoss eps "MeanSquaredError" 1 (fun _ => V 0 0 + 10 ^ 19) (V 0) = (∑ j ∈ range 1, ((V 0 0 + 10 ^ 19) - V 0 j) ^ 2) / (1 : Nat) := rfl
  rw [this] at hd
  unfold kmFar at hd
  norm_num at hd

/-- C73: without references every sample gets class 0. -/
theorem C73_no_references (g : Nat → ℝ) (ab : ℝ → ℝ) (eps : ℝ) {k : KMeans} (h : k.refs.size = 0) (N C : Nat) (x : Nat → Row) {o : Mat ℝ} (ho : o.WF) :
    k.predictClasses g ab eps (Mat.ofFn N C x) o = .ok (Mat.ofFn N 1 (fun _ _ => 0)) := by
  unfold KMeans.predictClasses
  rw [if_pos h, Mat.ofFn_rows]
  obtain ⟨d, hd⟩ := Mat.resize_exists g ho N 1
  rw [hd, Mat.setConstant_flat, Mat.flat_eq_ofFn]

/-- C74: everything `fit` does, for any data, number of epochs and batch size, any draws and shuffles, and any loss that measures a distance to
every reference.  The references start as the samples drawn, with their classes; in each epoch and batch every reference that wins samples of
its class moves to their mean and the others stay.  With `keep best` the result is the first of the best among the given references and those after each
epoch, scored by the number of samples (validation samples, if given) whose nearest reference has their class; otherwise the references after the last epoch.  What is
missing: when a model that is scored has no reference within `1e38` of some sample, `fit` ends in a failed assertion. -/
theorem C74_fit_partial {e : KmEnv} (hab : e.ab = fun x => |x|) {t : KMeansTrain} (hv : 0 < t.valBatch) {k : KMeans} {n C : Nat} {V₀ : Nat → Row} {cls₀ : Nat → ℝ} {loss : String}
    (h : HasRefs k n C V₀ cls₀ loss) (hl : DistLoss loss C) (hn : 0 < n) (hC : 0 < C) {N : Nat} (hN : 0 < N) (x : Nat → Row) (lab : Nat → Int)
    (hlab : ∀ i, i < N → -2147483649 < lab i ∧ lab i < 2147483648) (ht : t.train = some (Mat.ofFn N C x, Mat.ofFn N 1 (fun i _ => (lab i : ℝ))))
    {M : Nat} (hM : 0 < M) {xv : Nat → Row} {yv : Nat → ℝ} (hE : KmEval t C N x (fun i => (lab i : ℝ)) M xv yv) :
    ∃ (V : Nat → Nat → Row) (cls : Nat → ℝ), (∀ r, r < n → V 0 r = x (e.pick r % N) ∧ cls r = lab (e.pick r % N)) ∧
      (∀ i, i < t.epochs.toNat → KmEpoch n C (sampleLoss e.eps loss C) cls N (kmAdjusted t.batchSize N) x (fun i => (lab i : ℝ)) (V i) (V (i + 1))) ∧
      (((t.keepBest = true → KmNear n (sampleLoss e.eps loss C) V₀ M xv) ∧
          ∀ i, i < t.epochs.toNat → KmNear n (sampleLoss e.eps loss C) (V (i + 1)) N x ∧ KmNear n (sampleLoss e.eps loss C) (V (i + 1)) M xv) →
        ∃ t' k', t.fit e (some k) = .ok (t', some k') ∧
          (t.keepBest = false → HasRefs k' n C (V t.epochs.toNat) cls loss) ∧
          (t.keepBest = true → ∃ j, j ≤ t.epochs.toNat ∧ HasRefs k' n C (if j = 0 then V₀ else V j) (if j = 0 then cls₀ else cls) loss ∧
            (∀ i, i ≤ t.epochs.toNat → kmRight n (sampleLoss e.eps loss C) (if i = 0 then cls₀ else cls) (if i = 0 then V₀ else V i) M xv yv ≤
              kmRight n (sampleLoss e.eps loss C) (if j = 0 then cls₀ else cls) (if j = 0 then V₀ else V j) M xv yv) ∧
            ∀ i, i < j → kmRight n (sampleLoss e.eps loss C) (if i = 0 then cls₀ else cls) (if i = 0 then V₀ else V i) M xv yv <
              kmRight n (sampleLoss e.eps loss C) (if j = 0 then cls₀ else cls) (if j = 0 then V₀ else V j) M xv yv) ∧
          (0 < t.epochs.toNat → t'.trainAcc = 100 * kmRight n (sampleLoss e.eps loss C) cls (V t.epochs.toNat) N x (fun i => (lab i : ℝ)) / N ∧
            (t.valid ≠ none → t'.valAcc = 100 * kmRight n (sampleLoss e.eps loss C) cls (V t.epochs.toNat) M xv yv / M))) ∧
      (¬ ((t.keepBest = true → KmNear n (sampleLoss e.eps loss C) V₀ M xv) ∧
          ∀ i, i < t.epochs.toNat → KmNear n (sampleLoss e.eps loss C) (V (i + 1)) N x ∧ KmNear n (sampleLoss e.eps loss C) (V (i + 1)) M xv) →
        t.fit e (some k) = .error .assertFail) :=
  KMeansTrain.fit_either hab hv h hl hn hC hN x lab hlab ht hM hE

/-- C74: with a batch size of 0 (the default) or at least the number of samples, an epoch moves each reference to the mean of all the samples it wins. -/
theorem C74_full_batch {n C N : Nat} (hN : 0 < N) {D : Row → Row → ℝ} {cls : Nat → ℝ} {x : Nat → Row} {lab : Nat → ℝ} {V V' : Nat → Row} {b : Int}
    (hb : b = 0 ∨ (N : Int) ≤ b) (h : KmEpoch n C D cls N (kmAdjusted b N) x lab V V') : MeansOf n C D cls x lab (range N) V V' := by
  have hb' : kmAdjusted b N = N := by
    unfold kmAdjusted
    split <;> omega
  rw [hb'] at h
  obtain ⟨σ, W, h1, h2, h3, h4⟩ := h
  have hof : ∀ s, s < N → kmBatchOf N s = 0 := fun s hs => by
    unfold kmBatchOf
    rw [if_neg (by omega), Int.toNat_natCast]
    exact Nat.div_eq_of_lt (by omega)
  have hk : kmBatches N N = 1 := by rw [kmBatches, hof _ (by omega)]
  have hB : kmBatch N N 0 = range N := by
    unfold kmBatch
    rw [filter_eq_self]
    exact fun s hs => hof s (mem_range.1 hs)
  rw [hk] at h3 h4
  have h5 := h4 0 one_pos
  rw [h2, h3, hB] at h5
  have hinj : ∀ i ∈ range N, ∀ j ∈ range N, σ i = σ j → i = j := by
    intro i hi j hj
    exact List.inj_on_of_nodup_map (h1.nodup_iff.2 List.nodup_range) (List.mem_range.2 (mem_range.1 hi)) (List.mem_range.2 (mem_range.1 hj))
  have himg : (range N).image σ = range N := by
    ext i
    rw [mem_image, mem_range, ← List.mem_range, ← h1.mem_iff, List.mem_map]
    simp
  have hw : ∀ r, wonBy n D cls x lab V (range N) r = (wonBy n D cls (fun s => x (σ s)) (fun s => lab (σ s)) V (range N) r).image σ := fun r => by
    classical
    unfold wonBy
    conv_lhs => rw [← himg]
    ext i
    simp only [mem_filter, mem_image]
    constructor
    · rintro ⟨⟨s, hs, rfl⟩, hh⟩
      exact ⟨s, ⟨hs, hh⟩, rfl⟩
    · rintro ⟨s, ⟨hs, hh⟩, rfl⟩
      exact ⟨⟨s, hs, rfl⟩, hh⟩
  have hsub : ∀ r, wonBy n D cls (fun s => x (σ s)) (fun s => lab (σ s)) V (range N) r ⊆ range N := fun r => KMeansTrain.wonBy_subset
  intro r hr j hj
  obtain ⟨p1, p2⟩ := h5 r hr j hj
  rw [hw]
  refine ⟨fun he => p1 (image_eq_empty.1 he), fun he => ?_⟩
  rw [sum_image (fun i hi j hj => hinj i (hsub r hi) j (hsub r hj)), card_image_of_injOn (fun i hi j hj => hinj i (hsub r hi) j (hsub r hj))]
  exact p2 (image_nonempty.1 he)

/-- C74 for the default loss and data up to `1e18`: `fit` never fails, and with `keep best` it returns the first of the best. -/
theorem C74_bounded {e : KmEnv} (hab : e.ab = fun x => |x|) {t : KMeansTrain} (hv : 0 < t.valBatch) {k : KMeans} {n C : Nat} {V₀ : Nat → Row} {cls₀ : Nat → ℝ}
    (h : HasRefs k n C V₀ cls₀ "MeanSquaredError") (hn : 0 < n) (hC : 0 < C) {N : Nat} (hN : 0 < N) (x : Nat → Row) (lab : Nat → Int)
    (hlab : ∀ i, i < N → -2147483649 < lab i ∧ lab i < 2147483648) (ht : t.train = some (Mat.ofFn N C x, Mat.ofFn N 1 (fun i _ => (lab i : ℝ))))
    {M : Nat} (hM : 0 < M) {xv : Nat → Row} {yv : Nat → ℝ} (hE : KmEval t C N x (fun i => (lab i : ℝ)) M xv yv)
    (hV : ∀ r, r < n → InBox C (V₀ r)) (hx : ∀ i, i < N → InBox C (x i)) (hxv : ∀ i, i < M → InBox C (xv i)) :
    ∃ (V : Nat → Nat → Row) (cls : Nat → ℝ) (t' : _) (k' : _), (∀ r, r < n → V 0 r = x (e.pick r % N) ∧ cls r = lab (e.pick r % N)) ∧
      (∀ i, i < t.epochs.toNat → KmEpoch n C (sampleLoss e.eps "MeanSquaredError" C) cls N (kmAdjusted t.batchSize N) x (fun i => (lab i : ℝ)) (V i) (V (i + 1))) ∧
      t.fit e (some k) = .ok (t', some k') ∧
      (t.keepBest = false → HasRefs k' n C (V t.epochs.toNat) cls "MeanSquaredError") ∧
      (t.keepBest = true → ∃ j, j ≤ t.epochs.toNat ∧ HasRefs k' n C (if j = 0 then V₀ else V j) (if j = 0 then cls₀ else cls) "MeanSquaredError" ∧
        (∀ i, i ≤ t.epochs.toNat → kmRight n (sampleLoss e.eps "MeanSquaredError" C) (if i = 0 then cls₀ else cls) (if i = 0 then V₀ else V i) M xv yv ≤
          kmRight n (sampleLoss e.eps "MeanSquaredError" C) (if j = 0 then cls₀ else cls) (if j = 0 then V₀ else V j) M xv yv) ∧
        ∀ i, i < j → kmRight n (sampleLoss e.eps "MeanSquaredError" C) (if i = 0 then cls₀ else cls) (if i = 0 then V₀ else V i) M xv yv <
          kmRight n (sampleLoss e.eps "MeanSquaredError" C) (if j = 0 then cls₀ else cls) (if j = 0 then V₀ else V j) M xv yv) := by
  obtain ⟨V, cls, h1, h2, h3, -⟩ := C74_fit_partial hab hv h ⟨by decide, by decide, fun h => absurd h (by decide)⟩ hn hC hN x lab hlab ht hM hE
  have hbox : ∀ i, i ≤ t.epochs.toNat → ∀ r, r < n → InBox C (V i r) := by
    intro i
    induction i with
    | zero =>
      intro _ r hr
      obtain ⟨e1, -⟩ := h1 r hr
      rw [e1]
      exact hx _ (Nat.mod_lt _ (by omega))
    | succ i ih => exact fun hi => (h2 i (by omega)).box hx (ih (by omega))
  obtain ⟨t', k', q1, q2, q3, -⟩ := h3 ⟨fun _ i hi => ⟨0, hn, box_near (hxv i hi) (hV 0 hn)⟩,
    fun i hi => ⟨fun q hq => ⟨0, hn, box_near (hx q hq) (hbox (i + 1) hi 0 hn)⟩, fun q hq => ⟨0, hn, box_near (hxv q hq) (hbox (i + 1) hi 0 hn)⟩⟩⟩
  exact ⟨V, cls, t', k', h1, h2, q1, q2, q3⟩

/-- C74: no data at all is a division by zero (`% mSamples.rows()`), as soon as there is a reference and the result of the first scoring is not needed. -/
theorem C74_no_data (e : KmEnv) {t : KMeansTrain} (hk : t.keepBest = false) {k : KMeans} {n C : Nat} (hn : 0 < n) {V₀ : Nat → Row} {cls₀ : Nat → ℝ} {loss : String}
    (h : HasRefs k n C V₀ cls₀ loss) (x y : Nat → Row) (ht : t.train = some (Mat.ofFn 0 C x, Mat.ofFn 0 1 y)) : t.fit e (some k) = .error .divByZero := by
  unfold KMeansTrain.fit
  dsimp only
  rw [ht]
  dsimp only
  rw [h.refs, Mat.ofFn_rows, Mat.ofFn_cols, Mat.setConstantRC_ofFn _ (by rfl), bind_ok', Mat.setConstantRC_ofFn _ (by rfl), bind_ok']
  unfold KMeansTrain.firstBest
  dsimp only
  rw [if_neg (by rw [hk]; decide), bind_ok']
  dsimp only
  have : KMeansTrain.initRefs e (Mat.ofFn 0 C x) (Mat.ofFn 0 1 y) k = .error .divByZero := by
    unfold KMeansTrain.initRefs
    rw [h.refs, Mat.ofFn_rows]
    refine forN_error (k := 0) hn rfl ?_
    rw [Mat.ofFn_rows, if_pos rfl]
  rw [this]
  rfl

/-- C93: when the batch is the whole data set, no epoch increases the sum of the squared distances (divided by `C`) of the samples to the nearest
reference of their class. -/
theorem C93_descent {n C N : Nat} (hN : 0 < N) {eps : ℝ} {cls : Nat → ℝ} {x : Nat → Row} {lab : Nat → ℝ} {V V' : Nat → Row} {b : Int}
    (hb : b = 0 ∨ (N : Int) ≤ b) (h : KmEpoch n C (sampleLoss eps "MeanSquaredError" C) cls N (kmAdjusted b N) x lab V V') {c c' : ℝ}
    (hc : IsKmCost n C cls N x lab V c) (hc' : IsKmCost n C cls N x lab V' c') : c' ≤ c :=
  meansOf_descent (C74_full_batch hN hb h) hc hc'

/-- C93: for data and references up to `1e18` the cost exists. -/
theorem C93_cost_exists {n C N : Nat} {cls : Nat → ℝ} {x : Nat → Row} {lab : Nat → ℝ} {V : Nat → Row} (hx : ∀ i, i < N → InBox C (x i)) (hV : ∀ r, r < n → InBox C (V r)) :
    ∃ c, IsKmCost n C cls N x lab V c := by
  have hρ : ∀ i, i < N → (∃ q, q < n ∧ cls q = lab i) → ∃ r, IsNearest n (fun q => cls q = lab i) (fun q => (∑ j ∈ range C, (x i j - V q j) ^ 2) / C) r := by
    rintro i hi ⟨q, hq, hq'⟩
    exact exists_nearest_of hq hq' (box_near (eps := 0) (hx i hi) (hV q hq))
  choose! ρ hρ using hρ
  exact ⟨_, ρ, fun i hi q hq hq' => hρ i hi ⟨q, hq, hq'⟩, rfl⟩

/-- Two references `0`, `1` of classes 3 and 5. -/
noncomputable def kmWitness : KMeans := { refs := Mat.ofFn 2 1 (fun r _ => (r : ℝ)), cls := Mat.ofFn 2 1 (fun r _ => (3 + 2 * r : ℝ)) }

theorem kmWitness_has : HasRefs kmWitness 2 1 (fun r _ => (r : ℝ)) (fun r => (3 + 2 * r : ℝ)) "MeanSquaredError" := ⟨rfl, rfl, rfl⟩

/-- The hypotheses of `C73_euclid` and `C73_nearest_partial` are met: samples `i/10` with the two references. -/
example : ∃ ρ : Nat → Nat, kmWitness.predictClasses (fun _ => 7) (fun x => |x|) 0 (Mat.ofFn 9 1 (fun i _ => (i : ℝ) / 10)) ⟨0, 0, []⟩ =
    .ok (Mat.ofFn 9 1 (fun i _ => (3 + 2 * (ρ i) : ℝ))) ∧ ρ 2 = 0 ∧ ρ 8 = 1 := by
  obtain ⟨ρ, h1, h2⟩ := C73_euclid (fun _ => 7) 0 (by omega) one_pos kmWitness_has (N := 9) (x := fun i _ => (i : ℝ) / 10)
    (fun i hi j _ => by
      have : (i : ℝ) ≤ 9 := by exact_mod_cast hi.le
      rw [abs_of_nonneg (by positivity)]
      linarith)
    (fun r hr j _ => by
      have : (r : ℝ) ≤ 2 := by exact_mod_cast hr.le
      rw [abs_of_nonneg (by positivity)]
      linarith) (o := ⟨0, 0, []⟩) rfl
  refine ⟨ρ, h1, ?_, ?_⟩
  · obtain ⟨q1, q2, -⟩ := h2 2 (by omega)
    have := q2 0 (by omega)
    by_contra hne
    obtain hq : ρ 2 = 1 := by omega
    rw [hq] at this
    norm_num at this
  · obtain ⟨q1, q2, -⟩ := h2 8 (by omega)
    have := q2 1 (by omega)
    by_contra hne
    obtain hq : ρ 8 = 0 := by omega
    rw [hq] at this
    norm_num at this

/-- The hypotheses of `C74_bounded`, `C74_fit_partial` and `C93_descent` are met: ten samples `i` of classes `3 + 2 * (i % 2)`, seven epochs, full batch. -/
example (e : KmEnv) (hab : e.ab = fun x => |x|) :
    ∃ (V : Nat → Nat → Row) (cls c : Nat → ℝ), (∃ t' k', KMeansTrain.fit e
        { epochs := 7, train := some (Mat.ofFn 10 1 (fun i _ => (i : ℝ)), Mat.ofFn 10 1 (fun i _ => ((3 + 2 * (i % 2 : Nat) : Int) : ℝ))) } (some kmWitness) = .ok (t', some k')) ∧
      (∀ i, i ≤ 7 → IsKmCost 2 1 cls 10 (fun i _ => (i : ℝ)) (fun i => ((3 + 2 * (i % 2 : Nat) : Int) : ℝ)) (V i) (c i)) ∧ ∀ i, i < 7 → c (i + 1) ≤ c i := by
  have hx : ∀ i : Nat, i < 10 → InBox 1 (fun _ => (i : ℝ)) := fun i hi j _ => by
    have : (i : ℝ) ≤ 10 := by exact_mod_cast hi.le
    rw [abs_of_nonneg (by positivity)]
    linarith
  obtain ⟨V, cls, t', k', h1, h2, h3, -, -⟩ := C74_bounded hab (t := { epochs := 7, train := some (Mat.ofFn 10 1 (fun i _ => (i : ℝ)),
      Mat.ofFn 10 1 (fun i _ => ((3 + 2 * (i % 2 : Nat) : Int) : ℝ))) }) (by decide) kmWitness_has (by omega) one_pos (N := 10) (by omega) (fun i _ => (i : ℝ))
    (fun i => 3 + 2 * (i % 2 : Nat)) (fun i _ => by omega) rfl (M := 10) (by omega) (.inl ⟨rfl, rfl, rfl, rfl⟩)
    (fun r hr => hx r (by omega)) hx hx
  have hbox : ∀ i, i ≤ 7 → ∀ r, r < 2 → InBox 1 (V i r) := by
    intro i
    induction i with
    | zero =>
      intro _ r hr
      obtain ⟨e1, -⟩ := h1 r hr
      rw [e1]
      exact hx _ (Nat.mod_lt _ (by omega))
    | succ i ih => exact fun hi => (h2 i hi).box hx (ih (by omega))
  have hc : ∀ i, i ≤ 7 → ∃ c, IsKmCost 2 1 cls 10 (fun i _ => (i : ℝ)) (fun i => ((3 + 2 * (i % 2 : Nat) : Int) : ℝ)) (V i) c := fun i hi => C93_cost_exists hx (hbox i hi)
  choose! c hc using hc
  exact ⟨V, cls, c, ⟨t', k', h3⟩, hc, fun i hi => C93_descent (by omega) (.inl rfl) (h2 i hi) (hc i hi.le) (hc (i + 1) hi)⟩

end BeeDNN
