import Verif.Lemmas.Metrics

/-!
# Confusion matrix, accuracy and balanced accuracy (Metrics.cpp)

`y` are the reference labels, `p` the predictions.
-/

namespace BeeDNN
open Finset

/-- C75: entry `(a,b)` of the confusion matrix is the number of samples of class `a` taken for class `b`.
The entries of row `a` sum to the number of samples of class `a`, all of them to the number of samples.
The diagonal sum is the number of right predictions and the accuracy is its share in percent, in [0,100], 100 exactly when all are right.
The number of classes is the given one or, if 0 is given, one more than the largest label.
Missing: no sample (`C75_no_sample`); predictions outside of the 64-bit integers. -/
theorem C75_confusion_partial (g : Nat → ℝ) (div0 : ℝ) {m : Metrics} (h1 : m.confusion.WF) (h2 : m.normalized.WF) {N K : Nat} {y p : Nat → ℝ} {nb : Int}
    (hN : 0 < N) (hK : NbClasses N y nb K) (hy : ∀ i, i < N → LabelOk K (y i)) (hp : ∀ i, i < N → |p i| ≤ 9 * 10 ^ 18) :
    ∃ m' c, m.compute g div0 (Mat.ofFn N 1 (fun i _ => y i)) (Mat.ofFn N 1 (fun i _ => p i)) nb = .ok m' ∧
      m'.confusion = Mat.ofFn K K c ∧
      (∀ a b, a < K → b < K → c a b = nbTaken N K y p a b) ∧
      (∀ a, a < K → ∑ b ∈ range K, c a b = nbClass N y a) ∧
      ∑ a ∈ range K, ∑ b ∈ range K, c a b = N ∧
      ∑ a ∈ range K, c a a = nbHits N K y p ∧
      m'.accuracy = 100 * (∑ a ∈ range K, c a a) / N ∧
      0 ≤ m'.accuracy ∧ m'.accuracy ≤ 100 ∧
      (m'.accuracy = 100 ↔ ∀ i, i < N → predClass K (p i) = refClass (y i)) := by
  have hN' : (0 : ℝ) < N := by exact_mod_cast hN
  have e1 : (∑ a ∈ range K, (nbTaken N K y p a a : ℝ)) = nbHits N K y p := by
    rw [← sum_nbTaken_diag (fun i hi => (hy i hi).2.2)]
    push_cast
    rfl
  have e2 : ∀ a, ∑ b ∈ range K, (nbTaken N K y p a b : ℝ) = nbClass N y a := fun a => by
    rw [← sum_nbTaken_row hK.1 y p a]
    push_cast
    rfl
  have hle : nbHits N K y p ≤ N := by
    unfold nbHits
    exact (card_filter_le _ _).trans (le_of_eq (card_range N))
  have hle' : (nbHits N K y p : ℝ) ≤ N := by exact_mod_cast hle
  have hacc : rdiv div0 (nbHits N K y p) N * 100 = 100 * (nbHits N K y p) / N := by
    unfold rdiv
    rw [if_neg hN'.ne']
    ring
  refine ⟨_, fun a b => (nbTaken N K y p a b : ℝ), Metrics.compute_ofFn g div0 h1 h2 hK hy hp, rfl, fun _ _ _ _ => rfl, fun a _ => e2 a, ?_, e1, ?_, ?_, ?_, ?_⟩
  · simp only [e2]
    exact_mod_cast sum_nbClass (fun i hi => (hy i hi).2.2)
  · rw [e1]
    exact hacc
  · dsimp only
    rw [hacc]
    positivity
  · dsimp only
    rw [hacc, div_le_iff₀ hN']
    linarith
  · dsimp only
    rw [hacc, div_eq_iff hN'.ne']
    constructor
    · intro h
      have h3 : nbHits N K y p = N := by
        have : (nbHits N K y p : ℝ) = N := by linarith
        exact_mod_cast this
      unfold nbHits at h3
      have := (card_filter_eq_iff (s := range N) (p := fun i => predClass K (p i) = refClass (y i))).1 (by rw [h3, card_range])
      exact fun i hi => this i (mem_range.2 hi)
    · intro h
      have h3 : nbHits N K y p = N := by
        unfold nbHits
        rw [filter_true_of_mem fun i hi => h i (mem_range.1 hi), card_range]
      rw [h3]

/-- C75 as claimed fails without samples: the accuracy is 100 times 0/0. -/
theorem C75_no_sample (g : Nat → ℝ) (div0 : ℝ) {m : Metrics} (h1 : m.confusion.WF) (h2 : m.normalized.WF) {K : Nat} (hK : 0 < K) (y p : Nat → ℝ) :
    ∃ m', m.compute g div0 (Mat.ofFn 0 1 (fun i _ => y i)) (Mat.ofFn 0 1 (fun i _ => p i)) K = .ok m' ∧ m'.accuracy = div0 * 100 := by
  refine ⟨_, Metrics.compute_ofFn g div0 h1 h2 ⟨hK, Or.inl rfl⟩ (fun i hi => absurd hi (by omega)) (fun i hi => absurd hi (by omega)), ?_⟩
  simp [rdiv]

/-- C75: the first reference label beyond the given number of classes stops the program in an assertion. -/
theorem C75_label_too_large (g : Nat → ℝ) (div0 : ℝ) {m : Metrics} (h1 : m.confusion.WF) {N K k : Nat} {y p : Nat → ℝ}
    (hk : k < N) (hK : 0 < K) (hy : ∀ i, i < k → LabelOk K (y i)) (hp : ∀ i, i < N → |p i| ≤ 9 * 10 ^ 18)
    (hbad : (K : ℝ) ≤ y k) (hbad' : y k ≤ 9 * 10 ^ 18) :
    m.compute g div0 (Mat.ofFn N 1 (fun i _ => y i)) (Mat.ofFn N 1 (fun i _ => p i)) K = .error .assertFail := by
  have h0 : (0 : ℝ) ≤ K := by positivity
  refine Metrics.compute_error g div0 h1 hk hK hy (fun i hi => hp i (by omega)) (toIndex_ref (by linarith) hbad') fun f b hb => ?_
  unfold Mat.incr
  rw [check_false]
  · rfl
  · rw [Mat.ofFn_rows]
    have : K ≤ refClass (y k) := Nat.le_floor hbad
    omega

/-- C75: a reference label of -1 or less passes the assertions and writes before the buffer, whatever the prediction. -/
theorem C75_negative_label (g : Nat → ℝ) (div0 : ℝ) {m : Metrics} (h1 : m.confusion.WF) {N K k : Nat} {y p : Nat → ℝ}
    (hk : k < N) (hK : 0 < K) (hy : ∀ i, i < k → LabelOk K (y i)) (hp : ∀ i, i < N → |p i| ≤ 9 * 10 ^ 18)
    (hbad : y k ≤ -1) (hbad' : -(9 * 10 ^ 18) ≤ y k) :
    m.compute g div0 (Mat.ofFn N 1 (fun i _ => y i)) (Mat.ofFn N 1 (fun i _ => p i)) K = .error .outOfBounds := by
  have hz : toIndex (y k) = .ok ⌈y k⌉ := by
    unfold toIndex
    rw [if_pos ⟨by linarith, by linarith⟩, if_neg (by linarith)]
  refine Metrics.compute_error g div0 h1 hk hK hy (fun i hi => hp i (by omega)) hz fun f b hb => ?_
  have hneg : ⌈y k⌉ ≤ -1 := by
    rw [Int.ceil_le]
    push_cast
    exact hbad
  have hprod : ⌈y k⌉ * (K : Int) ≤ -1 * K := by
    apply mul_le_mul_of_nonneg_right hneg
    omega
  unfold Mat.incr
  rw [check_true (by rw [Mat.ofFn_rows]; omega), bind_ok', check_true (by rw [Mat.ofFn_cols]; omega), bind_ok']
  dsimp only
  rw [Mat.ofFn_cols, if_pos (by omega)]

/-- C76: if every class occurs then entry `(a,b)` of the normalised matrix is the share in percent of the samples of class `a` taken for class `b`,
each row sums to 100, and the balanced accuracy is the mean of the diagonal, in [0,100], 100 exactly when every prediction is right. -/
theorem C76_normalized (g : Nat → ℝ) (div0 : ℝ) {m : Metrics} (h1 : m.confusion.WF) (h2 : m.normalized.WF) {N K : Nat} {y p : Nat → ℝ} {nb : Int}
    (hK : NbClasses N y nb K) (hy : ∀ i, i < N → LabelOk K (y i)) (hp : ∀ i, i < N → |p i| ≤ 9 * 10 ^ 18)
    (hall : ∀ a, a < K → ∃ i, i < N ∧ refClass (y i) = a) :
    ∃ m' c, m.compute g div0 (Mat.ofFn N 1 (fun i _ => y i)) (Mat.ofFn N 1 (fun i _ => p i)) nb = .ok m' ∧
      m'.normalized = Mat.ofFn K K c ∧
      (∀ a b, a < K → b < K → c a b = 100 * nbTaken N K y p a b / nbClass N y a) ∧
      (∀ a, a < K → ∑ b ∈ range K, c a b = 100) ∧
      m'.balanced = (∑ a ∈ range K, c a a) / K ∧
      0 ≤ m'.balanced ∧ m'.balanced ≤ 100 ∧
      (m'.balanced = 100 ↔ ∀ i, i < N → predClass K (p i) = refClass (y i)) := by
  have hK' : (0 : ℝ) < K := by exact_mod_cast hK.1
  have hpos : ∀ a, a < K → (0 : ℝ) < nbClass N y a := fun a ha => by
    obtain ⟨i, hi, hi'⟩ := hall a ha
    have : 0 < nbClass N y a := card_pos.2 ⟨i, mem_filter.2 ⟨mem_range.2 hi, hi'⟩⟩
    exact_mod_cast this
  have hc : ∀ a b, a < K → rdiv div0 (nbTaken N K y p a b) (nbClass N y a) * 100 = 100 * nbTaken N K y p a b / nbClass N y a := fun a b ha => by
    unfold rdiv
    rw [if_neg (hpos a ha).ne']
    ring
  have hbal : rdiv div0 (∑ a ∈ range K, rdiv div0 (nbTaken N K y p a a) (nbClass N y a) * 100) K =
      (∑ a ∈ range K, 100 * (nbTaken N K y p a a : ℝ) / nbClass N y a) / K := by
    have : ∑ a ∈ range K, rdiv div0 (nbTaken N K y p a a) (nbClass N y a) * 100 = ∑ a ∈ range K, 100 * (nbTaken N K y p a a : ℝ) / nbClass N y a :=
      sum_congr rfl fun a ha => hc a a (mem_range.1 ha)
    rw [this]
    unfold rdiv
    rw [if_neg hK'.ne']
  have hle : ∀ a ∈ range K, 100 * (nbTaken N K y p a a : ℝ) / nbClass N y a ≤ 100 := fun a ha => by
    have : (nbTaken N K y p a a : ℝ) ≤ nbClass N y a := by exact_mod_cast nbTaken_diag_le y p a a
    rw [div_le_iff₀ (hpos a (mem_range.1 ha))]
    linarith
  have hsum : ∑ a ∈ range K, (100 : ℝ) = 100 * K := by
    rw [sum_const, card_range, nsmul_eq_mul]
    ring
  refine ⟨_, fun a b => 100 * nbTaken N K y p a b / nbClass N y a, Metrics.compute_ofFn g div0 h1 h2 hK hy hp,
    Mat.ofFn_congr fun a b ha _ => hc a b ha, fun _ _ _ _ => rfl, ?_, hbal, ?_, ?_, ?_⟩
  · intro a ha
    rw [← sum_div, ← mul_sum]
    have : ∑ b ∈ range K, (nbTaken N K y p a b : ℝ) = nbClass N y a := by
      rw [← sum_nbTaken_row hK.1 y p a]
      push_cast
      rfl
    rw [this, mul_div_assoc, div_self (hpos a ha).ne', mul_one]
  · dsimp only
    rw [hbal]
    positivity
  · dsimp only
    rw [hbal, div_le_iff₀ hK', ← hsum]
    exact sum_le_sum hle
  · dsimp only
    rw [hbal, div_eq_iff hK'.ne', ← hsum, sum_eq_sum_iff_of_le hle]
    constructor
    · intro h i hi
      have ha := (hy i hi).2.2
      have := h _ (mem_range.2 ha)
      rw [div_eq_iff (hpos _ ha).ne'] at this
      have h3 : nbTaken N K y p (refClass (y i)) (refClass (y i)) = nbClass N y (refClass (y i)) := by
        have : (nbTaken N K y p (refClass (y i)) (refClass (y i)) : ℝ) = nbClass N y (refClass (y i)) := by linarith
        exact_mod_cast this
      exact nbTaken_eq_nbClass.1 h3 i hi rfl
    · intro h a ha
      have h3 : nbTaken N K y p a a = nbClass N y a := nbTaken_eq_nbClass.2 fun i hi hi' => by rw [h i hi, hi']
      rw [h3, mul_div_assoc, div_self (hpos a (mem_range.1 ha)).ne', mul_one]

/-- C76: a class without samples gives a row of 0/0 in the normalised matrix; with a given number of classes this enters the balanced accuracy. -/
theorem C76_absent_class (g : Nat → ℝ) (div0 : ℝ) {m : Metrics} (h1 : m.confusion.WF) (h2 : m.normalized.WF) {N K : Nat} {y p : Nat → ℝ} {nb : Int}
    (hK : NbClasses N y nb K) (hy : ∀ i, i < N → LabelOk K (y i)) (hp : ∀ i, i < N → |p i| ≤ 9 * 10 ^ 18)
    {a : Nat} (ha : a < K) (habs : ∀ i, i < N → refClass (y i) ≠ a) :
    ∃ m' c, m.compute g div0 (Mat.ofFn N 1 (fun i _ => y i)) (Mat.ofFn N 1 (fun i _ => p i)) nb = .ok m' ∧
      m'.normalized = Mat.ofFn K K c ∧ (∀ b, b < K → c a b = div0 * 100) ∧
      m'.balanced = (div0 * 100 + ∑ b ∈ (range K).erase a, c b b) / K := by
  have h0 : nbClass N y a = 0 := by
    unfold nbClass
    rw [card_eq_zero, filter_eq_empty_iff]
    exact fun i hi => habs i (mem_range.1 hi)
  have hK' : (0 : ℝ) < K := by exact_mod_cast hK.1
  refine ⟨_, fun a b => rdiv div0 (nbTaken N K y p a b) (nbClass N y a) * 100, Metrics.compute_ofFn g div0 h1 h2 hK hy hp, rfl, ?_, ?_⟩
  · intro b hb
    simp [h0, rdiv]
  · dsimp only
    rw [← add_sum_erase _ _ (mem_range.2 ha)]
    rw [rdiv, if_neg hK'.ne']
    congr 2
    simp [h0, rdiv]

/-- Three samples of classes 0, 1, 1 with predictions 0.2, 0.4, 7. -/
example (g : Nat → ℝ) (div0 : ℝ) :
    ∃ m' c, ({} : Metrics).compute g div0 (Mat.ofFn 3 1 (fun i _ => if i = 0 then 0 else 1))
      (Mat.ofFn 3 1 (fun i _ => if i = 0 then 0.2 else if i = 1 then 0.4 else 7)) 0 = .ok m' ∧
      m'.normalized = Mat.ofFn 2 2 c ∧ ∑ b ∈ range 2, c 1 b = 100 := by
  have hr0 : refClass 0 = 0 := by simp [refClass]
  have hr1 : refClass 1 = 1 := by simp [refClass]
  obtain ⟨m', c, h, h2, -, h3, -⟩ := C76_normalized g div0 (m := {}) (K := 2) (N := 3) (nb := 0) rfl rfl
    (y := fun i => if i = 0 then 0 else 1) (p := fun i => if i = 0 then 0.2 else if i = 1 then 0.4 else 7)
    ⟨by omega, Or.inr ⟨rfl, 1, by omega, by simp [hr1], fun j _ => by dsimp only; split <;> norm_num⟩⟩
    (fun i _ => by split <;> refine ⟨by norm_num, by norm_num, by simp [hr0, hr1]⟩)
    (fun i _ => by split <;> [skip; split] <;> (rw [abs_of_nonneg] <;> norm_num))
    (fun a ha => by
      rcases Nat.lt_or_ge a 1 with h | h
      · exact ⟨0, by omega, by simp [hr0]; omega⟩
      · exact ⟨1, by omega, by simp [hr1]; omega⟩)
  exact ⟨m', c, h, h2, h3 1 (by omega)⟩

end BeeDNN
