import Verif.Spec.ClassWeight
import Verif.Props.TrainSchedule

/-! # Class balancing weights (C56) -/

namespace BeeDNN
open Finset Trainer

theorem classCount_succ (N : Nat) (cls : Nat → Nat) (k : Nat) : classCount (N + 1) cls k = classCount N cls k + if cls N = k then 1 else 0 := by
  unfold classCount
  rw [range_add_one, filter_insert]
  split
  · rw [card_insert_of_notMem (by simp)]
  · rfl

theorem classCount_sum (N K : Nat) (cls : Nat → Nat) (hc : ∀ i, i < N → cls i < K) : ∑ k ∈ range K, classCount N cls k = N := by
  have h := card_eq_sum_card_fiberwise (s := range N) (t := range K) (f := cls) fun i hi => by
    simpa using hc i (by simpa using hi)
  rw [card_range] at h
  exact h.symm

theorem classCount_pos {N : Nat} {cls : Nat → Nat} {k : Nat} : 0 < classCount N cls k ↔ ∃ i, i < N ∧ cls i = k := by
  unfold classCount
  rw [card_pos]
  constructor
  · rintro ⟨i, hi⟩
    rw [mem_filter, mem_range] at hi
    exact ⟨i, hi⟩
  · rintro ⟨i, hi⟩
    exact ⟨i, by rw [mem_filter, mem_range]; exact hi⟩

theorem countClass_ofFn {K k : Nat} (hk : k < K) (hK : K ≤ 2147483647) (f : Nat → Nat → ℝ) :
    countClass (Mat.ofFn K 1 f) (k : ℝ) = .ok (Mat.ofFn K 1 (fun i j => f i j + if i = k then 1 else 0)) := by
  unfold countClass
  rw [toInt_nat (by omega), bind_ok', check_true (by simpa using hk), bind_ok', if_neg (by omega)]
  rw [show (k : Int).toNat = k from rfl, Mat.get_ofFn hk (by decide), bind_ok', Mat.set_ofFn hk (by decide)]
  congr 1
  apply Mat.ofFn_congr
  intro i j _ hj
  obtain rfl : j = 0 := by omega
  by_cases h : i = k
  · subst h; simp
  · simp [h]

theorem countLoop_ofFn {N K : Nat} {cls : Nat → Nat} (hc : ∀ i, i < N → cls i < K) (hK : K ≤ 2147483647) {m : Mat ℝ}
    (hm : ∀ i, i < N → m.getI i = .ok (cls i : ℝ)) :
    forN N (fun i s => do
      let x ← m.getI i
      countClass s x) (Mat.ofFn K 1 (fun _ _ => (0 : ℝ))) = .ok (Mat.ofFn K 1 (fun k _ => (classCount N cls k : ℝ))) := by
  refine forN_closed' (fun n => Mat.ofFn K 1 (fun k _ => (classCount n cls k : ℝ))) ?_ rfl fun i hi => ?_
  · apply Mat.ofFn_congr
    intro i j _ _
    simp [classCount]
  · rw [hm i hi, bind_ok', countClass_ofFn (hc i hi) hK]
    congr 1
    apply Mat.ofFn_congr
    intro k j _ _
    rw [classCount_succ]
    by_cases h : k = cls i
    · subst h; simp
    · rw [if_neg h, if_neg (Ne.symm h)]; simp

theorem weights_ofFn {N K : Nat} (hN : 0 < N) {cls : Nat → Nat} (hc : ∀ i, i < N → cls i < K) (div0 : ℝ) {m : Mat ℝ}
    (hm : m = Mat.ofFn K 1 (fun k _ => (classCount N cls k : ℝ))) :
    ((do
      let s ← m.sum
      let m ← m.scale (if s = 0 then div0 else m.rows / s)
      forN m.size (fun i (m : Mat ℝ) => do
        let x ← m.getI i
        m.setI i (if x = 0 then div0 else 1 / x)) m) : Out (Mat ℝ)) =
    .ok (Mat.ofFn K 1 (fun k _ => if classCount N cls k = 0 then div0 else (N : ℝ) / (K * classCount N cls k))) := by
  have hK : 0 < K := lt_of_le_of_lt (Nat.zero_le _) (hc 0 hN)
  have hN' : (N : ℝ) ≠ 0 := by positivity
  have hK' : (K : ℝ) ≠ 0 := by positivity
  subst hm
  rw [C04_sum_double, bind_ok', show (∑ i ∈ range K, ∑ j ∈ range 1, (classCount N cls i : ℝ)) = N by
    have := classCount_sum N K cls hc
    simp only [sum_range_one]
    exact_mod_cast this, if_neg hN', Mat.scale_ofFn, bind_ok', Mat.ofFn_size, Mat.ofFn_rows, Nat.mul_one]
  refine forN_closed' (fun n => Mat.ofFn K 1 (fun k _ => if k < n then (if classCount N cls k = 0 then div0 else (N : ℝ) / (K * classCount N cls k))
    else (classCount N cls k : ℝ) * (K / N))) ?_ ?_ fun i hi => ?_
  · simp
  · apply Mat.ofFn_congr
    intro i j hi _
    rw [if_pos hi]
  · rw [Mat.getI_ofFn_col hi, bind_ok', Mat.setI_col hi, if_neg (lt_irrefl i)]
    congr 1
    apply Mat.ofFn_congr
    intro k j _ _
    by_cases h : k = i
    · subst h
      rw [if_pos rfl, if_pos (Nat.lt_succ_self k)]
      by_cases h0 : classCount N cls k = 0
      · rw [if_pos h0, if_pos (by rw [h0]; simp)]
      · have h1 : (classCount N cls k : ℝ) ≠ 0 := by exact_mod_cast h0
        rw [if_neg h0, if_neg (by positivity)]
        field_simp
    · rw [if_neg h]
      by_cases h' : k < i
      · rw [if_pos h', if_pos (show k < i + 1 by omega)]
      · rw [if_neg h', if_neg (show ¬ k < i + 1 by omega)]

/-- C56, labels: with class balancing and `N` labels whose largest is `K-1`, the weight of a class that occurs is
`N/(K*count)`; a class that does not occur divides by zero (`div0`, infinity in the code). -/
theorem C56_label_weights (g : Nat → ℝ) (div0 : ℝ) {N K : Nat} (hK : K ≤ 2147483647) (x : Mat ℝ) (t : Nat → Row) (cls : Nat → Nat)
    (ht : ∀ i, i < N → t i 0 = cls i) (hc : ∀ i, i < N → cls i < K) (hm : ∃ i, i < N ∧ cls i + 1 = K) :
    classWeights g div0 true true (some (x, Mat.ofFn N 1 t)) =
      .ok (Mat.ofFn K 1 (fun k _ => if classCount N cls k = 0 then div0 else (N : ℝ) / (K * classCount N cls k))) := by
  obtain ⟨i₀, hi₀, hi₁⟩ := hm
  unfold classWeights
  rw [if_neg (by decide)]
  dsimp only
  obtain ⟨M, m1, m2, i, j, m3, m4, m5⟩ := C04_maxCoeff N 1 (by omega) t
  obtain rfl : j = 0 := by omega
  have hM : M = ((K - 1 : Nat) : ℝ) := by
    have h1 := m2 i₀ 0 hi₀ (by decide)
    rw [ht i₀ hi₀] at h1
    rw [m5, ht i m3] at h1 ⊢
    have h2 : cls i₀ ≤ cls i := by exact_mod_cast h1
    have h3 := hc i m3
    rw [show cls i = K - 1 by omega]
  have hcnt : classCounts g (Mat.ofFn N 1 t) = .ok (Mat.ofFn K 1 (fun k _ => (classCount N cls k : ℝ))) := by
    unfold classCounts
    rw [if_neg (by simp), m1, bind_ok', hM, toInt_nat (by omega), bind_ok', if_neg (by omega),
      show (((K - 1 : Nat) : Int) + 1).toNat = K by omega, Mat.setConstantRC_ofFn g Mat.WF_empty, bind_ok', Mat.ofFn_rows]
    exact countLoop_ofFn hc hK fun i hi => by rw [Mat.getI_ofFn_col hi, ht i hi]
  rw [hcnt, bind_ok']
  exact weights_ofFn (by omega) hc div0 rfl

/-- C56, one-hot rows: the class of a row is the column of its (first) largest entry. -/
theorem C56_onehot_weights (g : Nat → ℝ) (div0 : ℝ) {N K : Nat} (hN : 0 < N) (hK : K ≤ 2147483647) (hK1 : K ≠ 1) (x : Mat ℝ) (t : Nat → Row) (cls : Nat → Nat)
    (ht : ∀ i, i < N → IsFirstMax K (t i) (cls i)) :
    classWeights g div0 true true (some (x, Mat.ofFn N K t)) =
      .ok (Mat.ofFn K 1 (fun k _ => if classCount N cls k = 0 then div0 else (N : ℝ) / (K * classCount N cls k))) := by
  have hc : ∀ i, i < N → cls i < K := fun i hi => (ht i hi).1
  have hK0 : 0 < K := lt_of_le_of_lt (Nat.zero_le _) (hc 0 hN)
  unfold classWeights
  rw [if_neg (by decide)]
  dsimp only
  have hcnt : classCounts g (Mat.ofFn N K t) = .ok (Mat.ofFn K 1 (fun k _ => (classCount N cls k : ℝ))) := by
    unfold classCounts
    obtain ⟨a, a1, a2⟩ := rowsArgmax_ofFn g (R := N) hK0 t (o := ⟨0, 0, []⟩) rfl
    rw [if_pos (by simpa using hK1), Mat.ofFn_cols, Mat.setConstantRC_ofFn g Mat.WF_empty, bind_ok', a2, bind_ok', Mat.ofFn_rows]
    refine countLoop_ofFn hc hK fun i hi => ?_
    rw [Mat.getI_ofFn_col hi]
    have h1 := a1 i hi
    have h2 := ht i hi
    have : a i = cls i := by
      rcases Nat.lt_trichotomy (a i) (cls i) with h | h | h
      · exact absurd (h2.2.2 _ h) (not_lt.2 (h1.2.1 _ h2.1))
      · exact h
      · exact absurd (h1.2.2 _ h) (not_lt.2 (h2.2.1 _ h1.1))
    rw [this]
  rw [hcnt, bind_ok']
  exact weights_ofFn hN hc div0 rfl

/-- C56: the weights `N/(K*count)` of the classes of the samples add up to the number of samples, if every class occurs. -/
theorem C56_total {N K : Nat} (hN : 0 < N) (cls : Nat → Nat) (hc : ∀ i, i < N → cls i < K) (hall : ∀ k, k < K → ∃ i, i < N ∧ cls i = k) :
    ∑ i ∈ range N, (N : ℝ) / (K * classCount N cls (cls i)) = N := by
  have hK : 0 < K := lt_of_le_of_lt (Nat.zero_le _) (hc 0 hN)
  have hK' : (K : ℝ) ≠ 0 := by positivity
  rw [← sum_fiberwise_of_maps_to (s := range N) (t := range K) (g := cls) (fun i hi => by simpa using hc i (by simpa using hi))]
  have : ∀ k ∈ range K, ∑ i ∈ range N with cls i = k, (N : ℝ) / (K * classCount N cls (cls i)) = (N : ℝ) / K := by
    intro k hk
    rw [sum_congr rfl (g := fun _ => (N : ℝ) / (K * classCount N cls k)) fun i hi => by rw [(mem_filter.1 hi).2], sum_const, nsmul_eq_mul]
    have h0 : (classCount N cls k : ℝ) ≠ 0 := by
      have := classCount_pos.2 (hall k (mem_range.1 hk))
      positivity
    show (classCount N cls k : ℝ) * _ = _
    field_simp
  rw [sum_congr rfl this, sum_const, card_range, nsmul_eq_mul]
  field_simp

/-- C56: after `fit` with class balancing, the loss of the trainer has these weights; without balancing or in regression
mode it has none. -/
theorem C56_fit {ab : ℝ → ℝ} {eps : ℝ} {e : FitEnv} {w w' : World} {t t' : Trainer} {n b : Nat} {seen : List (List (Option Layer))}
    (h : Fitted ab eps e w t n b w' t' seen) :
    ((w.nets n).classif = false ∨ t.balancing = false → t'.lossWeight.size = 0) ∧
    ((w.nets n).classif = true → t.balancing = true → classWeights e.g e.div0 true true t.train = .ok t'.lossWeight) := by
  obtain ⟨w₁, t₁, x, y, s₀, s, h1, h2, h3, h4, h5, h6, h7, h8, h9⟩ :=
    fit_split h.run h.layers h.slot h.owned h.valid h.fresh h.inOut h.gradient
  have hvb' : AllValid w (w.nets b).layers := by rw [h.fresh]; exact fun a ha => absurd ha List.not_mem_nil
  obtain ⟨a1, am, a2, a3, a4, -⟩ := setNet_inv h.slot h.owned h.valid hvb' h.inOut h.gradient h1
  obtain ⟨cw, w₀, b1, b2, -⟩ := start_inv h.slot a2 h3
  have hw : t'.lossWeight = cw := by
    have ss := h9.settings
    rw [h6] at ss
    rw [← ss, b2]
  have e1 : t₁.balancing = t.balancing := by rw [← a4]
  have e2 : t₁.train = t.train := by rw [← a4]
  rw [a1.nets, e1, e2] at b1
  rw [hw]
  refine ⟨fun hc => ?_, fun hc hb => ?_⟩
  · unfold classWeights at b1
    rw [if_pos (by rcases hc with hc | hc <;> simp [hc])] at b1
    injection b1 with b1
    rw [← b1]
    rfl
  · rw [hc, hb] at b1
    exact b1

/-- Labels 0, 1, 1, 2: weights 4/3, 2/3, 4/3. -/
example (g : Nat → ℝ) (x : Mat ℝ) : ∃ W : Nat → Nat → ℝ, classWeights g 0 true true (some (x, Mat.ofFn 4 1 (fun i _ => if i = 0 then 0 else if i < 3 then 1 else 2))) =
    .ok (Mat.ofFn 3 1 W) ∧ W 0 0 = 4 / 3 ∧ W 1 0 = 2 / 3 ∧ W 2 0 = 4 / 3 := by
  refine ⟨_, C56_label_weights g 0 (by decide) x _ (fun i => if i = 0 then 0 else if i < 3 then 1 else 2) (fun i hi => ?_) (fun i hi => ?_) ⟨3, by decide, by decide⟩,
    ?_, ?_, ?_⟩
  · interval_cases i <;> norm_num
  · interval_cases i <;> decide
  · rw [show classCount 4 (fun i => if i = 0 then 0 else if i < 3 then 1 else 2) 0 = 1 by decide]; norm_num
  · rw [show classCount 4 (fun i => if i = 0 then 0 else if i < 3 then 1 else 2) 1 = 2 by decide]; norm_num
  · rw [show classCount 4 (fun i => if i = 0 then 0 else if i < 3 then 1 else 2) 2 = 1 by decide]; norm_num

example (g : Nat → ℝ) (x : Mat ℝ) := C56_onehot_weights g 0 (N := 4) (K := 2) (by decide) (by decide) (by decide) x (fun i j => if i % 2 = j then 1 else 0) (fun i => i % 2)
  fun i hi => ⟨Nat.mod_lt _ (by decide), fun j _ => by dsimp only; rw [if_pos rfl]; split <;> norm_num,
    fun j hj => by dsimp only at hj ⊢; rw [if_pos rfl, if_neg (by omega)]; norm_num⟩

example := C56_total (N := 5) (K := 3) (by decide) (fun i => i % 3) (fun i _ => Nat.mod_lt i (by decide)) fun k hk => ⟨k, by omega, Nat.mod_eq_of_lt hk⟩

end BeeDNN
