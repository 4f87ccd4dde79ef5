import Verif.Lemmas.KMeansTrain

/-! # References with the squared distance -/

namespace BeeDNN
open Finset

theorem box_near {eps : ℝ} {C : Nat} {a b : Row} (ha : InBox C a) (hb : InBox C b) : sampleLoss eps "MeanSquaredError" C a b < kmFar := by
  have h1 : sampleLoss eps "MeanSquaredError" C a b = (∑ j ∈ range C, (a j - b j) ^ 2) / C := rfl
  rw [h1]
  rcases Nat.eq_zero_or_pos C with rfl | hC
  · simp [kmFar]
  have hC' : (0 : ℝ) < C := Nat.cast_pos.2 hC
  have h2 : ∑ j ∈ range C, (a j - b j) ^ 2 ≤ ∑ j ∈ range C, (4 * 10 ^ 36 : ℝ) := by
    refine sum_le_sum fun j hj => ?_
    have q1 := abs_le.1 (ha j (mem_range.1 hj))
    have q2 := abs_le.1 (hb j (mem_range.1 hj))
    nlinarith
  rw [sum_const, card_range, nsmul_eq_mul] at h2
  rw [div_lt_iff₀ hC']
  refine h2.trans_lt ?_
  unfold kmFar
  nlinarith

theorem exists_nearest_of {n : Nat} {ok : Nat → Prop} {d : Nat → ℝ} {q : Nat} (hq : q < n) (ho : ok q) (hd : d q < kmFar) : ∃ r, IsNearest n ok d r := by
  classical
  obtain ⟨b, -, h | ⟨r, -, hr⟩⟩ := search_loop (n := n) (ok := ok) (d := d) (f := fun q b => .ok (if ok q then (if d q < b.1 then (d q, (q : Int)) else b) else b))
    (fun _ _ h _ => by rw [if_pos h]) (fun _ _ h _ => by rw [if_neg h])
  · exact absurd hd (not_lt.2 (h.2 q hq ho))
  · exact ⟨r, hr⟩

theorem MeansOf.box {n C : Nat} {D : Row → Row → ℝ} {cls : Nat → ℝ} {x : Nat → Row} {lab : Nat → ℝ} {S : Finset Nat} {V V' : Nat → Row}
    (h : MeansOf n C D cls x lab S V V') (hx : ∀ i, i ∈ S → InBox C (x i)) (hV : ∀ r, r < n → InBox C (V r)) : ∀ r, r < n → InBox C (V' r) := by
  intro r hr j hj
  obtain ⟨h1, h2⟩ := h r hr j hj
  rcases (wonBy n D cls x lab V S r).eq_empty_or_nonempty with he | he
  · rw [h1 he]
    exact hV r hr j hj
  · rw [h2 he, abs_div, Nat.abs_cast, div_le_iff₀ (Nat.cast_pos.2 (card_pos.2 he))]
    refine (abs_sum_le_sum_abs _ _).trans ?_
    refine (sum_le_sum fun i hi => hx i (KMeansTrain.wonBy_subset hi) j hj).trans ?_
    rw [sum_const, nsmul_eq_mul, mul_comm]

theorem KmEpoch.box {n C N : Nat} {D : Row → Row → ℝ} {cls : Nat → ℝ} {b : Int} {x : Nat → Row} {lab : Nat → ℝ} {V V' : Nat → Row}
    (h : KmEpoch n C D cls N b x lab V V') (hx : ∀ i, i < N → InBox C (x i)) (hV : ∀ r, r < n → InBox C (V r)) : ∀ r, r < n → InBox C (V' r) := by
  obtain ⟨σ, W, h1, h2, h3, h4⟩ := h
  have hσ : ∀ s, s < N → σ s < N := fun s hs =>
    List.mem_range.1 (h1.mem_iff.1 (List.mem_map.2 ⟨s, List.mem_range.2 hs, rfl⟩))
  have : ∀ k, k ≤ kmBatches N b → ∀ r, r < n → InBox C (W k r) := by
    intro k
    induction k with
    | zero => rw [h2]; exact fun _ => hV
    | succ k ih =>
      intro hk
      refine (h4 k hk).box (fun i hi => hx _ (hσ i ?_)) (ih (by omega))
      unfold kmBatch at hi
      exact mem_range.1 (mem_filter.1 hi).1
  rw [← h3]
  exact this _ (le_refl _)

/-- The mean minimises the sum of squares. -/
theorem sum_sq_mean_le {w : Finset Nat} (hw : w.Nonempty) (y : Nat → ℝ) (v : ℝ) :
    ∑ i ∈ w, (y i - (∑ k ∈ w, y k) / w.card) ^ 2 ≤ ∑ i ∈ w, (y i - v) ^ 2 := by
  have hc : (0 : ℝ) < w.card := Nat.cast_pos.2 (card_pos.2 hw)
  obtain ⟨m, hm⟩ : ∃ m, m = (∑ k ∈ w, y k) / w.card := ⟨_, rfl⟩
  have hs : ∑ k ∈ w, y k = m * w.card := by rw [hm]; field_simp
  rw [← hm]
  have key : ∑ i ∈ w, (y i - v) ^ 2 = ∑ i ∈ w, (y i - m) ^ 2 + w.card * (m - v) ^ 2 := by
    have : ∀ i ∈ w, (y i - v) ^ 2 = (y i - m) ^ 2 + (2 * (m - v) * y i + (v ^ 2 - m ^ 2)) := fun i _ => by ring
    rw [sum_congr rfl this, sum_add_distrib, sum_add_distrib, ← mul_sum, hs, sum_const, nsmul_eq_mul]
    ring
  rw [key]
  have := mul_nonneg hc.le (sq_nonneg (m - v))
  linarith

theorem meansOf_descent {n C N : Nat} {eps : ℝ} {cls : Nat → ℝ} {x : Nat → Row} {lab : Nat → ℝ} {V V' : Nat → Row}
    (h : MeansOf n C (sampleLoss eps "MeanSquaredError" C) cls x lab (range N) V V') {c c' : ℝ}
    (hc : IsKmCost n C cls N x lab V c) (hc' : IsKmCost n C cls N x lab V' c') : c' ≤ c := by
  classical
  obtain ⟨ρ, p1, rfl⟩ := hc
  obtain ⟨ρ', q1, rfl⟩ := hc'
  obtain ⟨T, hT⟩ : ∃ T : Finset Nat, T = (range N).filter (fun i => ∃ q, q < n ∧ cls q = lab i) := ⟨_, rfl⟩
  have hTm : ∀ i, i ∈ T ↔ i < N ∧ ∃ q, q < n ∧ cls q = lab i := fun i => by rw [hT, mem_filter, mem_range]
  have hρ : ∀ i ∈ T, ρ i ∈ range n := fun i hi => by
    obtain ⟨h1, q, h2, h3⟩ := (hTm i).1 hi
    exact mem_range.2 (p1 i h1 q h2 h3).1
  have hwon : ∀ r, wonBy n (sampleLoss eps "MeanSquaredError" C) cls x lab V (range N) r = T.filter (fun i => ρ i = r) := fun r => by
    ext i
    unfold wonBy
    rw [mem_filter, mem_filter, hTm, mem_range]
    constructor
    · rintro ⟨h1, h2⟩
      exact ⟨⟨h1, r, h2.1, h2.2.1⟩, (p1 i h1 r h2.1 h2.2.1).unique h2⟩
    · rintro ⟨⟨h1, q, h2, h3⟩, rfl⟩
      exact ⟨h1, p1 i h1 q h2 h3⟩
  have step1 : ∑ i ∈ T, (∑ j ∈ range C, (x i j - V' (ρ' i) j) ^ 2) / C ≤ ∑ i ∈ T, (∑ j ∈ range C, (x i j - V' (ρ i) j) ^ 2) / C := by
    refine sum_le_sum fun i hi => ?_
    obtain ⟨h1, q, h2, h3⟩ := (hTm i).1 hi
    exact (q1 i h1 q h2 h3).2.2.2.1 (ρ i) (p1 i h1 q h2 h3).1 (p1 i h1 q h2 h3).2.1
  have step2 : ∑ i ∈ T, (∑ j ∈ range C, (x i j - V' (ρ i) j) ^ 2) / C ≤ ∑ i ∈ T, (∑ j ∈ range C, (x i j - V (ρ i) j) ^ 2) / C := by
    rw [← sum_fiberwise_of_maps_to hρ, ← sum_fiberwise_of_maps_to hρ]
    refine sum_le_sum fun r hr => ?_
    rw [← hwon r]
    have hre : ∀ i ∈ wonBy n (sampleLoss eps "MeanSquaredError" C) cls x lab V (range N) r, ρ i = r := fun i hi => by
      rw [hwon r] at hi
      exact (mem_filter.1 hi).2
    have hsw : ∀ U : Nat → Row, ∑ i ∈ wonBy n (sampleLoss eps "MeanSquaredError" C) cls x lab V (range N) r, (∑ j ∈ range C, (x i j - U (ρ i) j) ^ 2) / (C : ℝ) =
        ∑ i ∈ wonBy n (sampleLoss eps "MeanSquaredError" C) cls x lab V (range N) r, (∑ j ∈ range C, (x i j - U r j) ^ 2) / (C : ℝ) := fun U =>
      sum_congr rfl (fun i hi => by rw [hre i hi])
    rw [hsw V', hsw V]
    rw [← sum_div, ← sum_div]
    refine div_le_div_of_nonneg_right ?_ (Nat.cast_nonneg C)
    rw [sum_comm, sum_comm (t := range C)]
    refine sum_le_sum fun j hj => ?_
    obtain ⟨h1, h2⟩ := h r (mem_range.1 hr) j (mem_range.1 hj)
    rcases (wonBy n (sampleLoss eps "MeanSquaredError" C) cls x lab V (range N) r).eq_empty_or_nonempty with he | he
    · rw [he]
      simp
    · rw [h2 he]
      exact sum_sq_mean_le he (fun i => x i j) (V r j)
  refine le_trans (le_of_eq ?_) (step1.trans (step2.trans (le_of_eq ?_)))
  · rw [hT]
  · rw [hT]

end BeeDNN
