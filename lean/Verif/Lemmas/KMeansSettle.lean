import Verif.Lemmas.KMeansBox
import Mathlib.Data.Fintype.BigOperators
import Mathlib.Data.Fintype.Pi
import Mathlib.Data.Fintype.Pigeonhole

/-! # References settle: helper lemmas -/

namespace BeeDNN
open Finset

/-- Sum of the squared distances of the samples `P r` to the reference `V r`. -/
noncomputable def kmSpread (n C : Nat) (x : Nat → Row) (P : Nat → Finset Nat) (V : Nat → Row) : ℝ :=
  ∑ r ∈ range n, ∑ i ∈ P r, ∑ j ∈ range C, (x i j - V r j) ^ 2

theorem sum_sq_mean_eq {w : Finset Nat} (hw : w.Nonempty) (y : Nat → ℝ) (v : ℝ) :
    ∑ i ∈ w, (y i - v) ^ 2 = ∑ i ∈ w, (y i - (∑ k ∈ w, y k) / w.card) ^ 2 + w.card * ((∑ k ∈ w, y k) / w.card - v) ^ 2 := by
  have hc : (0 : ℝ) < w.card := Nat.cast_pos.2 (card_pos.2 hw)
  obtain ⟨m, hm⟩ : ∃ m, m = (∑ k ∈ w, y k) / w.card := ⟨_, rfl⟩
  have hs : ∑ k ∈ w, y k = m * w.card := by rw [hm]; field_simp
  rw [← hm]
  have : ∀ i ∈ w, (y i - v) ^ 2 = (y i - m) ^ 2 + (2 * (m - v) * y i + (v ^ 2 - m ^ 2)) := fun i _ => by ring
  rw [sum_congr rfl this, sum_add_distrib, sum_add_distrib, ← mul_sum, hs, sum_const, nsmul_eq_mul]
  ring

/-- What an epoch gains for the samples as they were assigned before it. -/
theorem spread_gain {n C : Nat} {D : Row → Row → ℝ} {cls : Nat → ℝ} {x : Nat → Row} {lab : Nat → ℝ} {S : Finset Nat} {V V' : Nat → Row}
    (h : MeansOf n C D cls x lab S V V') :
    kmSpread n C x (wonBy n D cls x lab V S) V = kmSpread n C x (wonBy n D cls x lab V S) V' +
      ∑ r ∈ range n, ∑ j ∈ range C, (wonBy n D cls x lab V S r).card * (V' r j - V r j) ^ 2 := by
  unfold kmSpread
  rw [← sum_add_distrib]
  refine sum_congr rfl fun r hr => ?_
  rw [sum_comm, sum_comm (t := range C), ← sum_add_distrib]
  refine sum_congr rfl fun j hj => ?_
  obtain ⟨h1, h2⟩ := h r (mem_range.1 hr) j (mem_range.1 hj)
  rcases (wonBy n D cls x lab V S r).eq_empty_or_nonempty with he | he
  · rw [he]
    simp
  · rw [h2 he]
    exact sum_sq_mean_eq he (fun i => x i j) (V r j)

theorem spread_le {n C : Nat} {D : Row → Row → ℝ} {cls : Nat → ℝ} {x : Nat → Row} {lab : Nat → ℝ} {S : Finset Nat} {V V' : Nat → Row}
    (h : MeansOf n C D cls x lab S V V') :
    kmSpread n C x (wonBy n D cls x lab V S) V' ≤ kmSpread n C x (wonBy n D cls x lab V S) V := by
  rw [spread_gain h]
  refine le_add_of_nonneg_right (sum_nonneg fun r _ => sum_nonneg fun j _ => by positivity)

theorem spread_eq {n C : Nat} {D : Row → Row → ℝ} {cls : Nat → ℝ} {x : Nat → Row} {lab : Nat → ℝ} {S : Finset Nat} {V V' : Nat → Row}
    (h : MeansOf n C D cls x lab S V V')
    (he : kmSpread n C x (wonBy n D cls x lab V S) V' = kmSpread n C x (wonBy n D cls x lab V S) V) : SameRefs n C V V' := by
  rw [spread_gain h] at he
  have h0 := add_eq_left.1 he.symm
  rw [sum_eq_zero_iff_of_nonneg (fun r _ => sum_nonneg fun j _ => by positivity)] at h0
  intro r hr j hj
  have h1 := h0 r (mem_range.2 hr)
  rw [sum_eq_zero_iff_of_nonneg (fun j _ => by positivity)] at h1
  have h2 := h1 j (mem_range.2 hj)
  rcases (wonBy n D cls x lab V S r).eq_empty_or_nonempty with hw | hw
  · exact ((h r hr j hj).1 hw).symm
  · rcases mul_eq_zero.1 h2 with h3 | h3
    · exact absurd h3 (Nat.cast_ne_zero.2 (card_pos.2 hw).ne')
    · exact (sub_eq_zero.1 (pow_eq_zero_iff two_ne_zero |>.1 h3)).symm

/-- The references after an epoch fit the samples as well as the assignment before it allows. -/
theorem spread_of_same {n C : Nat} {D : Row → Row → ℝ} {cls : Nat → ℝ} {x : Nat → Row} {lab : Nat → ℝ} {S : Finset Nat} {V V' U U' : Nat → Row}
    (h : MeansOf n C D cls x lab S V V') (h' : MeansOf n C D cls x lab S U U')
    (he : ∀ r, r < n → wonBy n D cls x lab V S r = wonBy n D cls x lab U S r) :
    kmSpread n C x (wonBy n D cls x lab V S) V' = kmSpread n C x (wonBy n D cls x lab U S) U' := by
  unfold kmSpread
  refine sum_congr rfl fun r hr => ?_
  have hr' := mem_range.1 hr
  rw [he r hr']
  refine sum_congr rfl fun i hi => sum_congr rfl fun j hj => ?_
  have hne : (wonBy n D cls x lab U S r).Nonempty := ⟨i, hi⟩
  rw [(h' r hr' j (mem_range.1 hj)).2 hne, (h r hr' j (mem_range.1 hj)).2 (by rw [he r hr']; exact hne), he r hr']

/-- The nearest references of the samples. -/
theorem exists_assignment {n C N : Nat} {eps : ℝ} {cls : Nat → ℝ} {x : Nat → Row} {lab : Nat → ℝ} {V : Nat → Row} (hx : ∀ i, i < N → InBox C (x i))
    (hV : ∀ r, r < n → InBox C (V r)) :
    ∃ ρ : Nat → Nat, (∀ i, i < N → ∀ q, q < n → cls q = lab i →
        IsNearest n (fun q => cls q = lab i) (fun q => sampleLoss eps "MeanSquaredError" C (x i) (V q)) (ρ i)) ∧
      ∀ r i, i ∈ wonBy n (sampleLoss eps "MeanSquaredError" C) cls x lab V (range N) r ↔ (i < N ∧ ∃ q, q < n ∧ cls q = lab i) ∧ ρ i = r := by
  have hρ : ∀ i, i < N → (∃ q, q < n ∧ cls q = lab i) → ∃ r, IsNearest n (fun q => cls q = lab i) (fun q => sampleLoss eps "MeanSquaredError" C (x i) (V q)) r := by
    rintro i hi ⟨q, hq, hq'⟩
    exact exists_nearest_of hq hq' (box_near (hx i hi) (hV q hq))
  classical
  choose! ρ hρ using hρ
  refine ⟨ρ, fun i hi q hq hq' => hρ i hi ⟨q, hq, hq'⟩, fun r i => ?_⟩
  unfold wonBy
  rw [mem_filter, mem_range]
  constructor
  · rintro ⟨h1, h2⟩
    exact ⟨⟨h1, r, h2.1, h2.2.1⟩, (hρ i h1 ⟨r, h2.1, h2.2.1⟩).unique h2⟩
  · rintro ⟨⟨h1, h2⟩, rfl⟩
    exact ⟨h1, hρ i h1 h2⟩

/-- Assigning the samples to the nearest references fits best. -/
theorem spread_nearest {n C N : Nat} (hC : 0 < C) {eps : ℝ} {cls : Nat → ℝ} {x : Nat → Row} {lab : Nat → ℝ} {V V' : Nat → Row} (hx : ∀ i, i < N → InBox C (x i))
    (hV : ∀ r, r < n → InBox C (V r)) (hV' : ∀ r, r < n → InBox C (V' r)) :
    kmSpread n C x (wonBy n (sampleLoss eps "MeanSquaredError" C) cls x lab V' (range N)) V' ≤
      kmSpread n C x (wonBy n (sampleLoss eps "MeanSquaredError" C) cls x lab V (range N)) V' := by
  classical
  obtain ⟨ρ, p1, p2⟩ := exists_assignment (eps := eps) (cls := cls) (lab := lab) hx hV
  obtain ⟨ρ', q1, q2⟩ := exists_assignment (eps := eps) (cls := cls) (lab := lab) hx hV'
  obtain ⟨T, hT⟩ : ∃ T : Finset Nat, T = (range N).filter (fun i => ∃ q, q < n ∧ cls q = lab i) := ⟨_, rfl⟩
  have hTm : ∀ i, i ∈ T ↔ i < N ∧ ∃ q, q < n ∧ cls q = lab i := fun i => by rw [hT, mem_filter, mem_range]
  have key : ∀ (U : Nat → Row) (τ : Nat → Nat),
      (∀ i, i < N → ∀ q, q < n → cls q = lab i → IsNearest n (fun q => cls q = lab i) (fun q => sampleLoss eps "MeanSquaredError" C (x i) (U q)) (τ i)) →
      (∀ r i, i ∈ wonBy n (sampleLoss eps "MeanSquaredError" C) cls x lab U (range N) r ↔ (i < N ∧ ∃ q, q < n ∧ cls q = lab i) ∧ τ i = r) →
      kmSpread n C x (wonBy n (sampleLoss eps "MeanSquaredError" C) cls x lab U (range N)) V' = ∑ i ∈ T, ∑ j ∈ range C, (x i j - V' (τ i) j) ^ 2 := by
    intro U τ w1 w2
    have hτ : ∀ i ∈ T, τ i ∈ range n := fun i hi => by
      obtain ⟨h1, q, h2, h3⟩ := (hTm i).1 hi
      exact mem_range.2 (w1 i h1 q h2 h3).1
    rw [← sum_fiberwise_of_maps_to hτ]
    unfold kmSpread
    refine sum_congr rfl fun r _ => ?_
    have : wonBy n (sampleLoss eps "MeanSquaredError" C) cls x lab U (range N) r = T.filter (fun i => τ i = r) := by
      ext i
      rw [w2, mem_filter, hTm]
    rw [this]
    exact sum_congr rfl fun i hi => by rw [(mem_filter.1 hi).2]
  rw [key V' ρ' q1 q2, key V ρ p1 p2]
  refine sum_le_sum fun i hi => ?_
  obtain ⟨h1, q, h2, h3⟩ := (hTm i).1 hi
  have := (q1 i h1 q h2 h3).2.2.2.1 (ρ i) (p1 i h1 q h2 h3).1 (p1 i h1 q h2 h3).2.1
  have e : ∀ U : Row, sampleLoss eps "MeanSquaredError" C (x i) U = (∑ j ∈ range C, (x i j - U j) ^ 2) / C := fun _ => rfl
  dsimp only at this
  rw [e, e] at this
  exact (div_le_div_iff_of_pos_right (Nat.cast_pos.2 hC)).1 this

theorem IsNearest.congr_dist {n : Nat} {ok : Nat → Prop} {d d' : Nat → ℝ} {r : Nat} (h : IsNearest n ok d r) (hd : ∀ q, q < n → d q = d' q) : IsNearest n ok d' r := by
  obtain ⟨h1, h2, h3, h4, h5⟩ := h
  refine ⟨h1, h2, hd r h1 ▸ h3, fun q hq ho => ?_, fun q hq ho => ?_⟩
  · rw [← hd r h1, ← hd q hq]
    exact h4 q hq ho
  · rw [← hd r h1, ← hd q (hq.trans h1)]
    exact h5 q hq ho

/-- The same cells give the same nearest references. -/
theorem wonBy_same {n C : Nat} {eps : ℝ} {cls : Nat → ℝ} {x : Nat → Row} {lab : Nat → ℝ} {S : Finset Nat} {V U : Nat → Row} (h : SameRefs n C V U) (r : Nat) :
    wonBy n (sampleLoss eps "MeanSquaredError" C) cls x lab V S r = wonBy n (sampleLoss eps "MeanSquaredError" C) cls x lab U S r := by
  classical
  have hd : ∀ i q, q < n → sampleLoss eps "MeanSquaredError" C (x i) (V q) = sampleLoss eps "MeanSquaredError" C (x i) (U q) := fun i q hq => by
    have e : ∀ W : Row, sampleLoss eps "MeanSquaredError" C (x i) W = (∑ j ∈ range C, (x i j - W j) ^ 2) / C := fun _ => rfl
    rw [e, e]
    congr 1
    exact sum_congr rfl fun j hj => by rw [h q hq j (mem_range.1 hj)]
  unfold wonBy
  exact filter_congr fun i _ => ⟨fun hh => hh.congr_dist fun q hq => hd i q hq, fun hh => hh.congr_dist fun q hq => (hd i q hq).symm⟩

/-- The references before an epoch determine those after it. -/
theorem meansOf_same {n C : Nat} {eps : ℝ} {cls : Nat → ℝ} {x : Nat → Row} {lab : Nat → ℝ} {S : Finset Nat} {V V' U U' : Nat → Row}
    (h : MeansOf n C (sampleLoss eps "MeanSquaredError" C) cls x lab S V V') (h' : MeansOf n C (sampleLoss eps "MeanSquaredError" C) cls x lab S U U')
    (he : SameRefs n C V U) : SameRefs n C V' U' := by
  intro r hr j hj
  obtain ⟨a1, a2⟩ := h r hr j hj
  obtain ⟨b1, b2⟩ := h' r hr j hj
  rw [wonBy_same he] at a1 a2
  rcases (wonBy n (sampleLoss eps "MeanSquaredError" C) cls x lab U S r).eq_empty_or_nonempty with hw | hw
  · rw [a1 hw, b1 hw, he r hr j hj]
  · rw [a2 hw, b2 hw]

theorem meansOf_congr {n C : Nat} {eps : ℝ} {cls : Nat → ℝ} {x : Nat → Row} {lab : Nat → ℝ} {S : Finset Nat} {V V' U U' : Nat → Row}
    (h : MeansOf n C (sampleLoss eps "MeanSquaredError" C) cls x lab S V V') (he : SameRefs n C V U) (he' : SameRefs n C V' U') :
    MeansOf n C (sampleLoss eps "MeanSquaredError" C) cls x lab S U U' := by
  intro r hr j hj
  obtain ⟨a1, a2⟩ := h r hr j hj
  rw [wonBy_same he] at a1 a2
  exact ⟨fun hw => by rw [← he' r hr j hj, a1 hw, he r hr j hj], fun hw => by rw [← he' r hr j hj, a2 hw]⟩

theorem MeansOf.congr_cls {n C : Nat} {D : Row → Row → ℝ} {cls cls' : Nat → ℝ} {x : Nat → Row} {lab : Nat → ℝ} {S : Finset Nat} {V V' : Nat → Row}
    (h : MeansOf n C D cls x lab S V V') (hc : ∀ r, r < n → cls r = cls' r) : MeansOf n C D cls' x lab S V V' := by
  classical
  have hw : ∀ r, wonBy n D cls x lab V S r = wonBy n D cls' x lab V S r := fun r => by
    unfold wonBy
    refine filter_congr fun i _ => ⟨?_, ?_⟩
    · rintro ⟨h1, h2, h3, h4, h5⟩
      exact ⟨h1, (hc r h1).symm.trans h2, h3, fun q hq ho => h4 q hq ((hc q hq).trans ho), fun q hq ho => h5 q hq ((hc q (hq.trans h1)).trans ho)⟩
    · rintro ⟨h1, h2, h3, h4, h5⟩
      exact ⟨h1, (hc r h1).trans h2, h3, fun q hq ho => h4 q hq ((hc q hq).symm.trans ho), fun q hq ho => h5 q hq ((hc q (hq.trans h1)).symm.trans ho)⟩
  intro r hr j hj
  rw [← hw]
  exact h r hr j hj

/-- References that move to the means of the samples they win stop after at most `n ^ N` epochs. -/
theorem settle {n C N : Nat} (hn : 0 < n) (hC : 0 < C) {eps : ℝ} {cls : Nat → ℝ} {x : Nat → Row} {lab : Nat → ℝ} {V : Nat → Nat → Row} {E : Nat}
    (hx : ∀ i, i < N → InBox C (x i)) (hV : ∀ k, k ≤ E → ∀ r, r < n → InBox C (V k r))
    (h : ∀ k, k < E → MeansOf n C (sampleLoss eps "MeanSquaredError" C) cls x lab (range N) (V k) (V (k + 1))) (hE : n ^ N < E) :
    ∀ k, n ^ N ≤ k → k ≤ E → SameRefs n C (V k) (V (n ^ N)) := by
  classical
  obtain ⟨P, hP⟩ : ∃ P : Nat → Nat → Finset Nat, ∀ k, P k = wonBy n (sampleLoss eps "MeanSquaredError" C) cls x lab (V k) (range N) := ⟨_, fun _ => rfl⟩
  have g1 : ∀ k, k < E → kmSpread n C x (P k) (V (k + 1)) ≤ kmSpread n C x (P k) (V k) := fun k hk => by
    rw [hP]
    exact spread_le (h k hk)
  have g2 : ∀ k, k < E → kmSpread n C x (P (k + 1)) (V (k + 1)) ≤ kmSpread n C x (P k) (V (k + 1)) := fun k hk => by
    rw [hP, hP]
    exact spread_nearest hC hx (hV k hk.le) (hV (k + 1) hk)
  have g3 : ∀ i k, i ≤ k → k < E → kmSpread n C x (P k) (V (k + 1)) ≤ kmSpread n C x (P i) (V (i + 1)) := by
    intro i k hik
    induction k, hik using Nat.le_induction with
    | base => exact fun _ => le_refl _
    | succ k _ ih => exact fun hk => (g1 (k + 1) hk).trans ((g2 k (by omega)).trans (ih (by omega)))
  -- two epochs with the same assignment
  have hρ : ∀ k, k ≤ E → ∃ ρ : Nat → Nat, (∀ i, i < N → ∀ q, q < n → cls q = lab i →
        IsNearest n (fun q => cls q = lab i) (fun q => sampleLoss eps "MeanSquaredError" C (x i) (V k q)) (ρ i)) ∧
      ∀ r i, i ∈ P k r ↔ (i < N ∧ ∃ q, q < n ∧ cls q = lab i) ∧ ρ i = r := fun k hk => by
    rw [hP]
    exact exists_assignment hx (hV k hk)
  choose! ρ r1 r2 using hρ
  obtain ⟨⟨a, ha⟩, ⟨b, hb⟩, hab, hf⟩ := Fintype.exists_ne_map_eq_of_card_lt
    (fun (k : Fin (n ^ N + 1)) (i : Fin N) => (⟨ρ k i % n, Nat.mod_lt _ hn⟩ : Fin n)) (by simp)
  wlog hlt : a < b generalizing a b
  · refine this b hb a ha hab.symm hf.symm ?_
    have : a ≠ b := fun hh => hab (Fin.ext hh)
    omega
  have hsame : ∀ r, r < n → P a r = P b r := fun r hr => by
    ext i
    rw [r2 a (by omega), r2 b (by omega)]
    refine and_congr_right fun hi => ?_
    obtain ⟨h1, q, h2, h3⟩ := hi
    have := congrFun hf ⟨i, h1⟩
    rw [Fin.mk.injEq] at this
    dsimp only at this
    rw [Nat.mod_eq_of_lt (r1 a (by omega) i h1 q h2 h3).1, Nat.mod_eq_of_lt (r1 b (by omega) i h1 q h2 h3).1] at this
    rw [this]
  have heq : kmSpread n C x (P a) (V (a + 1)) = kmSpread n C x (P b) (V (b + 1)) := by
    rw [hP, hP]
    refine spread_of_same (h a (by omega)) (h b (by omega)) fun r hr => ?_
    rw [← hP, ← hP]
    exact hsame r hr
  have hfix : SameRefs n C (V (a + 1)) (V (a + 1 + 1)) := by
    refine spread_eq (h (a + 1) (by omega)) ?_
    rw [← hP]
    refine le_antisymm (g1 (a + 1) (by omega)) ?_
    refine (g2 a (by omega)).trans ?_
    rw [heq]
    exact g3 (a + 1) b (by omega) (by omega)
  have hconst : ∀ k, a + 1 ≤ k → k ≤ E → SameRefs n C (V k) (V (a + 1)) := by
    intro k hk
    induction k, hk using Nat.le_induction with
    | base => exact fun _ _ _ _ _ => rfl
    | succ k hk ih =>
      intro hkE
      have := meansOf_same (h k (by omega)) (h (a + 1) (by omega)) (ih (by omega))
      intro r hr j hj
      rw [this r hr j hj, hfix r hr j hj]
  intro k hk hkE r hr j hj
  rw [hconst k (by omega) hkE r hr j hj, hconst (n ^ N) (by omega) hE.le r hr j hj]

end BeeDNN
