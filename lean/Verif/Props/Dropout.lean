import Verif.Props.LayersMisc
import Verif.Lemmas.Dropout

/-!
# Dropout keeps the expected value (claim C120)

The limit of `setQuickBernoulli` is `int((1-rate)*65536.)`, over the reals `⌊(1 - rate) * 65536⌋₊`.
`drawMean` is the average over all low 16-bit parts of the `N * C` generator outputs of one forward pass.
-/

namespace BeeDNN
open Finset

theorem realLim_le {p : ℝ} (h1 : p ≤ 1) : realLim p ≤ 65536 := by
  have : ⌊p * 65536⌋₊ ≤ ⌊(65536 : ℝ)⌋₊ := Nat.floor_le_floor (by linarith)
  have h2 : ⌊(65536 : ℝ)⌋₊ = 65536 := by exact_mod_cast Nat.floor_natCast (R := ℝ) 65536
  unfold realLim
  omega

/-- One entry after dropout, as a function of the draws. -/
private noncomputable def dropped (hi : Nat → Nat) (N C : Nat) (r : ℝ) (y : Nat → Nat → ℝ) (u : Draws (N * C)) (i j : Nat) : ℝ :=
  if u.stream hi (i * C + j) % 65536 < realLim (1 - r) then y i j / (1 - r) else 0

private theorem pos_lt {N C i j : Nat} (hi : i < N) (hj : j < C) : i * C + j < N * C := by
  calc i * C + j < i * C + C := by omega
    _ = (i + 1) * C := by ring
    _ ≤ N * C := Nat.mul_le_mul_right _ hi

private theorem dropped_eq (hi : Nat → Nat) {N C : Nat} (r : ℝ) (y : Nat → Nat → ℝ) (u : Draws (N * C)) {i j : Nat}
    (h : i * C + j < N * C) :
    dropped hi N C r y u i j = if (u ⟨i * C + j, h⟩ : Nat) < realLim (1 - r) then y i j / (1 - r) else 0 := by
  unfold dropped
  rw [Draws.stream_low hi u h]

private theorem dropped_mean (hi : Nat → Nat) {N C : Nat} {r : ℝ} (h0 : 0 < r) (y : Nat → Nat → ℝ) {i j : Nat}
    (h : i * C + j < N * C) :
    drawMean (fun u => dropped hi N C r y u i j) = y i j * ((realLim (1 - r) : ℝ) / 65536 / (1 - r)) := by
  have := drawMean_prod_subset (n := N * C) {⟨i * C + j, h⟩}
    (fun _ v => if (v : Nat) < realLim (1 - r) then y i j / (1 - r) else 0)
  simp only [prod_singleton] at this
  simp only [dropped_eq hi r y _ h]
  rw [this, sum_low _ (realLim_le (by linarith))]
  ring

private theorem frac {r : ℝ} (h1 : r < 1) :
    0 ≤ (realLim (1 - r) : ℝ) / 65536 / (1 - r) ∧ (realLim (1 - r) : ℝ) / 65536 / (1 - r) ≤ 1 ∧
      1 - (realLim (1 - r) : ℝ) / 65536 / (1 - r) ≤ 1 / (65536 * (1 - r)) := by
  have hp : 0 < 1 - r := by linarith
  have hle : (realLim (1 - r) : ℝ) ≤ (1 - r) * 65536 := Nat.floor_le (by positivity)
  have hlt : (1 - r) * 65536 < realLim (1 - r) + 1 := Nat.lt_floor_add_one _
  refine ⟨by positivity, ?_, ?_⟩
  · rw [div_div, div_le_one (by positivity)]
    linarith
  · rw [div_div, sub_le_iff_le_add, ← add_div, le_div_iff₀ (by positivity)]
    linarith

/-- C120: in training with a rate strictly between 0 and 1 the average of every output entry, over all draws, is the
input entry times `⌊(1-rate)*65536⌋ / 65536 / (1-rate)`; this differs from the input by at most the fraction
`1/(65536*(1-rate))` and is never larger in size; it is the input itself if `(1-rate)*65536` is an integer.  The same holds
for the gradient that back-propagation with the mask of this pass hands on. -/
theorem C120_mean (g : Nat → ℝ) (r : ℝ) (h0 : 0 < r) (h1 : r < 1) (hi : Nat → Nat) (mask mOut gIn : Mat ℝ) (hm : mask.WF)
    (ho : mOut.WF) (hg : gIn.WF) (N C : Nat) (x gr : Nat → Nat → ℝ) :
    ∃ (M : Draws (N * C) → Mat ℝ) (Y G : Draws (N * C) → Nat → Nat → ℝ),
      (∀ u, dropoutForward g realLim true r (u.stream hi) mask (Mat.ofFn N C x) mOut = .ok (M u, Mat.ofFn N C (Y u)) ∧
        dropoutBackward g false r (M u) (Mat.ofFn N C gr) gIn = .ok (Mat.ofFn N C (G u))) ∧
      ∀ i j, i < N → j < C →
        drawMean (fun u => Y u i j) = x i j * ((⌊(1 - r) * 65536⌋₊ : ℝ) / 65536 / (1 - r)) ∧
        drawMean (fun u => G u i j) = gr i j * ((⌊(1 - r) * 65536⌋₊ : ℝ) / 65536 / (1 - r)) ∧
        |drawMean (fun u => Y u i j) - x i j| ≤ |x i j| / (65536 * (1 - r)) ∧
        |drawMean (fun u => Y u i j)| ≤ |x i j| ∧
        ((∃ k : Nat, (1 - r) * 65536 = k) →
          drawMean (fun u => Y u i j) = x i j ∧ drawMean (fun u => G u i j) = gr i j) := by
  have key : ∀ u : Draws (N * C), ∃ m, dropoutForward g realLim true r (u.stream hi) mask (Mat.ofFn N C x) mOut =
        .ok (m, Mat.ofFn N C (dropped hi N C r x u)) ∧
      dropoutBackward g false r m (Mat.ofFn N C gr) gIn = .ok (Mat.ofFn N C (dropped hi N C r gr u)) := by
    intro u
    obtain ⟨m, hf, hb⟩ := C37_training g realLim r h0.ne' h1.ne (u.stream hi) mask mOut hm ho N C x
    exact ⟨m, hf, hb gr gIn hg⟩
  choose M hM using key
  refine ⟨M, _, _, hM, fun i j hi' hj => ?_⟩
  have hpos := pos_lt hi' hj
  have hp : 0 < 1 - r := by linarith
  obtain ⟨f0, f1, f2⟩ := frac h1
  rw [dropped_mean hi h0 x hpos, dropped_mean hi h0 gr hpos]
  refine ⟨rfl, rfl, ?_, ?_, ?_⟩
  · have : x i j * ((realLim (1 - r) : ℝ) / 65536 / (1 - r)) - x i j =
        -(x i j * (1 - (realLim (1 - r) : ℝ) / 65536 / (1 - r))) := by ring
    rw [this, abs_neg, abs_mul, abs_of_nonneg (a := 1 - _) (by linarith)]
    calc _ ≤ |x i j| * (1 / (65536 * (1 - r))) := mul_le_mul_of_nonneg_left f2 (abs_nonneg _)
      _ = _ := by ring
  · rw [abs_mul, abs_of_nonneg f0]
    exact mul_le_of_le_one_right (abs_nonneg _) f1
  · rintro ⟨k, hk⟩
    have : (realLim (1 - r) : ℝ) / 65536 / (1 - r) = 1 := by
      unfold realLim
      rw [hk, Nat.floor_natCast, ← hk]
      field_simp
    rw [this, mul_one, mul_one]
    exact ⟨rfl, rfl⟩

/-- C120: different entries are dropped independently: whatever set of positions is named, exactly
`L^s * (65536-L)^(N*C-s)` of the `65536^(N*C)` draws keep these and no others, where `s` is the size of the set and
`L = ⌊(1-rate)*65536⌋`.  (The input has no zero entry, so that a dropped entry can be told from a kept one.) -/
theorem C120_independent (g : Nat → ℝ) (r : ℝ) (h0 : 0 < r) (h1 : r < 1) (hi : Nat → Nat) (mask mOut : Mat ℝ)
    (hm : mask.WF) (ho : mOut.WF) (N C : Nat) (x : Nat → Nat → ℝ) (hx : ∀ i j, i < N → j < C → x i j ≠ 0)
    (S : Finset (Nat × Nat)) (hS : ∀ q ∈ S, q.1 < N ∧ q.2 < C) :
    ∃ Y : Draws (N * C) → Nat → Nat → ℝ,
      (∀ u, ∃ m, dropoutForward g realLim true r (u.stream hi) mask (Mat.ofFn N C x) mOut = .ok (m, Mat.ofFn N C (Y u))) ∧
      Nat.card {u : Draws (N * C) // ∀ i j, i < N → j < C → (Y u i j ≠ 0 ↔ (i, j) ∈ S)} =
        ⌊(1 - r) * 65536⌋₊ ^ S.card * (65536 - ⌊(1 - r) * 65536⌋₊) ^ (N * C - S.card) := by
  refine ⟨dropped hi N C r x, fun u => ?_, ?_⟩
  · obtain ⟨m, hf, _⟩ := C37_training g realLim r h0.ne' h1.ne (u.stream hi) mask mOut hm ho N C x
    exact ⟨m, hf⟩
  classical
  have hp : 1 - r ≠ 0 := by linarith
  let T : Finset (Fin (N * C)) := univ.filter (fun k => ((k : Nat) / C, (k : Nat) % C) ∈ S)
  have back : ∀ {i j : Nat}, j < C → (i * C + j) / C = i ∧ (i * C + j) % C = j := by
    intro i j hj
    constructor
    · rw [Nat.mul_comm, Nat.mul_add_div (by omega), Nat.div_eq_of_lt hj, Nat.add_zero]
    · rw [Nat.mul_comm, Nat.mul_add_mod, Nat.mod_eq_of_lt hj]
  have hT : T.card = S.card := by
    refine card_bij' (fun k _ => ((k : Nat) / C, (k : Nat) % C))
      (fun q hq => ⟨q.1 * C + q.2, pos_lt (hS q hq).1 (hS q hq).2⟩) (fun k hk => (mem_filter.1 hk).2) ?_ ?_ ?_
    · intro q hq
      refine mem_filter.2 ⟨mem_univ _, ?_⟩
      dsimp only
      rw [(back (hS q hq).2).1, (back (hS q hq).2).2]
      exact hq
    · intro k hk
      exact Fin.ext (Nat.div_add_mod' (k : Nat) C)
    · intro q hq
      exact Prod.ext (back (hS q hq).2).1 (back (hS q hq).2).2
  have iff1 : ∀ u : Draws (N * C), (∀ i j, i < N → j < C → (dropped hi N C r x u i j ≠ 0 ↔ (i, j) ∈ S)) ↔
      ∀ k, ((u k : Nat) < realLim (1 - r) ↔ k ∈ T) := by
    intro u
    have kept : ∀ i j, (hi' : i < N) → (hj : j < C) →
        (dropped hi N C r x u i j ≠ 0 ↔ (u ⟨i * C + j, pos_lt hi' hj⟩ : Nat) < realLim (1 - r)) := by
      intro i j hi' hj
      rw [dropped_eq hi r x u (pos_lt hi' hj)]
      split
      · rename_i h
        exact ⟨fun _ => h, fun _ => div_ne_zero (hx i j hi' hj) hp⟩
      · rename_i h
        exact ⟨fun h' => absurd rfl h', fun h' => absurd h' h⟩
    constructor
    · intro h k
      have hC : 0 < C := by
        rcases Nat.eq_zero_or_pos C with rfl | h'
        · exact absurd k.isLt (by simp)
        · exact h'
      have hi' : (k : Nat) / C < N := by
        rw [Nat.div_lt_iff_lt_mul hC]
        exact k.isLt
      have hj : (k : Nat) % C < C := Nat.mod_lt _ hC
      have e : (⟨(k : Nat) / C * C + (k : Nat) % C, pos_lt hi' hj⟩ : Fin (N * C)) = k :=
        Fin.ext (Nat.div_add_mod' (k : Nat) C)
      have h2 := (kept _ _ hi' hj).symm.trans (h _ _ hi' hj)
      rw [e] at h2
      rw [h2, mem_filter]
      simp
    · intro h i j hi' hj
      rw [kept i j hi' hj, h, mem_filter]
      dsimp only
      rw [(back hj).1, (back hj).2]
      simp
  have hl : realLim (1 - r) ≤ 65536 := realLim_le (by linarith)
  have c2 : (univ.filter (fun v : Fin 65536 => ¬ (v : Nat) < realLim (1 - r))).card = 65536 - realLim (1 - r) := by
    have := card_filter_add_card_filter_not (s := (univ : Finset (Fin 65536))) (fun v => (v : Nat) < realLim (1 - r))
    rw [card_low _ hl, card_univ, Fintype.card_fin] at this
    omega
  have hset : (univ.filter (fun u : Draws (N * C) => ∀ k, ((u k : Nat) < realLim (1 - r) ↔ k ∈ T))) =
      Fintype.piFinset (fun k => if k ∈ T then univ.filter (fun v : Fin 65536 => (v : Nat) < realLim (1 - r))
        else univ.filter (fun v : Fin 65536 => ¬ (v : Nat) < realLim (1 - r))) := by
    ext u
    rw [mem_filter, Fintype.mem_piFinset]
    constructor
    · intro h k
      by_cases hk : k ∈ T
      · rw [if_pos hk]
        exact mem_filter.2 ⟨mem_univ _, (h.2 k).2 hk⟩
      · rw [if_neg hk]
        exact mem_filter.2 ⟨mem_univ _, fun h' => hk ((h.2 k).1 h')⟩
    · intro h
      refine ⟨mem_univ _, fun k => ?_⟩
      have := h k
      by_cases hk : k ∈ T
      · rw [if_pos hk] at this
        exact ⟨fun _ => hk, fun _ => (mem_filter.1 this).2⟩
      · rw [if_neg hk] at this
        exact ⟨fun h' => absurd h' (mem_filter.1 this).2, fun h' => absurd h' hk⟩
  have hc : Nat.card {u : Draws (N * C) // ∀ i j, i < N → j < C → (dropped hi N C r x u i j ≠ 0 ↔ (i, j) ∈ S)} =
      (univ.filter (fun u : Draws (N * C) => ∀ k, ((u k : Nat) < realLim (1 - r) ↔ k ∈ T))).card := by
    rw [Nat.card_congr (Equiv.subtypeEquivRight iff1), Nat.card_eq_fintype_card, Fintype.card_subtype]
  rw [hc, hset, Fintype.card_piFinset]
  have hprod : ∀ k : Fin (N * C), (if k ∈ T then univ.filter (fun v : Fin 65536 => (v : Nat) < realLim (1 - r))
        else univ.filter (fun v : Fin 65536 => ¬ (v : Nat) < realLim (1 - r))).card =
      if k ∈ T then realLim (1 - r) else 65536 - realLim (1 - r) := by
    intro k
    split
    · exact card_low _ hl
    · exact c2
  simp only [hprod]
  rw [prod_ite, prod_const, prod_const, filter_mem_eq_inter, univ_inter, hT]
  have := card_filter_add_card_filter_not (s := (univ : Finset (Fin (N * C)))) (fun k => k ∈ T)
  rw [filter_mem_eq_inter, univ_inter, hT, card_univ, Fintype.card_fin] at this
  have e : (univ.filter (fun k => k ∉ T)).card = N * C - S.card := by omega
  rw [e]
  rfl

/-- C120: what a linear unit behind the dropout layer computes is, on average over all draws, what it computes without
dropout, if `(1-rate)*65536` is an integer. -/
theorem C120_linear (g : Nat → ℝ) (r : ℝ) (h0 : 0 < r) (h1 : r < 1) (hk : ∃ k : Nat, (1 - r) * 65536 = k)
    (hi : Nat → Nat) (mask mOut : Mat ℝ) (hm : mask.WF) (ho : mOut.WF) (N C : Nat) (x w : Nat → Nat → ℝ) (b : ℝ) :
    ∃ Y : Draws (N * C) → Nat → Nat → ℝ,
      (∀ u, ∃ m, dropoutForward g realLim true r (u.stream hi) mask (Mat.ofFn N C x) mOut = .ok (m, Mat.ofFn N C (Y u))) ∧
      drawMean (fun u => (∑ i ∈ range N, ∑ j ∈ range C, w i j * Y u i j) + b) =
        (∑ i ∈ range N, ∑ j ∈ range C, w i j * x i j) + b := by
  obtain ⟨M, Y, G, hf, hmean⟩ := C120_mean g r h0 h1 hi mask mOut ⟨0, 0, []⟩ hm ho rfl N C x x
  refine ⟨Y, fun u => ⟨M u, (hf u).1⟩, ?_⟩
  rw [drawMean_add, drawMean_const, drawMean_sum]
  congr 1
  refine sum_congr rfl fun i hi' => ?_
  rw [drawMean_sum]
  refine sum_congr rfl fun j hj => ?_
  rw [drawMean_mul, ((hmean i j (mem_range.1 hi') (mem_range.1 hj)).2.2.2.2 hk).1]

/-- The hypotheses can be met: rate 1/2 keeps 32768 of the 65536 values, and the average of the entry 3 is 3. -/
example : ∃ (M : Draws (1 * 1) → Mat ℝ) (Y G : Draws (1 * 1) → Nat → Nat → ℝ),
    (∀ u, dropoutForward (fun _ => 0) realLim true (1 / 2) (u.stream fun _ => 0) ⟨0, 0, []⟩ (Mat.ofFn 1 1 (fun _ _ => 3)) ⟨0, 0, []⟩ =
        .ok (M u, Mat.ofFn 1 1 (Y u)) ∧
      dropoutBackward (fun _ => 0) false (1 / 2) (M u) (Mat.ofFn 1 1 (fun _ _ => 5)) ⟨0, 0, []⟩ = .ok (Mat.ofFn 1 1 (G u))) ∧
    drawMean (fun u => Y u 0 0) = 3 ∧ drawMean (fun u => G u 0 0) = 5 := by
  obtain ⟨M, Y, G, hf, hmean⟩ := C120_mean (fun _ => 0) (1 / 2) (by norm_num) (by norm_num) (fun _ => 0) ⟨0, 0, []⟩ ⟨0, 0, []⟩
    ⟨0, 0, []⟩ rfl rfl rfl 1 1 (fun _ _ => 3) (fun _ _ => 5)
  exact ⟨M, Y, G, hf, (hmean 0 0 (by norm_num) (by norm_num)).2.2.2.2 ⟨32768, by norm_num⟩⟩

/-- The hypotheses of `C120_independent` can be met: two entries, of which the first alone is kept. -/
example := C120_independent (fun _ => 0) (1 / 4) (by norm_num) (by norm_num) (fun _ => 7) ⟨0, 0, []⟩ ⟨0, 0, []⟩ rfl rfl 1 2
  (fun _ j => j + 1) (fun _ j _ _ => by positivity) {(0, 0)} (by simp)

/-- With rate 1/3 the average is not exactly the input: the fraction kept is 43690/65536. -/
example : realLim (1 - 1 / 3) = 43690 := by
  unfold realLim
  rw [Nat.floor_eq_iff (by norm_num)]
  norm_num

end BeeDNN
