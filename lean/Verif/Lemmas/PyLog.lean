import Verif.Spec.PyLog
import Verif.Lemmas.PyTrainBy
import Verif.Lemmas.TrainAcc
import Mathlib.Algebra.BigOperators.Group.Finset.Basic
import Mathlib.Algebra.Order.Floor.Ring

/-! # Lemmas on what `fit` of the Python library collects -/

namespace BeeDNN
open Finset

/-! ## Confusion matrices -/

theorem npArgmax_first (p : NpArr) (s : Nat) (hp : 0 < p.cols) : IsFirstMax p.cols (p.val s) (npArgmax p s) := by
  have key : ∀ n, IsFirstMax (n + 1) (p.val s) ((List.range n).foldl (fun b j => if p.val s b < p.val s (j + 1) then j + 1 else b) 0) := by
    intro n
    induction n with
    | zero => exact ⟨one_pos, fun j hj => by rw [show j = 0 by omega]; exact le_rfl, fun j hj => absurd hj (Nat.not_lt_zero j)⟩
    | succ n ih =>
      rw [List.range_succ, List.foldl_append, List.foldl_cons, List.foldl_nil]
      generalize (List.range n).foldl (fun b j => if p.val s b < p.val s (j + 1) then j + 1 else b) 0 = b at ih ⊢
      obtain ⟨h1, h2, h3⟩ := ih
      split_ifs with h
      · refine ⟨by omega, fun j hj => ?_, fun j hj => lt_of_le_of_lt (h2 j (by omega)) h⟩
        rcases Nat.lt_or_ge j (n + 1) with hj' | hj'
        · exact (h2 j hj').trans h.le
        · obtain rfl : j = n + 1 := by omega
          exact le_rfl
      · refine ⟨by omega, fun j hj => ?_, h3⟩
        rcases Nat.lt_or_ge j (n + 1) with hj' | hj'
        · exact h2 j hj'
        · obtain rfl : j = n + 1 := by omega
          exact not_lt.1 h
  have := key (p.cols - 1)
  rwa [Nat.sub_add_cancel hp] at this

theorem IsFirstMax.congr {n k : Nat} {f g : Nat → ℝ} (h : ∀ j, j < n → f j = g j) (hk : IsFirstMax n f k) : IsFirstMax n g k := by
  obtain ⟨h1, h2, h3⟩ := hk
  exact ⟨h1, fun j hj => by rw [← h j hj, ← h k h1]; exact h2 j hj, fun j hj => by rw [← h j (hj.trans h1), ← h k h1]; exact h3 j hj⟩

theorem npArgmax_iff {p : NpArr} {N C : Nat} {q : Nat → Row} (hp : p.Is N C q) (hC : 0 < C) {s : Nat} (hs : s < N) (j : Nat) : IsFirstMax C (q s) j ↔ j = npArgmax p s := by
  have h := npArgmax_first p s (by rw [hp.2.1]; exact hC)
  rw [hp.2.1] at h
  have h' := h.congr (g := q s) fun j hj => hp.2.2 s j hs hj
  exact ⟨fun hj => isFirstMax_unique hj h', fun hj => hj ▸ h'⟩

theorem npLabel_eq {t : NpArr} {N : Nat} {c : Nat → Nat} (ht : t.Is N 1 (fun s _ => c s)) {s : Nat} (hs : s < N) : npLabel t s = c s := by
  unfold npLabel
  rw [ht.2.1, Nat.div_one, Nat.mod_one, ht.2.2 s 0 hs one_pos]
  exact Int.floor_natCast _

theorem npNbClass_spec {t : NpArr} {N : Nat} {c : Nat → Nat} (hN : 0 < N) (ht : t.Is N 1 (fun s _ => c s)) :
    ∃ m : Nat, npNbClass t = (m : ℤ) ∧ (∀ s, s < N → c s < m) ∧ ∃ s, s < N ∧ c s + 1 = m := by
  have key : ∀ n, 0 < n → n ≤ N → ∃ m : Nat, (List.range n).foldl (fun b s => max b (npLabel t s)) (npLabel t 0) = (m : ℤ) ∧ (∀ s, s < n → c s ≤ m) ∧ ∃ s, s < N ∧ c s = m := by
    intro n
    induction n with
    | zero => exact fun h => absurd h (lt_irrefl _)
    | succ n ih =>
      intro _ hn
      rw [List.range_succ, List.foldl_append, List.foldl_cons, List.foldl_nil, npLabel_eq ht (s := n) (by omega)]
      rcases Nat.eq_zero_or_pos n with rfl | hpos
      · exact ⟨c 0, by simp [npLabel_eq ht hN], fun s hs => by rw [show s = 0 by omega], 0, hN, rfl⟩
      · obtain ⟨m, h1, h2, s, h3, h4⟩ := ih hpos (by omega)
        refine ⟨max m (c n), by rw [h1]; exact (Nat.cast_max ..).symm, fun s hs => ?_, ?_⟩
        · rcases Nat.lt_or_ge s n with h | h
          · exact (h2 s h).trans (le_max_left ..)
          · obtain rfl : s = n := by omega
            exact le_max_right ..
        · rcases le_total (c n) m with h | h
          · exact ⟨s, h3, by rw [max_eq_left h]; exact h4⟩
          · exact ⟨n, by omega, by rw [max_eq_right h]⟩
  obtain ⟨m, h1, h2, s, h3, h4⟩ := key N hN le_rfl
  refine ⟨m + 1, ?_, fun s hs => Nat.lt_succ_of_le (h2 s hs), s, h3, by rw [h4]⟩
  unfold npNbClass
  rw [ht.1, ht.2.1, Nat.mul_one, h1]
  rfl

theorem confusion_fold (f : Nat → Nat → Nat → Prop) [∀ s i j, Decidable (f s i j)] (n : Nat) (i j : Nat) :
    (List.range n).foldl (fun (M : Nat → Nat → Nat) s => fun i j => M i j + if f s i j then 1 else 0) (fun _ _ => 0) i j = ∑ s ∈ range n, if f s i j then 1 else 0 := by
  induction n with
  | zero => rfl
  | succ n ih => rw [List.range_succ, List.foldl_append, List.foldl_cons, List.foldl_nil, sum_range_succ, ← ih]

theorem pyConfusion_ok {N C : Nat} (hN : 0 < N) (hC : 1 < C) {t p : NpArr} {c : Nat → Nat} {q : Nat → Row} (ht : t.Is N 1 (fun s _ => c s)) (hp : p.Is N C q)
    (hc : ∀ s k, s < N → IsFirstMax C (q s) k → ∃ s', s' < N ∧ k ≤ c s') :
    ∃ M a, pyConfusion t p = .ok (M, a) ∧ (∀ i j, ∃ S : Finset Nat, (∀ s, s ∈ S ↔ s < N ∧ c s = i ∧ IsFirstMax C (q s) j) ∧ M i j = S.card) ∧
      ∃ S : Finset Nat, (∀ s, s ∈ S ↔ s < N ∧ IsFirstMax C (q s) (c s)) ∧ a = 100 * S.card / N := by
  obtain ⟨m, hm, hm1, -⟩ := npNbClass_spec hN ht
  have harg : ∀ s, s < N → npArgmax p s < m := fun s hs => by
    obtain ⟨s', h1, h2⟩ := hc s _ hs ((npArgmax_iff hp (by omega) hs _).2 rfl)
    exact h2.trans_lt (hm1 s' h1)
  have hfloor : ∀ i, i < t.rows → ∀ j, j < t.cols → (⌊t.val i j⌋ : ℝ) = t.val i j := fun i hi j hj => by
    rw [ht.1] at hi
    rw [ht.2.1] at hj
    rw [ht.2.2 i j hi hj, Int.floor_natCast]
    rfl
  let M : Nat → Nat → Nat := (List.range N).foldl (fun (M : Nat → Nat → Nat) s => fun i j =>
    M i j + if (i : ℤ) = (if npLabel t s < 0 then npLabel t s + m else npLabel t s) ∧ j = npArgmax p s then 1 else 0) fun _ _ => 0
  have hM : ∀ i j, M i j = ∑ s ∈ range N, if i = c s ∧ j = npArgmax p s then 1 else 0 := fun i j => by
    change (List.range N).foldl (fun (M : Nat → Nat → Nat) s => fun i j =>
      M i j + if (fun s i j => (i : ℤ) = (if npLabel t s < 0 then npLabel t s + m else npLabel t s) ∧ j = npArgmax p s) s i j then 1 else 0) (fun _ _ => 0) i j = _
    rw [confusion_fold]
    refine sum_congr rfl fun s hs => ?_
    have e := npLabel_eq ht (mem_range.1 hs)
    refine if_congr (and_congr_left fun _ => ?_) rfl rfl
    rw [e, if_neg (by omega), Nat.cast_inj]
  have hall : ∑ i ∈ range m, ∑ j ∈ range m, M i j = N := by
    simp only [hM]
    rw [sum_congr rfl fun i _ => sum_comm, sum_comm]
    rw [sum_congr rfl fun s hs => show _ = 1 from ?_]
    · simp
    · have hs := mem_range.1 hs
      rw [sum_eq_single_of_mem (c s) (mem_range.2 (hm1 s hs)) fun i _ hi => sum_eq_zero fun j _ => if_neg fun h => hi h.1,
        sum_eq_single_of_mem (npArgmax p s) (mem_range.2 (harg s hs)) fun j _ hj => if_neg fun h => hj h.2, if_pos ⟨rfl, rfl⟩]
  have htrace : ∑ i ∈ range m, M i i = ((range N).filter fun s => c s = npArgmax p s).card := by
    simp only [hM]
    rw [sum_comm, card_filter]
    refine sum_congr rfl fun s hs => ?_
    have hs := mem_range.1 hs
    rw [sum_eq_single_of_mem (c s) (mem_range.2 (hm1 s hs)) fun i _ hi => if_neg fun h => hi h.1]
    simp
  refine ⟨M, 100 * (((range N).filter fun s => c s = npArgmax p s).card : ℝ) / N, ?_, fun i j => ⟨(range N).filter fun s => i = c s ∧ j = npArgmax p s, fun s => ?_, ?_⟩,
    (range N).filter fun s => c s = npArgmax p s, fun s => ?_, rfl⟩
  · unfold pyConfusion
    rw [npCheck_ok (by rw [ht.1, ht.2.1]; omega), bind_ok', npCheck_ok (by rw [hp.2.1]; exact hC), bind_ok', npCheck_ok ⟨by rw [ht.1, ht.2.1, hp.1, Nat.mul_one], hfloor⟩, bind_ok', hm,
      npCheck_ok (fun s hs => by
        rw [hp.1] at hs
        rw [npLabel_eq ht hs]
        have := hm1 s hs
        have := harg s hs
        omega), bind_ok', hp.1]
    dsimp only
    rw [Int.toNat_natCast]
    change Except.ok (M, 100 * ((∑ i ∈ range m, M i i : Nat) : ℝ) / ((∑ i ∈ range m, ∑ j ∈ range m, M i j : Nat) : ℝ)) = _
    rw [hall, htrace]
  · rw [mem_filter, mem_range]
    refine and_congr_right fun hs => ?_
    rw [npArgmax_iff hp (by omega) hs, eq_comm]
  · rw [hM, card_filter]
  · rw [mem_filter, mem_range]
    exact and_congr_right fun hs => (npArgmax_iff hp (by omega) hs _).symm

theorem pyConfusion_raises {N C : Nat} (hN : 0 < N) {t p : NpArr} {c : Nat → Nat} {q : Nat → Row} (ht : t.Is N 1 (fun s _ => c s)) (hp : p.Is N C q)
    {s k : Nat} (hs : s < N) (hk : IsFirstMax C (q s) k) (hc : ∀ s', s' < N → c s' < k) : pyConfusion t p = .error .exception := by
  obtain ⟨m, hm, -, s', h1, h2⟩ := npNbClass_spec hN ht
  have hfloor : ∀ i, i < t.rows → ∀ j, j < t.cols → (⌊t.val i j⌋ : ℝ) = t.val i j := fun i hi j hj => by
    rw [ht.1] at hi
    rw [ht.2.1] at hj
    rw [ht.2.2 i j hi hj, Int.floor_natCast]
    rfl
  unfold pyConfusion
  rw [npCheck_ok (by rw [ht.1, ht.2.1]; omega), bind_ok']
  dsimp only
  by_cases hC : 1 < p.cols
  · rw [npCheck_ok hC, bind_ok']
    have : ¬ ∀ s, s < p.rows → -npNbClass t ≤ npLabel t s ∧ npLabel t s < npNbClass t ∧ (npArgmax p s : ℤ) < npNbClass t := fun h => by
      have h3 := (h s (by rw [hp.1]; exact hs)).2.2
      rw [hm, ← (npArgmax_iff hp (by rw [← hp.2.1]; omega) hs k).1 hk] at h3
      have := hc s' h1
      omega
    rw [npCheck_ok ⟨by rw [ht.1, ht.2.1, hp.1, Nat.mul_one], hfloor⟩, bind_ok', npCheck, if_neg this]
    rfl
  · rw [npCheck, if_neg hC]
    rfl

/-! ## Losses -/

theorem npSum_congr {P : NpArr} {g : Nat → Nat → ℝ} {N C : Nat} {f : Nat → Row} (h1 : P.rows = N) (h2 : P.cols = C) (h : ∀ i j, i < N → j < C → g i j = f i j) :
    npSum { P with val := g } = ∑ i ∈ range N, ∑ j ∈ range C, f i j := by
  unfold npSum
  dsimp only
  rw [h1, h2]
  exact sum_congr rfl fun i hi => sum_congr rfl fun j hj => h i j (mem_range.1 hi) (mem_range.1 hj)

theorem npSum_rowMeans {P : NpArr} {g : Nat → Nat → ℝ} {N C : Nat} {f : Nat → Row} (h1 : P.rows = N) (h2 : P.cols = C) (h : ∀ i j, i < N → j < C → g i j = f i j) :
    npSum (npRowMeans { P with val := g }) = ∑ i ∈ range N, (∑ j ∈ range C, f i j) / C := by
  unfold npSum npRowMeans
  dsimp only
  rw [sum_range_one, h1, h2]
  refine sum_congr rfl fun i hi => ?_
  rw [sum_congr rfl fun j hj => h i j (mem_range.1 hi) (mem_range.1 hj)]

theorem pyLossValue_MSE {K D N : Nat} {p y : Nat → Row} {P t : NpArr} (hT : TruthFits (pyLossName "MSE") K D N y) (hP : P.Is N K p)
    (ht : t.Is N D y) : ∃ L, pyLossValue "MSE" P t = .ok L ∧
      ((∀ s, s < N → PyUncut "MSE" K (p s)) → npSum L = pyLossFactor "MSE" K * ∑ s ∈ range N, sampleError (pyLossName "MSE") K (p s) (y s)) := by
  obtain rfl : D = K := (hT.same (by decide)).1
  refine ⟨{ P with val := fun i j => (P.val i j - t.val i j) * (P.val i j - t.val i j) * 0.5 }, ?_, fun _ => ?_⟩
  · simp only [pyLossValue, String.reduceEq, if_false, if_true]
    rw [npCheck_ok ⟨ht.1.trans hP.1.symm, ht.2.1.trans hP.2.1.symm⟩]
    rfl
  · refine (npSum_congr (N := N) (C := D) (f := fun s j => (p s j - y s j) * (p s j - y s j) * 0.5) hP.1 hP.2.1 fun i j hi hj => by
      rw [hP.2.2 i j hi hj, ht.2.2 i j hi hj]).trans ?_
    simp only [pyLossName, pyLossFactor, sampleError, pointError, String.reduceEq, if_false, if_true, or_self, one_mul]
    exact sum_congr rfl fun s _ => sum_congr rfl fun j _ => by ring

theorem pyLossValue_MAE {K D N : Nat} {p y : Nat → Row} {P t : NpArr} (hT : TruthFits (pyLossName "MAE") K D N y) (hP : P.Is N K p)
    (ht : t.Is N D y) : ∃ L, pyLossValue "MAE" P t = .ok L ∧
      ((∀ s, s < N → PyUncut "MAE" K (p s)) → npSum L = pyLossFactor "MAE" K * ∑ s ∈ range N, sampleError (pyLossName "MAE") K (p s) (y s)) := by
  obtain rfl : D = K := (hT.same (by decide)).1
  refine ⟨{ P with val := fun i j => |P.val i j - t.val i j| }, ?_, fun _ => ?_⟩
  · simp only [pyLossValue, String.reduceEq, if_false, if_true]
    rw [npCheck_ok ⟨ht.1.trans hP.1.symm, ht.2.1.trans hP.2.1.symm⟩]
    rfl
  · refine (npSum_congr (N := N) (C := D) (f := fun s j => |p s j - y s j|) hP.1 hP.2.1 fun i j hi hj => by
      rw [hP.2.2 i j hi hj, ht.2.2 i j hi hj]).trans ?_
    simp only [pyLossName, pyLossFactor, sampleError, pointError, String.reduceEq, if_false, if_true, or_self, one_mul]

theorem pyLossValue_LogCosh {K D N : Nat} {p y : Nat → Row} {P t : NpArr} (hT : TruthFits (pyLossName "LogCosh") K D N y) (hP : P.Is N K p)
    (ht : t.Is N D y) : ∃ L, pyLossValue "LogCosh" P t = .ok L ∧
      ((∀ s, s < N → PyUncut "LogCosh" K (p s)) → npSum L = pyLossFactor "LogCosh" K * ∑ s ∈ range N, sampleError (pyLossName "LogCosh") K (p s) (y s)) := by
  obtain rfl : D = K := (hT.same (by decide)).1
  refine ⟨{ P with val := fun i j => Real.log (Real.cosh (P.val i j - t.val i j)) }, ?_, fun _ => ?_⟩
  · simp only [pyLossValue, String.reduceEq, if_false, if_true]
    rw [npCheck_ok ⟨ht.1.trans hP.1.symm, ht.2.1.trans hP.2.1.symm⟩]
    rfl
  · refine (npSum_congr (N := N) (C := D) (f := fun s j => Real.log (Real.cosh (p s j - y s j))) hP.1 hP.2.1 fun i j hi hj => by
      rw [hP.2.2 i j hi hj, ht.2.2 i j hi hj]).trans ?_
    rw [show pyLossName "LogCosh" = "LogCosh" from rfl]
    rw [pyLossFactor, if_neg (by decide), one_mul]
    refine sum_congr rfl fun s _ => ?_
    rw [sampleError, if_neg (by decide), if_neg (by decide), if_neg (by decide)]
    refine sum_congr rfl fun j _ => ?_
    rw [pointError, if_neg (by decide), if_neg (by decide), if_neg (by decide), if_neg (by decide), if_neg (by decide), if_pos rfl]

theorem pyLossValue_SparseCategoricalCrossEntropy {K D N : Nat} {p y : Nat → Row} {P t : NpArr} (hT : TruthFits (pyLossName "SparseCategoricalCrossEntropy") K D N y) (hP : P.Is N K p)
    (ht : t.Is N D y) : ∃ L, pyLossValue "SparseCategoricalCrossEntropy" P t = .ok L ∧
      ((∀ s, s < N → PyUncut "SparseCategoricalCrossEntropy" K (p s)) → npSum L = pyLossFactor "SparseCategoricalCrossEntropy" K * ∑ s ∈ range N, sampleError (pyLossName "SparseCategoricalCrossEntropy") K (p s) (y s)) := by
  rw [show pyLossName "SparseCategoricalCrossEntropy" = "SparseCategoricalCrossEntropy" from rfl] at hT ⊢
  rw [TruthFits, if_pos rfl] at hT
  obtain ⟨rfl, -, hf⟩ := hT
  have hall : ∀ i, i < t.rows → ∃ c : Nat, c < P.cols ∧ t.val i 0 = c := fun i hi => by
    rw [ht.1] at hi
    obtain ⟨c, h1, h2⟩ := hf i hi
    exact ⟨c, by rw [hP.2.1]; exact h1, by rw [ht.2.2 i 0 hi one_pos, h2]⟩
  refine ⟨npRowMeans { P with val := fun i j => -(if t.val i 0 = j then 1 else 0) * Real.log (max (P.val i j) 1e-8) }, ?_, fun hu => ?_⟩
  · simp only [pyLossValue, if_true]
    rw [npCheck_ok ⟨ht.1.trans hP.1.symm, ht.2.1, hall⟩]
    rfl
  · refine (npSum_rowMeans (N := N) (C := K) (f := fun s j => -(if y s 0 = j then 1 else 0) * Real.log (max (p s j) 1e-8)) hP.1 hP.2.1 fun i j hi hj => by
      rw [hP.2.2 i j hi hj, ht.2.2 i 0 hi one_pos]).trans ?_
    rw [mul_sum]
    refine sum_congr rfl fun s hs => ?_
    have hs := mem_range.1 hs
    obtain ⟨c, h1, h2⟩ := hf s hs
    have h3 := (hu s hs).1 (.inr rfl) c h1
    rw [sum_eq_single_of_mem c (mem_range.2 h1) fun j _ hj => by rw [if_neg (by rw [h2]; exact fun h => hj (by exact_mod_cast h.symm))]; simp]
    simp only [pyLossFactor, sampleError, String.reduceEq, if_false, if_true, or_true]
    rw [h2, if_pos rfl, max_eq_left h3, Nat.floor_natCast]
    ring

theorem pyLossValue_CrossEntropy {K D N : Nat} {p y : Nat → Row} {P t : NpArr} (hT : TruthFits (pyLossName "CrossEntropy") K D N y) (hP : P.Is N K p)
    (ht : t.Is N D y) : ∃ L, pyLossValue "CrossEntropy" P t = .ok L ∧
      ((∀ s, s < N → PyUncut "CrossEntropy" K (p s)) → npSum L = pyLossFactor "CrossEntropy" K * ∑ s ∈ range N, sampleError (pyLossName "CrossEntropy") K (p s) (y s)) := by
  obtain rfl : D = K := (hT.same (by decide)).1
  refine ⟨npRowMeans { P with val := fun i j => -t.val i j * Real.log (max (P.val i j) 1e-8) }, ?_, fun hu => ?_⟩
  · simp only [pyLossValue, String.reduceEq, if_false, if_true]
    rw [npCheck_ok ⟨ht.1.trans hP.1.symm, ht.2.1.trans hP.2.1.symm⟩]
    rfl
  · refine (npSum_rowMeans (N := N) (C := D) (f := fun s j => -y s j * Real.log (max (p s j) 1e-8)) hP.1 hP.2.1 fun i j hi hj => by
      rw [hP.2.2 i j hi hj, ht.2.2 i j hi hj]).trans ?_
    rw [mul_sum]
    refine sum_congr rfl fun s hs => ?_
    simp only [pyLossName, pyLossFactor, sampleError, if_true, true_or]
    rw [div_eq_mul_one_div, mul_comm]
    congr 1
    refine sum_congr rfl fun j hj => ?_
    rw [max_eq_left ((hu s (mem_range.1 hs)).1 (.inl rfl) j (mem_range.1 hj))]
    ring

theorem pyLossValue_BinaryCrossEntropy {K D N : Nat} {p y : Nat → Row} {P t : NpArr} (hT : TruthFits (pyLossName "BinaryCrossEntropy") K D N y) (hP : P.Is N K p)
    (ht : t.Is N D y) : ∃ L, pyLossValue "BinaryCrossEntropy" P t = .ok L ∧
      ((∀ s, s < N → PyUncut "BinaryCrossEntropy" K (p s)) → npSum L = pyLossFactor "BinaryCrossEntropy" K * ∑ s ∈ range N, sampleError (pyLossName "BinaryCrossEntropy") K (p s) (y s)) := by
  have h1 := hT.same (by decide)
  obtain rfl : D = K := h1.1
  obtain rfl : D = 1 := h1.2 rfl
  refine ⟨{ P with val := fun i j => -t.val i j * Real.log (max (P.val i j) 1e-8) - (1 - t.val i j) * Real.log (max 1e-8 (1 - P.val i j)) }, ?_, fun hu => ?_⟩
  · simp only [pyLossValue, String.reduceEq, if_false, if_true]
    rw [npCheck_ok ⟨ht.1.trans hP.1.symm, ht.2.1.trans hP.2.1.symm⟩]
    rfl
  · refine (npSum_congr (N := N) (C := 1) (f := fun s j => -y s j * Real.log (max (p s j) 1e-8) - (1 - y s j) * Real.log (max 1e-8 (1 - p s j))) hP.1 hP.2.1 fun i j hi hj => by
      rw [hP.2.2 i j hi hj, ht.2.2 i j hi hj]).trans ?_
    rw [show pyLossName "BinaryCrossEntropy" = "BinaryCrossEntropy" from rfl]
    rw [pyLossFactor, if_neg (by decide), one_mul]
    refine sum_congr rfl fun s hs => ?_
    rw [sampleError, if_neg (by decide), if_neg (by decide), if_pos rfl]
    obtain ⟨h3, h4⟩ := (hu s (mem_range.1 hs)).2 rfl
    rw [sum_range_one, max_eq_left h3, max_eq_right (by linarith)]
    ring

theorem pyLossValue_ok {loss : String} (hl : loss ∈ pyLosses) {K D N : Nat} {p y : Nat → Row} {P t : NpArr} (hT : TruthFits (pyLossName loss) K D N y) (hP : P.Is N K p)
    (ht : t.Is N D y) : ∃ L, pyLossValue loss P t = .ok L ∧
      ((∀ s, s < N → PyUncut loss K (p s)) → npSum L = pyLossFactor loss K * ∑ s ∈ range N, sampleError (pyLossName loss) K (p s) (y s)) := by
  simp only [pyLosses, List.mem_cons, List.not_mem_nil, or_false] at hl
  rcases hl with rfl | rfl | rfl | rfl | rfl | rfl
  · exact pyLossValue_MSE hT hP ht
  · exact pyLossValue_MAE hT hP ht
  · exact pyLossValue_LogCosh hT hP ht
  · exact pyLossValue_SparseCategoricalCrossEntropy hT hP ht
  · exact pyLossValue_CrossEntropy hT hP ht
  · exact pyLossValue_BinaryCrossEntropy hT hP ht

/-! ## Predictions and batches -/

theorem Ply.derivBy_apply (l : Option PyLayer) (p : Ply) (C : Nat) (v : Row) : Ply.apply C { p with kind := p.kind.derivBy l } v = p.apply C v := by
  obtain ⟨K, W, B⟩ := p
  cases l <;> cases K <;> rfl

theorem Mlp.derivBy_out (ls : List PyLayer) (m : Mlp) (v : Row) : (m.derivBy ls).out v = m.out v := by
  have key : ∀ i, (m.derivBy ls).hidden v i = m.hidden v i := by
    intro i
    induction i with
    | zero => rfl
    | succ i ih =>
      change ((m.derivBy ls).ply i).apply ((m.derivBy ls).width i) ((m.derivBy ls).hidden v i) = (m.ply i).apply (m.width i) (m.hidden v i)
      rw [ih]
      exact Ply.derivBy_apply ..
  exact key m.depth

/-- What is predicted in training mode. -/
theorem pyPredict_has {m : Mlp} {ls : List PyLayer} {h : NpStore} (hr : PyRep h ls m) {x N : Nat} {v : Nat → Row} (hrd : PyReady ls x) (hN : 0 < N)
    (hX : h.Has x N (m.width 0) v) (e : Nat → PyRnd) : ∃ r ls' h' P, pyPredict e ls x h = .ok (r, ls', h') ∧ h'.load r = .ok P ∧ P.Is N (m.width m.depth) fun s => m.out (v s) := by
  obtain ⟨r, ls', h', h1, h2, -⟩ := pyTrain_passes (m := m.derivBy ls) (v := v) hN hr.pos ls e 0 x h hrd (by rw [Nat.zero_add]; exact hr.count)
    (fun k l hk => by rw [Nat.zero_add]; exact (hr.derivBy).layer k l hk) (fun k l hk => by rw [Nat.zero_add]; exact hr.derivOk hrd k l hk) hX
  obtain ⟨P, p1, p2⟩ := h2.load
  have hout : ∀ s, (m.derivBy ls).out (v s) = m.out (v s) := fun s => Mlp.derivBy_out ..
  simp only [hout] at p2
  exact ⟨r, ls', h', P, h1, p1, p2⟩

theorem pyTrainBatchLog_eq {loss : String} {e : Nat → PyRnd} {s s' : PyTrainState} {x : Nat} {t : NpArr} (hb : pyTrainBatchBy loss e s x t = .ok s') {r : Nat} {ls : List PyLayer} {h : NpStore}
    {P L : NpArr} (h1 : pyPredict e s.ls x s.h = .ok (r, ls, h)) (h2 : h.load r = .ok P) (h3 : pyLossValue loss P t = .ok L) : pyTrainBatchLog loss e s x t = .ok (s', npSum L) := by
  unfold pyTrainBatchBy at hb
  unfold pyTrainBatchLog
  rw [h1, bind_ok'] at hb ⊢
  dsimp only at hb ⊢
  rw [h2, bind_ok'] at hb ⊢
  rw [h3, bind_ok']
  revert hb
  generalize pyLossGrad loss P t = z
  cases z with
  | error e => exact fun h => by cases h
  | ok G =>
    rw [bind_ok', bind_ok']
    generalize pyBackprop ls G h = z
    cases z with
    | error e => exact fun h => by cases h
    | ok G =>
      rw [bind_ok', bind_ok']
      generalize pyOptimizeBy G.2 0 s.o h = z
      cases z with
      | error e => exact fun h => by cases h
      | ok z =>
        rw [bind_ok', bind_ok']
        exact fun h => by obtain rfl := Except.ok.inj h; rfl

/-- One batch with its losses. -/
theorem PyTrainState.Before.log {loss : String} (hl : loss ∈ pyLosses) (e : Nat → PyRnd) {m₀ m : Mlp} {s₀ s s' : PyTrainState} (h : s₀.Before m₀ s m)
    {N D : Nat} (hN : 0 < N) {v y : Nat → Row} {X t : NpArr} (hX : X.Is N (m₀.width 0) v) (ht : t.Is N D y) (hT : TruthFits (pyLossName loss) (m₀.width m₀.depth) D N y)
    (hb : pyTrainBatchBy loss e { s with h := s.h ++ [X] } s.h.length t = .ok s') :
    ∃ a, pyTrainBatchLog loss e { s with h := s.h ++ [X] } s.h.length t = .ok (s', a) ∧ ((∀ s, s < N → PyUncut loss (m.width m.depth) (m.out (v s))) →
      a = pyLossFactor loss (m.width m.depth) * ∑ s ∈ range N, sampleError (pyLossName loss) (m.width m.depth) (m.out (v s)) (y s)) := by
  have hr : PyRep (s.h ++ [X]) s.ls m := ⟨h.ready.rep.count, h.ready.rep.pos, fun i l hi => by
    have := h.ready.rep.layer i l hi
    exact this.congr fun q hq => List.getElem?_append_left (this.lt q hq)⟩
  have hrd : PyReady s.ls s.h.length := ⟨h.ready.training, h.ready.learns, fun l hl hq => by
    obtain ⟨k, hk⟩ := List.mem_iff_getElem?.1 hl
    exact absurd ((h.ready.rep.layer k l hk).lt _ hq) (lt_irrefl _), h.ready.exp⟩
  obtain ⟨r, ls', h', P, p1, p2, p3⟩ := pyPredict_has hr hrd hN (s.h.has_append _ (by rw [h.like.width]; exact hX)) e
  obtain ⟨L, l1, l2⟩ := pyLossValue_ok hl (K := m.width m.depth) (by rw [h.like.width, h.like.depth]; exact hT) p3 ht
  exact ⟨npSum L, pyTrainBatchLog_eq hb p1 p2 l1, l2⟩

/-- A prediction with its accuracy. -/
theorem PyTrainState.Before.score {m₀ m : Mlp} {s₀ s : PyTrainState} (h : s₀.Before m₀ s m) (h0 : 0 < s₀.ls.length) (hk : ∀ l, s₀.ls[0]? = some l → l.keeps = false) (hK : 1 < m₀.width m₀.depth)
    {x N : Nat} {v : Nat → Row} (hX : s₀.h.Has x N (m₀.width 0) v) (hx : x ∉ s₀.ls.flatMap PyLayer.params) {t : NpArr} {c : Nat → Nat} (ht : PyLabels (m₀.width m₀.depth) N t c)
    (e : Nat → PyRnd) : ∃ s' a, pyScore e x t s = .ok (s', a) ∧ (pyPredict e s.ls x s.h).bind (fun z => .ok { s with ls := z.2.1, h := z.2.2 }) = .ok s' ∧ m.Accuracy N v c a := by
  obtain ⟨s₁, q1, q2⟩ := ht.last
  have hN : 0 < N := by omega
  have hxk := h.kept x hX.lt hx
  have hrd : PyReady s.ls x := ⟨h.ready.training, h.ready.learns, fun l hl hq => hxk.2 (mem_params hl hq), h.ready.exp⟩
  have hX' : s.h.Has x N (m.width 0) v := by
    rw [h.like.width]
    exact hX.congr hxk.1
  obtain ⟨r, ls', h', P, p1, p2, p3⟩ := pyPredict_has h.ready.rep hrd hN hX' e
  obtain ⟨M, a, c1, -, c2⟩ := pyConfusion_ok hN (by rw [h.like.width, h.like.depth]; exact hK) ht.arr p3 fun s k _ hk' => ⟨s₁, q1, by
    have := hk'.1
    rw [h.like.width, h.like.depth] at this
    omega⟩
  refine ⟨{ s with ls := ls', h := h' }, a, ?_, by rw [p1]; rfl, c2⟩
  unfold pyScore
  rw [p1, bind_ok']
  dsimp only
  rw [p2, bind_ok', c1]
  rfl

/-! ## `fit` -/

theorem Keeps.bind {s₀ : PyTrainState} {m₀ : Mlp} {f g : PyTrainState → Out PyTrainState} (hf : s₀.Keeps m₀ f) (hg : s₀.Keeps m₀ g) : s₀.Keeps m₀ fun s => (f s).bind g := by
  intro s m h
  obtain ⟨s₁, a1, a2, a3, a4⟩ := hf s m h
  obtain ⟨s₂, b1, b2, b3, b4⟩ := hg s₁ m a2
  exact ⟨s₂, by dsimp only; rw [a1]; exact b1, b2, b3.trans a3, fun b i hi hb => (b4 b i hi hb).trans (a4 b i hi hb)⟩

theorem getElem?_snoc {α : Type} {L : List α} {x a : α} {n ep : Nat} (hn : L.length = n) (h : (L ++ [x])[ep]? = some a) : L[ep]? = some a ∨ ep = n ∧ a = x := by
  rcases Nat.lt_trichotomy ep L.length with h1 | h1 | h1
  · rw [List.getElem?_append_left h1] at h
    exact .inl h
  · rw [h1, List.getElem?_concat_length] at h
    exact .inr ⟨h1.trans hn, (Option.some.inj h).symm⟩
  · rw [List.getElem?_eq_none (by simp; omega)] at h
    cases h

section
variable {log : PyLog} {acc tested : Bool} {n : Nat} {best0 : ℝ} {b0 : List PyLayer × NpStore} {Loss Train Valid : Nat → ℝ → Prop} {Best : Nat → List PyLayer × NpStore → Prop}

theorem snoc_tells {L : List ℝ} {P : Nat → ℝ → Prop} {x : ℝ} (h : L.length = n ∧ ∀ ep a, L[ep]? = some a → P ep a) (hx : P n x) :
    (L ++ [x]).length = n + 1 ∧ ∀ ep a, (L ++ [x])[ep]? = some a → P ep a := by
  refine ⟨by simp [h.1], fun ep a ha => ?_⟩
  rcases getElem?_snoc h.1 ha with h1 | ⟨rfl, rfl⟩
  · exact h.2 ep a h1
  · exact hx

theorem PyLog.Tells.plain (h : log.Tells false tested n best0 b0 Loss Train Valid Best) {x : ℝ} (hx : Loss n x) :
    PyLog.Tells { log with losses := log.losses ++ [x] } false tested (n + 1) best0 b0 Loss Train Valid Best :=
  ⟨snoc_tells h.losses hx, h.train, h.valid, h.most, h.best⟩

theorem PyLog.Tells.untested (h : log.Tells true false n best0 b0 Loss Train Valid Best) {x y : ℝ} (hx : Loss n x) (hy : Train n y) :
    PyLog.Tells { log with losses := log.losses ++ [x], train := log.train ++ [y] } true false (n + 1) best0 b0 Loss Train Valid Best :=
  ⟨snoc_tells h.losses hx, snoc_tells h.train hy, h.valid, h.most, h.best⟩

theorem PyLog.Tells.withTest (h : log.Tells true true n best0 b0 Loss Train Valid Best) {x y z : ℝ} (hx : Loss n x) (hy : Train n y) (hz : Valid n z) {b : List PyLayer × NpStore}
    (hb : Best n b) : PyLog.Tells (if log.bestAcc < z then ⟨log.losses ++ [x], log.train ++ [y], log.valid ++ [z], z, b⟩
      else ⟨log.losses ++ [x], log.train ++ [y], log.valid ++ [z], log.bestAcc, log.best⟩) true true (n + 1) best0 b0 Loss Train Valid Best := by
  have hlen : log.valid.length = n := h.valid.1
  have h0 : best0 ≤ log.bestAcc := by
    rcases h.best with h1 | h1
    · exact h1.1.ge
    · exact h1.1.le
  split_ifs with hlt
  · refine ⟨snoc_tells h.losses hx, snoc_tells h.train hy, snoc_tells h.valid hz, fun a ha => ?_, .inr ⟨h0.trans_lt hlt, n, ?_, fun ep a hep ha => ?_, hb⟩⟩
    · rcases List.mem_append.1 ha with h1 | h1
      · exact (h.most a h1).trans hlt.le
      · rw [List.mem_singleton.1 h1]
    · dsimp only
      rw [← hlen, List.getElem?_concat_length]
    · rcases getElem?_snoc hlen ha with h1 | ⟨h1, -⟩
      · exact (h.most a (List.mem_of_getElem? h1)).trans_lt hlt
      · omega
  · refine ⟨snoc_tells h.losses hx, snoc_tells h.train hy, snoc_tells h.valid hz, fun a ha => ?_, ?_⟩
    · rcases List.mem_append.1 ha with h1 | h1
      · exact h.most a h1
      · rw [List.mem_singleton.1 h1]
        exact not_lt.1 hlt
    · rcases h.best with h1 | ⟨h1, ep, h2, h3, h4⟩
      · exact .inl h1
      · have hep := (List.getElem?_eq_some_iff.1 h2).1
        refine .inr ⟨h1, ep, ?_, fun ep' a hep' ha => ?_, h4⟩
        · dsimp only
          rw [List.getElem?_append_left hep]
          exact h2
        · dsimp only at ha
          rw [List.getElem?_append_left (by omega)] at ha
          exact h3 ep' a hep' ha

end

theorem bind_okE {α β : Type} (a : α) (f : α → Out β) : (Except.ok a : Out α).bind f = f a := rfl

/-- `fit` with what it collects. -/
theorem pyFitLog_ok {loss : String} (hl : loss ∈ pyLosses) (k : PyOptKind) (epochs batchSize : Nat) (acc : Bool) (test : Option (Nat × NpArr)) (best0 : ℝ) (r : PyFitRnd) (rv : Nat → Nat → PyRnd)
    {ls : List PyLayer} {m : Mlp} (hm : PyModel ls m)
    (hacc : acc = true → ∀ l, ls[0]? = some l → l.keeps = false) {h : NpStore} {x N D : Nat} (hN : 0 < N) {v y : Nat → Row} (hX : h.Has x N (m.width 0) v) {t : NpArr} (ht : t.Is N D y)
    (hT : TruthFits (pyLossName loss) (m.width m.depth) D N y) (hσ : ∀ ep, ((List.range N).map (r.perm ep)).Perm (List.range N))
    (hK : acc = true → 1 < m.width m.depth) {c : Nat → Nat} (hc : acc = true → PyLabels (m.width m.depth) N t c)
    {Nt : Nat} {vt : Nat → Row} {ct : Nat → Nat} (htest : acc = true → ∀ xt tt, test = some (xt, tt) → h.Has xt Nt (m.width 0) vt ∧ PyLabels (m.width m.depth) Nt tt ct) {B nb : Nat}
    (hB : B = if batchSize = 0 then N else batchSize) (hnb : nb = nbBatches N B) :
    ∃ (s' : PyTrainState) (log : PyLog) (ms : Nat → Mlp), pyFitLog loss k epochs batchSize acc test best0 r rv m.width ls x t h = .ok (s', log) ∧ ms 0 = m.xavier r.init ∧
      PyRep s'.h s'.ls (ms (epochs * nb)) ∧
      Mlp.TrainedBy (fun _ _ => PyOpt.new k) (pyLossName loss) (fun u => batchEnd N B (u % nb) - batchStart B (u % nb))
        (fun u i => v (r.perm (u / nb) (batchStart B (u % nb) + i))) (fun u i => y (r.perm (u / nb) (batchStart B (u % nb) + i))) ms ∧
      (∀ l ∈ s'.ls, l.training = false) ∧ (∀ q, q < h.length → s'.h[q]? = h[q]?) ∧
      log.Tells acc test.isSome epochs best0 (ls, h)
        (fun ep a => (∀ j i, j < nb → i < batchEnd N B j - batchStart B j → PyUncut loss (m.width m.depth) ((ms (ep * nb + j)).out (v (r.perm ep (batchStart B j + i))))) →
          a = pyLossFactor loss (m.width m.depth) * (∑ j ∈ range nb, ∑ i ∈ range (batchEnd N B j - batchStart B j),
            sampleError (pyLossName loss) (m.width m.depth) ((ms (ep * nb + j)).out (v (r.perm ep (batchStart B j + i)))) (y (r.perm ep (batchStart B j + i)))) / (N * m.width 0 : Nat))
        (fun ep a => (ms ((ep + 1) * nb)).Accuracy N v c a) (fun ep a => (ms ((ep + 1) * nb)).Accuracy Nt vt ct a) (fun ep b => PyRep b.2 b.1 (ms ((ep + 1) * nb))) := by
  have hBpos : 0 < B := by rw [hB]; split <;> omega
  have hnpos : 0 < nb := by rw [hnb]; exact Nat.div_pos (by omega) hBpos
  have hstart : ∀ a, a < nb → batchStart B a < batchEnd N B a := fun a h1 => by
    rw [hnb] at h1
    have h2 := (Nat.le_div_iff_mul_le hBpos).1 (show a + 1 ≤ _ from h1)
    unfold batchStart batchEnd
    rw [Nat.add_mul, Nat.one_mul] at h2 ⊢
    omega
  have hmod : ∀ u, u % nb < nb := fun u => Nat.mod_lt _ hnpos
  have hend : ∀ j, batchEnd N B j = min (j * B + B) N := fun j => by unfold batchEnd; rw [Nat.add_mul, Nat.one_mul]
  have hlt : ∀ ep j i, i < batchEnd N B j - batchStart B j → r.perm ep (batchStart B j + i) < N := fun ep j i hi =>
    List.mem_range.1 ((hσ _).mem_iff.1 (List.mem_map.2 ⟨_, List.mem_range.2 (by have := hend j; omega), rfl⟩))
  obtain ⟨s, i1, i2, i3, i4, i5, i6⟩ := pyInit_ready r.init hm h (fun _ _ => PyOpt.new k)
  obtain ⟨X, hX0, hX2⟩ := hX
  have hxlt : x < h.length := (List.getElem?_eq_some_iff.1 hX0).1
  have hsx : s.h[x]? = some X := (i5 x hxlt).1.trans hX0
  have hlike : Mlp.Like m (m.xavier r.init) := ⟨rfl, rfl, fun _ => rfl⟩
  have hdep : 0 < s.ls.length := by rw [i3.rep.count]; exact hm.ok.depth
  have hfirst : acc = true → ∀ l, s.ls[0]? = some l → l.keeps = false := fun ha l hl' => by
    obtain ⟨l₀, k1, k2⟩ := i6 0 l hl'
    rw [keeps_kind k2]
    exact hacc ha l₀ k1
  let pred : (Nat → PyRnd) → Nat → PyTrainState → Out PyTrainState := fun e x s => (pyPredict e s.ls x s.h).bind fun z => .ok { s with ls := z.2.1, h := z.2.2 }
  let tpred : Nat → PyTrainState → Out PyTrainState := fun ep => test.elim .ok fun z => pred (rv ep) z.1
  let post : Nat → PyTrainState → Out PyTrainState := fun u =>
    if acc = true ∧ u % nb + 1 = nb then fun s => (pred (r.test (u / nb)) x s).bind (tpred (u / nb)) else .ok
  have hkeep : s.Keeps (m.xavier r.init) .ok := fun s' m' h => ⟨s', rfl, h, rfl, fun _ _ _ _ => rfl⟩
  have hpx : acc = true → ∀ e, s.Keeps (m.xavier r.init) (pred e x) := fun ha e =>
    PyTrainState.keeps_predict (m₀ := m.xavier r.init) hN ⟨X, hsx, hX2⟩ (i5 x hxlt).2 hdep (hfirst ha) _
  have htx : acc = true → ∀ xt tt, test = some (xt, tt) → s.h.Has xt Nt (m.width 0) vt ∧ xt ∉ s.ls.flatMap PyLayer.params ∧ PyLabels (m.width m.depth) Nt tt ct := fun ha xt tt hte => by
    obtain ⟨a1, a2⟩ := htest ha xt tt hte
    exact ⟨a1.congr (i5 xt a1.lt).1, (i5 xt a1.lt).2, a2⟩
  have hpt : acc = true → ∀ xt tt, test = some (xt, tt) → ∀ e, s.Keeps (m.xavier r.init) (pred e xt) := fun ha xt tt hte e => by
    obtain ⟨a1, a2, a3⟩ := htx ha xt tt hte
    obtain ⟨s₁, q1, -⟩ := a3.last
    exact PyTrainState.keeps_predict (m₀ := m.xavier r.init) (by omega) a1 a2 hdep (hfirst ha) _
  have hpost : ∀ u, s.Keeps (m.xavier r.init) (post u) := fun u => by
    by_cases hcu : acc = true ∧ u % nb + 1 = nb
    · rw [show post u = fun s => (pred (r.test (u / nb)) x s).bind (tpred (u / nb)) from if_pos hcu]
      refine Keeps.bind (hpx hcu.1 _) ?_
      cases hte : test with
      | none => simp only [tpred, hte, Option.elim]; exact hkeep
      | some z => simp only [tpred, hte, Option.elim]; exact hpt hcu.1 z.1 z.2 hte _
    · rw [show post u = .ok from if_neg hcu]
      exact hkeep
  obtain ⟨ms, S, h1, h2, h3, h4, h5⟩ := pyTrain_chainQ hl (hlike.ok hm.ok) i3 (fun b i _ _ => by rw [i2]; cases k <;> rfl) (fun u => r.batch (u / nb) (u % nb))
    (N := fun u => batchEnd N B (u % nb) - batchStart B (u % nb)) (D := fun _ => D) (fun u => by have := hstart _ (hmod u); omega)
    (x := fun u i => v (r.perm (u / nb) (batchStart B (u % nb) + i))) (y := fun u i => y (r.perm (u / nb) (batchStart B (u % nb) + i)))
    (X := fun u => npTake X (r.perm (u / nb)) (batchStart B (u % nb)) (batchEnd N B (u % nb))) (T := fun u => npTake t (r.perm (u / nb)) (batchStart B (u % nb)) (batchEnd N B (u % nb)))
    (fun u => npTake_is hX2 (hlt _ _)) (fun u => npTake_is ht (hlt _ _)) (fun u => hT.some (hlt _ _)) (post := post) hpost
  have hdiv : ∀ ep j, j < nb → (ep * nb + j) / nb = ep ∧ (ep * nb + j) % nb = j := fun ep j hj => by
    rw [Nat.mul_comm]
    exact ⟨by rw [Nat.mul_add_div hnpos, Nat.div_eq_of_lt hj, Nat.add_zero], by rw [Nat.mul_add_mod, Nat.mod_eq_of_lt hj]⟩
  have hwd : ∀ u, (ms u).width (ms u).depth = m.width m.depth := fun u => by rw [(h5 u).like.width, (h5 u).like.depth]; rfl
  have hstep : ∀ ep j, j < nb → ∃ q a, pyTrainBatchLog loss (r.batch ep j) { S (ep * nb + j) with h := (S (ep * nb + j)).h ++ [npTake X (r.perm ep) (j * B) (min (j * B + B) N)] }
      (S (ep * nb + j)).h.length (npTake t (r.perm ep) (j * B) (min (j * B + B) N)) = .ok (q, a) ∧ post (ep * nb + j) q = .ok (S (ep * nb + j + 1)) ∧
      s.Before (m.xavier r.init) q (ms (ep * nb + j + 1)) ∧
      ((∀ i, i < batchEnd N B j - batchStart B j → PyUncut loss (m.width m.depth) ((ms (ep * nb + j)).out (v (r.perm ep (batchStart B j + i))))) →
        a = pyLossFactor loss (m.width m.depth) * ∑ i ∈ range (batchEnd N B j - batchStart B j),
          sampleError (pyLossName loss) (m.width m.depth) ((ms (ep * nb + j)).out (v (r.perm ep (batchStart B j + i)))) (y (r.perm ep (batchStart B j + i)))) := fun ep j hj => by
    obtain ⟨q, q1, q2, q3⟩ := h4 (ep * nb + j)
    rw [(hdiv ep j hj).1, (hdiv ep j hj).2] at q1
    obtain ⟨a, a1, a2⟩ := (h5 (ep * nb + j)).log hl (r.batch ep j) (by have := hstart j hj; omega) (npTake_is hX2 (hlt ep j)) (npTake_is ht (hlt ep j)) (hT.some (hlt ep j)) q1
    rw [hwd] at a2
    rw [hend] at a1
    exact ⟨q, a, a1, q2, q3, a2⟩
  choose Q V hQ1 hQ2 hQ3 hQ4 using hstep
  have hin : ∀ ep j, j < nb → forN j (fun k (z : PyTrainState × ℝ) => do
        let start := k * B
        let stop := min (start + B) N
        let (q, v) ← pyTrainBatchLog loss (r.batch ep k) { z.1 with h := z.1.h ++ [npTake X (r.perm ep) start stop] } z.1.h.length (npTake t (r.perm ep) start stop)
        .ok (q, z.2 + v)) (S (ep * nb), (0 : ℝ)) = .ok (S (ep * nb + j), ∑ i ∈ range j, if hi : i < nb then V ep i hi else 0) := by
    intro ep j
    induction j with
    | zero => exact fun _ => rfl
    | succ j ih =>
      intro hj
      have h6 := hQ2 ep j (by omega)
      rw [show post (ep * nb + j) = .ok from if_neg (by rw [(hdiv ep j (by omega)).2]; omega)] at h6
      rw [forN_succ, ih (by omega), bind_okE]
      dsimp only
      rw [hQ1 ep j (by omega), bind_ok', sum_range_succ, dif_pos (show j < nb by omega)]
      dsimp only
      rw [Except.ok.inj h6, Nat.add_assoc]
  have hepoch : ∀ ep, ∃ q, forN nb (fun k (z : PyTrainState × ℝ) => do
        let start := k * B
        let stop := min (start + B) N
        let (q, v) ← pyTrainBatchLog loss (r.batch ep k) { z.1 with h := z.1.h ++ [npTake X (r.perm ep) start stop] } z.1.h.length (npTake t (r.perm ep) start stop)
        .ok (q, z.2 + v)) (S (ep * nb), (0 : ℝ)) = .ok (q, ∑ i ∈ range nb, if hi : i < nb then V ep i hi else 0) ∧ s.Before (m.xavier r.init) q (ms ((ep + 1) * nb)) ∧
      (if acc = true then (pred (r.test ep) x q).bind (tpred ep) else .ok q) = .ok (S ((ep + 1) * nb)) := fun ep => by
    obtain ⟨j, hj⟩ : ∃ j, nb = j + 1 := ⟨nb - 1, by omega⟩
    have hjn : j < nb := by omega
    have e : ep * nb + j + 1 = (ep + 1) * nb := by rw [Nat.add_assoc, ← hj]; ring
    have h6 := hQ2 ep j hjn
    have h7 := hQ3 ep j hjn
    rw [e] at h6 h7
    refine ⟨Q ep j hjn, ?_, h7, ?_⟩
    · rw [show (forN nb : _ → PyTrainState × ℝ → Out (PyTrainState × ℝ)) = forN (j + 1) by rw [hj], show range nb = range (j + 1) by rw [hj], forN_succ, hin ep j hjn, bind_okE]
      dsimp only
      rw [hQ1 ep j hjn, bind_ok', sum_range_succ, dif_pos hjn]
    · rw [← h6]
      cases acc with
      | false => rw [show post (ep * nb + j) = .ok from if_neg (by simp)]; rfl
      | true =>
        rw [show post (ep * nb + j) = fun s => (pred (r.test ((ep * nb + j) / nb)) x s).bind (tpred ((ep * nb + j) / nb)) from
          if_pos ⟨rfl, by rw [(hdiv ep j hjn).2, hj]⟩, (hdiv ep j hjn).1]
        rfl
  have hloss : ∀ ep, (∀ j i, j < nb → i < batchEnd N B j - batchStart B j → PyUncut loss (m.width m.depth) ((ms (ep * nb + j)).out (v (r.perm ep (batchStart B j + i))))) →
      (∑ i ∈ range nb, if hi : i < nb then V ep i hi else 0) / (X.rows * X.cols : Nat) =
        pyLossFactor loss (m.width m.depth) * (∑ j ∈ range nb, ∑ i ∈ range (batchEnd N B j - batchStart B j),
            sampleError (pyLossName loss) (m.width m.depth) ((ms (ep * nb + j)).out (v (r.perm ep (batchStart B j + i)))) (y (r.perm ep (batchStart B j + i)))) / (N * m.width 0 : Nat) := fun ep hu => by
    rw [hX2.1, hX2.2.1, mul_sum]
    congr 1
    refine sum_congr rfl fun j hj => ?_
    have hj := mem_range.1 hj
    rw [dif_pos hj]
    exact hQ4 ep j hj fun i hi => hu j i hj hi
  have hall : ∃ log : PyLog, forN epochs (pyEpochLog loss B acc test r rv x t) (s, ⟨[], [], [], best0, (ls, h)⟩) = .ok (S (epochs * nb), log) ∧
      log.Tells acc test.isSome epochs best0 (ls, h)
        (fun ep a => (∀ j i, j < nb → i < batchEnd N B j - batchStart B j → PyUncut loss (m.width m.depth) ((ms (ep * nb + j)).out (v (r.perm ep (batchStart B j + i))))) →
          a = pyLossFactor loss (m.width m.depth) * (∑ j ∈ range nb, ∑ i ∈ range (batchEnd N B j - batchStart B j),
            sampleError (pyLossName loss) (m.width m.depth) ((ms (ep * nb + j)).out (v (r.perm ep (batchStart B j + i)))) (y (r.perm ep (batchStart B j + i)))) / (N * m.width 0 : Nat))
        (fun ep a => (ms ((ep + 1) * nb)).Accuracy N v c a) (fun ep a => (ms ((ep + 1) * nb)).Accuracy Nt vt ct a) (fun ep b => PyRep b.2 b.1 (ms ((ep + 1) * nb))) := by
    clear hσ
    induction epochs with
    | zero =>
      refine ⟨⟨[], [], [], best0, (ls, h)⟩, by rw [Nat.zero_mul, h2]; rfl, ⟨rfl, fun ep a ha => by simp at ha⟩, ⟨by cases acc <;> rfl, fun ep a ha => by simp at ha⟩,
        ⟨by split <;> rfl, fun ep a ha => by simp at ha⟩, fun a ha => by simp at ha, .inl ⟨rfl, rfl⟩⟩
    | succ n ih =>
      obtain ⟨log, l1, l2⟩ := ih
      obtain ⟨q, q1, q2, q3⟩ := hepoch n
      rw [forN_succ, l1, bind_okE]
      have hload : (S (n * nb)).h.load x = .ok X := PyLayer.load_some (((h5 (n * nb)).kept x (hxlt.trans_le i4) (i5 x hxlt).2).1.trans hsx)
      have hchk : npCheck (X.rows ≤ t.rows) = .ok () := npCheck_ok (by rw [hX2.1, ht.1])
      have hl' := hloss n
      generalize hsum : (∑ i ∈ range nb, if hi : i < nb then V n i hi else 0) = sum at q1 hl'
      have hgo : pyEpochLog loss B acc test r rv x t n (S (n * nb), log) = (do
          let log := { log with losses := log.losses ++ [sum / (X.rows * X.cols : Nat)] }
          if acc then do
            let (q, a) ← pyScore (r.test n) x t q
            let log := { log with train := log.train ++ [a] }
            match test with
            | none => .ok (q, log)
            | some (xt, tt) => do
              let (q, a) ← pyScore (rv n) xt tt q
              let log := { log with valid := log.valid ++ [a] }
              .ok (q, if log.bestAcc < a then { log with bestAcc := a, best := (q.ls, q.h) } else log)
          else .ok (q, log)) := by
        unfold pyEpochLog
        rw [hload, bind_ok', hchk, bind_ok', show (X.rows + B - 1) / B = nb by rw [hX2.1, hnb]; rfl]
        rw [← hX2.1] at q1
        rw [q1, bind_ok']
        rfl
      rw [hgo]
      dsimp only
      cases acc with
      | false =>
        rw [if_neg (by decide)] at q3 ⊢
        exact ⟨_, by rw [Except.ok.inj q3], l2.plain hl'⟩
      | true =>
        rw [if_pos rfl] at q3 ⊢
        obtain ⟨q', a, a1, a2, a3⟩ := q2.score hdep (hfirst rfl) (hK rfl) ⟨X, hsx, hX2⟩ (i5 x hxlt).2 (hc rfl) (r.test n)
        obtain ⟨q'', b1, b2, -⟩ := hpx rfl (r.test n) q _ q2
        obtain rfl : q' = q'' := Except.ok.inj (a2.symm.trans b1)
        rw [show pred (r.test n) x q = .ok q' from a2, bind_okE] at q3
        rw [a1, bind_ok']
        dsimp only
        cases hte : test with
        | none =>
          rw [hte] at l2
          simp only [tpred, hte, Option.elim] at q3
          exact ⟨_, by rw [Except.ok.inj q3], l2.untested hl' a3⟩
        | some z =>
          rw [hte] at l2
          obtain ⟨xt, tt⟩ := z
          simp only [tpred, hte, Option.elim] at q3
          obtain ⟨c1, c2, c3⟩ := htx rfl xt tt hte
          obtain ⟨q₂, b, d1, d2, d3⟩ := b2.score hdep (hfirst rfl) (hK rfl) c1 c2 c3 (rv n)
          obtain ⟨q₃, e1, e2, -⟩ := hpt rfl xt tt hte (rv n) q' _ b2
          obtain rfl : q₂ = q₃ := Except.ok.inj (d2.symm.trans e1)
          obtain rfl : q₂ = S ((n + 1) * nb) := Except.ok.inj (d2.symm.trans q3)
          dsimp only
          rw [d1, bind_ok']
          exact ⟨_, rfl, l2.withTest hl' a3 d3 e2.ready.rep⟩
  obtain ⟨log, l1, l2⟩ := hall
  have h6 := h5 (epochs * nb)
  refine ⟨{ S (epochs * nb) with ls := (S (epochs * nb)).ls.map fun l => { l with training := false } }, log, ms, ?_, h1,
    ⟨by dsimp only; rw [List.length_map]; exact h6.ready.rep.count, h6.ready.rep.pos, fun i l hi => ?_⟩,
    by rw [i2] at h3; exact h3, fun l hl' => ?_, fun q hq => ((h6.kept q (hq.trans_le i4) (i5 q hq).2).1).trans (i5 q hq).1, l2⟩
  · unfold pyFitLog
    rw [i1]
    dsimp only
    rw [PyLayer.load_some hsx, bind_ok', hX2.1, ← hB, ← i2, l1, bind_ok']
  · rw [List.getElem?_map, Option.map_eq_some_iff] at hi
    obtain ⟨l₀, h7, rfl⟩ := hi
    exact h6.ready.rep.layer i l₀ h7
  · obtain ⟨l₀, h7, rfl⟩ := List.mem_map.1 hl'
    rfl

end BeeDNN
