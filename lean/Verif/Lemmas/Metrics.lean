import Verif.Model.Metrics
import Verif.Spec.Metrics
import Verif.Props.Matrix
import Verif.Lemmas.Scaler
import Verif.Lemmas.LayersMisc

/-! # Helper lemmas on metrics -/

namespace BeeDNN
open Finset

theorem toIndex_int {z : Int} (h : |z| ≤ 9223372036854775807) : toIndex (z : ℝ) = .ok z := by
  have := abs_le.1 h
  unfold toIndex
  rw [if_pos ⟨by exact_mod_cast (by omega : (-9223372036854775809 : Int) < z), by exact_mod_cast (by omega : z < (9223372036854775808 : Int))⟩]
  split <;> simp

theorem toIndex_ref {y : ℝ} (h0 : -1 < y) (h1 : y ≤ 9 * 10 ^ 18) : toIndex y = .ok (refClass y : Int) := by
  unfold toIndex refClass
  rw [if_pos ⟨by linarith, by linarith⟩]
  by_cases h : 0 ≤ y
  · rw [if_pos h, Int.natCast_floor_eq_floor h]
  · rw [if_neg h, Nat.floor_of_nonpos (by linarith)]
    have : ⌈y⌉ = 0 := by
      rw [Int.ceil_eq_iff]
      push_cast
      constructor <;> linarith
    rw [this]
    rfl

theorem toIndex_round {x : ℝ} (h : |x| ≤ 9 * 10 ^ 18) {K : Nat} (hK : 0 < K) :
    ∃ z, toIndex (World.roundf x) = .ok z ∧ max (min z ((K : Int) - 1)) 0 = (predClass K x : Int) := by
  have hb := abs_le.1 h
  unfold World.roundf predClass
  by_cases h0 : 0 ≤ x
  · rw [if_pos h0]
    have h2 : (0 : ℝ) ≤ x + 1 / 2 := by linarith
    have hz : (0 : Int) ≤ ⌊x + 1 / 2⌋ := Int.floor_nonneg.2 h2
    have hz' : ⌊x + 1 / 2⌋ < 9000000000000000002 := by
      rw [Int.floor_lt]
      push_cast
      linarith [hb.2]
    refine ⟨⌊x + 1 / 2⌋, toIndex_int (abs_le.2 ⟨by omega, by omega⟩), ?_⟩
    rw [← Int.natCast_floor_eq_floor h2]
    omega
  · rw [if_neg h0]
    have h2 : (0 : ℝ) ≤ -x + 1 / 2 := by linarith
    have hz : (0 : Int) ≤ ⌊-x + 1 / 2⌋ := Int.floor_nonneg.2 h2
    have hz' : ⌊-x + 1 / 2⌋ < 9000000000000000002 := by
      rw [Int.floor_lt]
      push_cast
      linarith [hb.1]
    have := toIndex_int (z := -⌊-x + 1 / 2⌋) (abs_le.2 ⟨by omega, by omega⟩)
    push_cast at this
    refine ⟨-⌊-x + 1 / 2⌋, this, ?_⟩
    have h3 : ⌊x + 1 / 2⌋₊ = 0 := by
      rw [Nat.floor_eq_zero]
      linarith
    rw [h3]
    omega

theorem Mat.incr_ofFn {R C : Nat} {f : Nat → Nat → ℝ} {r c : Nat} (hr : r < R) (hc : c < C) :
    (Mat.ofFn R C f).incr r c = .ok (Mat.ofFn R C (fun i j => if i = r ∧ j = c then f r c + 1 else f i j)) := by
  unfold Mat.incr
  rw [check_true (by rw [Mat.ofFn_rows]; omega), bind_ok', check_true (by rw [Mat.ofFn_cols]; omega), bind_ok', Mat.ofFn_cols, if_neg (not_lt.2 (by positivity))]
  have : ((r : Int) * C + c).toNat = r * C + c := by
    rw [show ((r : Int) * C + c) = ((r * C + c : Nat) : Int) by push_cast; ring, Int.toNat_natCast]
  rw [this, Mat.raw_ofFn hr hc, bind_ok', Mat.setRaw_ofFn hr hc]

theorem predClass_lt {K : Nat} (hK : 0 < K) (x : ℝ) : predClass K x < K := by
  unfold predClass
  omega

theorem Metrics.count_prefix {N K k : Nat} (hk : k ≤ N) (hK : 0 < K) {y p : Nat → ℝ} (hy : ∀ i, i < k → LabelOk K (y i))
    (hp : ∀ i, i < k → |p i| ≤ 9 * 10 ^ 18) :
    forN k (fun i m => do
      let x ← (Mat.ofFn N 1 (fun i _ => p i)).getI i
      let p ← toIndex (World.roundf x)
      let p := max (min p (K - 1)) 0
      let y ← (Mat.ofFn N 1 (fun i _ => y i)).getI i
      let r ← toIndex y
      Mat.incr m r p) (Mat.ofFn K K (fun _ _ => 0)) =
      .ok (Mat.ofFn K K (fun a b => (nbTaken k K y p a b : ℝ))) := by
  refine forN_closed' (fun k => Mat.ofFn K K (fun a b => (nbTaken k K y p a b : ℝ))) ?_ rfl (fun i hi => ?_)
  · exact Mat.ofFn_congr fun a b _ _ => by simp [nbTaken]
  · obtain ⟨z, z1, z2⟩ := toIndex_round (hp i hi) hK
    have hi' : i < N := by omega
    rw [Mat.getI_ofFn_col hi', bind_ok', z1, bind_ok']
    dsimp only
    rw [z2, Mat.getI_ofFn_col hi', bind_ok', toIndex_ref (hy i hi).1 (hy i hi).2.1, bind_ok', Mat.incr_ofFn (hy i hi).2.2 (predClass_lt hK _)]
    congr 1
    refine Mat.ofFn_congr fun a b _ _ => ?_
    unfold nbTaken
    simp only [card_filter]
    rw [sum_range_succ]
    by_cases h : a = refClass (y i) ∧ b = predClass K (p i)
    · obtain ⟨rfl, rfl⟩ := h
      simp
    · have h' : ¬ (refClass (y i) = a ∧ predClass K (p i) = b) := fun ⟨h1, h2⟩ => h ⟨h1.symm, h2.symm⟩
      rw [if_neg h, if_neg h', add_zero]

theorem Metrics.count_ofFn {N K : Nat} (hK : 0 < K) {y p : Nat → ℝ} (hy : ∀ i, i < N → LabelOk K (y i))
    (hp : ∀ i, i < N → |p i| ≤ 9 * 10 ^ 18) :
    Metrics.count (Mat.ofFn N 1 (fun i _ => y i)) (Mat.ofFn N 1 (fun i _ => p i)) K (Mat.ofFn K K (fun _ _ => 0)) =
      .ok (Mat.ofFn K K (fun a b => (nbTaken N K y p a b : ℝ))) := by
  unfold Metrics.count
  rw [Mat.ofFn_rows]
  exact count_prefix (le_refl N) hK hy hp

theorem Metrics.count_error {N K k : Nat} (hk : k < N) (hK : 0 < K) {y p : Nat → ℝ} (hy : ∀ i, i < k → LabelOk K (y i))
    (hp : ∀ i, i < k + 1 → |p i| ≤ 9 * 10 ^ 18) {z : Int} (hz : toIndex (y k) = .ok z) {e : Fault}
    (he : ∀ (f : Nat → Nat → ℝ) (b : Nat), b < K → (Mat.ofFn K K f).incr z b = .error e) :
    Metrics.count (Mat.ofFn N 1 (fun i _ => y i)) (Mat.ofFn N 1 (fun i _ => p i)) K (Mat.ofFn K K (fun _ _ => 0)) = .error e := by
  unfold Metrics.count
  rw [Mat.ofFn_rows]
  refine forN_error hk (count_prefix (by omega) hK hy fun i hi => hp i (by omega)) ?_
  obtain ⟨w, z1, z2⟩ := toIndex_round (hp k (by omega)) hK
  rw [Mat.getI_ofFn_col hk, bind_ok', z1, bind_ok']
  dsimp only
  rw [z2, Mat.getI_ofFn_col hk, bind_ok', hz, bind_ok', he _ _ (predClass_lt hK _)]

theorem sum_nbTaken_row {N K : Nat} (hK : 0 < K) (y p : Nat → ℝ) (a : Nat) : ∑ b ∈ range K, nbTaken N K y p a b = nbClass N y a := by
  unfold nbTaken nbClass
  rw [card_eq_sum_card_fiberwise (f := fun i => predClass K (p i)) (t := range K) (fun i _ => by simpa using predClass_lt hK _)]
  refine sum_congr rfl fun b _ => ?_
  rw [filter_filter]

theorem sum_nbTaken_diag {N K : Nat} {y p : Nat → ℝ} (hy : ∀ i, i < N → refClass (y i) < K) : ∑ a ∈ range K, nbTaken N K y p a a = nbHits N K y p := by
  unfold nbTaken nbHits
  rw [card_eq_sum_card_fiberwise (f := fun i => refClass (y i)) (t := range K) (fun i hi => by
    have := (mem_filter.1 (Finset.mem_coe.1 hi)).1
    simpa using hy i (mem_range.1 this))]
  refine sum_congr rfl fun a _ => ?_
  rw [filter_filter]
  congr 1
  refine filter_congr fun i _ => ?_
  constructor
  · rintro ⟨h1, h2⟩; exact ⟨h2.trans h1.symm, h1⟩
  · rintro ⟨h1, h2⟩; exact ⟨h2, h1.trans h2⟩

theorem sum_nbClass {N K : Nat} {y : Nat → ℝ} (hy : ∀ i, i < N → refClass (y i) < K) : ∑ a ∈ range K, nbClass N y a = N := by
  unfold nbClass
  rw [← card_eq_sum_card_fiberwise (f := fun i => refClass (y i)) (s := range N) (t := range K) (fun i hi => by
    simpa using hy i (mem_range.1 (Finset.mem_coe.1 hi))), card_range]

theorem Metrics.compute_ofFn (g : Nat → ℝ) (div0 : ℝ) {m : Metrics} (h1 : m.confusion.WF) (h2 : m.normalized.WF) {N K : Nat} {y p : Nat → ℝ} {nb : Int}
    (hK : NbClasses N y nb K) (hy : ∀ i, i < N → LabelOk K (y i)) (hp : ∀ i, i < N → |p i| ≤ 9 * 10 ^ 18) :
    m.compute g div0 (Mat.ofFn N 1 (fun i _ => y i)) (Mat.ofFn N 1 (fun i _ => p i)) nb =
      .ok ⟨rdiv div0 (nbHits N K y p) N * 100, rdiv div0 (∑ a ∈ range K, rdiv div0 (nbTaken N K y p a a) (nbClass N y a) * 100) K,
        Mat.ofFn K K (fun a b => (nbTaken N K y p a b : ℝ)), Mat.ofFn K K (fun a b => rdiv div0 (nbTaken N K y p a b) (nbClass N y a) * 100)⟩ := by
  unfold Metrics.compute
  rw [check_true (by rw [Mat.ofFn_rows, Mat.ofFn_rows]), bind_ok']
  have hk : (if nb = 0 then do
      let x ← (Mat.ofFn N 1 (fun i _ => y i)).maxCoeff
      let k ← toIndex x
      return k + 1
    else return nb : Out Int) = .ok (K : Int) := by
    rcases hK with ⟨hK0, rfl | ⟨rfl, i, hi, hi', hmax⟩⟩
    · rw [if_neg (by omega)]
      rfl
    · rw [if_pos rfl]
      obtain ⟨x, x1, x2, a, b, ha, -, x3⟩ := C04_maxCoeff N 1 (by omega) (fun i _ => y i)
      have hx : x = y i := le_antisymm (by rw [x3]; exact hmax a ha) (x2 i 0 hi one_pos)
      rw [x1, bind_ok', hx, toIndex_ref (hy i hi).1 (hy i hi).2.1, bind_ok', ← hi']
      push_cast
      rfl
  rw [hk, bind_ok', Int.toNat_natCast, Mat.setConstantRC_ofFn g h1, bind_ok', count_ofFn hK.1 hy hp, bind_ok',
    (C04_diagonal g (le_refl K) _).1, bind_ok', C04_sum_double, bind_ok']
  have hr : (Mat.ofFn K K (fun a b => (nbTaken N K y p a b : ℝ))).rowWiseSum g = .ok (Mat.ofFn K 1 (fun a _ => (nbClass N y a : ℝ))) := by
    unfold Mat.rowWiseSum
    rw [Mat.rowWiseAcc_ofFn]
    refine congrArg Except.ok (Mat.ofFn_congr fun a _ _ _ => ?_)
    rw [accN_eq_sum, ← sum_nbTaken_row hK.1]
    push_cast
    rfl
  rw [hr, bind_ok', Mat.rowWiseScalar_ofFn, bind_ok', Mat.scale_ofFn, bind_ok', Mat.assign_ofFn g h2, bind_ok', (C04_diagonal g (le_refl K) _).1, bind_ok']
  rw [accN_eq_sum, accN_eq_sum, Mat.ofFn_rows]
  have e1 : (∑ a ∈ range K, (nbTaken N K y p a a : ℝ)) = nbHits N K y p := by
    rw [← sum_nbTaken_diag (fun i hi => (hy i hi).2.2)]
    push_cast
    rfl
  have e2 : (∑ a ∈ range K, ∑ b ∈ range K, (nbTaken N K y p a b : ℝ)) = N := by
    have : ∀ a, ∑ b ∈ range K, (nbTaken N K y p a b : ℝ) = nbClass N y a := fun a => by
      rw [← sum_nbTaken_row hK.1 y p a]
      push_cast
      rfl
    simp only [this]
    exact_mod_cast sum_nbClass (fun i hi => (hy i hi).2.2)
  rw [e1, e2]
  rfl

theorem Metrics.compute_error (g : Nat → ℝ) (div0 : ℝ) {m : Metrics} (h1 : m.confusion.WF) {N K k : Nat} {y p : Nat → ℝ}
    (hk : k < N) (hK : 0 < K) (hy : ∀ i, i < k → LabelOk K (y i))
    (hp : ∀ i, i < k + 1 → |p i| ≤ 9 * 10 ^ 18) {z : Int} (hz : toIndex (y k) = .ok z) {e : Fault}
    (he : ∀ (f : Nat → Nat → ℝ) (b : Nat), b < K → (Mat.ofFn K K f).incr z b = .error e) :
    m.compute g div0 (Mat.ofFn N 1 (fun i _ => y i)) (Mat.ofFn N 1 (fun i _ => p i)) K = .error e := by
  unfold Metrics.compute
  rw [check_true (by rw [Mat.ofFn_rows, Mat.ofFn_rows]), bind_ok', if_neg (by omega)]
  show (m.confusion.setConstantRC g (Int.toNat K) (Int.toNat K) 0 >>= _) = _
  rw [Int.toNat_natCast, Mat.setConstantRC_ofFn g h1, bind_ok', count_error hk hK hy hp hz he]
  rfl

theorem nbTaken_diag_le {N K : Nat} (y p : Nat → ℝ) (a b : Nat) : nbTaken N K y p a b ≤ nbClass N y a :=
  card_le_card fun i hi => by
    rw [mem_filter] at hi ⊢
    exact ⟨hi.1, hi.2.1⟩

theorem nbTaken_eq_nbClass {N K : Nat} {y p : Nat → ℝ} {a : Nat} :
    nbTaken N K y p a a = nbClass N y a ↔ ∀ i, i < N → refClass (y i) = a → predClass K (p i) = a := by
  constructor
  · intro h i hi ha
    have := eq_of_subset_of_card_le (s := (range N).filter (fun i => refClass (y i) = a ∧ predClass K (p i) = a))
      (t := (range N).filter (fun i => refClass (y i) = a)) (fun i hi => by
        rw [mem_filter] at hi ⊢
        exact ⟨hi.1, hi.2.1⟩) (le_of_eq h.symm)
    have hm : i ∈ (range N).filter (fun i => refClass (y i) = a) := mem_filter.2 ⟨mem_range.2 hi, ha⟩
    rw [← this] at hm
    exact (mem_filter.1 hm).2.2
  · intro h
    unfold nbTaken nbClass
    congr 1
    refine filter_congr fun i hi => ⟨fun h => h.1, fun h' => ⟨h', h i (mem_range.1 hi) h'⟩⟩

end BeeDNN
