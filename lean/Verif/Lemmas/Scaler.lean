import Verif.Model.Scaler
import Verif.Lemmas.MatrixFn
import Verif.Lemmas.LayersBasic
import Mathlib.Algebra.Order.BigOperators.Group.Finset
import Mathlib.Algebra.BigOperators.Field

/-! Helper lemmas for the scalers. -/

namespace BeeDNN

theorem rdiv_ne {div0 x y : ℝ} (h : y ≠ 0) : rdiv div0 x y = x / y := by simp [rdiv, h]

/-- The double loop of the `transform` functions. -/
theorem forN_entries {α : Type} {R C : Nat} {f : Nat → Nat → α} (h : Nat → α → α) {b : Nat → Nat → Mat α → Out (Mat α)}
    (hb : ∀ r c, r < R → c < C → ∀ f' : Nat → Nat → α, b r c (Mat.ofFn R C f') =
      .ok (Mat.ofFn R C (fun i j => if i = r ∧ j = c then h c (f' r c) else f' i j))) :
    forN R (fun r m => forN m.cols (b r) m) (Mat.ofFn R C f) = .ok (Mat.ofFn R C (fun i j => h j (f i j))) := by
  refine Mat.forN_eachRow (fun r hr f' h1 => ?_)
  rw [Mat.ofFn_cols, Mat.forN_row (r := r) (e := fun i j => h j (f' i j))]
  · congr 1
    refine Mat.ofFn_congr fun i j hi hj => ?_
    by_cases hir : i = r
    · subst hir
      simp [hj, h1 j hj]
    · simp [hir]
  · intro c hc f'' h2 h3
    rw [hb r c hr hc, h2 c (Nat.le_refl c)]

theorem MinMaxScaler.transform_ofFn (div0 : ℝ) {R C D : Nat} (hD : C ≤ D) (a b x : Nat → Nat → ℝ) :
    MinMaxScaler.transform div0 ⟨Mat.ofFn 1 D a, Mat.ofFn 1 D b⟩ (Mat.ofFn R C x) =
      .ok (Mat.ofFn R C (fun i j => rdiv div0 (x i j - a 0 j) (b 0 j - a 0 j))) := by
  unfold MinMaxScaler.transform
  rw [Mat.ofFn_rows]
  refine forN_entries (fun j v => rdiv div0 (v - a 0 j) (b 0 j - a 0 j)) (fun r c hr hc f' => ?_)
  rw [Mat.get_ofFn hr hc, bind_ok', Mat.getI_ofFn_row (hc.trans_le hD), bind_ok', Mat.getI_ofFn_row (hc.trans_le hD), bind_ok', bind_ok', Mat.set_ofFn hr hc]

theorem StandardScaler.transform_ofFn (div0 : ℝ) {R C D : Nat} (hD : C ≤ D) (a b x : Nat → Nat → ℝ) :
    StandardScaler.transform div0 ⟨Mat.ofFn 1 D a, Mat.ofFn 1 D b⟩ (Mat.ofFn R C x) =
      .ok (Mat.ofFn R C (fun i j => rdiv div0 (x i j - a 0 j) (b 0 j))) := by
  unfold StandardScaler.transform
  rw [Mat.ofFn_rows]
  refine forN_entries (fun j v => rdiv div0 (v - a 0 j) (b 0 j)) (fun r c hr hc f' => ?_)
  rw [Mat.get_ofFn hr hc, bind_ok', Mat.get_ofFn Nat.one_pos (hc.trans_le hD), bind_ok', Mat.get_ofFn Nat.one_pos (hc.trans_le hD), bind_ok',
    Mat.set_ofFn hr hc]

/-- The loop of MinMaxScaler.cpp:21-28. -/
theorem MinMaxScaler.fit_loop (C : Nat) (lo hi : Nat → ℝ) :
    forN C (fun i (s : MinMaxScaler) => do
      let a ← s.mn.getI i
      let b ← s.mx.getI i
      if a = b then
        let mn ← s.mn.setI i 0
        let mx ← s.mx.setI i 1
        return ⟨mn, mx⟩
      else return s) ⟨Mat.ofFn 1 C (fun _ j => lo j), Mat.ofFn 1 C (fun _ j => hi j)⟩ =
    .ok ⟨Mat.ofFn 1 C (fun _ j => if lo j = hi j then 0 else lo j), Mat.ofFn 1 C (fun _ j => if lo j = hi j then 1 else hi j)⟩ := by
  refine forN_closed' (fun k => (⟨Mat.ofFn 1 C (fun _ j => if j < k ∧ lo j = hi j then 0 else lo j),
    Mat.ofFn 1 C (fun _ j => if j < k ∧ lo j = hi j then 1 else hi j)⟩ : MinMaxScaler)) ?_ ?_ (fun k hk => ?_)
  · simp
  · congr 1 <;> exact Mat.ofFn_congr fun i j _ hj => by simp [hj]
  · rw [Mat.getI_ofFn_row hk, bind_ok', Mat.getI_ofFn_row hk, bind_ok']
    simp only [lt_irrefl, false_and, if_false]
    by_cases h : lo k = hi k
    · rw [if_pos h, Mat.setI_row hk, bind_ok', Mat.setI_row hk, bind_ok', pure_ok]
      congr 2 <;>
      · refine Mat.ofFn_congr fun i j _ hj => ?_
        by_cases hjk : j = k
        · subst hjk
          simp [h]
        · have : j < k + 1 ↔ j < k := by omega
          simp [hjk, this]
    · rw [if_neg h, pure_ok]
      congr 2 <;>
      · refine Mat.ofFn_congr fun i j _ hj => ?_
        by_cases hjk : j = k
        · subst hjk
          simp [h]
        · have : j < k + 1 ↔ j < k := by omega
          simp [this]

theorem MinMaxScaler.fit_ofFn (g : Nat → ℝ) {s : MinMaxScaler} (h1 : s.mn.WF) (h2 : s.mx.WF) {R C : Nat} (hR : 0 < R) (x : Nat → Nat → ℝ) :
    ∃ lo hi : Nat → ℝ, (∀ j, (∀ i, i < R → lo j ≤ x i j) ∧ ∃ i, i < R ∧ lo j = x i j) ∧
      (∀ j, (∀ i, i < R → x i j ≤ hi j) ∧ ∃ i, i < R ∧ hi j = x i j) ∧
      s.fit g (Mat.ofFn R C x) = .ok ⟨Mat.ofFn 1 C (fun _ j => if lo j = hi j then 0 else lo j), Mat.ofFn 1 C (fun _ j => if lo j = hi j then 1 else hi j)⟩ := by
  refine ⟨fun j => Mat.selN (fun a b => if b < a then b else a) (x 0 j) R (fun i => x i j),
    fun j => Mat.selN (fun a b => if a < b then b else a) (x 0 j) R (fun i => x i j), fun j => ?_, fun j => ?_, ?_⟩
  · obtain ⟨a1, a2, a3⟩ := Mat.selN_min (x 0 j) R (fun i => x i j)
    refine ⟨a2, ?_⟩
    rcases a3 with a3 | ⟨i, hi, a3⟩
    · exact ⟨0, hR, a3⟩
    · exact ⟨i, hi, a3⟩
  · obtain ⟨a1, a2, a3⟩ := Mat.selN_max (x 0 j) R (fun i => x i j)
    refine ⟨a2, ?_⟩
    rcases a3 with a3 | ⟨i, hi, a3⟩
    · exact ⟨0, hR, a3⟩
    · exact ⟨i, hi, a3⟩
  unfold MinMaxScaler.fit Mat.colWiseMin Mat.colWiseMax
  rw [Mat.colWiseSel_ofFn _ g hR, bind_ok', Mat.assign_ofFn g h1, bind_ok', Mat.colWiseSel_ofFn _ g hR, bind_ok', Mat.assign_ofFn g h2, bind_ok', Mat.ofFn_cols]
  exact MinMaxScaler.fit_loop C _ _

theorem StandardScaler.fit_ofFn (div0 : ℝ) (g : Nat → ℝ) {s : StandardScaler} (h1 : s.mean.WF) (h2 : s.std.WF) {R C : Nat} (x : Nat → Nat → ℝ) :
    s.fit div0 g (Mat.ofFn R C x) = .ok ⟨Mat.ofFn 1 C (fun _ j => rdiv div0 (∑ i ∈ Finset.range R, x i j) R),
      Mat.ofFn 1 C (fun _ j => if rdiv div0 (∑ i ∈ Finset.range R, x i j * x i j) R -
          rdiv div0 ((∑ i ∈ Finset.range R, x i j) * (∑ i ∈ Finset.range R, x i j)) ((R : ℝ) * R) ≠ 0 then
        Real.sqrt (rdiv div0 (∑ i ∈ Finset.range R, x i j * x i j) R -
          rdiv div0 ((∑ i ∈ Finset.range R, x i j) * (∑ i ∈ Finset.range R, x i j)) ((R : ℝ) * R)) else 1)⟩ := by
  unfold StandardScaler.fit Mat.colWiseSum Mat.colWiseSumSq
  rw [Mat.colWiseAcc_ofFn, bind_ok', Mat.colWiseAcc_ofFn, bind_ok', Mat.ofFn_cols, Mat.ofFn_rows]
  obtain ⟨d1, e1⟩ := Mat.resize_exists g h1 1 C
  obtain ⟨d2, e2⟩ := Mat.resize_exists g h2 1 C
  rw [e1, e2, Mat.flat_eq_ofFn, Mat.flat_eq_ofFn]
  simp only [accN_eq_sum]
  refine forN_closed' (fun k => (⟨Mat.ofFn 1 C (fun i j => if j < k then rdiv div0 (∑ i ∈ Finset.range R, x i j) R else d1 (i * C + j)),
    Mat.ofFn 1 C (fun i j => if j < k then (if rdiv div0 (∑ i ∈ Finset.range R, x i j * x i j) R -
          rdiv div0 ((∑ i ∈ Finset.range R, x i j) * (∑ i ∈ Finset.range R, x i j)) ((R : ℝ) * R) ≠ 0 then
        Real.sqrt (rdiv div0 (∑ i ∈ Finset.range R, x i j * x i j) R -
          rdiv div0 ((∑ i ∈ Finset.range R, x i j) * (∑ i ∈ Finset.range R, x i j)) ((R : ℝ) * R)) else 1) else d2 (i * C + j))⟩ : StandardScaler))
    ?_ ?_ (fun k hk => ?_)
  · simp
  · congr 1 <;> exact Mat.ofFn_congr fun i j _ hj => by rw [if_pos hj]
  · rw [Mat.getI_ofFn_row hk, bind_ok', Mat.getI_ofFn_row hk, bind_ok', Mat.setI_row hk, bind_ok', Mat.setI_row hk, bind_ok', pure_ok]
    congr 2 <;>
    · refine Mat.ofFn_congr fun i j _ hj => ?_
      by_cases hjk : j = k
      · subst hjk
        rw [if_pos rfl, if_pos (Nat.lt_succ_self j)]
      · rw [if_neg hjk]
        by_cases h : j < k
        · rw [if_pos h, if_pos (show j < k + 1 by omega)]
        · rw [if_neg h, if_neg (show ¬ j < k + 1 by omega)]

end BeeDNN
