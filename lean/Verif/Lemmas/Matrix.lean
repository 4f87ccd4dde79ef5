import Verif.Lemmas.Core
import Verif.Spec.Matrix

/-! Closed forms of the matrix functions of the model. -/

namespace BeeDNN

theorem idx_lt {R C r c : Nat} (hr : r < R) (hc : c < C) : r * C + c < R * C := by
  calc r * C + c < r * C + C := by omega
    _ = (r + 1) * C := by ring
    _ ≤ R * C := Nat.mul_le_mul_right _ hr

theorem idx_div {C r c : Nat} (hc : c < C) : (r * C + c) / C = r := by
  rw [Nat.add_comm, Nat.add_mul_div_right _ _ (by omega), Nat.div_eq_of_lt hc, Nat.zero_add]

theorem idx_mod {C r c : Nat} (hc : c < C) : (r * C + c) % C = c := by
  rw [Nat.add_comm, Nat.add_mul_mod_self_right, Nat.mod_eq_of_lt hc]

theorem idx_inj {C r c r' c' : Nat} (hc : c < C) (hc' : c' < C) (h : r * C + c = r' * C + c') :
    r = r' ∧ c = c' := by
  constructor
  · rw [← idx_div (r := r) hc, h, idx_div hc']
  · rw [← idx_mod (r := r) hc, h, idx_mod hc']

/-- Every flat index is `row*C + column`. -/
theorem idx_decomp {R C i : Nat} (h : i < R * C) : i / C < R ∧ i % C < C ∧ i = (i / C) * C + i % C := by
  have hC : 0 < C := by
    rcases Nat.eq_zero_or_pos C with h0 | h0
    · subst h0; simp at h
    · exact h0
  refine ⟨Nat.div_lt_of_lt_mul (by rwa [Nat.mul_comm] at h), Nat.mod_lt _ hC, ?_⟩
  have := Nat.div_add_mod i C
  rw [Nat.mul_comm] at this
  exact this.symm

namespace Mat

variable {α : Type}

@[simp] theorem flat_rows (r c : Nat) (d : Nat → α) : (flat r c d).rows = r := rfl
@[simp] theorem flat_cols (r c : Nat) (d : Nat → α) : (flat r c d).cols = c := rfl
@[simp] theorem flat_data (r c : Nat) (d : Nat → α) : (flat r c d).data = tab (r * c) d := rfl
@[simp] theorem flat_size (r c : Nat) (d : Nat → α) : (flat r c d).size = r * c := rfl
@[simp] theorem flat_WF (r c : Nat) (d : Nat → α) : (flat r c d).WF := by simp [WF]
@[simp] theorem ofFn_rows (r c : Nat) (f : Nat → Nat → α) : (ofFn r c f).rows = r := rfl
@[simp] theorem ofFn_cols (r c : Nat) (f : Nat → Nat → α) : (ofFn r c f).cols = c := rfl
@[simp] theorem ofFn_size (r c : Nat) (f : Nat → Nat → α) : (ofFn r c f).size = r * c := rfl
@[simp] theorem ofFn_WF (r c : Nat) (f : Nat → Nat → α) : (ofFn r c f).WF := flat_WF _ _ _
@[simp] theorem alloc_eq (g : Nat → α) (r c : Nat) : alloc g r c = flat r c g := rfl
@[simp] theorem mk_tab_eq (r c : Nat) (d : Nat → α) : (⟨r, c, tab (r * c) d⟩ : Mat α) = flat r c d := rfl

theorem ofFn_eq_flat (r c : Nat) (f : Nat → Nat → α) :
    ofFn r c f = flat r c (fun i => f (i / c) (i % c)) := rfl

theorem flat_congr {r c : Nat} {d e : Nat → α} (h : ∀ i, i < r * c → d i = e i) :
    flat r c d = flat r c e := by
  simp only [flat]; rw [tab_congr h]

theorem flat_eq_ofFn (r c : Nat) (d : Nat → α) :
    flat r c d = ofFn r c (fun i j => d (i * c + j)) := by
  rw [ofFn_eq_flat]
  apply flat_congr
  intro i hi
  rw [← (idx_decomp hi).2.2]

theorem ofFn_congr {r c : Nat} {f h : Nat → Nat → α} (H : ∀ i j, i < r → j < c → f i j = h i j) :
    ofFn r c f = ofFn r c h := by
  apply flat_congr
  intro i hi
  have := idx_decomp hi
  exact H _ _ this.1 this.2.1

theorem ofFn_inj {r c : Nat} {f h : Nat → Nat → α} (H : ofFn r c f = ofFn r c h) :
    ∀ i j, i < r → j < c → f i j = h i j := by
  intro i j hi hj
  have h1 := tab_inj (congrArg Mat.data H) (i * c + j) (idx_lt hi hj)
  simpa [idx_div hj, idx_mod hj] using h1

theorem ofFn_eq_iff {r c : Nat} {f h : Nat → Nat → α} :
    ofFn r c f = ofFn r c h ↔ ∀ i j, i < r → j < c → f i j = h i j := ⟨ofFn_inj, ofFn_congr⟩

theorem WF.exists_flat [Inhabited α] {m : Mat α} (h : m.WF) : ∃ d, m = flat m.rows m.cols d := by
  refine ⟨fun i => m.data.getD i default, ?_⟩
  have := exists_tab m.data
  unfold WF at h
  cases m with
  | mk r c data =>
    simp only [flat, Mat.mk.injEq, true_and]
    rw [← h]; exact this

theorem WF.exists_ofFn [Inhabited α] {m : Mat α} (h : m.WF) : ∃ f, m = ofFn m.rows m.cols f := by
  obtain ⟨d, hd⟩ := h.exists_flat
  exact ⟨fun i j => d (i * m.cols + j), by rw [← flat_eq_ofFn]; exact hd⟩

/-! ### Accessors -/

theorem getI_flat {R C : Nat} {d : Nat → α} {i : Nat} (h : i < R * C) :
    (flat R C d).getI i = .ok (d i) := by
  simp [getI, h, rd_tab]

theorem raw_flat {R C : Nat} {d : Nat → α} {i : Nat} (h : i < R * C) :
    (flat R C d).raw i = .ok (d i) := by
  simp [raw, h, rd_tab]

theorem setI_flat {R C : Nat} {d : Nat → α} {i : Nat} {x : α} (h : i < R * C) :
    (flat R C d).setI i x = .ok (flat R C (fun j => if j = i then x else d j)) := by
  simp [setI, h, wr_tab]

theorem setRaw_flat {R C : Nat} {d : Nat → α} {i : Nat} {x : α} (h : i < R * C) :
    (flat R C d).setRaw i x = .ok (flat R C (fun j => if j = i then x else d j)) := by
  simp [setRaw, h, wr_tab]

theorem get_flat {R C : Nat} {d : Nat → α} {r c : Nat} (hr : r < R) (hc : c < C) :
    (flat R C d).get r c = .ok (d (r * C + c)) := by
  simp [get, hr, hc, rd_tab (idx_lt hr hc)]

theorem set_flat {R C : Nat} {d : Nat → α} {r c : Nat} {x : α} (hr : r < R) (hc : c < C) :
    (flat R C d).set r c x = .ok (flat R C (fun j => if j = r * C + c then x else d j)) := by
  simp [set, hr, hc, wr_tab (idx_lt hr hc)]

theorem get_ofFn {R C : Nat} {f : Nat → Nat → α} {r c : Nat} (hr : r < R) (hc : c < C) :
    (ofFn R C f).get r c = .ok (f r c) := by
  rw [ofFn_eq_flat, get_flat hr hc, idx_div hc, idx_mod hc]

theorem set_ofFn {R C : Nat} {f : Nat → Nat → α} {r c : Nat} {x : α} (hr : r < R) (hc : c < C) :
    (ofFn R C f).set r c x = .ok (ofFn R C (fun i j => if i = r ∧ j = c then x else f i j)) := by
  rw [ofFn_eq_flat, set_flat hr hc]
  congr 1
  apply flat_congr
  intro i hi
  have h := idx_decomp hi
  by_cases hh : i / C = r ∧ i % C = c
  · have : i = r * C + c := by rw [h.2.2, hh.1, hh.2]
    simp [hh, ← this]
  · have : i ≠ r * C + c := by
      intro e; apply hh; subst e; exact ⟨idx_div hc, idx_mod hc⟩
    simp [hh, this]

theorem raw_ofFn {R C : Nat} {f : Nat → Nat → α} {r c : Nat} (hr : r < R) (hc : c < C) :
    (ofFn R C f).raw (r * C + c) = .ok (f r c) := by
  rw [ofFn_eq_flat, raw_flat (idx_lt hr hc), idx_div hc, idx_mod hc]

theorem setRaw_ofFn {R C : Nat} {f : Nat → Nat → α} {r c : Nat} {x : α} (hr : r < R) (hc : c < C) :
    (ofFn R C f).setRaw (r * C + c) x =
      .ok (ofFn R C (fun i j => if i = r ∧ j = c then x else f i j)) := by
  have h := set_ofFn (f := f) (x := x) hr hc
  simp only [set, setRaw, ofFn_rows, ofFn_cols, check_true, hr, hc, bind_ok'] at h ⊢
  exact h

/-- A row vector is read by flat index. -/
theorem getI_ofFn_row {C : Nat} {f : Nat → Nat → α} {i : Nat} (h : i < C) :
    (ofFn 1 C f).getI i = .ok (f 0 i) := by
  rw [ofFn_eq_flat, getI_flat (by omega), Nat.div_eq_of_lt h, Nat.mod_eq_of_lt h]

/-- A column vector is read by flat index. -/
theorem getI_ofFn_col {R : Nat} {f : Nat → Nat → α} {i : Nat} (h : i < R) :
    (ofFn R 1 f).getI i = .ok (f i 0) := by
  rw [ofFn_eq_flat, getI_flat (by omega), Nat.div_one, Nat.mod_one]

theorem get_oob_row {m : Mat α} {r c : Nat} (h : m.rows ≤ r) : m.get r c = .error .assertFail := by
  simp [get, check_false (Nat.not_lt.mpr h)]

theorem get_oob_col {m : Mat α} {r c : Nat} (hr : r < m.rows) (h : m.cols ≤ c) :
    m.get r c = .error .assertFail := by
  simp [get, hr, check_false (Nat.not_lt.mpr h)]

/-! ### Loops -/

/-- Loop over all flat indices writing cell `i` in iteration `i`. -/
theorem forN_flat {R C : Nat} {d e : Nat → α} {f : Nat → Mat α → Out (Mat α)}
    (h : ∀ i, i < R * C → ∀ d' : Nat → α, (∀ j, i ≤ j → d' j = d j) →
      f i (flat R C d') = .ok (flat R C (fun j => if j = i then e i else d' j))) :
    forN (R * C) f (flat R C d) = .ok (flat R C e) := by
  refine forN_closed' (fun i => flat R C (fun j => if j < i then e j else d j)) ?_ ?_ ?_
  · simp
  · apply flat_congr; intro i hi; simp [hi]
  · intro i hi
    rw [h i hi _ (by intro j hj; simp [Nat.not_lt.mpr hj])]
    congr 1
    apply flat_congr
    intro j hj
    by_cases h1 : j = i
    · subst h1; simp
    · have : (j < i + 1) = (j < i) := by rw [eq_iff_iff]; omega
      simp [h1, this]

/-- Loop over the first `n` columns of row `r`, writing `(r,c)` in iteration `c`. -/
theorem forN_row {R C n r : Nat} {f e : Nat → Nat → α} {b : Nat → Mat α → Out (Mat α)}
    (h : ∀ c, c < n → ∀ f' : Nat → Nat → α, (∀ j, c ≤ j → f' r j = f r j) →
      (∀ i j, i ≠ r → f' i j = f i j) →
      b c (ofFn R C f') = .ok (ofFn R C (fun i j => if i = r ∧ j = c then e r c else f' i j))) :
    forN n b (ofFn R C f) =
      .ok (ofFn R C (fun i j => if i = r ∧ j < n then e i j else f i j)) := by
  refine forN_closed' (fun k => ofFn R C (fun i j => if i = r ∧ j < k then e i j else f i j)) ?_ rfl ?_
  · simp
  · intro c hc
    rw [h c hc _ (by intro j hj; simp [Nat.not_lt.mpr hj]) (by intro i j hi; simp [hi])]
    congr 1
    apply ofFn_congr
    intro i j hi hj
    by_cases h1 : i = r
    · subst h1
      by_cases h2 : j = c
      · subst h2; simp
      · have : (j < c + 1) = (j < c) := by rw [eq_iff_iff]; omega
        simp [h2, this]
    · simp [h1]

/-- Two nested loops over rows and columns, writing `(r,c)` in iteration `(r,c)`. -/
theorem forN_rows {R C : Nat} {f e : Nat → Nat → α} {b : Nat → Nat → Mat α → Out (Mat α)}
    (h : ∀ r c, r < R → c < C → ∀ f' : Nat → Nat → α, f' r c = f r c →
      b r c (ofFn R C f') = .ok (ofFn R C (fun i j => if i = r ∧ j = c then e r c else f' i j))) :
    forN R (fun r m => forN C (b r) m) (ofFn R C f) = .ok (ofFn R C e) := by
  refine forN_closed' (fun k => ofFn R C (fun i j => if i < k then e i j else f i j)) ?_ ?_ ?_
  · simp
  · apply ofFn_congr; intro i j hi hj; simp [hi]
  · intro r hr
    rw [forN_row (r := r) (e := e)]
    · congr 1
      apply ofFn_congr
      intro i j hi hj
      by_cases h1 : i = r
      · subst h1; simp [hj]
      · have : (i < r + 1) = (i < r) := by rw [eq_iff_iff]; omega
        simp [h1, this]
    · intro c hc f' h1 h2
      apply h r c hr hc
      rw [h1 c (Nat.le_refl c)]
      simp

/-- Loop over rows where iteration `r` replaces row `r`. -/
theorem forN_eachRow {R C : Nat} {f e : Nat → Nat → α} {b : Nat → Mat α → Out (Mat α)}
    (h : ∀ r, r < R → ∀ f' : Nat → Nat → α, (∀ j, j < C → f' r j = f r j) →
      b r (ofFn R C f') = .ok (ofFn R C (fun i j => if i = r then e r j else f' i j))) :
    forN R b (ofFn R C f) = .ok (ofFn R C e) := by
  refine forN_closed' (fun k => ofFn R C (fun i j => if i < k then e i j else f i j)) ?_ ?_ ?_
  · simp
  · apply ofFn_congr; intro i j hi hj; simp [hi]
  · intro r hr
    rw [h r hr _ (by intro j hj; simp)]
    congr 1
    apply ofFn_congr
    intro i j hi hj
    by_cases h1 : i = r
    · subst h1; simp
    · have : (i < r + 1) = (i < r) := by rw [eq_iff_iff]; omega
      simp [h1, this]

theorem forN_acc {β : Type} [Zero β] [Add β] {n : Nat} {x : Nat → β} {b : Nat → β → Out β}
    (h : ∀ i, i < n → ∀ s, b i s = .ok (s + x i)) : forN n b 0 = .ok (accN n x) := by
  refine forN_closed' (fun k => accN k x) rfl rfl ?_
  intro i hi
  rw [h i hi]; rfl

/-! ### Functions of Matrix.h -/

theorem copy_flat (g : Nat → α) (R C : Nat) (d : Nat → α) : copy g (flat R C d) = .ok (flat R C d) := by
  unfold copy
  apply forN_flat
  intro i hi d' _
  simp only [flat_rows, flat_cols, flat_size] at hi
  simp [getI_flat hi, setRaw_flat hi]

theorem resize_flat_same (g : Nat → α) (R C : Nat) (d : Nat → α) :
    (flat R C d).resize g R C = flat R C d := by simp [resize]

theorem resize_flat (g : Nat → α) {R C R' C' : Nat} (d : Nat → α) (h : R' * C' = R * C) :
    (flat R C d).resize g R' C' = flat R' C' d := by
  unfold resize
  split
  · next h' => obtain ⟨h1, h2⟩ := h'; simp only [flat_cols, flat_rows] at h1 h2; subst h1; subst h2; rfl
  · rw [if_pos (by simpa using h)]
    simp only [flat, h]

/-- Whatever happened to the contents, the sizes are as requested and the buffer fits. -/
theorem resize_exists (g : Nat → α) {m : Mat α} [Inhabited α] (hm : m.WF) (r c : Nat) :
    ∃ d, m.resize g r c = flat r c d := by
  obtain ⟨d, hd⟩ := hm.exists_flat
  rw [hd]
  by_cases h : r * c = m.rows * m.cols
  · exact ⟨d, resize_flat g d h⟩
  · refine ⟨g, ?_⟩
    unfold resize
    split
    · next h' => exfalso; apply h; simp at h'; rw [h'.1, h'.2]
    · simp only [flat_size, h, if_false, alloc_eq]

theorem setConstant_flat (R C : Nat) (d : Nat → α) (b : α) :
    (flat R C d).setConstant b = .ok (flat R C (fun _ => b)) := by
  unfold setConstant
  apply forN_flat
  intro i hi d' _
  simp only [flat_rows, flat_cols, flat_size] at hi
  simp [setRaw_flat hi]

theorem setConstantRC_eq [Inhabited α] (g : Nat → α) {m : Mat α} (hm : m.WF) (r c : Nat) (b : α) :
    m.setConstantRC g r c b = .ok (flat r c (fun _ => b)) := by
  obtain ⟨d, hd⟩ := resize_exists g hm r c
  unfold setConstantRC
  rw [hd, setConstant_flat]

theorem assign_flat [Inhabited α] (g : Nat → α) {m : Mat α} (hm : m.WF) (R C : Nat) (d : Nat → α) :
    m.assign g (flat R C d) = .ok (flat R C d) := by
  obtain ⟨d0, hd0⟩ := resize_exists g hm R C
  unfold assign
  simp only [flat_rows, flat_cols]
  rw [hd0]
  apply forN_flat
  intro i hi d' _
  simp only [flat_rows, flat_cols, flat_size] at hi
  simp [getI_flat hi, setI_flat hi]

theorem cwise_flat (f : α → α) (R C : Nat) (d : Nat → α) :
    (flat R C d).cwise f = .ok (flat R C (fun i => f (d i))) := by
  unfold cwise
  apply forN_flat
  intro i hi d' _
  simp only [flat_rows, flat_cols, flat_size] at hi
  simp [raw_flat hi, setI_flat hi]

theorem cwise_ofFn (f : α → α) (R C : Nat) (d : Nat → Nat → α) :
    (ofFn R C d).cwise f = .ok (ofFn R C (fun i j => f (d i j))) := by
  rw [ofFn_eq_flat, cwise_flat]; rfl

theorem cwise2_flat (op : α → α → α) (R C : Nat) (d e : Nat → α) :
    cwise2 op (flat R C d) (flat R C e) = .ok (flat R C (fun i => op (d i) (e i))) := by
  unfold cwise2
  simp only [flat_rows, flat_cols, check_true, bind_ok', flat_size]
  apply forN_flat
  intro i hi d' h
  simp [raw_flat hi, getI_flat hi, setI_flat hi, h i (Nat.le_refl i)]

theorem cwise2_ofFn (op : α → α → α) (R C : Nat) (d e : Nat → Nat → α) :
    cwise2 op (ofFn R C d) (ofFn R C e) = .ok (ofFn R C (fun i j => op (d i j) (e i j))) := by
  rw [ofFn_eq_flat, ofFn_eq_flat, cwise2_flat]; rfl

theorem cwise2_shape {op : α → α → α} {m a : Mat α} (h : m.rows ≠ a.rows ∨ m.cols ≠ a.cols) :
    cwise2 op m a = .error .assertFail := by
  unfold cwise2
  by_cases h1 : m.rows = a.rows
  · have h2 : m.cols ≠ a.cols := by
      rcases h with h | h
      · exact absurd h1 h
      · exact h
    simp [h1, check_false h2]
  · simp [check_false h1]

theorem mul_ofFn [Zero α] [Add α] [Mul α] (g : Nat → α) (n p q : Nat) (A B : Nat → Nat → α) :
    mul g (ofFn n p A) (ofFn p q B) =
      .ok (ofFn n q (fun i j => accN p (fun k => A i k * B k j))) := by
  unfold mul
  have : Inhabited α := ⟨0⟩
  obtain ⟨d0, hd0⟩ := resize_exists g (ofFn_WF n p A) n q
  simp only [ofFn_rows, ofFn_cols, check_true, bind_ok']
  rw [hd0, setConstant_flat]
  simp only [bind_ok']
  rw [flat_eq_ofFn]
  apply forN_eachRow
  intro r hr f' hf'
  refine forN_closed' (fun k => ofFn n q (fun i j =>
    if i = r then accN k (fun k => A r k * B k j) else f' i j)) ?_ ?_ ?_
  · apply ofFn_congr
    intro i j hi hj
    by_cases h1 : i = r
    · subst h1; simp [accN, hf' j hj]
    · simp [h1]
  · rfl
  · intro k hk
    simp only [get_ofFn hr hk, bind_ok']
    rw [forN_row (r := r) (e := fun i j => accN (k + 1) (fun k => A r k * B k j))]
    · congr 1
      apply ofFn_congr
      intro i j hi hj
      by_cases h1 : i = r
      · subst h1; simp [hj]
      · simp [h1]
    · intro c hc f'' h1 h2
      simp only [get_ofFn hr hc, get_ofFn hk hc, set_ofFn hr hc, bind_ok']
      rw [h1 c (Nat.le_refl c)]
      simp [accN]

theorem mul_shape [Zero α] [Add α] [Mul α] (g : Nat → α) {a b : Mat α} (h : a.cols ≠ b.rows) :
    mul g a b = .error .assertFail := by
  unfold mul; simp [check_false h]

theorem transpose_ofFn (g : Nat → α) (R C : Nat) (f : Nat → Nat → α) :
    transpose g (ofFn R C f) = .ok (ofFn C R (fun i j => f j i)) := by
  unfold transpose
  simp only [ofFn_rows, ofFn_cols, alloc_eq]
  rw [flat_eq_ofFn]
  refine forN_closed' (fun k => ofFn C R (fun i j => if j < k then f j i else g (i * R + j))) ?_ ?_ ?_
  · simp
  · apply ofFn_congr; intro i j hi hj; simp [hj]
  · intro r hr
    refine forN_closed' (fun k => ofFn C R (fun i j =>
      if j < r ∨ (j = r ∧ i < k) then f j i else g (i * R + j))) ?_ ?_ ?_
    · simp
    · apply ofFn_congr
      intro i j hi hj
      have : (j < r + 1) = (j < r ∨ (j = r ∧ i < C)) := by rw [eq_iff_iff]; omega
      simp only [this]
    · intro c hc
      simp only [get_ofFn hr hc, bind_ok', set_ofFn hc hr]
      congr 1
      apply ofFn_congr
      intro i j hi hj
      by_cases h1 : i = c ∧ j = r
      · obtain ⟨rfl, rfl⟩ := h1; simp
      · have : (j < r ∨ (j = r ∧ i < c + 1)) = (j < r ∨ (j = r ∧ i < c)) := by
          rw [eq_iff_iff]; omega
        simp only [h1, this, if_false]

theorem sum_flat [Zero α] [Add α] (R C : Nat) (d : Nat → α) :
    (flat R C d).sum = .ok (accN (R * C) d) := by
  unfold sum
  apply forN_acc
  intro i hi s
  simp only [flat_rows, flat_cols, flat_size] at hi
  simp [raw_flat hi]

theorem squaredNorm_flat [Zero α] [Add α] [Mul α] (R C : Nat) (d : Nat → α) :
    (flat R C d).squaredNorm = .ok (accN (R * C) (fun i => d i * d i)) := by
  unfold squaredNorm
  apply forN_acc
  intro i hi s
  simp only [flat_rows, flat_cols, flat_size] at hi
  simp [raw_flat hi]

theorem row_ofFn {R C : Nat} {f : Nat → Nat → α} {i : Nat} (h : i < R) :
    (ofFn R C f).row i = .ok (ofFn 1 C (fun _ j => f i j)) := by
  unfold row
  simp only [ofFn_rows, check_true, h, bind_ok', pure_ok, ofFn_cols]
  congr 1
  simp only [ofFn, flat, Mat.mk.injEq, true_and]
  rw [eq_tab_iff]
  have hlen : i * C + C ≤ R * C := by
    calc i * C + C = (i + 1) * C := by ring
      _ ≤ R * C := Nat.mul_le_mul_right _ h
  constructor
  · simp; omega
  · intro j hj
    have hj' : j < C := by omega
    rw [List.getElem?_take, List.getElem?_drop, tab_getElem?]
    simp only [hj', if_true, idx_lt h hj', idx_div hj', idx_mod hj', Nat.mod_eq_of_lt hj']

end Mat
end BeeDNN
