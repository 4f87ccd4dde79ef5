import Verif.Lemmas.Matrix

/-! Closed forms of the free functions of Matrix.cpp. -/

namespace BeeDNN
namespace Mat

variable {α : Type}

theorem viewResize_flat {R C r c : Nat} {d : Nat → α} (h : R * C = r * c) :
    (flat R C d).viewResize r c = .ok (flat r c d) := by
  unfold viewResize
  simp only [flat_size, h, check_true, bind_ok', pure_ok]
  simp only [flat, h]

theorem setI_col {R : Nat} {f : Nat → Nat → α} {i : Nat} {x : α} (h : i < R) :
    (ofFn R 1 f).setI i x = .ok (ofFn R 1 (fun r c => if r = i then x else f r c)) := by
  rw [ofFn_eq_flat, setI_flat (by omega)]
  congr 1
  apply flat_congr
  intro j hj
  simp [Nat.div_one]

theorem setI_row {C : Nat} {f : Nat → Nat → α} {i : Nat} {x : α} (h : i < C) :
    (ofFn 1 C f).setI i x = .ok (ofFn 1 C (fun r c => if c = i then x else f r c)) := by
  rw [ofFn_eq_flat, setI_flat (by omega)]
  congr 1
  apply flat_congr
  intro j hj
  have : j < C := by omega
  simp [Nat.mod_eq_of_lt this]

theorem rowWiseAcc_ofFn [Zero α] [Add α] (f : α → α) (g : Nat → α) (R C : Nat) (m : Nat → Nat → α) :
    rowWiseAcc f g (ofFn R C m) = .ok (ofFn R 1 (fun i _ => accN C (fun j => f (m i j)))) := by
  unfold rowWiseAcc
  simp only [ofFn_rows, ofFn_cols, alloc_eq]
  rw [flat_eq_ofFn]
  apply forN_eachRow
  intro r hr f' _
  rw [forN_acc (x := fun j => f (m r j))]
  · simp only [bind_ok']
    rw [setI_col hr]
  · intro i hi s
    simp [get_ofFn hr hi]

theorem rowWiseMean_ofFn [Zero α] [Add α] [Div α] [NatCast α] (g : Nat → α) (R C : Nat)
    (m : Nat → Nat → α) :
    rowWiseMean g (ofFn R C m) = .ok (ofFn R 1 (fun i _ => accN C (fun j => m i j) / (C : α))) := by
  unfold rowWiseMean
  simp only [ofFn_rows, ofFn_cols, alloc_eq]
  rw [flat_eq_ofFn]
  apply forN_eachRow
  intro r hr f' _
  rw [forN_acc (x := fun j => m r j)]
  · simp only [bind_ok']
    rw [setI_col hr]
  · intro i hi s
    simp [get_ofFn hr hi]

/-- Loop over the columns of a row vector. -/
theorem forN_rowvec {C : Nat} {d e : Nat → Nat → α} {b : Nat → Mat α → Out (Mat α)}
    (h : ∀ j, j < C → ∀ d' : Nat → Nat → α,
      b j (ofFn 1 C d') = .ok (ofFn 1 C (fun r c => if c = j then e 0 j else d' r c))) :
    forN C b (ofFn 1 C d) = .ok (ofFn 1 C e) := by
  refine forN_closed' (fun k => ofFn 1 C (fun i j => if j < k then e i j else d i j)) ?_ ?_ ?_
  · simp
  · apply ofFn_congr; intro i j hi hj; simp [hj]
  · intro k hk
    rw [h k hk]
    congr 1
    apply ofFn_congr
    intro i j hi hj
    have hi0 : i = 0 := by omega
    subst hi0
    by_cases h1 : j = k
    · subst h1; simp
    · have : (j < k + 1) = (j < k) := by rw [eq_iff_iff]; omega
      simp [h1, this]

theorem colWiseAcc_ofFn [Zero α] [Add α] (f fin : α → α) (g : Nat → α) (R C : Nat)
    (m : Nat → Nat → α) :
    colWiseAcc f fin g (ofFn R C m) =
      .ok (ofFn 1 C (fun _ j => fin (accN R (fun i => f (m i j))))) := by
  unfold colWiseAcc
  simp only [ofFn_rows, ofFn_cols, alloc_eq]
  rw [flat_eq_ofFn]
  apply forN_rowvec
  intro j hj d'
  rw [forN_acc (x := fun i => f (m i j))]
  · simp only [bind_ok']
    rw [setI_row hj]
  · intro i hi s
    simp [get_ofFn hi hj]

/-- `s = x0; for(i<n) s = op(s, x i)`. -/
def selN (op : α → α → α) (x0 : α) : Nat → (Nat → α) → α
  | 0, _ => x0
  | n + 1, x => op (selN op x0 n x) (x n)

theorem colWiseSel_ofFn (op : α → α → α) (g : Nat → α) {R C : Nat} (hR : 0 < R)
    (m : Nat → Nat → α) :
    colWiseSel op g (ofFn R C m) =
      .ok (ofFn 1 C (fun _ j => selN op (m 0 j) R (fun i => m i j))) := by
  unfold colWiseSel
  simp only [ofFn_rows, ofFn_cols, alloc_eq]
  rw [flat_eq_ofFn]
  apply forN_rowvec
  intro j hj d'
  simp only [get_ofFn hR hj, bind_ok']
  rw [forN_closed' (t := selN op (m 0 j) R (fun i => m i j))
    (fun k => selN op (m 0 j) k (fun i => m i j)) (by rfl) (by rfl)]
  · simp only [bind_ok']
    rw [setI_row hj]
  · intro i hi
    simp [get_ofFn hi hj, selN]

theorem colWiseSel_empty (op : α → α → α) (g : Nat → α) {C : Nat} (hC : 0 < C) (m : Nat → Nat → α) :
    colWiseSel op g (ofFn 0 C m) = .error .assertFail := by
  unfold colWiseSel
  simp only [ofFn_rows, ofFn_cols, alloc_eq]
  refine forN_error (k := 0) hC rfl ?_
  rw [get_oob_row (by simp)]
  rfl

theorem selN_max [LinearOrder α] (x0 : α) (n : Nat) (x : Nat → α) :
    let s := selN (fun a b => if a < b then b else a) x0 n x
    x0 ≤ s ∧ (∀ i, i < n → x i ≤ s) ∧ (s = x0 ∨ ∃ i, i < n ∧ s = x i) := by
  induction n with
  | zero => simp [selN]
  | succ n ih =>
    obtain ⟨h1, h2, h3⟩ := ih
    simp only [selN]
    set t := selN (fun a b => if a < b then b else a) x0 n x with ht
    by_cases h : t < x n
    · rw [if_pos h]
      refine ⟨le_trans h1 h.le, ?_, Or.inr ⟨n, by omega, rfl⟩⟩
      intro i hi
      rcases Nat.lt_succ_iff_lt_or_eq.mp hi with h4 | h4
      · exact le_trans (h2 i h4) h.le
      · subst h4; exact le_refl _
    · rw [if_neg h]
      refine ⟨h1, ?_, ?_⟩
      · intro i hi
        rcases Nat.lt_succ_iff_lt_or_eq.mp hi with h4 | h4
        · exact h2 i h4
        · subst h4; exact not_lt.mp h
      · rcases h3 with h3 | ⟨i, hi, h3⟩
        · exact Or.inl h3
        · exact Or.inr ⟨i, by omega, h3⟩

theorem selN_min [LinearOrder α] (x0 : α) (n : Nat) (x : Nat → α) :
    let s := selN (fun a b => if b < a then b else a) x0 n x
    s ≤ x0 ∧ (∀ i, i < n → s ≤ x i) ∧ (s = x0 ∨ ∃ i, i < n ∧ s = x i) := by
  induction n with
  | zero => simp [selN]
  | succ n ih =>
    obtain ⟨h1, h2, h3⟩ := ih
    simp only [selN]
    set t := selN (fun a b => if b < a then b else a) x0 n x with ht
    by_cases h : x n < t
    · rw [if_pos h]
      refine ⟨le_trans h.le h1, ?_, Or.inr ⟨n, by omega, rfl⟩⟩
      intro i hi
      rcases Nat.lt_succ_iff_lt_or_eq.mp hi with h4 | h4
      · exact le_trans h.le (h2 i h4)
      · subst h4; exact le_refl _
    · rw [if_neg h]
      refine ⟨h1, ?_, ?_⟩
      · intro i hi
        rcases Nat.lt_succ_iff_lt_or_eq.mp hi with h4 | h4
        · exact h2 i h4
        · subst h4; exact not_lt.mp h
      · rcases h3 with h3 | ⟨i, hi, h3⟩
        · exact Or.inl h3
        · exact Or.inr ⟨i, by omega, h3⟩

theorem rowScalarAssign_ofFn (op : α → α → α) {R C l : Nat} (hl : l < R) (m : Nat → Nat → α) (s : α) :
    rowScalarAssign op (ofFn R C m) l s =
      .ok (ofFn R C (fun i j => if i = l then op (m i j) s else m i j)) := by
  unfold rowScalarAssign
  simp only [ofFn_rows, ofFn_cols, check_true, hl, bind_ok']
  rw [forN_row (r := l) (e := fun i j => op (m i j) s)]
  · congr 1
    apply ofFn_congr
    intro i j hi hj
    simp [hj]
  · intro c hc f' h1 h2
    simp only [ofFn_cols, raw_ofFn hl hc, bind_ok', setRaw_ofFn hl hc, h1 c (Nat.le_refl c)]

theorem rowVecAssign_ofFn (op : α → α → α) {R C l : Nat} (hl : l < R) (m d : Nat → Nat → α) :
    rowVecAssign op (ofFn R C m) l (ofFn 1 C d) =
      .ok (ofFn R C (fun i j => if i = l then op (m i j) (d 0 j) else m i j)) := by
  unfold rowVecAssign
  simp only [ofFn_rows, ofFn_cols, check_true, hl, bind_ok']
  rw [forN_row (r := l) (e := fun i j => op (m i j) (d 0 j))]
  · congr 1
    apply ofFn_congr
    intro i j hi hj
    simp [hj]
  · intro c hc f' h1 h2
    simp only [ofFn_cols, raw_ofFn hl hc, bind_ok', setRaw_ofFn hl hc, h1 c (Nat.le_refl c),
      getI_ofFn_row hc]

theorem rowWiseScalar_ofFn (op : α → α → α) (R C : Nat) (m d : Nat → Nat → α) :
    rowWiseScalar op (ofFn R C m) (ofFn R 1 d) = .ok (ofFn R C (fun i j => op (m i j) (d i 0))) := by
  unfold rowWiseScalar
  simp only [ofFn_rows, ofFn_cols, check_true, bind_ok']
  apply forN_eachRow
  intro r hr f' h
  simp only [getI_ofFn_col hr, bind_ok']
  rw [rowScalarAssign_ofFn op hr]
  congr 1
  apply ofFn_congr
  intro i j hi hj
  by_cases h1 : i = r
  · subst h1; simp [h j hj]
  · simp [h1]

theorem rowWiseAdd_ofFn [Add α] (R C : Nat) (m d : Nat → Nat → α) :
    rowWiseAdd (ofFn R C m) (ofFn 1 C d) = .ok (ofFn R C (fun i j => m i j + d 0 j)) := by
  unfold rowWiseAdd
  simp only [ofFn_rows, ofFn_cols, check_true, bind_ok']
  apply forN_eachRow
  intro r hr f' h
  rw [rowVecAssign_ofFn _ hr]
  congr 1
  apply ofFn_congr
  intro i j hi hj
  by_cases h1 : i = r
  · subst h1; simp [h j hj]
  · simp [h1]

theorem clamp_flat [LT α] [DecidableRel (α := α) (· < ·)] (R C : Nat) (d : Nat → α) (lo hi : α) :
    clamp (flat R C d) lo hi =
      .ok (flat R C (fun i => if hi < d i then hi else if d i < lo then lo else d i)) := by
  unfold clamp
  simp only [flat_size]
  apply forN_flat
  intro i hi' d' h
  simp only [getI_flat hi', bind_ok', h i (Nat.le_refl i), setI_flat hi']
  split
  · rfl
  · split
    · rfl
    · simp only [pure_ok]
      congr 1
      apply flat_congr
      intro j hj
      by_cases h1 : j = i
      · subst h1; simp [h j (Nat.le_refl j)]
      · simp [h1]

theorem rowAssign_ofFn {R C i : Nat} (h : i < R) (m b : Nat → Nat → α) :
    rowAssign (ofFn R C m) i (ofFn 1 C b) =
      .ok (ofFn R C (fun r c => if r = i then b 0 c else m r c)) := by
  unfold rowAssign
  simp only [ofFn_rows, ofFn_cols, check_true, h, bind_ok', Nat.one_mul, if_true]
  rw [forN_row (r := i) (e := fun _ j => b 0 j)]
  · congr 1
    apply ofFn_congr
    intro r c hi hj
    simp [hj]
  · intro c hc f' h1 h2
    simp only [ofFn_cols, bind_ok', setRaw_ofFn h hc, getI_ofFn_row hc]

theorem decimate_ofFn (g : Nat → α) (R C : Nat) (m : Nat → Nat → α) {k : Nat} (hk : 0 < k) :
    decimate g (ofFn R C m) k = .ok (ofFn (R / k) C (fun i j => m (i * k) j)) := by
  unfold decimate
  rw [if_neg (by omega)]
  simp only [ofFn_rows, ofFn_cols, alloc_eq]
  rw [flat_eq_ofFn]
  apply forN_eachRow
  intro r hr f' h
  have hrk : r * k < R := by
    calc r * k < (R / k) * k := Nat.mul_lt_mul_of_pos_right hr hk
      _ ≤ R := Nat.div_mul_le_self R k
  simp only [row_ofFn hrk, bind_ok']
  rw [rowAssign_ofFn hr]

theorem viewRow_ofFn {R C a b : Nat} (m : Nat → Nat → α) (h1 : a < b) (h2 : b ≤ R) :
    viewRow (ofFn R C m) a b = .ok (ofFn (b - a) C (fun i j => m (a + i) j)) := by
  unfold viewRow
  simp only [ofFn_rows, check_true, h1, h2, bind_ok', pure_ok, ofFn_cols]
  congr 1
  simp only [ofFn, flat, Mat.mk.injEq, true_and]
  rw [eq_tab_iff]
  have hlen : a * C + (b - a) * C ≤ R * C := by
    rw [← Nat.add_mul]; exact Nat.mul_le_mul_right _ (by omega)
  constructor
  · simp; omega
  · intro j hj
    have hd := idx_decomp hj
    rw [List.getElem?_take, List.getElem?_drop, tab_getElem?]
    have e : a * C + j = (a + j / C) * C + j % C := by
      conv_lhs => rw [hd.2.2]
      ring
    have hlt : a * C + j < R * C := by omega
    simp only [hj, if_true, hlt]
    rw [e, idx_div hd.2.1, idx_mod hd.2.1]

theorem colExtract_ofFn (g : Nat → α) {R C a b : Nat} (m : Nat → Nat → α) (h : a ≤ b) (h2 : b ≤ C) :
    colExtract g (ofFn R C m) a b = .ok (ofFn R (b - a) (fun i j => m i (j + a))) := by
  unfold colExtract
  simp only [ofFn_rows, alloc_eq]
  rw [flat_eq_ofFn]
  apply forN_rows
  intro r c hr hc f' _
  simp only [get_ofFn hr (show c + a < C by omega), bind_ok', set_ofFn hr hc]

/-- `copyInto` writes the rows of `t` at row `k`. -/
theorem copyInto_ofFn {R C n k : Nat} (t m : Nat → Nat → α) (h : k + n ≤ R) :
    copyInto (ofFn n C t) (ofFn R C m) k =
      .ok (ofFn R C (fun i j => if k ≤ i ∧ i < k + n then t (i - k) j else m i j)) := by
  unfold copyInto
  rw [ofFn_eq_flat, ofFn_eq_flat R C m]
  simp only [flat_size]
  refine forN_closed' (fun q => flat R C (fun p => if k * C ≤ p ∧ p < k * C + q then
    t ((p - k * C) / C) ((p - k * C) % C) else m (p / C) (p % C))) ?_ ?_ ?_
  · apply flat_congr; intro p hp
    have : ¬ (k * C ≤ p ∧ p < k * C + 0) := by omega
    simp only [this, if_false]
  · apply flat_congr
    intro p hp
    have hd := idx_decomp hp
    have e1 : (k * C ≤ p ∧ p < k * C + n * C) ↔ (k ≤ p / C ∧ p / C < k + n) := by
      have hC : 0 < C := by omega
      rw [← Nat.add_mul, Nat.le_div_iff_mul_le hC, Nat.div_lt_iff_lt_mul hC]
    beta_reduce
    by_cases h1 : k ≤ p / C ∧ p / C < k + n
    · rw [if_pos h1, if_pos (e1.mpr h1)]
      have e2 : p - k * C = (p / C - k) * C + p % C := by
        conv_lhs => rw [hd.2.2]
        rw [Nat.sub_mul]
        have : k * C ≤ p / C * C := Nat.mul_le_mul_right _ h1.1
        omega
      rw [e2, idx_div hd.2.1, idx_mod hd.2.1]
    · rw [if_neg h1, if_neg (fun h => h1 (e1.mp h))]
  · intro q hq
    have hb : k * C + q < R * C := by
      have := Nat.mul_le_mul_right C h
      rw [Nat.add_mul] at this; omega
    simp only [raw_flat hq, bind_ok', flat_cols, setRaw_flat hb]
    congr 1
    apply flat_congr
    intro p hp
    by_cases h1 : p = k * C + q
    · subst h1
      have : k * C ≤ k * C + q ∧ k * C + q < k * C + (q + 1) := by omega
      simp only [this, and_self, if_true, Nat.add_sub_cancel_left]
    · have : (k * C ≤ p ∧ p < k * C + (q + 1)) = (k * C ≤ p ∧ p < k * C + q) := by
        rw [eq_iff_iff]; omega
      simp only [h1, this, if_false]

theorem applyRowPermutation_ofFn [Inhabited α] (g : Nat → α) {R C : Nat} (p : List Nat)
    (m : Nat → Nat → α) {o : Mat α} (ho : o.WF) (hp : p.length = R) (q : Nat → Nat)
    (hq : ∀ i, i < R → p[i]? = some (q i) ∧ q i < R) :
    applyRowPermutation g p (ofFn R C m) o = .ok (ofFn R C (fun i j => m (q i) j)) := by
  unfold applyRowPermutation
  simp only [ofFn_rows, ofFn_cols, hp, check_true, bind_ok']
  obtain ⟨d0, hd0⟩ := resize_exists g ho R C
  rw [hd0, flat_eq_ofFn]
  apply forN_eachRow
  intro r hr f' hf'
  obtain ⟨h1, h2⟩ := hq r hr
  simp only [rd, h1, bind_ok', check_true, h2]
  rw [forN_row (r := r) (e := fun _ j => m (q r) j)]
  · congr 1
    apply ofFn_congr
    intro i j hi hj
    simp [hj]
  · intro c hc f'' h3 h4
    rw [Nat.mul_comm C (q r), Nat.mul_comm C r]
    simp only [raw_ofFn h2 hc, bind_ok', setRaw_ofFn hr hc]

theorem setQuickBernoulli_flat [Zero α] [One α] (R C : Nat) (d : Nat → α) (lim : Nat) (rng : Nat → Nat) :
    setQuickBernoulli (flat R C d) lim rng =
      .ok (flat R C (fun i => if rng i % 65536 < lim then 1 else 0)) := by
  unfold setQuickBernoulli
  simp only [flat_size]
  apply forN_flat
  intro i hi d' _
  rw [setI_flat hi]

theorem setDraws_flat (R C : Nat) (d : Nat → α) (draw : Nat → α) :
    setDraws (flat R C d) draw = .ok (flat R C draw) := by
  unfold setDraws
  simp only [flat_size]
  apply forN_flat
  intro i hi d' _
  rw [setI_flat hi]

end Mat
end BeeDNN
