import Verif.Lemmas.MatrixMore
import Mathlib.Data.Rat.Floor
import Mathlib.Data.Real.Archimedean
import Mathlib.Algebra.Order.Floor.Semiring
import Mathlib.Tactic.NormNum
import Mathlib.Tactic.Positivity

/-!
# Properties of the matrix library (claims C01-C04, C09-C15, C18)

`Mat.ofFn r c f` is the `r × c` matrix with entries `f i j`; `every_matrix` says that all well-formed
matrices have this form.
-/

namespace BeeDNN

variable {α : Type}

/-- Quantifying over `f` in `Mat.ofFn r c f` is quantifying over all matrices. -/
theorem every_matrix [Inhabited α] (m : Mat α) (h : m.WF) :
    ∃ f, m = Mat.ofFn m.rows m.cols f ∧
      ∀ i j, i < m.rows → j < m.cols → m.get i j = .ok (f i j) := by
  obtain ⟨f, hf⟩ := h.exists_ofFn
  refine ⟨f, hf, fun i j hi hj => ?_⟩
  rw [hf]; exact Mat.get_ofFn hi hj

/-! ## C01 -/

/-- C01: in-range accesses never leave the buffer; a write is read back, no other cell changes, and the
result is again a well-formed matrix of the same shape. -/
theorem C01_get_set (m : Mat α) (hm : m.WF) {r c : Nat} (hr : r < m.rows) (hc : c < m.cols) (x : α) :
    ∃ m', m.set r c x = .ok m' ∧ m'.WF ∧ m'.rows = m.rows ∧ m'.cols = m.cols ∧
      m'.get r c = .ok x ∧
      (∀ i j, i < m.rows → j < m.cols → (i, j) ≠ (r, c) → m'.get i j = m.get i j) ∧
      (∀ i j, i < m.rows → j < m.cols → ∃ y, m.get i j = .ok y) := by
  have : Inhabited α := ⟨x⟩
  obtain ⟨f, hf⟩ := hm.exists_ofFn
  obtain ⟨R, C, d⟩ := m
  simp only at hr hc hf ⊢
  rw [hf]
  refine ⟨_, Mat.set_ofFn hr hc, Mat.ofFn_WF _ _ _, rfl, rfl, ?_, ?_, ?_⟩
  · rw [Mat.get_ofFn hr hc]; simp
  · intro i j hi hj hne
    rw [Mat.get_ofFn hi hj, Mat.get_ofFn hi hj]
    have : ¬ (i = r ∧ j = c) := fun h => hne (by rw [h.1, h.2])
    simp [this]
  · intro i j hi hj
    exact ⟨_, Mat.get_ofFn hi hj⟩

/-- C01: distinct in-range positions are distinct cells, and every cell has a position. -/
theorem C01_addressing (R C : Nat) :
    (∀ r c r' c', r < R → c < C → r' < R → c' < C →
      r * C + c = r' * C + c' → r = r' ∧ c = c') ∧
    (∀ i, i < R * C → ∃ r c, r < R ∧ c < C ∧ r * C + c = i) := by
  refine ⟨fun r c r' c' _ hc _ hc' h => idx_inj hc hc' h, fun i hi => ?_⟩
  have := idx_decomp hi
  exact ⟨i / C, i % C, this.1, this.2.1, this.2.2.symm⟩

/-- C01: an access outside the shape is a fault, never a value. -/
theorem C01_out_of_range (m : Mat α) {r c : Nat} (h : m.rows ≤ r ∨ m.cols ≤ c) (x : α) :
    m.get r c = .error .assertFail ∧ m.set r c x = .error .assertFail := by
  by_cases hr : r < m.rows
  · have hc : m.cols ≤ c := by omega
    exact ⟨Mat.get_oob_col hr hc, by simp [Mat.set, hr, check_false (Nat.not_lt.mpr hc)]⟩
  · exact ⟨Mat.get_oob_row (by omega), by simp [Mat.set, check_false hr]⟩

/-- C01: the same for the access by position. -/
theorem C01_out_of_range_linear (m : Mat α) {i : Nat} (h : m.rows * m.cols ≤ i) (x : α) :
    m.getI i = .error .assertFail ∧ m.setI i x = .error .assertFail := by
  have : ¬ i < m.size := Nat.not_lt.mpr h
  exact ⟨by simp [Mat.getI, check_false this], by simp [Mat.setI, check_false this]⟩

example : (Mat.mk 2 3 [1, 2, 3, 4, 5, 6] : Mat Nat).getI 6 = .error .assertFail ∧
    (Mat.mk 2 3 [1, 2, 3, 4, 5, 6] : Mat Nat).getI 5 = .ok 6 := by decide

example : (Mat.mk 2 3 [1, 2, 3, 4, 5, 6] : Mat Nat).WF ∧
    (Mat.mk 2 3 [1, 2, 3, 4, 5, 6] : Mat Nat).get 1 0 = .ok 4 ∧
    (Mat.mk 2 3 [1, 2, 3, 4, 5, 6] : Mat Nat).set 1 0 9 = .ok ⟨2, 3, [1, 2, 3, 9, 5, 6]⟩ := by decide

/-! ## C02 -/

/-- C02: the product, for arbitrary scalar operations (no algebraic law) and arbitrary contents `g` of
fresh memory.  The sum is accumulated from 0 in increasing `k`. -/
theorem C02_mul [Zero α] [Add α] [Mul α] (g : Nat → α) (n p q : Nat) (A B : Nat → Nat → α) :
    Mat.mul g (Mat.ofFn n p A) (Mat.ofFn p q B) =
      .ok (Mat.ofFn n q (fun i j => accN p (fun k => A i k * B k j))) :=
  Mat.mul_ofFn g n p q A B

/-- C02: over a semiring this is the mathematical product. -/
theorem C02_mul_sum [Semiring α] (g : Nat → α) (n p q : Nat) (A B : Nat → Nat → α) :
    Mat.mul g (Mat.ofFn n p A) (Mat.ofFn p q B) =
      .ok (Mat.ofFn n q (fun i j => ∑ k ∈ Finset.range p, A i k * B k j)) := by
  rw [Mat.mul_ofFn]
  simp only [accN_eq_sum]

/-- C02: without matching inner sizes there is no defined result. -/
theorem C02_mul_mismatch [Zero α] [Add α] [Mul α] (g : Nat → α) (a b : Mat α) (h : a.cols ≠ b.rows) :
    Mat.mul g a b = .error .assertFail := Mat.mul_shape g h

example : Mat.mul (fun _ => 77) (Mat.mk 2 2 [4, 5, 6, 7]) (Mat.mk 2 1 [2, 3] : Mat Int) =
    .ok ⟨2, 1, [23, 33]⟩ := by decide

/-! ## C03 -/

/-- C03: transposition swaps sizes and indices. -/
theorem C03_transpose (g : Nat → α) (R C : Nat) (f : Nat → Nat → α) :
    Mat.transpose g (Mat.ofFn R C f) = .ok (Mat.ofFn C R (fun i j => f j i)) :=
  Mat.transpose_ofFn g R C f

/-- C03: transposing twice restores every matrix. -/
theorem C03_transpose_involutive [Inhabited α] (g g' : Nat → α) (m : Mat α) (hm : m.WF) :
    (Mat.transpose g m).bind (Mat.transpose g') = .ok m := by
  obtain ⟨f, hf⟩ := hm.exists_ofFn
  rw [hf, Mat.transpose_ofFn]
  simp only [bind_ok]
  rw [Mat.transpose_ofFn]

/-- C03: `(A*B)ᵀ = Bᵀ*Aᵀ` as soon as scalar multiplication commutes. -/
theorem C03_transpose_mul [Zero α] [Add α] [Mul α] (comm : ∀ x y : α, x * y = y * x)
    (g g1 g2 g3 g4 : Nat → α) (n p q : Nat) (A B : Nat → Nat → α) :
    (do let c ← Mat.mul g (Mat.ofFn n p A) (Mat.ofFn p q B); Mat.transpose g1 c) =
    (do
      let bt ← Mat.transpose g2 (Mat.ofFn p q B)
      let at' ← Mat.transpose g3 (Mat.ofFn n p A)
      Mat.mul g4 bt at') := by
  simp only [Mat.mul_ofFn, Mat.transpose_ofFn, bind_ok']
  congr 1
  apply Mat.ofFn_congr
  intro i j _ _
  apply accN_congr
  intro k _
  rw [comm]

example : Mat.transpose (fun _ => 0) (Mat.mk 2 3 [1, 2, 3, 4, 5, 6] : Mat Nat) =
    .ok ⟨3, 2, [1, 4, 2, 5, 3, 6]⟩ := by decide

/-! ## C04 -/

/-- C04: binary elementwise operators (`+ - cwiseProduct cwiseQuotient cwiseMin cwiseMax` are instances
of `op`). -/
theorem C04_cwise2 (op : α → α → α) (R C : Nat) (d e : Nat → Nat → α) :
    Mat.cwise2 op (Mat.ofFn R C d) (Mat.ofFn R C e) =
      .ok (Mat.ofFn R C (fun i j => op (d i j) (e i j))) := Mat.cwise2_ofFn op R C d e

/-- C04: the named operators compute the operation they are named after. -/
theorem C04_add_sub_mul_scale [Add α] [Sub α] [Mul α] [Div α] [Neg α] (R C : Nat)
    (d e : Nat → Nat → α) (b : α) :
    Mat.add (Mat.ofFn R C d) (Mat.ofFn R C e) = .ok (Mat.ofFn R C (fun i j => d i j + e i j)) ∧
    Mat.sub (Mat.ofFn R C d) (Mat.ofFn R C e) = .ok (Mat.ofFn R C (fun i j => d i j - e i j)) ∧
    Mat.cwiseProduct (Mat.ofFn R C d) (Mat.ofFn R C e) =
      .ok (Mat.ofFn R C (fun i j => d i j * e i j)) ∧
    Mat.scale (Mat.ofFn R C d) b = .ok (Mat.ofFn R C (fun i j => d i j * b)) ∧
    Mat.divScalar (Mat.ofFn R C d) b = .ok (Mat.ofFn R C (fun i j => d i j / b)) ∧
    Mat.neg (Mat.ofFn R C d) = .ok (Mat.ofFn R C (fun i j => -d i j)) ∧
    Mat.addScalar (Mat.ofFn R C d) b = .ok (Mat.ofFn R C (fun i j => d i j + b)) :=
  ⟨Mat.cwise2_ofFn _ _ _ _ _, Mat.cwise2_ofFn _ _ _ _ _, Mat.cwise2_ofFn _ _ _ _ _,
   Mat.cwise_ofFn _ _ _ _, Mat.cwise_ofFn _ _ _ _, Mat.cwise_ofFn _ _ _ _, Mat.cwise_ofFn _ _ _ _⟩

/-- C04: binary operators on different shapes have no defined result. -/
theorem C04_shape_mismatch (op : α → α → α) (m a : Mat α) (h : m.rows ≠ a.rows ∨ m.cols ≠ a.cols) :
    Mat.cwise2 op m a = .error .assertFail := Mat.cwise2_shape h

/-- C04: unary elementwise functions. -/
theorem C04_cwise (f : α → α) (R C : Nat) (d : Nat → Nat → α) :
    Mat.cwise f (Mat.ofFn R C d) = .ok (Mat.ofFn R C (fun i j => f (d i j))) := Mat.cwise_ofFn f R C d

/-- C04: `sum` and `squaredNorm`, in storage order. -/
theorem C04_sum [Zero α] [Add α] [Mul α] (R C : Nat) (d : Nat → Nat → α) :
    (Mat.ofFn R C d).sum = .ok (accN (R * C) (fun k => d (k / C) (k % C))) ∧
    (Mat.ofFn R C d).squaredNorm =
      .ok (accN (R * C) (fun k => d (k / C) (k % C) * d (k / C) (k % C))) :=
  ⟨Mat.sum_flat _ _ _, Mat.squaredNorm_flat _ _ _⟩

theorem sum_range_mul [AddCommMonoid α] (R C : Nat) (f : Nat → Nat → α) :
    ∑ k ∈ Finset.range (R * C), f (k / C) (k % C) =
      ∑ i ∈ Finset.range R, ∑ j ∈ Finset.range C, f i j := by
  induction R with
  | zero => simp
  | succ R ih =>
    rw [Nat.succ_mul, Finset.sum_range_add, ih, Finset.sum_range_succ]
    congr 1
    apply Finset.sum_congr rfl
    intro j hj
    have := Finset.mem_range.mp hj
    rw [idx_div this, idx_mod this]

/-- C04: `mean` is the sum divided by the number of cells (`0/0` for the empty matrix). -/
theorem C04_mean [Zero α] [Add α] [Div α] [NatCast α] (R C : Nat) (d : Nat → Nat → α) :
    (Mat.ofFn R C d).mean =
      .ok (accN (R * C) (fun k => d (k / C) (k % C)) / ((R * C : Nat) : α)) := by
  have h := Mat.sum_flat (α := α) R C (fun i => d (i / C) (i % C))
  unfold Mat.mean
  rw [Mat.ofFn_eq_flat, h]
  rfl

example : (Mat.mk 2 2 [1, 2, 4, 5] : Mat Nat).mean = .ok 3 := by decide

/-- C04: `trace` and `diagonal` of a square matrix; a wide matrix is cut, a tall one is a fault. -/
theorem C04_diagonal [Zero α] [Add α] (g : Nat → α) {R C : Nat} (h : R ≤ C) (d : Nat → Nat → α) :
    (Mat.ofFn R C d).trace = .ok (accN R (fun i => d i i)) ∧
    (Mat.ofFn R C d).diagonal g = .ok (Mat.ofFn R 1 (fun i _ => d i i)) := by
  refine ⟨?_, ?_⟩
  · unfold Mat.trace
    apply Mat.forN_acc
    intro i hi s
    rw [Mat.get_ofFn (by simpa using hi) (Nat.lt_of_lt_of_le hi h)]
    rfl
  · unfold Mat.diagonal
    rw [Mat.alloc_eq, Mat.ofFn_rows, Mat.flat_eq_ofFn]
    apply forN_closed' (S := fun n => Mat.ofFn R 1 (fun i j => if i < n then d i i else g (i * 1 + j)))
    · apply Mat.ofFn_congr; intro i j _ _; simp
    · apply Mat.ofFn_congr; intro i j hi _; simp [hi]
    · intro i hi
      rw [Mat.get_ofFn hi (Nat.lt_of_lt_of_le hi h)]
      simp only [bind_ok']
      rw [Mat.setI_col hi]
      congr 1
      apply Mat.ofFn_congr
      intro a b _ hb
      by_cases e : a = i
      · subst e; simp
      · have : a < i + 1 ↔ a < i := by omega
        simp [e, this]

theorem C04_diagonal_tall [Zero α] [Add α] (g : Nat → α) {R C : Nat} (h : C < R) (d : Nat → Nat → α) :
    (Mat.ofFn R C d).trace = .error .assertFail ∧ (Mat.ofFn R C d).diagonal g = .error .assertFail := by
  have hoob : (Mat.ofFn R C d).get C C = .error .assertFail := Mat.get_oob_col h (Nat.le_refl _)
  refine ⟨?_, ?_⟩
  · unfold Mat.trace
    have h1 : forN C (fun i t => do
        let x ← (Mat.ofFn R C d).get i i
        return t + x) (0 : α) = .ok (accN C (fun i => d i i)) := by
      apply Mat.forN_acc
      intro i hi s
      rw [Mat.get_ofFn (by omega) hi]
      rfl
    exact forN_error (k := C) h h1 (by rw [hoob]; rfl)
  · unfold Mat.diagonal
    have h1 : forN C (fun i r => do
        let x ← (Mat.ofFn R C d).get i i
        r.setI i x) (Mat.alloc g R 1) =
        .ok (Mat.ofFn R 1 (fun i j => if i < C then d i i else g (i * 1 + j))) := by
      rw [Mat.alloc_eq, Mat.flat_eq_ofFn]
      apply forN_closed' (S := fun n => Mat.ofFn R 1 (fun i j => if i < n then d i i else g (i * 1 + j)))
      · apply Mat.ofFn_congr; intro i j _ _; simp
      · rfl
      · intro i hi
        rw [Mat.get_ofFn (by omega) hi]
        simp only [bind_ok']
        rw [Mat.setI_col (by omega)]
        congr 1
        apply Mat.ofFn_congr
        intro a b _ hb
        by_cases e : a = i
        · subst e; simp
        · have : a < i + 1 ↔ a < i := by omega
          simp [e, this]
    exact forN_error (k := C) h h1 (by rw [hoob]; rfl)

/-- C04: `asDiagonal` of a vector. -/
theorem C04_asDiagonal [Zero α] (g : Nat → α) (n : Nat) (d : Nat → Nat → α) :
    (Mat.ofFn 1 n d).asDiagonal g =
      .ok (Mat.ofFn n n (fun i j => if i = j then d 0 i else 0)) := by
  have : Inhabited α := ⟨0⟩
  unfold Mat.asDiagonal
  have hsz : (Mat.ofFn 1 n d).size = n := by simp
  rw [hsz, Mat.setConstantRC_eq g (m := ⟨0, 0, []⟩) rfl]
  simp only [bind_ok']
  rw [Mat.flat_eq_ofFn]
  apply forN_closed' (S := fun k => Mat.ofFn n n (fun i j => if i = j ∧ i < k then d 0 i else 0))
  · apply Mat.ofFn_congr; intro i j _ _; simp
  · apply Mat.ofFn_congr; intro i j hi _; simp [hi]
  · intro i hi
    have : (Mat.ofFn 1 n d).raw i = .ok (d 0 i) := by
      have := Mat.raw_ofFn (f := d) (R := 1) (C := n) (r := 0) (c := i) (by omega) hi
      simpa using this
    rw [this]
    simp only [bind_ok']
    rw [Mat.set_ofFn hi hi]
    congr 1
    apply Mat.ofFn_congr
    intro a b _ _
    by_cases e : a = i ∧ b = i
    · obtain ⟨rfl, rfl⟩ := e; simp
    · rw [if_neg e]
      have : (a = b ∧ a < i + 1) ↔ (a = b ∧ a < i) := by omega
      rw [if_congr this rfl rfl]

example : (Mat.mk 1 2 [3, 4] : Mat Nat).asDiagonal (fun _ => 7) = .ok ⟨2, 2, [3, 0, 0, 4]⟩ ∧
    (Mat.mk 2 2 [3, 0, 1, 4] : Mat Nat).trace = .ok 7 := by decide

/-- C04: with commutative addition, `sum` is the double sum. -/
theorem C04_sum_double [AddCommMonoid α] (R C : Nat) (d : Nat → Nat → α) :
    (Mat.ofFn R C d).sum = .ok (∑ i ∈ Finset.range R, ∑ j ∈ Finset.range C, d i j) := by
  have h := Mat.sum_flat (α := α) R C (fun i => d (i / C) (i % C))
  rw [← Mat.ofFn_eq_flat] at h
  rw [h, accN_eq_sum, sum_range_mul]

/-- C04: `maxCoeff` of a non-empty matrix is an attained upper bound. -/
theorem C04_maxCoeff [Zero α] [LinearOrder α] (R C : Nat) (h : 0 < R * C) (d : Nat → Nat → α) :
    ∃ x, (Mat.ofFn R C d).maxCoeff = .ok x ∧
      (∀ i j, i < R → j < C → d i j ≤ x) ∧ ∃ i j, i < R ∧ j < C ∧ x = d i j := by
  have key : ∃ x, (Mat.ofFn R C d).maxCoeff = .ok x ∧
      (∀ k, k < R * C → d (k / C) (k % C) ≤ x) ∧ ∃ k, k < R * C ∧ x = d (k / C) (k % C) := by
    unfold Mat.maxCoeff
    rw [if_neg (by simp only [Mat.ofFn_size]; omega)]
    rw [Mat.ofFn_eq_flat, Mat.raw_flat h]
    simp only [bind_ok']
    obtain ⟨s, hs, hP⟩ := forN_inv (n := R * C - 1)
      (f := fun i dMax => (do
        let x ← (Mat.flat R C (fun i => d (i / C) (i % C))).raw (i + 1)
        return if dMax < x then x else dMax : Out α))
      (s := d (0 / C) (0 % C))
      (fun i s => (∀ k, k ≤ i → d (k / C) (k % C) ≤ s) ∧ ∃ k, k ≤ i ∧ s = d (k / C) (k % C))
      (by
        refine ⟨?_, 0, Nat.le_refl _, rfl⟩
        intro k hk
        have : k = 0 := by omega
        subst this; exact le_refl _)
      (by
        rintro i hi s ⟨h1, k0, hk0, h2⟩
        refine ⟨_, by simp only [Mat.raw_flat (show i + 1 < R * C by omega), bind_ok', pure_ok]; rfl, ?_⟩
        by_cases hlt : s < d ((i + 1) / C) ((i + 1) % C)
        · simp only [hlt, if_true]
          refine ⟨?_, i + 1, Nat.le_refl _, rfl⟩
          intro k hk
          rcases Nat.lt_or_eq_of_le hk with h3 | h3
          · exact le_trans (h1 k (by omega)) hlt.le
          · subst h3; exact le_refl _
        · simp only [hlt, if_false]
          refine ⟨?_, k0, by omega, h2⟩
          intro k hk
          rcases Nat.lt_or_eq_of_le hk with h3 | h3
          · exact h1 k (by omega)
          · subst h3; exact not_lt.mp hlt)
    obtain ⟨h1, k0, hk0, h2⟩ := hP
    exact ⟨s, hs, fun k hk => h1 k (by omega), k0, by omega, h2⟩
  obtain ⟨x, hx, h1, k, hk, h2⟩ := key
  refine ⟨x, hx, ?_, k / C, k % C, (idx_decomp hk).1, (idx_decomp hk).2.1, h2⟩
  intro i j hi hj
  have := h1 (i * C + j) (idx_lt hi hj)
  rwa [idx_div hj, idx_mod hj] at this

example : (Mat.mk 2 2 [3, 9, 4, 9] : Mat Int).maxCoeff = .ok 9 ∧
    (Mat.mk 2 2 [3, 9, 4, 9] : Mat Int).sum = .ok 25 ∧
    Mat.add (Mat.mk 1 2 [1, 2]) (Mat.mk 2 1 [3, 4] : Mat Int) = .error .assertFail := by decide

/-! ## C09 -/

/-- C09: whatever the random generator delivers, the result is a permutation of `0..n-1`. -/
theorem C09_randPerm (draw : Nat → Nat) (n : Nat) :
    ∃ v, randPerm draw n = .ok v ∧ v.Perm (List.range n) := randPerm_perm draw n

/-- C09: applying a permutation moves whole rows. -/
theorem C09_applyRowPermutation [Inhabited α] (g : Nat → α) (R C : Nat) (p : List Nat)
    (hp : p.Perm (List.range R)) (m : Nat → Nat → α) (o : Mat α) (ho : o.WF) :
    ∃ m', Mat.applyRowPermutation g p (Mat.ofFn R C m) o = .ok m' ∧
      m'.rows = R ∧ m'.cols = C ∧ m'.WF ∧ m'.rowList = p.map (fun k => tab C (m k)) := by
  have hlen : p.length = R := by rw [hp.length_eq]; simp
  have hq : ∀ i, i < R → p[i]? = some (p.getD i 0) ∧ p.getD i 0 < R := by
    intro i hi
    have hi' : i < p.length := by omega
    have hmem : p[i] ∈ List.range R := hp.subset (List.getElem_mem hi')
    simp [List.getD, hi']
    exact List.mem_range.mp hmem
  refine ⟨_, Mat.applyRowPermutation_ofFn g p m ho hlen (fun i => p.getD i 0) hq, rfl, rfl,
    Mat.ofFn_WF _ _ _, ?_⟩
  rw [rowList_ofFn]
  symm
  rw [eq_tab_iff]
  refine ⟨by simp [hlen], fun i hi => ?_⟩
  rw [List.getElem?_map, (hq i hi).1]; rfl

/-- C09: a permutation of another length, or one naming a row that does not exist, is a fault: no row is
ever taken from outside the matrix. -/
theorem C09_bad_permutation [Inhabited α] (g : Nat → α) (p : List Nat) (m o : Mat α) (hm : m.WF)
    (ho : o.WF) (h : p.length ≠ m.rows ∨ ∃ k ∈ p, m.rows ≤ k) :
    Mat.applyRowPermutation g p m o = .error .assertFail := by
  unfold Mat.applyRowPermutation
  by_cases hl : p.length = m.rows
  · obtain ⟨k, hk, hge⟩ : ∃ k ∈ p, m.rows ≤ k := by
      rcases h with h | h
      · exact absurd hl h
      · exact h
    rw [check_true hl]
    simp only [bind_ok']
    obtain ⟨f, hf⟩ := hm.exists_ofFn
    -- the first bad position
    obtain ⟨i, hi, hbad, hgood⟩ : ∃ i, i < p.length ∧ m.rows ≤ p.getD i 0 ∧
        ∀ j, j < i → p.getD j 0 < m.rows := by
      have hex : ∃ i, i < p.length ∧ m.rows ≤ p.getD i 0 := by
        obtain ⟨i, hi, rfl⟩ := List.getElem_of_mem hk
        exact ⟨i, hi, by simpa [List.getD, hi] using hge⟩
      classical
      refine ⟨Nat.find hex, (Nat.find_spec hex).1, (Nat.find_spec hex).2, fun j hj => ?_⟩
      have := Nat.find_min hex hj
      have h2 := (Nat.find_spec hex).1
      by_contra hc
      exact this ⟨by omega, by omega⟩
    have hq : ∀ j, j < p.length → rd p j = .ok (p.getD j 0) := by
      intro j hj
      rw [rd_of_lt hj]
      simp [List.getD, hj]
    obtain ⟨d0, hd0⟩ := Mat.resize_exists g ho m.rows m.cols
    have hpre : ∃ t, forN i (fun i o => do
        let ip ← rd p i
        check (ip < m.rows)
        forN m.cols (fun j o => do
          let x ← m.raw (m.cols * ip + j)
          o.setRaw (m.cols * i + j) x) o) (o.resize g m.rows m.cols) = .ok t := by
      obtain ⟨t, ht, _⟩ := forN_inv (n := i) (f := fun i o => do
        let ip ← rd p i
        check (ip < m.rows)
        forN m.cols (fun j o => do
          let x ← m.raw (m.cols * ip + j)
          o.setRaw (m.cols * i + j) x) o)
        (s := o.resize g m.rows m.cols) (P := fun _ t => t.WF ∧ t.rows = m.rows ∧ t.cols = m.cols)
        (by rw [hd0]; exact ⟨Mat.flat_WF _ _ _, rfl, rfl⟩)
        (by
          intro j hj t ⟨ht1, ht2, ht3⟩
          have hjl : j < p.length := by omega
          rw [hq j hjl]
          simp only [bind_ok']
          rw [check_true (hgood j hj)]
          simp only [bind_ok']
          exact forN_inv (P := fun _ (t : Mat α) => t.WF ∧ t.rows = m.rows ∧ t.cols = m.cols) ⟨ht1, ht2, ht3⟩ (by
            intro a ha t ⟨h1, h2, h3⟩
            have e1 : m.cols * p.getD j 0 + a < m.data.length := by
              rw [hm, Nat.mul_comm]
              exact idx_lt (hgood j hj) ha
            have e2 : m.cols * j + a < t.data.length := by
              rw [h1, h2, h3, Nat.mul_comm]
              exact idx_lt (by omega) ha
            refine ⟨{ t with data := t.data.set (m.cols * j + a) m.data[m.cols * p.getD j 0 + a] }, ?_, ?_, h2, h3⟩
            · simp only [Mat.raw, Mat.setRaw]
              rw [rd_of_lt e1]
              simp only [bind_ok']
              rw [wr_of_lt e2]
              rfl
            · show (t.data.set _ _).length = _
              rw [List.length_set]; exact h1))
      exact ⟨t, ht⟩
    obtain ⟨t, ht⟩ := hpre
    refine forN_error hi ht ?_
    rw [hq i hi]
    simp only [bind_ok']
    rw [check_false (by omega)]
    rfl
  · rw [check_false hl]; rfl

example : Mat.applyRowPermutation (fun _ => 0) [0, 2] (Mat.mk 2 1 [5, 6]) ⟨0, 0, []⟩ = .error .assertFail ∧
    Mat.applyRowPermutation (fun _ => 0) [1, 0] (Mat.mk 2 1 [5, 6]) ⟨0, 0, []⟩ = .ok ⟨2, 1, [6, 5]⟩ := by
  decide

/-- C09: shuffling data and truth with the same permutation keeps the multiset of
(sample, truth) pairs. -/
theorem C09_shuffle_keeps_pairs [Inhabited α] (draw : Nat → Nat) (g : Nat → α) (R C C' : Nat)
    (data truth : Nat → Nat → α) (o o' : Mat α) (ho : o.WF) (ho' : o'.WF) :
    ∃ p D T, randPerm draw R = .ok p ∧
      Mat.applyRowPermutation g p (Mat.ofFn R C data) o = .ok D ∧
      Mat.applyRowPermutation g p (Mat.ofFn R C' truth) o' = .ok T ∧
      (List.zip D.rowList T.rowList).Perm
        (List.zip (Mat.ofFn R C data).rowList (Mat.ofFn R C' truth).rowList) := by
  obtain ⟨p, hp, hperm⟩ := randPerm_perm draw R
  obtain ⟨D, hD, _, _, _, hDl⟩ := C09_applyRowPermutation g R C p hperm data o ho
  obtain ⟨T, hT, _, _, _, hTl⟩ := C09_applyRowPermutation g R C' p hperm truth o' ho'
  refine ⟨p, D, T, hp, hD, hT, ?_⟩
  rw [hDl, hTl, rowList_ofFn, rowList_ofFn, tab, tab, List.zip_map', List.zip_map']
  exact hperm.map _

example : randPerm (fun i => i * 7 + 3) 4 = .ok [3, 0, 2, 1] := by decide
example : Mat.applyRowPermutation (fun _ => 0) [2, 0, 1] (Mat.mk 3 2 [1, 2, 3, 4, 5, 6])
    (Mat.mk 0 0 [] : Mat Nat) = .ok ⟨3, 2, [5, 6, 1, 2, 3, 4]⟩ := by decide

/-! ## C10 -/

/-- C10: row-wise sum, sum of squares and mean. -/
theorem C10_rowWise [Zero α] [Add α] [Mul α] [Div α] [NatCast α] (g : Nat → α) (R C : Nat)
    (m : Nat → Nat → α) :
    Mat.rowWiseSum g (Mat.ofFn R C m) = .ok (Mat.ofFn R 1 (fun i _ => accN C (fun j => m i j))) ∧
    Mat.rowWiseSumSq g (Mat.ofFn R C m) =
      .ok (Mat.ofFn R 1 (fun i _ => accN C (fun j => m i j * m i j))) ∧
    Mat.rowWiseMean g (Mat.ofFn R C m) =
      .ok (Mat.ofFn R 1 (fun i _ => accN C (fun j => m i j) / (C : α))) :=
  ⟨Mat.rowWiseAcc_ofFn _ _ _ _ _, Mat.rowWiseAcc_ofFn _ _ _ _ _, Mat.rowWiseMean_ofFn _ _ _ _⟩

/-- C10: column-wise sum, sum of squares and mean. -/
theorem C10_colWise [Zero α] [Add α] [Mul α] [Div α] [NatCast α] (g : Nat → α) (R C : Nat)
    (m : Nat → Nat → α) :
    Mat.colWiseSum g (Mat.ofFn R C m) = .ok (Mat.ofFn 1 C (fun _ j => accN R (fun i => m i j))) ∧
    Mat.colWiseSumSq g (Mat.ofFn R C m) =
      .ok (Mat.ofFn 1 C (fun _ j => accN R (fun i => m i j * m i j))) ∧
    Mat.colWiseMean g (Mat.ofFn R C m) =
      .ok (Mat.ofFn 1 C (fun _ j => accN R (fun i => m i j) / (R : α))) :=
  ⟨Mat.colWiseAcc_ofFn _ _ _ _ _ _, Mat.colWiseAcc_ofFn _ _ _ _ _ _,
   Mat.colWiseAcc_ofFn _ _ _ _ _ _⟩

/-- C10: column-wise maximum of a matrix with at least one row. -/
theorem C10_colWiseMax [LinearOrder α] (g : Nat → α) (R C : Nat) (hR : 0 < R) (m : Nat → Nat → α) :
    ∃ x : Nat → α, Mat.colWiseMax g (Mat.ofFn R C m) = .ok (Mat.ofFn 1 C (fun _ j => x j)) ∧
      ∀ j, (∀ i, i < R → m i j ≤ x j) ∧ ∃ i, i < R ∧ x j = m i j := by
  refine ⟨_, Mat.colWiseSel_ofFn _ g hR m, fun j => ?_⟩
  obtain ⟨h1, h2, h3⟩ := Mat.selN_max (m 0 j) R (fun i => m i j)
  refine ⟨h2, ?_⟩
  rcases h3 with h3 | h3
  · exact ⟨0, hR, h3⟩
  · exact h3

/-- C10: column-wise minimum of a matrix with at least one row. -/
theorem C10_colWiseMin [LinearOrder α] (g : Nat → α) (R C : Nat) (hR : 0 < R) (m : Nat → Nat → α) :
    ∃ x : Nat → α, Mat.colWiseMin g (Mat.ofFn R C m) = .ok (Mat.ofFn 1 C (fun _ j => x j)) ∧
      ∀ j, (∀ i, i < R → x j ≤ m i j) ∧ ∃ i, i < R ∧ x j = m i j := by
  refine ⟨_, Mat.colWiseSel_ofFn _ g hR m, fun j => ?_⟩
  obtain ⟨h1, h2, h3⟩ := Mat.selN_min (m 0 j) R (fun i => m i j)
  refine ⟨h2, ?_⟩
  rcases h3 with h3 | h3
  · exact ⟨0, hR, h3⟩
  · exact h3

/-- C10: on a matrix without rows the column-wise extrema are undefined (Matrix.cpp:200,221). -/
theorem C10_colWise_empty [LT α] [DecidableRel (α := α) (· < ·)] (g : Nat → α) (C : Nat) (hC : 0 < C)
    (m : Nat → Nat → α) :
    Mat.colWiseMax g (Mat.ofFn 0 C m) = .error .assertFail ∧
    Mat.colWiseMin g (Mat.ofFn 0 C m) = .error .assertFail :=
  ⟨Mat.colWiseSel_empty _ g hC m, Mat.colWiseSel_empty _ g hC m⟩

/-- C10: `rowWiseAdd`, `rowWiseMult`, `rowWiseDivide`. -/
theorem C10_rowWise_ops [Add α] [Mul α] [Div α] (R C : Nat) (m d e : Nat → Nat → α) :
    Mat.rowWiseAdd (Mat.ofFn R C m) (Mat.ofFn 1 C d) =
      .ok (Mat.ofFn R C (fun i j => m i j + d 0 j)) ∧
    Mat.rowWiseScalar (· * ·) (Mat.ofFn R C m) (Mat.ofFn R 1 e) =
      .ok (Mat.ofFn R C (fun i j => m i j * e i 0)) ∧
    Mat.rowWiseScalar (· / ·) (Mat.ofFn R C m) (Mat.ofFn R 1 e) =
      .ok (Mat.ofFn R C (fun i j => m i j / e i 0)) :=
  ⟨Mat.rowWiseAdd_ofFn _ _ _ _, Mat.rowWiseScalar_ofFn _ _ _ _ _, Mat.rowWiseScalar_ofFn _ _ _ _ _⟩

example : Mat.rowWiseAdd (Mat.mk 2 2 [1, 2, 3, 4]) (Mat.mk 1 2 [10, 20] : Mat Nat) =
    .ok ⟨2, 2, [11, 22, 13, 24]⟩ ∧
    Mat.colWiseMin (fun _ => 0) (Mat.mk 2 2 [1, 7, 3, 4] : Mat Nat) = .ok ⟨1, 2, [1, 4]⟩ ∧
    Mat.colWiseSum (fun _ => 0) (Mat.mk 2 2 [1, 7, 3, 4] : Mat Nat) = .ok ⟨1, 2, [4, 11]⟩ := by decide

/-! ## C11 -/

/-- C11: argmax of a non-empty row vector is the first position of the maximum. -/
theorem C11_argmax [LinearOrder α] (C : Nat) (hC : 0 < C) (x : Nat → Nat → α) :
    ∃ k, Mat.argmax (Mat.ofFn 1 C x) = .ok k ∧ IsFirstMax C (x 0) k := argmax_ofFn hC x

/-- C11: `rowsArgmax` gives, per row, that position; the old content and shape of the output matrix
are irrelevant. -/
theorem C11_rowsArgmax [LinearOrder α] [NatCast α] [Inhabited α] (g : Nat → α) (R C : Nat)
    (hC : 0 < C) (m : Nat → Nat → α) (o : Mat α) (ho : o.WF) :
    ∃ a : Nat → Nat, (∀ i, i < R → IsFirstMax C (m i) (a i)) ∧
      Mat.rowsArgmax g (Mat.ofFn R C m) o = .ok (Mat.ofFn R 1 (fun i _ => ((a i : Nat) : α))) :=
  rowsArgmax_ofFn g hC m ho

example : Mat.argmax (Mat.mk 1 4 [2, 5, 5, 1] : Mat Int) = .ok 1 := by decide

/-! ## C12 -/

/-- C12: clamp confines, fixes what was inside, and is idempotent. -/
theorem C12_clamp [LinearOrder α] (R C : Nat) (d : Nat → Nat → α) (lo hi : α) (h : lo ≤ hi) :
    ∃ e : Nat → Nat → α, Mat.clamp (Mat.ofFn R C d) lo hi = .ok (Mat.ofFn R C e) ∧
      (∀ i j, lo ≤ e i j ∧ e i j ≤ hi) ∧
      (∀ i j, lo ≤ d i j → d i j ≤ hi → e i j = d i j) ∧
      (∀ i j, d i j < lo → e i j = lo) ∧ (∀ i j, hi < d i j → e i j = hi) ∧
      Mat.clamp (Mat.ofFn R C e) lo hi = .ok (Mat.ofFn R C e) := by
  have hb : ∀ x : α, lo ≤ (if hi < x then hi else if x < lo then lo else x) ∧
      (if hi < x then hi else if x < lo then lo else x) ≤ hi := by
    intro x
    split
    · exact ⟨h, le_refl _⟩
    · split
      · exact ⟨le_refl _, h⟩
      · exact ⟨not_lt.mp ‹_›, not_lt.mp ‹_›⟩
  refine ⟨fun i j => if hi < d i j then hi else if d i j < lo then lo else d i j,
    Mat.clamp_flat _ _ _ _ _, fun i j => hb _, ?_, ?_, ?_, ?_⟩
  · intro i j h1 h2
    simp [not_lt.mpr h1, not_lt.mpr h2]
  · intro i j h1
    simp [not_lt.mpr (le_trans h1.le h), h1]
  · intro i j h1
    simp [h1]
  · rw [Mat.ofFn_eq_flat, Mat.clamp_flat]
    congr 1
    apply Mat.flat_congr
    intro k _
    have := hb (d (k / C) (k % C))
    rw [if_neg (not_lt.mpr this.2), if_neg (not_lt.mpr this.1)]

example : Mat.clamp (Mat.mk 1 3 [-5, 0, 9] : Mat Int) (-1) 1 = .ok ⟨1, 3, [-1, 0, 1]⟩ := by decide

/-! ## C13 -/

/-- C13: `viewRow(m,a,b)` shows rows `a..b-1`. -/
theorem C13_viewRow (R C a b : Nat) (m : Nat → Nat → α) (h1 : a < b) (h2 : b ≤ R) :
    Mat.viewRow (Mat.ofFn R C m) a b = .ok (Mat.ofFn (b - a) C (fun i j => m (a + i) j)) :=
  Mat.viewRow_ofFn m h1 h2

/-- C13: `copyInto` overwrites exactly the given rows. -/
theorem C13_copyInto (R C n k : Nat) (t m : Nat → Nat → α) (h : k + n ≤ R) :
    Mat.copyInto (Mat.ofFn n C t) (Mat.ofFn R C m) k =
      .ok (Mat.ofFn R C (fun i j => if k ≤ i ∧ i < k + n then t (i - k) j else m i j)) :=
  Mat.copyInto_ofFn t m h

/-- C13: `colExtract`. -/
theorem C13_colExtract (g : Nat → α) (R C a b : Nat) (m : Nat → Nat → α) (h1 : a ≤ b) (h2 : b ≤ C) :
    Mat.colExtract g (Mat.ofFn R C m) a b = .ok (Mat.ofFn R (b - a) (fun i j => m i (j + a))) :=
  Mat.colExtract_ofFn g m h1 h2

/-- C13: `decimate` keeps every `k`-th row. -/
theorem C13_decimate (g : Nat → α) (R C k : Nat) (hk : 0 < k) (m : Nat → Nat → α) :
    Mat.decimate g (Mat.ofFn R C m) k = .ok (Mat.ofFn (R / k) C (fun i j => m (i * k) j)) :=
  Mat.decimate_ofFn g R C m hk

/-- C13: cutting a matrix in two blocks of rows and copying both blocks into any matrix of the same
shape restores it (by iteration: any number of blocks). -/
theorem C13_cut_and_paste (R C k : Nat) (hk : 0 < k) (hkR : k < R) (m o : Nat → Nat → α) :
    (do
      let top ← Mat.viewRow (Mat.ofFn R C m) 0 k
      let bot ← Mat.viewRow (Mat.ofFn R C m) k R
      let o ← Mat.copyInto top (Mat.ofFn R C o) 0
      Mat.copyInto bot o k) = .ok (Mat.ofFn R C m) := by
  rw [Mat.viewRow_ofFn m hk hkR.le, Mat.viewRow_ofFn m hkR (Nat.le_refl R)]
  simp only [bind_ok']
  rw [Mat.copyInto_ofFn _ _ (by omega)]
  simp only [bind_ok']
  rw [Mat.copyInto_ofFn _ _ (by omega)]
  congr 1
  apply Mat.ofFn_congr
  intro i j hi hj
  by_cases h : k ≤ i
  · rw [if_pos (by omega)]; congr 1; omega
  · rw [if_neg (by omega), if_pos (by omega)]; congr 1; omega

example : Mat.viewRow (Mat.mk 3 2 [1, 2, 3, 4, 5, 6] : Mat Nat) 1 3 = .ok ⟨2, 2, [3, 4, 5, 6]⟩ ∧
    Mat.decimate (fun _ => 0) (Mat.mk 3 2 [1, 2, 3, 4, 5, 6] : Mat Nat) 2 = .ok ⟨1, 2, [1, 2]⟩ ∧
    Mat.colExtract (fun _ => 0) (Mat.mk 2 3 [1, 2, 3, 4, 5, 6] : Mat Nat) 1 3 =
      .ok ⟨2, 2, [2, 3, 5, 6]⟩ := by decide

/-! ## C14 -/

/-- C14: channel-wise add; column `k` of the sample belongs to channel `k/(R*C)`. -/
theorem C14_channelWiseAdd [Add α] (S H R C : Nat) (m : Nat → Nat → α) (w : Nat → Nat → α) :
    Mat.channelWiseAdd (Mat.ofFn S (H * (R * C)) m) S H R C (Mat.ofFn 1 H w) =
      .ok (Mat.ofFn S (H * (R * C)) (fun s k => m s k + w 0 (k / (R * C)))) :=
  Mat.channelWiseAdd_ofFn S H R C m w

/-- The mean over samples, rows and columns of channel `h`. -/
def channelMean [Field α] (S R C : Nat) (m : Nat → Nat → α) (h : Nat) : α :=
  (∑ s ∈ Finset.range S, ∑ k ∈ Finset.range (R * C), m s (h * (R * C) + k)) / ((S * R * C : Nat) : α)

/-- C14 (what the code computes): the result is the channel mean times `(R*C)²`. -/
theorem C14_channelWiseMean_scaled [Field α] [CharZero α] (g : Nat → α) (S H R C : Nat)
    (hS : 0 < S) (hR : 0 < R) (hC : 0 < C) (m : Nat → Nat → α) :
    Mat.channelWiseMean g (Mat.ofFn S (H * (R * C)) m) S H R C =
      .ok (Mat.ofFn 1 H (fun _ h => channelMean S R C m h * ((R : α) * (C : α)) ^ 2)) := by
  rw [Mat.channelWiseMean_ofFn]
  congr 1
  apply Mat.ofFn_congr
  intro i h _ _
  unfold channelMean
  rw [accN_eq_sum, sum_range_mul S (R * C) (fun s k => m s (h * (R * C) + k))]
  have h1 : (S : α) ≠ 0 := by exact_mod_cast hS.ne'
  have h2 : (R : α) ≠ 0 := by exact_mod_cast hR.ne'
  have h3 : (C : α) ≠ 0 := by exact_mod_cast hC.ne'
  push_cast
  field_simp

/-- C14, partial: the channel mean is right for 1×1 planes.  Missing: all larger planes, where
it is wrong (`C14_channelWiseMean_wrong`); the source multiplies by rows*cols instead of dividing
(Matrix.cpp:528). -/
theorem C14_channelWiseMean_partial [Field α] [CharZero α] (g : Nat → α) (S H : Nat) (hS : 0 < S)
    (m : Nat → Nat → α) :
    Mat.channelWiseMean g (Mat.ofFn S (H * (1 * 1)) m) S H 1 1 =
      .ok (Mat.ofFn 1 H (fun _ h => channelMean S 1 1 m h)) := by
  rw [C14_channelWiseMean_scaled g S H 1 1 hS Nat.one_pos Nat.one_pos]
  simp

/-- C14 is violated: for every plane with more than one pixel there are data (all ones) on which
`channelWiseMean` does not return the channel mean. -/
theorem C14_channelWiseMean_wrong [Field α] [CharZero α] (g : Nat → α) (S H R C : Nat)
    (hS : 0 < S) (hH : 0 < H) (hRC : 1 < R * C) :
    ∃ m : Nat → Nat → α, Mat.channelWiseMean g (Mat.ofFn S (H * (R * C)) m) S H R C ≠
      .ok (Mat.ofFn 1 H (fun _ h => channelMean S R C m h)) := by
  have hR : 0 < R := Nat.pos_of_ne_zero (by rintro rfl; simp at hRC)
  have hC : 0 < C := Nat.pos_of_ne_zero (by rintro rfl; simp at hRC)
  refine ⟨fun _ _ => 1, ?_⟩
  rw [C14_channelWiseMean_scaled g S H R C hS hR hC]
  intro h
  have h' := Mat.ofFn_inj (Except.ok.inj h) 0 0 Nat.one_pos hH
  have h1 : (S : α) ≠ 0 := by exact_mod_cast hS.ne'
  have h2 : (R : α) ≠ 0 := by exact_mod_cast hR.ne'
  have h3 : (C : α) ≠ 0 := by exact_mod_cast hC.ne'
  have hm : channelMean S R C (fun _ _ => (1 : α)) 0 = 1 := by
    unfold channelMean
    simp
    field_simp
  rw [hm, one_mul] at h'
  have h4 : ((R * C) ^ 2 : Nat) = 1 := by
    have : (((R * C) ^ 2 : Nat) : α) = ((1 : Nat) : α) := by push_cast; exact h'
    exact_mod_cast this
  have h5 : 1 < (R * C) ^ 2 := Nat.one_lt_pow (by decide) hRC
  omega

example : Mat.channelWiseMean (fun _ => 0) (Mat.mk 1 4 [1, 1, 1, 1] : Mat Rat) 1 1 2 2 =
    .ok ⟨1, 1, [16]⟩ := by decide +kernel

/-! ## C15 -/

/-- C15 (what the code computes): `reverseData` copies the mirrored second half over the first
half, leaves the second half alone, and touches nothing outside its `n` cells. -/
theorem C15_reverseData_effect (N p n : Nat) (hn : 0 < n) (h : p + n ≤ N) (d : Nat → α) :
    ∃ e, Mat.reverseData (tab N d) p n = .ok (tab N e) ∧
      (∀ j, j < n / 2 → e (p + j) = d (p + (n - 1 - j))) ∧
      (∀ j, n / 2 ≤ j → j < n → e (p + j) = d (p + j)) ∧
      (∀ j, j < p ∨ p + n ≤ j → e j = d j) := by
  refine ⟨_, Mat.reverseData_tab hn h d, ?_, ?_, ?_⟩
  · intro j hj
    rw [if_pos (by omega)]; congr 1; omega
  · intro j h1 h2
    rw [if_neg (by omega)]
  · intro j h1
    rw [if_neg (by omega)]

/-- C15, partial: the reversal is right exactly on data that are their own reversal (on which it does
nothing).  Missing: every other input, where the second half of the data is duplicated
(Matrix.cpp:561-567 copies in one direction instead of exchanging). -/
theorem C15_reverseData_partial (N p n : Nat) (hn : 0 < n) (h : p + n ≤ N) (d : Nat → α) :
    (∃ e, Mat.reverseData (tab N d) p n = .ok (tab N e) ∧
      ∀ j, j < n → e (p + j) = d (p + (n - 1 - j))) ↔
    (∀ j, j < n → d (p + j) = d (p + (n - 1 - j))) := by
  obtain ⟨e, he, h1, h2, _⟩ := C15_reverseData_effect N p n hn h d
  constructor
  · rintro ⟨e', he', hr⟩ j hj
    rw [he] at he'
    have heq := tab_inj (Except.ok.inj he')
    by_cases hj2 : n / 2 ≤ j
    · rw [← h2 j hj2 hj, heq _ (by omega)]; exact hr j hj
    · have h3 : n / 2 ≤ n - 1 - j := by omega
      have h4 := hr (n - 1 - j) (by omega)
      rw [← heq _ (by omega), h2 _ h3 (by omega)] at h4
      rw [h4]; congr 1; omega
  · intro hp
    refine ⟨e, he, fun j hj => ?_⟩
    by_cases hj2 : n / 2 ≤ j
    · rw [h2 j hj2 hj]; exact hp j hj
    · exact h1 j (by omega)

/-- C15 is violated already on two cells. -/
theorem C15_reverseData_wrong :
    Mat.reverseData [1, 2] 0 2 = .ok [2, 2] ∧ (Mat.reverseData ([] : List Nat) 0 0) = .error .outOfBounds := by
  decide

example : Mat.reverseData [1, 2, 3, 4, 5] 0 5 = .ok [5, 4, 3, 4, 5] := by decide

/-! ## C18 -/

/-- C18: the entries are 0 or 1, depending only on the low 16 bits of the draws. -/
theorem C18_quickBernoulli [Zero α] [One α] (R C : Nat) (d : Nat → α) (lim : Nat) (rng : Nat → Nat) :
    Mat.setQuickBernoulli (Mat.flat R C d) lim rng =
      .ok (Mat.flat R C (fun i => if rng i % 65536 < lim then 1 else 0)) :=
  Mat.setQuickBernoulli_flat R C d lim rng

/-- C18: with `lim = int(65536 p)`, exactly `⌊65536 p⌋` of the 65536 low-16-bit values give a one; this
is within 1/65536 of `p`; `p=0` gives zeros only, `p=1` ones only. -/
theorem C18_probability (p : ℝ) (h0 : 0 ≤ p) (h1 : p ≤ 1) :
    let lim := ⌊p * 65536⌋₊
    ((Finset.range 65536).filter (fun x => x % 65536 < lim)).card = lim ∧
    |(lim : ℝ) / 65536 - p| < 1 / 65536 ∧
    (p = 0 → ∀ x, ¬ x % 65536 < lim) ∧ (p = 1 → ∀ x, x % 65536 < lim) := by
  intro lim
  have hlim : lim ≤ 65536 := by
    have : ⌊p * 65536⌋₊ ≤ ⌊(65536 : ℝ)⌋₊ := Nat.floor_le_floor (by linarith)
    have h2 : ⌊(65536 : ℝ)⌋₊ = 65536 := by exact_mod_cast Nat.floor_natCast (R := ℝ) 65536
    omega
  have hle : (lim : ℝ) ≤ p * 65536 := Nat.floor_le (by positivity)
  have hlt : p * 65536 < lim + 1 := Nat.lt_floor_add_one _
  refine ⟨?_, ?_, ?_, ?_⟩
  · have : (Finset.range 65536).filter (fun x => x % 65536 < lim) = Finset.range lim := by
      ext x
      simp only [Finset.mem_filter, Finset.mem_range]
      constructor
      · rintro ⟨h2, h3⟩; rwa [Nat.mod_eq_of_lt h2] at h3
      · intro h2; exact ⟨by omega, by rw [Nat.mod_eq_of_lt (by omega)]; exact h2⟩
    rw [this, Finset.card_range]
  · rw [abs_lt]; constructor <;> [skip; skip] <;> · field_simp; linarith
  · rintro rfl x
    have : lim = 0 := by simp [lim]
    omega
  · rintro rfl x
    have : lim = 65536 := by
      have h2 : ⌊(65536 : ℝ)⌋₊ = 65536 := by exact_mod_cast Nat.floor_natCast (R := ℝ) 65536
      simp only [lim, one_mul]; exact h2
    rw [this]; exact Nat.mod_lt _ (by decide)

example : Mat.setQuickBernoulli (Mat.mk 1 3 [7, 7, 7] : Mat Int) 32768 (fun i => i * 32767 + 1) =
    .ok ⟨1, 3, [1, 0, 0]⟩ := by decide

end BeeDNN
