import Verif.Lemmas.MatrixFn
import Mathlib.Data.List.Perm.Basic
import Mathlib.Algebra.Order.Field.Basic
import Mathlib.Tactic.FieldSimp

/-! Argmax, permutations, channel-wise functions, data reversal. -/

namespace BeeDNN

variable {α σ : Type}

theorem forN_add (n m : Nat) (f : Nat → σ → Out σ) (s : σ) :
    forN (n + m) f s = (forN n f s).bind (forN m (fun i => f (n + i))) := by
  induction m with
  | zero => cases h : forN n f s <;> simp [h, Except.bind]
  | succ m ih =>
    rw [← Nat.add_assoc, forN_succ, ih]
    cases h : forN n f s <;> simp [Except.bind, forN_succ]

/-- Two nested loops are one loop over the product range. -/
theorem forN_nest (A B : Nat) (f : Nat → Nat → σ → Out σ) (s : σ) :
    forN A (fun a s => forN B (f a) s) s = forN (A * B) (fun k s => f (k / B) (k % B) s) s := by
  induction A with
  | zero => simp
  | succ A ih =>
    rw [forN_succ, ih, Nat.succ_mul, forN_add]
    cases h : forN (A * B) (fun k s => f (k / B) (k % B) s) s with
    | error e => rfl
    | ok t =>
      simp only [bind_ok]
      apply forN_congr
      intro i hi t
      rw [idx_div hi, idx_mod hi]

theorem argmax_ofFn [LinearOrder α] {C : Nat} (hC : 0 < C) (x : Nat → Nat → α) :
    ∃ k, Mat.argmax (Mat.ofFn 1 C x) = .ok k ∧ IsFirstMax C (x 0) k := by
  unfold Mat.argmax
  have h0 : ¬ C = 0 := by omega
  simp only [Mat.ofFn_rows, Mat.ofFn_cols, check_true, bind_ok', h0, if_false,
    Mat.getI_ofFn_row hC]
  obtain ⟨s, hs, hP⟩ := forN_inv (n := C - 1)
    (f := fun i (s : α × Nat) => (do
      let y ← (Mat.ofFn 1 C x).getI (i + 1)
      return if s.1 < y then (y, i + 1) else s : Out (α × Nat)))
    (s := (x 0 0, 0))
    (fun i s => s.2 ≤ i ∧ s.1 = x 0 s.2 ∧ (∀ j, j ≤ i → x 0 j ≤ s.1) ∧ ∀ j, j < s.2 → x 0 j < s.1)
    (by
      refine ⟨Nat.le_refl _, rfl, ?_, ?_⟩
      · intro j hj
        have : j = 0 := by omega
        subst this; exact le_refl _
      · intro j hj; omega)
    (by
      rintro i hi ⟨d, k⟩ ⟨h1, h2, h3, h4⟩
      refine ⟨_, by simp only [Mat.getI_ofFn_row (show i + 1 < C by omega), bind_ok', pure_ok]; rfl, ?_⟩
      simp only at h1 h2 h3 h4
      by_cases h : d < x 0 (i + 1)
      · simp only [h, if_true]
        refine ⟨Nat.le_refl _, trivial, ?_, ?_⟩
        · intro j hj
          rcases Nat.lt_or_eq_of_le hj with h5 | h5
          · exact le_trans (h3 j (by omega)) h.le
          · subst h5; exact le_refl _
        · intro j hj
          exact lt_of_le_of_lt (h3 j (by omega)) h
      · simp only [h, if_false]
        refine ⟨by omega, h2, ?_, h4⟩
        intro j hj
        rcases Nat.lt_or_eq_of_le hj with h5 | h5
        · exact h3 j (by omega)
        · subst h5; exact not_lt.mp h)
  refine ⟨s.2, ?_, ?_⟩
  · rw [hs]; rfl
  · obtain ⟨h1, h2, h3, h4⟩ := hP
    refine ⟨by omega, ?_, ?_⟩
    · intro j hj; rw [← h2]; exact h3 j (by omega)
    · intro j hj; rw [← h2]; exact h4 j hj

theorem IsFirstMax.unique [LinearOrder α] {n : Nat} {x : Nat → α} {k k' : Nat}
    (h : IsFirstMax n x k) (h' : IsFirstMax n x k') : k = k' := by
  rcases Nat.lt_trichotomy k k' with h1 | h1 | h1
  · exact absurd (h'.2.2 k h1) (not_lt.mpr (h.2.1 k' h'.1))
  · exact h1
  · exact absurd (h.2.2 k' h1) (not_lt.mpr (h'.2.1 k h.1))

theorem rowsArgmax_ofFn [LinearOrder α] [NatCast α] [Inhabited α] (g : Nat → α) {R C : Nat}
    (hC : 0 < C) (m : Nat → Nat → α) {o : Mat α} (ho : o.WF) :
    ∃ a : Nat → Nat, (∀ i, i < R → IsFirstMax C (m i) (a i)) ∧
      Mat.rowsArgmax g (Mat.ofFn R C m) o = .ok (Mat.ofFn R 1 (fun i _ => ((a i : Nat) : α))) := by
  have hk : ∀ i, ∃ k, Mat.argmax (Mat.ofFn 1 C (fun _ j => m i j)) = .ok k ∧ IsFirstMax C (m i) k :=
    fun i => argmax_ofFn hC (fun _ j => m i j)
  choose a ha using hk
  refine ⟨a, fun i _ => (ha i).2, ?_⟩
  unfold Mat.rowsArgmax
  obtain ⟨d0, hd0⟩ := Mat.resize_exists g ho R 1
  simp only [Mat.ofFn_rows]
  rw [hd0, Mat.flat_eq_ofFn]
  apply Mat.forN_eachRow
  intro r hr f' _
  simp only [Mat.row_ofFn hr, bind_ok', (ha r).1, Mat.setI_col hr]

/-! ### Permutations -/

theorem randPerm_perm (draw : Nat → Nat) (n : Nat) :
    ∃ v, randPerm draw n = .ok v ∧ v.Perm (List.range n) := by
  unfold randPerm
  have h1 : forN n (fun i v => wr v i i) (tab n (fun _ => 0)) = .ok (tab n (fun i => i)) := by
    rw [forN_map (e := fun i => i) (Nat.le_refl n)]
    · congr 1; apply tab_congr; intro i hi; simp [hi]
    · intro i hi d' _; exact wr_tab hi
  have h2 : tab n (fun i => i) = List.range n := by simp [tab]
  rw [h1, h2]
  simp only [bind_ok']
  refine forN_inv (fun _ (v : List Nat) => v.Perm (List.range n)) (List.Perm.refl _) ?_
  intro i hi v hv
  have hlen : v.length = n := by rw [hv.length_eq]; simp
  have hj : draw (i + 1) % (i + 2) < v.length := by
    have : draw (i + 1) % (i + 2) < i + 2 := Nat.mod_lt _ (by omega)
    omega
  have hi' : i + 1 < v.length := by omega
  rw [rd_of_lt hi', rd_of_lt hj]
  simp only [bind_ok']
  rw [wr_of_lt hi']
  simp only [bind_ok']
  rw [wr_of_lt (by simpa using hj)]
  exact ⟨_, rfl, (List.set_set_perm hi' hj).trans hv⟩

theorem rowList_ofFn (R C : Nat) (m : Nat → Nat → α) :
    (Mat.ofFn R C m).rowList = tab R (fun i => tab C (m i)) := by
  unfold Mat.rowList
  apply List.map_congr_left
  intro i hi
  have hi' : i < R := List.mem_range.mp hi
  have h := Mat.row_ofFn (f := m) (C := C) hi'
  simp only [Mat.row, Mat.ofFn_rows, check_true, hi', bind_ok', pure_ok] at h
  have h' := congrArg (fun o : Out (Mat α) => match o with | .ok m => m.data | .error _ => []) h
  simp only [Mat.ofFn_cols] at h'
  rw [Mat.ofFn_cols, h']
  simp only [Mat.ofFn, Mat.flat, Nat.one_mul]
  apply tab_congr
  intro j hj
  rw [Nat.mod_eq_of_lt hj]

/-! ### Channel-wise functions -/

namespace Mat

theorem channelWiseAdd_ofFn [Add α] (S H R C : Nat) (m : Nat → Nat → α) (w : Nat → Nat → α) :
    channelWiseAdd (ofFn S (H * (R * C)) m) S H R C (ofFn 1 H w) =
      .ok (ofFn S (H * (R * C)) (fun s k => m s k + w 0 (k / (R * C)))) := by
  unfold channelWiseAdd
  have e : S * (H * (R * C)) = S * H * R * C := by ring
  simp only [ofFn_size, ofFn_rows, Nat.one_mul, e, check_true, bind_ok']
  have e2 : ∀ (s : Nat) (x : Mat α), forN H (fun h m => forN R (fun r m => forN C (fun c m => (do
      let x ← m.get s (h * R * C + r * C + c)
      let y ← (ofFn 1 H w).getI h
      m.set s (h * R * C + r * C + c) (x + y) : Out (Mat α))) m) m) x =
      forN (H * (R * C)) (fun k m => (do
        let x ← m.get s k
        let y ← (ofFn 1 H w).getI (k / (R * C))
        m.set s k (x + y) : Out (Mat α))) x := by
    intro s x
    have e3 : ∀ h m, forN R (fun r m => forN C (fun c m => (do
        let x ← m.get s (h * R * C + r * C + c)
        let y ← (ofFn 1 H w).getI h
        m.set s (h * R * C + r * C + c) (x + y) : Out (Mat α))) m) m =
        forN (R * C) (fun k m => (do
          let x ← m.get s (h * (R * C) + k)
          let y ← (ofFn 1 H w).getI h
          m.set s (h * (R * C) + k) (x + y) : Out (Mat α))) m := by
      intro h m
      rw [forN_nest]
      apply forN_congr
      intro k hk t
      have hd := idx_decomp hk
      have : h * R * C + k / C * C + k % C = h * (R * C) + k := by
        conv_rhs => rw [hd.2.2]
        ring
      rw [this]
    simp only [e3]
    rw [forN_nest]
    apply forN_congr
    intro k hk t
    have hd := idx_decomp hk
    rw [← hd.2.2]
  simp only [e2]
  apply forN_rows
  intro r c hr hc f' hf'
  have hd := idx_decomp hc
  simp only [get_ofFn hr hc, bind_ok', getI_ofFn_row hd.1, set_ofFn hr hc, hf']

theorem channelWiseMean_ofFn [Zero α] [One α] [Add α] [Mul α] [Div α] [NatCast α] (g : Nat → α)
    (S H R C : Nat) (m : Nat → Nat → α) :
    channelWiseMean g (ofFn S (H * (R * C)) m) S H R C =
      .ok (ofFn 1 H (fun _ h => accN (S * (R * C)) (fun k =>
        m (k / (R * C)) (h * (R * C) + k % (R * C))) * (1 / (S : α) * (R : α) * (C : α)))) := by
  have : Inhabited α := ⟨0⟩
  unfold channelWiseMean
  have e : S * (H * (R * C)) = S * H * R * C := by ring
  simp only [ofFn_size, ofFn_rows, e, check_true, bind_ok']
  rw [setConstantRC_eq (m := ⟨0, 0, []⟩) g (by simp [WF])]
  simp only [bind_ok']
  have e3 : ∀ s h (o : Mat α), forN R (fun r o => forN C (fun c o => (do
      let x ← o.get 0 h
      let y ← (ofFn S (H * (R * C)) m).get s (h * R * C + r * C + c)
      o.set 0 h (x + y) : Out (Mat α))) o) o =
      forN (R * C) (fun k o => (do
      let x ← o.get 0 h
      let y ← (ofFn S (H * (R * C)) m).get s (h * (R * C) + k)
      o.set 0 h (x + y) : Out (Mat α))) o := by
    intro s h o
    rw [forN_nest]
    apply forN_congr
    intro k hk t
    have hd := idx_decomp hk
    have : h * R * C + k / C * C + k % C = h * (R * C) + k := by
      conv_rhs => rw [hd.2.2]
      ring
    rw [this]
  simp only [e3]
  set F : Nat → Nat → α := fun h k => m (k / (R * C)) (h * (R * C) + k % (R * C)) with hF
  rw [forN_closed' (t := ofFn 1 H (fun _ h => accN (S * (R * C)) (F h)))
    (fun s => ofFn 1 H (fun _ h => accN (s * (R * C)) (F h)))]
  · simp only [bind_ok', scale, cwise_ofFn, hF]
  · rw [flat_eq_ofFn]; simp [accN]
  · rfl
  · intro s hs
    refine forN_closed' (fun h => ofFn 1 H (fun _ j => if j < h then accN ((s + 1) * (R * C)) (F j)
      else accN (s * (R * C)) (F j))) ?_ ?_ ?_
    · simp
    · apply ofFn_congr; intro i j hi hj; simp [hj]
    · intro h hh
      refine forN_closed' (fun k => ofFn 1 H (fun _ j => if j < h then accN ((s + 1) * (R * C)) (F j)
        else if j = h then accN (s * (R * C) + k) (F j) else accN (s * (R * C)) (F j))) ?_ ?_ ?_
      · apply ofFn_congr; intro i j hi hj
        by_cases h1 : j < h
        · simp [h1]
        · simp [h1]
      · apply ofFn_congr; intro i j hi hj
        by_cases h1 : j < h
        · simp [h1, Nat.lt_succ_of_lt h1]
        · by_cases h2 : j = h
          · subst h2; simp [Nat.succ_mul]
          · have : ¬ j < h + 1 := by omega
            simp [h1, h2, this]
      · intro k hk
        have hcol : h * (R * C) + k < H * (R * C) := idx_lt hh hk
        simp only [get_ofFn Nat.one_pos hh, get_ofFn hs hcol, bind_ok', set_ofFn Nat.one_pos hh]
        congr 1
        apply ofFn_congr; intro i j hi hj
        have hi0 : i = 0 := by omega
        subst hi0
        by_cases h1 : j = h
        · subst h1
          simp only [and_self, if_true, Nat.lt_irrefl, if_false]
          rw [← Nat.add_assoc, accN]
          congr 1
          simp only [hF, idx_div hk, idx_mod hk]
        · simp [h1]

/-! ### Data reversal -/

theorem reverseData_tab {N p n : Nat} (hn : 0 < n) (h : p + n ≤ N) (d : Nat → α) :
    reverseData (tab N d) p n =
      .ok (tab N (fun j => if p ≤ j ∧ j < p + n / 2 then d (p + n - 1 - (j - p)) else d j)) := by
  unfold reverseData
  refine forN_closed' (fun k => tab N (fun j => if p ≤ j ∧ j < p + k ∧ j < p + n / 2 then
    d (p + n - 1 - (j - p)) else d j)) ?_ ?_ ?_
  · apply tab_congr; intro j hj
    rw [if_neg (by omega)]
  · apply tab_congr; intro j hj
    have : (p ≤ j ∧ j < p + (n / 2 + 1) ∧ j < p + n / 2) = (p ≤ j ∧ j < p + n / 2) := by
      rw [eq_iff_iff]; omega
    simp only [this]
  · intro i hi
    rw [if_neg (by omega)]
    simp only [rd_tab (show p + n - 1 - i < N by omega), bind_ok']
    rw [wr_tab (show p + i < N by omega)]
    congr 1
    apply tab_congr
    intro j hj
    by_cases h1 : j = p + i
    · subst h1
      rw [if_pos rfl]
      by_cases h2 : i < n / 2
      · rw [if_neg (by omega), if_pos (by omega)]
        congr 1; omega
      · have h3 : i = n / 2 := by omega
        rw [if_neg (c := p ≤ p + i ∧ _) (by omega)]
        rcases Nat.even_or_odd' n with ⟨q, hq | hq⟩
        · rw [if_pos (by omega)]; congr 1; omega
        · rw [if_neg (by omega)]; congr 1; omega
    · rw [if_neg h1]
      have : (p ≤ j ∧ j < p + (i + 1) ∧ j < p + n / 2) = (p ≤ j ∧ j < p + i ∧ j < p + n / 2) := by
        rw [eq_iff_iff]; omega
      simp only [this]

end Mat
end BeeDNN
