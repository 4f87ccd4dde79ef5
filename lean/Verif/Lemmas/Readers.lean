import Verif.Spec.Readers
import Verif.Lemmas.LayersBasic
import Verif.Lemmas.LayersMisc
import Verif.Lemmas.OptimizerWF

/-! # Helper lemmas: the data readers -/

namespace BeeDNN.Data

/-- The stream after `p` bytes were asked for. -/
def pos (bytes : List Byte) (p : Nat) : IStream := if p ≤ bytes.length then ⟨bytes.drop p, false⟩ else ⟨[], true⟩

theorem pos_zero (bytes : List Byte) : pos bytes 0 = ⟨bytes, false⟩ := by simp [pos]

theorem read_pos (bytes : List Byte) (p n : Nat) (b : Nat → Byte) :
    (pos bytes p).read n (tab n b) = .ok (pos bytes (p + n), tab n fun j => if p + j < bytes.length then bytes.getD (p + j) 0 else b j) := by
  unfold IStream.read
  rw [if_neg (by simp)]
  by_cases hp : p ≤ bytes.length
  · have e1 : pos bytes p = ⟨bytes.drop p, false⟩ := if_pos hp
    rw [e1]
    simp only [Bool.false_eq_true, if_false, List.length_drop]
    by_cases hn : p + n ≤ bytes.length
    · rw [if_pos (by omega)]
      have e2 : pos bytes (p + n) = ⟨(bytes.drop p).drop n, false⟩ := by
        unfold pos
        rw [if_pos hn, List.drop_drop]
      rw [e2]
      refine congrArg (fun t => Except.ok (_, t)) ?_
      apply List.ext_getElem?
      intro j
      rw [tab_getElem?]
      by_cases hj : j < n
      · rw [if_pos hj, if_pos (by omega), List.getElem?_append_left (by simp; omega), List.getElem?_take, if_pos hj, List.getElem?_drop,
          List.getD_eq_getElem?_getD, List.getElem?_eq_getElem (by omega)]
        rfl
      · rw [if_neg hj, List.getElem?_eq_none]
        simp
        omega
    · rw [if_neg (by omega)]
      have e2 : pos bytes (p + n) = ⟨[], true⟩ := if_neg hn
      rw [e2]
      refine congrArg (fun t => Except.ok (_, t)) ?_
      apply List.ext_getElem?
      intro j
      rw [tab_getElem?]
      by_cases hj : j < bytes.length - p
      · rw [if_pos (by omega), if_pos (by omega), List.getElem?_append_left (by simp; omega), List.getElem?_drop,
          List.getD_eq_getElem?_getD, List.getElem?_eq_getElem (by omega)]
        rfl
      · rw [List.getElem?_append_right (by simp; omega), List.length_drop, List.getElem?_drop, tab_getElem?]
        have : bytes.length - p + (j - (bytes.length - p)) = j := by omega
        rw [this]
        by_cases hjn : j < n
        · rw [if_pos hjn, if_pos hjn, if_neg (by omega)]
        · rw [if_neg hjn, if_neg hjn]
  · have e1 : ∀ q, pos bytes (p + q) = ⟨[], true⟩ := fun q => if_neg (by omega)
    rw [e1 n, show pos bytes p = ⟨[], true⟩ from e1 0]
    simp only [if_true]
    refine congrArg (fun t => Except.ok (_, t)) ?_
    apply List.ext_getElem?
    intro j
    rw [tab_getElem?, tab_getElem?, if_neg (by omega : ¬ p + j < bytes.length)]

theorem tab_two {α : Type} (f : Nat → α) : tab 2 f = [f 0, f 1] := rfl
theorem tab_one {α : Type} (f : Nat → α) : tab 1 f = [f 0] := rfl
theorem tab_four {α : Type} (f : Nat → α) : tab 4 f = [f 0, f 1, f 2, f 3] := rfl

/-- `swap_int` reverses the bytes. -/
theorem swapInt_le (a b c d : Byte) : swapInt (le [a, b, c, d]) = a.val * 2 ^ 24 + b.val * 2 ^ 16 + c.val * 2 ^ 8 + d.val := by
  have ha := a.isLt
  have hb := b.isLt
  have hc := c.isLt
  have hd := d.isLt
  simp only [le, swapInt]
  generalize a.val = a at *
  generalize b.val = b at *
  generalize c.val = c at *
  generalize d.val = d at *
  have e1 : (a + 256 * (b + 256 * (c + 256 * (d + 256 * 0)))) % 256 = a := by omega
  have e2 : (a + 256 * (b + 256 * (c + 256 * (d + 256 * 0)))) / 2 ^ 8 % 256 = b := by omega
  have e3 : (a + 256 * (b + 256 * (c + 256 * (d + 256 * 0)))) / 2 ^ 16 % 256 = c := by omega
  have e4 : (a + 256 * (b + 256 * (c + 256 * (d + 256 * 0)))) / 2 ^ 24 % 256 = d := by omega
  rw [e1, e2, e3, e4]
  clear e1 e2 e3 e4
  unfold shl24
  split
  · rw [Int.emod_eq_of_lt (by positivity) (by norm_num; omega)]
    norm_num
    omega
  · rw [← Int.add_emod_right, Int.emod_eq_of_lt (by norm_num; omega) (by norm_num; omega)]
    norm_num
    omega

theorem swapInt_be32 {n : Nat} (h : n < 2 ^ 32) : swapInt (le (be32 n)) = n := by
  unfold be32
  rw [swapInt_le]
  simp only [Fin.ofNat]
  omega

/-- Reading a size from a file that has it at `p`. -/
theorem readSize_be32 (u : Nat → Nat → Byte) (v : Nat) {bytes : List Byte} {p n : Nat} (hn : n < 2 ^ 32)
    (h : ∀ j, j < 4 → bytes[p + j]? = (be32 n)[j]?) : readSize u v (pos bytes p) = .ok (pos bytes (p + 4), n) := by
  unfold readSize
  rw [read_pos, bind_ok']
  have hl : p + 3 < bytes.length := by
    by_contra hc
    have := h 3 (by omega)
    rw [List.getElem?_eq_none (by omega)] at this
    exact absurd this (by simp [be32])
  have e : tab 4 (fun j => if p + j < bytes.length then bytes.getD (p + j) 0 else u v j) = be32 n := by
    apply List.ext_getElem?
    intro j
    rw [tab_getElem?]
    by_cases hj : j < 4
    · rw [if_pos hj, if_pos (by omega), ← h j hj, List.getD_eq_getElem?_getD, List.getElem?_eq_getElem (by omega)]
      rfl
    · rw [if_neg hj, List.getElem?_eq_none]
      simp [be32]
      omega
  rw [e]
  show Except.ok (_, swapInt (le (be32 n))) = _
  rw [swapInt_be32 hn]

/-- The loop over the labels. -/
theorem vec_loop (n : Nat) (p : Nat → Byte) (f : Nat → Nat → ℝ) :
    forN n (fun i m => do
      let x ← rd (tab n p) i
      Mat.setRaw m i (x.val : ℝ)) (Mat.ofFn n 1 f) = .ok (Mat.ofFn n 1 fun i _ => ((p i).val : ℝ)) := by
  refine forN_closed' (fun k => Mat.ofFn n 1 fun i j => if i < k then ((p i).val : ℝ) else f i j) ?_ ?_ ?_
  · simp
  · apply Mat.ofFn_congr
    intro i j hi hj
    rw [if_pos hi]
  · intro i hi
    rw [rd_tab hi, bind_ok']
    have := Mat.setRaw_ofFn (f := fun r c => if r < i then ((p r).val : ℝ) else f r c) (x := ((p i).val : ℝ)) hi (show 0 < 1 by decide)
    rw [Nat.mul_one, Nat.add_zero] at this
    rw [this]
    refine congrArg Except.ok (Mat.ofFn_congr ?_)
    intro r c hr hc
    have hc0 : c = 0 := by omega
    subst hc0
    by_cases h : r = i
    · subst h
      simp
    · have : (r < i + 1) = (r < i) := by simp; omega
      simp only [h, false_and, if_false, this]

/-- The loop over the pixels of an image. -/
theorem img_loop {n s k : Nat} (hk : k < n) (p : Nat → Byte) (f : Nat → Nat → ℝ) :
    forN s (fun i m => do
      let x ← rd (tab s p) i
      Mat.setRaw m (k * Mat.cols m + i) (x.val : ℝ)) (Mat.ofFn n s f) =
      .ok (Mat.ofFn n s fun i j => if i = k ∧ j < s then ((p j).val : ℝ) else f i j) := by
  refine Mat.forN_row (e := fun _ j => ((p j).val : ℝ)) ?_
  intro c hc f' _ _
  rw [rd_tab hc, bind_ok', Mat.ofFn_cols, Mat.setRaw_ofFn hk hc]

theorem header_ok {t : Byte} {rest : List Byte} (u : Nat → Nat → Byte) :
    let bytes := [0, 0, 8, t] ++ rest
    (IStream.read ⟨bytes, false⟩ 2 (tab 2 (u 0)) = .ok (pos bytes 2, [0, 0])) ∧
    ((pos bytes 2).read 1 (tab 1 (u 1)) = .ok (pos bytes 3, [8])) ∧
    ((pos bytes 3).read 1 (tab 1 (u 2)) = .ok (pos bytes 4, [t])) := by
  intro bytes
  refine ⟨?_, ?_, ?_⟩
  · rw [← pos_zero, read_pos]
    refine congrArg (fun t => Except.ok (_, t)) ?_
    rw [tab_two, if_pos (by simp [bytes]), if_pos (by simp [bytes])]
    rfl
  · rw [read_pos]
    refine congrArg (fun t => Except.ok (_, t)) ?_
    rw [tab_one, if_pos (by simp [bytes])]
    rfl
  · rw [read_pos]
    refine congrArg (fun t => Except.ok (_, t)) ?_
    rw [tab_one, if_pos (by simp [bytes])]
    rfl

theorem readMatrix_labels (u : Nat → Nat → Byte) (g : Nat → ℝ) {n : Nat} (hn : n < 2 ^ 32) (body : List Byte) {m : Mat ℝ} (hm : m.WF) :
    readMatrix u g (some (idxLabels n body)) m =
      .ok (true, Mat.ofFn n 1 fun i _ => ((if i < body.length then body.getD i 0 else u 4 i : Byte).val : ℝ)) := by
  obtain ⟨h1, h2, h3⟩ := header_ok (t := 1) (rest := be32 n ++ body) u
  have hb : idxLabels n body = [0, 0, 8, 1] ++ (be32 n ++ body) := by simp [idxLabels]
  unfold readMatrix
  dsimp only
  rw [hb, h1, bind_ok']
  dsimp only
  rw [if_neg (by decide), h2, bind_ok']
  dsimp only
  rw [if_neg (by decide), h3, bind_ok']
  dsimp only
  rw [if_pos (by decide), readSize_be32 u 3 hn, bind_ok']
  · dsimp only
    rw [read_pos, bind_ok']
    dsimp only
    obtain ⟨f, hf⟩ := Mat.resize_ofFn g hm n 1
    rw [hf, vec_loop, bind_ok']
    refine congrArg (fun t => Except.ok (true, t)) (Mat.ofFn_congr ?_)
    intro i j hi hj
    have hl : ([0, 0, 8, 1] ++ (be32 n ++ body) : List Byte).length = 8 + body.length := by simp [be32]; omega
    have hg : ([0, 0, 8, 1] ++ (be32 n ++ body) : List Byte).getD (8 + i) 0 = body.getD i 0 := by
      rw [List.getD_eq_getElem?_getD, List.getD_eq_getElem?_getD, ← List.append_assoc, List.getElem?_append_right (by simp [be32])]
      simp [be32]
    rw [hl]
    by_cases h : i < body.length
    · rw [if_pos (by omega), if_pos h, hg]
    · rw [if_neg (by omega), if_neg h]
  · intro j hj
    rw [List.getElem?_append_right (by simp), List.getElem?_append_left (by simp [be32]; omega)]
    congr 1
    simp

theorem imageBuffer_full {body : List Byte} {s : Nat} {b : Nat → Byte} {k j : Nat} (h : k * s + j < body.length) :
    imageBuffer body s b (k + 1) j = body.getD (k * s + j) 0 := by
  rw [imageBuffer, if_pos h]

theorem readMatrix_images (u : Nat → Nat → Byte) (g : Nat → ℝ) {n r c : Nat} (hn : n < 2 ^ 32) (hr : r < 2 ^ 32) (hc : c < 2 ^ 32)
    (body : List Byte) {m : Mat ℝ} (hm : m.WF) :
    readMatrix u g (some (idxImages n r c body)) m =
      .ok (true, Mat.ofFn n (r * c % 2 ^ 32) fun i j => ((imageBuffer body (r * c % 2 ^ 32) (u 8) (i + 1) j).val : ℝ)) := by
  obtain ⟨h1, h2, h3⟩ := header_ok (t := 3) (rest := be32 n ++ (be32 r ++ (be32 c ++ body))) u
  have hb : idxImages n r c body = [0, 0, 8, 3] ++ (be32 n ++ (be32 r ++ (be32 c ++ body))) := by simp [idxImages]
  unfold readMatrix
  dsimp only
  rw [hb, h1, bind_ok']
  dsimp only
  rw [if_neg (by decide), h2, bind_ok']
  dsimp only
  rw [if_neg (by decide), h3, bind_ok']
  dsimp only
  rw [if_neg (by decide), if_pos (by decide), readSize_be32 u 5 hn, bind_ok']
  · dsimp only
    rw [readSize_be32 u 6 hr, bind_ok']
    · dsimp only
      rw [readSize_be32 u 7 hc, bind_ok']
      · dsimp only
        obtain ⟨f, hf⟩ := Mat.resize_ofFn g hm n (r * c % 2 ^ 32)
        rw [hf]
        generalize r * c % 2 ^ 32 = s at *
        generalize hB : ([0, 0, 8, 3] ++ (be32 n ++ (be32 r ++ (be32 c ++ body))) : List Byte) = bytes
        have hl : bytes.length = 16 + body.length := by rw [← hB]; simp [be32]; omega
        have hg : ∀ i, bytes.getD (16 + i) 0 = body.getD i 0 := fun i => by
          rw [← hB, List.getD_eq_getElem?_getD, List.getD_eq_getElem?_getD, ← List.append_assoc, ← List.append_assoc, ← List.append_assoc,
            List.getElem?_append_right (by simp [be32])]
          simp [be32]
        rw [forN_closed' (fun k => (pos bytes (16 + k * s), tab s (imageBuffer body s (u 8) k),
          Mat.ofFn n s fun i j => if i < k then ((imageBuffer body s (u 8) (i + 1) j).val : ℝ) else f i j))
          (t := (pos bytes (16 + n * s), tab s (imageBuffer body s (u 8) n),
          Mat.ofFn n s fun i j => ((imageBuffer body s (u 8) (i + 1) j).val : ℝ)))]
        · rfl
        · simp only [Nat.not_lt_zero, if_false, Nat.zero_mul, Nat.add_zero]
          rfl
        · refine Prod.ext rfl (Prod.ext rfl ?_)
          dsimp only
          apply Mat.ofFn_congr
          intro i j hi hj
          rw [if_pos hi]
        · intro k hk
          dsimp only
          have hbuf : tab s (fun j => if 16 + k * s + j < bytes.length then bytes.getD (16 + k * s + j) 0 else imageBuffer body s (u 8) k j) =
              tab s (imageBuffer body s (u 8) (k + 1)) := by
            congr 1
            funext j
            rw [imageBuffer, hl]
            by_cases h : k * s + j < body.length
            · rw [if_pos (by omega), if_pos h, Nat.add_assoc, hg]
            · rw [if_neg (by omega), if_neg h]
          rw [read_pos, hbuf, bind_ok']
          dsimp only
          rw [check_true (by rw [Mat.ofFn_rows]; exact hk), bind_ok', img_loop hk, bind_ok']
          refine congrArg Except.ok (Prod.ext ?_ (Prod.ext rfl ?_))
          · show pos bytes _ = pos bytes _
            congr 1
            ring
          · dsimp only
            apply Mat.ofFn_congr
            intro i j hi hj
            by_cases h : i = k
            · subst h
              simp [hj]
            · have : (i < k + 1) = (i < k) := by simp; omega
              simp only [h, false_and, if_false, this]
      · intro j hj
        rw [← List.append_assoc, ← List.append_assoc, List.getElem?_append_right (by simp [be32]), List.getElem?_append_left (by simp [be32]; omega)]
        congr 1
        simp [be32]
    · intro j hj
      rw [← List.append_assoc, List.getElem?_append_right (by simp [be32]), List.getElem?_append_left (by simp [be32]; omega)]
      congr 1
      simp [be32]
  · intro j hj
    rw [List.getElem?_append_right (by simp), List.getElem?_append_left (by simp [be32]; omega)]
    congr 1
    simp

/-- A size is read whatever the file holds. -/
theorem readSize_any (u : Nat → Nat → Byte) (v : Nat) (bytes : List Byte) (p : Nat) :
    ∃ n, readSize u v (pos bytes p) = .ok (pos bytes (p + 4), n) := by
  unfold readSize
  rw [read_pos]
  exact ⟨_, rfl⟩

theorem readMatrix_total (u : Nat → Nat → Byte) (g : Nat → ℝ) (file : Option (List Byte)) {m : Mat ℝ} (hm : m.WF) :
    ∃ b m', readMatrix u g file m = .ok (b, m') ∧ m'.WF := by
  cases file with
  | none => exact ⟨_, _, rfl, hm⟩
  | some bytes =>
    unfold readMatrix
    dsimp only
    rw [← pos_zero bytes, read_pos, bind_ok']
    dsimp only
    split
    · exact ⟨_, _, rfl, hm⟩
    rw [read_pos, bind_ok']
    dsimp only
    split
    · exact ⟨_, _, rfl, hm⟩
    rw [read_pos, bind_ok']
    dsimp only
    split
    · obtain ⟨n, hn⟩ := readSize_any u 3 bytes (0 + 2 + 1 + 1)
      rw [hn, bind_ok']
      dsimp only
      obtain ⟨f, hf⟩ := Mat.resize_ofFn g hm n 1
      rw [read_pos, bind_ok', hf]
      dsimp only
      rw [vec_loop]
      exact ⟨_, _, rfl, Mat.ofFn_WF _ _ _⟩
    · split
      · obtain ⟨n, hn⟩ := readSize_any u 5 bytes (0 + 2 + 1 + 1)
        rw [hn, bind_ok']
        dsimp only
        obtain ⟨r, hr⟩ := readSize_any u 6 bytes (0 + 2 + 1 + 1 + 4)
        rw [hr, bind_ok']
        dsimp only
        obtain ⟨c, hc⟩ := readSize_any u 7 bytes (0 + 2 + 1 + 1 + 4 + 4)
        rw [hc, bind_ok']
        dsimp only
        generalize r * c % 2 ^ 32 = s
        obtain ⟨f, hf⟩ := Mat.resize_ofFn g hm n s
        rw [hf]
        obtain ⟨t, ht, p', b', f', rfl⟩ := forN_inv (n := n) (s := (pos bytes (0 + 2 + 1 + 1 + 4 + 4 + 4), tab s (u 8), Mat.ofFn n s f))
          (f := fun iImage (s', p, m) => do
            let (s', p) ← IStream.read s' s p
            check (iImage < Mat.rows m)
            let m ← forN s (fun i m => do
              let x ← rd p i
              Mat.setRaw m (iImage * Mat.cols m + i) (x.val : ℝ)) m
            return (s', p, m))
          (fun _ t => ∃ p b f, t = (pos bytes p, tab s b, Mat.ofFn n s f)) ⟨_, _, _, rfl⟩ (by
            rintro k hk _ ⟨p, b, f, rfl⟩
            refine ⟨(pos bytes (p + s), tab s fun j => if p + j < bytes.length then bytes.getD (p + j) 0 else b j,
              Mat.ofFn n s fun i j => if i = k ∧ j < s then ((if p + j < bytes.length then bytes.getD (p + j) 0 else b j : Byte).val : ℝ) else f i j),
              ?_, p + s, _, _, rfl⟩
            dsimp only
            rw [read_pos, bind_ok']
            dsimp only
            rw [check_true (by rw [Mat.ofFn_rows]; exact hk), bind_ok', img_loop hk, bind_ok']
            rfl)
        rw [ht]
        exact ⟨_, _, rfl, Mat.ofFn_WF _ _ _⟩
      · exact ⟨_, _, rfl, hm⟩

/-! ## CIFAR-10 -/

/-- The label read in round `i`. -/
def labelAt (bytes : List Byte) (s : Nat) (u : Nat → Nat → Byte) (i : Nat) : Byte :=
  if i * (s + 1) < bytes.length then bytes.getD (i * (s + 1)) 0 else u (i + 1) 0

theorem line_loop {n s k : Nat} (hk : k < n) (p : Nat → Byte) (f : Nat → Nat → ℝ) :
    forN s (fun j m => do
      let x ← rd (tab s p) j
      Mat.set m k j (x.val : ℝ)) (Mat.ofFn n s f) =
      .ok (Mat.ofFn n s fun i j => if i = k ∧ j < s then ((p j).val : ℝ) else f i j) := by
  refine Mat.forN_row (e := fun _ j => ((p j).val : ℝ)) ?_
  intro c hc f' _ _
  rw [rd_tab hc, bind_ok', Mat.set_ofFn hk hc]

theorem readBatch_eq (n s : Nat) (u : Nat → Nat → Byte) (g : Nat → ℝ) (bytes : List Byte) {md mt : Mat ℝ} (hd : md.WF) (ht : mt.WF) :
    readBatch n s u g (some bytes) md mt =
      .ok (true, Mat.ofFn n s (fun i j => ((lineBuffer bytes s (u 0) (i + 1) j).val : ℝ)), Mat.ofFn n 1 fun i _ => ((labelAt bytes s u i).val : ℝ)) := by
  unfold readBatch
  dsimp only
  obtain ⟨f, hf⟩ := Mat.resize_ofFn g hd n s
  obtain ⟨f', hf'⟩ := Mat.resize_ofFn g ht n 1
  rw [hf, hf', forN_closed' (fun k => (pos bytes (k * (s + 1)), tab s (lineBuffer bytes s (u 0) k),
    Mat.ofFn n s (fun i j => if i < k then ((lineBuffer bytes s (u 0) (i + 1) j).val : ℝ) else f i j),
    Mat.ofFn n 1 fun i j => if i < k then ((labelAt bytes s u i).val : ℝ) else f' i j))
    (t := (pos bytes (n * (s + 1)), tab s (lineBuffer bytes s (u 0) n), Mat.ofFn n s (fun i j => ((lineBuffer bytes s (u 0) (i + 1) j).val : ℝ)),
      Mat.ofFn n 1 fun i _ => ((labelAt bytes s u i).val : ℝ)))]
  · rfl
  · simp only [Nat.not_lt_zero, if_false, Nat.zero_mul, pos_zero]
    rfl
  · refine Prod.ext rfl (Prod.ext rfl (Prod.ext ?_ ?_))
    · dsimp only
      apply Mat.ofFn_congr
      intro i j hi hj
      rw [if_pos hi]
    · dsimp only
      apply Mat.ofFn_congr
      intro i j hi hj
      rw [if_pos hi]
  · intro k hk
    dsimp only
    rw [read_pos, bind_ok']
    dsimp only
    rw [rd_tab (by decide), bind_ok', Mat.setI_col hk, bind_ok', read_pos, bind_ok']
    dsimp only
    have hbuf : tab s (fun j => if k * (s + 1) + 1 + j < bytes.length then bytes.getD (k * (s + 1) + 1 + j) 0 else lineBuffer bytes s (u 0) k j) =
        tab s (lineBuffer bytes s (u 0) (k + 1)) := rfl
    rw [hbuf, line_loop hk, bind_ok']
    refine congrArg Except.ok (Prod.ext ?_ (Prod.ext rfl (Prod.ext ?_ ?_)))
    · show pos bytes _ = pos bytes _
      congr 1
      ring
    · dsimp only
      apply Mat.ofFn_congr
      intro i j hi hj
      by_cases h : i = k
      · subst h
        simp [hj]
      · have : (i < k + 1) = (i < k) := by simp; omega
        simp only [h, false_and, if_false, this]
    · dsimp only
      apply Mat.ofFn_congr
      intro i j hi hj
      by_cases h : i = k
      · subst h
        simp [labelAt]
      · have : (i < k + 1) = (i < k) := by simp; omega
        simp only [h, if_false, this]

/-- The five batches: batch `b` goes to the rows from `b * n` on. -/
theorem readBatches_eq (n s : Nat) (u : Nat → Nat → Nat → Byte) (g : Nat → ℝ) (N : Nat) : ∀ (fs : List (List Byte)) (k : Nat) (mi mt : Mat ℝ) (a b : Nat → Nat → ℝ),
    mi.WF → mt.WF → (k + fs.length) * n ≤ N →
    readBatches n s u g (fs.map some) k mi mt (Mat.ofFn N s a) (Mat.ofFn N 1 b) =
      .ok (true,
        Mat.ofFn N s (fun i j => if k * n ≤ i ∧ i < (k + fs.length) * n then
          ((lineBuffer (fs.getD (i / n - k) []) s (u (i / n) 0) (i % n + 1) j).val : ℝ) else a i j),
        Mat.ofFn N 1 (fun i j => if k * n ≤ i ∧ i < (k + fs.length) * n then ((labelAt (fs.getD (i / n - k) []) s (u (i / n)) (i % n)).val : ℝ) else b i j))
  | [], k, mi, mt, a, b, _, _, _ => by
    rw [List.map_nil, readBatches]
    refine congrArg (fun t => Except.ok (true, t)) (Prod.ext ?_ ?_)
    · dsimp only
      apply Mat.ofFn_congr
      intro i j _ _
      rw [if_neg]
      simp
    · dsimp only
      apply Mat.ofFn_congr
      intro i j _ _
      rw [if_neg]
      simp
  | f :: fs, k, mi, mt, a, b, hi, ht, hN => by
    rw [List.map_cons, readBatches, readBatch_eq n s (u k) g f hi ht, bind_ok']
    dsimp only
    have hlen : (k + (f :: fs).length) * n = (k + 1 + fs.length) * n := by
      rw [List.length_cons]
      ring
    rw [hlen] at hN
    have hk : k * n + n ≤ N := le_trans (by
      have : (k + 1) * n ≤ (k + 1 + fs.length) * n := Nat.mul_le_mul_right _ (by omega)
      linarith) hN
    rw [if_neg (by simp), Mat.copyInto_ofFn _ _ hk, bind_ok', Mat.copyInto_ofFn _ _ hk, bind_ok']
    rw [readBatches_eq n s u g N fs (k + 1) _ _ _ _ (Mat.ofFn_WF _ _ _) (Mat.ofFn_WF _ _ _) hN]
    have key : ∀ i, k * n ≤ i → i < (k + 1 + fs.length) * n → ¬ (k + 1) * n ≤ i → i / n = k ∧ i - k * n = i % n := fun i h1 h2 h3 => by
      have hn : 0 < n := by
        rcases Nat.eq_zero_or_pos n with h | h
        · subst h; simp at h2
        · exact h
      have h4 : i / n = k := Nat.div_eq_of_lt_le h1 (by linarith)
      refine ⟨h4, ?_⟩
      have := Nat.div_add_mod i n
      rw [h4, Nat.mul_comm n k] at this
      omega
    have hcond : ∀ {β : Type} (i : Nat) (x y : β) (z : β) (he : ¬ (k + 1) * n ≤ i → k * n ≤ i → i < (k + 1 + fs.length) * n → z = y) (w : β)
        (hx : (k + 1) * n ≤ i → x = z) ,
        (if (k + 1) * n ≤ i ∧ i < (k + 1 + fs.length) * n then x else if k * n ≤ i ∧ i < k * n + n then y else w) =
        if k * n ≤ i ∧ i < (k + (f :: fs).length) * n then z else w := by
      intro β i x y z he w hx
      rw [hlen]
      have e1 : (k + 1) * n = k * n + n := by ring
      have e2 : (k + 1 + fs.length) * n = k * n + n + fs.length * n := by ring
      by_cases h1 : (k + 1) * n ≤ i
      · by_cases h2 : i < (k + 1 + fs.length) * n
        · rw [if_pos ⟨h1, h2⟩, if_pos ⟨by omega, h2⟩, hx h1]
        · rw [if_neg (fun h => h2 h.2), if_neg (fun h => by omega), if_neg (fun h => h2 h.2)]
      · rw [if_neg (fun h => h1 h.1)]
        by_cases h3 : k * n ≤ i
        · rw [if_pos ⟨h3, by omega⟩, if_pos ⟨h3, by rw [e2]; omega⟩, he h1 h3 (by rw [e2]; omega)]
        · rw [if_neg (fun h => h3 h.1), if_neg (fun h => h3 h.1)]
    have hsub : ∀ i, (k + 1) * n ≤ i → i < (k + 1 + fs.length) * n → (f :: fs).getD (i / n - k) [] = fs.getD (i / n - (k + 1)) [] := fun i h1 h2 => by
      have hn : 0 < n := by
        rcases Nat.eq_zero_or_pos n with h | h
        · subst h; simp at h2
        · exact h
      have : k + 1 ≤ i / n := (Nat.le_div_iff_mul_le hn).2 h1
      obtain ⟨q, hq⟩ : ∃ q, i / n = k + 1 + q := ⟨i / n - (k + 1), by omega⟩
      rw [hq, show k + 1 + q - k = q + 1 by omega, show k + 1 + q - (k + 1) = q by omega, List.getD_cons_succ]
    refine congrArg (fun t => Except.ok (true, t)) (Prod.ext ?_ ?_)
    · dsimp only
      apply Mat.ofFn_congr
      intro i j h1 _
      by_cases hlt : i < (k + 1 + fs.length) * n
      · refine hcond i _ _ _ (fun h3 h4 h5 => ?_) _ (fun h3 => ?_)
        · obtain ⟨e1, e2⟩ := key i h4 h5 h3
          rw [e1, e2, Nat.sub_self]
          rfl
        · rw [hsub i h3 hlt]
      · have : (k + 1) * n ≤ (k + 1 + fs.length) * n := Nat.mul_le_mul_right _ (by omega)
        have hlt2 : ¬ i < k * n + n := fun h => hlt (by linarith)
        rw [hlen, if_neg (fun h => hlt h.2), if_neg (fun h => hlt2 h.2), if_neg (fun h => hlt h.2)]
    · dsimp only
      apply Mat.ofFn_congr
      intro i j h1 _
      by_cases hlt : i < (k + 1 + fs.length) * n
      · refine hcond i _ _ _ (fun h3 h4 h5 => ?_) _ (fun h3 => ?_)
        · obtain ⟨e1, e2⟩ := key i h4 h5 h3
          rw [e1, e2, Nat.sub_self]
          rfl
        · rw [hsub i h3 hlt]
      · have : (k + 1) * n ≤ (k + 1 + fs.length) * n := Nat.mul_le_mul_right _ (by omega)
        have hlt2 : ¬ i < k * n + n := fun h => hlt (by linarith)
        rw [hlen, if_neg (fun h => hlt h.2), if_neg (fun h => hlt2 h.2), if_neg (fun h => hlt h.2)]

theorem readBatch_total (n s : Nat) (u : Nat → Nat → Byte) (g : Nat → ℝ) (f : Option (List Byte)) {md mt : Mat ℝ} (hd : md.WF) (ht : mt.WF) :
    ∃ a b, readBatch n s u g f md mt = .ok (f.isSome, a, b) ∧ a.WF ∧ b.WF := by
  cases f with
  | none => exact ⟨_, _, rfl, hd, ht⟩
  | some bytes => exact ⟨_, _, readBatch_eq n s u g bytes hd ht, Mat.ofFn_WF _ _ _, Mat.ofFn_WF _ _ _⟩

/-- What the batches before the first missing file are does not matter. -/
theorem readBatches_missing (n s : Nat) (u : Nat → Nat → Nat → Byte) (g : Nat → ℝ) (N : Nat) : ∀ (fs : List (Option (List Byte))) (k : Nat) (mi mt : Mat ℝ) (a b : Nat → Nat → ℝ),
    mi.WF → mt.WF → (k + fs.length) * n ≤ N → none ∈ fs →
    ∃ a' b', readBatches n s u g fs k mi mt (Mat.ofFn N s a) (Mat.ofFn N 1 b) = .ok (false, Mat.ofFn N s a', Mat.ofFn N 1 b')
  | [], _, _, _, _, _, _, _, _, h => by simp at h
  | none :: fs, k, mi, mt, a, b, hi, ht, hN, h => ⟨a, b, by rw [readBatches]; rfl⟩
  | some f :: fs, k, mi, mt, a, b, hi, ht, hN, h => by
    have hlen : (k + (some f :: fs).length) * n = (k + 1 + fs.length) * n := by
      rw [List.length_cons]
      ring
    rw [hlen] at hN
    have hk : k * n + n ≤ N := le_trans (by
      have : (k + 1) * n ≤ (k + 1 + fs.length) * n := Nat.mul_le_mul_right _ (by omega)
      linarith) hN
    rw [readBatches, readBatch_eq n s (u k) g f hi ht, bind_ok']
    dsimp only
    rw [if_neg (by simp), Mat.copyInto_ofFn _ _ hk, bind_ok', Mat.copyInto_ofFn _ _ hk, bind_ok']
    exact readBatches_missing n s u g N fs (k + 1) _ _ _ _ (Mat.ofFn_WF _ _ _) (Mat.ofFn_WF _ _ _) hN (by simpa using h)

theorem readFolder_eq (n s : Nat) (u : Nat → Nat → Nat → Byte) (g : Nat → ℝ) (fs : String → Option (List Byte)) (dir : String) {d : DataSource}
    (h1 : d.trainData.WF) (h2 : d.trainTruth.WF) (h3 : d.valData.WF) (h4 : d.valTruth.WF) {b1 b2 b3 b4 b5 b6 : List Byte}
    (f1 : fs (dir ++ "/data_batch_1.bin") = some b1) (f2 : fs (dir ++ "/data_batch_2.bin") = some b2) (f3 : fs (dir ++ "/data_batch_3.bin") = some b3)
    (f4 : fs (dir ++ "/data_batch_4.bin") = some b4) (f5 : fs (dir ++ "/data_batch_5.bin") = some b5) (f6 : fs (dir ++ "/test_batch.bin") = some b6) :
    readFolder n s u g fs dir d = .ok (true,
      { trainData := Mat.ofFn (5 * n) s fun i j => ((lineBuffer ([b1, b2, b3, b4, b5].getD (i / n) []) s (u (i / n) 0) (i % n + 1) j).val : ℝ) / 255
        trainTruth := Mat.ofFn (5 * n) 1 fun i _ => ((labelAt ([b1, b2, b3, b4, b5].getD (i / n) []) s (u (i / n)) (i % n)).val : ℝ)
        valData := Mat.ofFn n s fun i j => ((lineBuffer b6 s (u 5 0) (i + 1) j).val : ℝ) / 255
        valTruth := Mat.ofFn n 1 fun i _ => ((labelAt b6 s (u 5) i).val : ℝ)
        hasTrain := d.hasTrain
        hasVal := d.hasVal }) := by
  unfold readFolder
  dsimp only
  obtain ⟨p, hp⟩ := Mat.resize_ofFn g h1 (5 * n) s
  obtain ⟨q, hq⟩ := Mat.resize_ofFn g h2 (5 * n) 1
  have e := readBatches_eq n s u g (5 * n) [b1, b2, b3, b4, b5] 0 ⟨0, 0, []⟩ ⟨0, 0, []⟩ p q rfl rfl (by simp)
  simp only [List.map_cons, List.map_nil] at e
  rw [f1, f2, f3, f4, f5, hp, hq, e, bind_ok']
  dsimp only
  rw [if_neg (by simp), f6, readBatch_eq n s (u 5) g b6 h3 h4, bind_ok']
  dsimp only
  rw [if_neg (by simp), Mat.divScalar_ofFn', bind_ok', Mat.divScalar_ofFn', bind_ok']
  refine congrArg (fun t => Except.ok (true, t)) ?_
  congr 1
  · apply Mat.ofFn_congr
    intro i j hi hj
    rw [if_pos ⟨by omega, by simpa using hi⟩, Nat.sub_zero]
  · apply Mat.ofFn_congr
    intro i j hi hj
    rw [if_pos ⟨by omega, by simpa using hi⟩, Nat.sub_zero]

/-! ## CSV -/

theorem fromFile_WF {ps : List Char → Option ℝ} {junk : ℝ} {g : Nat → ℝ} {f : Option (List Char)} {m : Mat ℝ} (h : fromFile ps junk g f = .ok m) : m.WF := by
  cases f with
  | none =>
    injection h with h
    subst h
    rfl
  | some t =>
    unfold fromFile at h
    obtain ⟨⟨n, vf⟩, h1, h2⟩ := ok_bind h
    dsimp only at h2
    split at h2
    · injection h2 with h2
      subst h2
      rfl
    · unfold copyVec at h2
      refine forN_ok_inv (P := Mat.WF) ?_ ?_ h2
      · intro i s t hs ht
        obtain ⟨_, _, ht⟩ := ok_bind ht
        exact Mat.setRaw_WF hs ht
      · rw [Mat.alloc_eq]
        exact Mat.flat_WF _ _ _

theorem assign_WF {g : Nat → ℝ} {m a : Mat ℝ} (hm : m.WF) (ha : a.WF) : m.assign g a = .ok a := by
  obtain ⟨f, hf⟩ := ha.exists_ofFn
  conv_lhs => rw [hf]
  rw [Mat.assign_ofFn g hm]
  exact congrArg Except.ok hf.symm

theorem rfind_none {w s : List Char} (h : occ w s = []) : rfind s w = none := by
  unfold rfind
  rw [List.find?_eq_none]
  intro i hi hw
  have : i ∈ occ w s := by
    unfold occ
    rw [List.mem_filter]
    exact ⟨List.mem_reverse.1 hi, hw⟩
  rw [h] at this
  simp at this

theorem rfind_eq {w a b : List Char} (h : ∀ i ∈ occ w (a ++ w ++ b), i ≤ a.length) : rfind (a ++ w ++ b) w = some a.length := by
  have hmem : w.isPrefixOf ((a ++ w ++ b).drop a.length) = true := by
    rw [List.append_assoc, List.drop_left]
    simp
  have hsome : (rfind (a ++ w ++ b) w).isSome = true := by
    unfold rfind
    rw [List.find?_isSome]
    exact ⟨a.length, by simp, hmem⟩
  obtain ⟨i, hi⟩ := Option.isSome_iff_exists.1 hsome
  rw [hi]
  unfold rfind at hi
  obtain ⟨hp, l1, l2, hl, hbefore⟩ := List.find?_eq_some_iff_append.1 hi
  have hir : i ∈ (List.range ((a ++ w ++ b).length + 1)).reverse := by rw [hl]; simp
  have hle : i ≤ a.length := h i (by
    unfold occ
    rw [List.mem_filter]
    exact ⟨List.mem_reverse.1 hir, hp⟩)
  have : ¬ i < a.length := fun hlt => by
    have hm : a.length ∈ (List.range ((a ++ w ++ b).length + 1)).reverse := by simp
    rw [hl] at hm
    have hs : (l1 ++ i :: l2).Pairwise (fun x y => y < x) := by
      rw [← hl, List.pairwise_reverse]
      exact List.pairwise_lt_range
    rcases List.mem_append.1 hm with hm | hm
    · have := hbefore _ hm
      rw [hmem] at this
      simp at this
    · rcases List.mem_cons.1 hm with hm | hm
      · omega
      · have := (List.pairwise_cons.1 (List.pairwise_append.1 hs).2.1).1 _ hm
        omega
  rw [show i = a.length by omega]

theorem replaceLast_none {w s n : List Char} (h : occ w s = []) : replaceLast s w n = s := by
  unfold replaceLast
  rw [rfind_none h]

theorem replaceLast_eq {w a b n : List Char} (h : ∀ i ∈ occ w (a ++ w ++ b), i ≤ a.length) : replaceLast (a ++ w ++ b) w n = a ++ n ++ b := by
  unfold replaceLast
  rw [rfind_eq h]
  dsimp only
  have e1 : (a ++ w ++ b).take a.length = a := by rw [List.append_assoc, List.take_left]
  have e2 : (a ++ w ++ b).drop (a.length + w.length) = b := by
    rw [← List.length_append, List.drop_left]
  rw [e1, e2]

end BeeDNN.Data
