import Verif.Lemmas.Readers

/-!
# Data readers (MNISTReader.cpp, CIFAR10Reader.cpp, CsvFileReader.cpp, DataSource.cpp)
-/

namespace BeeDNN
open Data

/-! ## MNIST -/

/-- The four matrices of a data source are consistent. -/
def Data.DataSource.WF (d : DataSource) : Prop := d.trainData.WF ∧ d.trainTruth.WF ∧ d.valData.WF ∧ d.valTruth.WF

/-- C80: the number in four bytes of the file, most significant first, is what the reader takes it for. -/
theorem C80_big_endian (a b c d : Byte) : swapInt (le [a, b, c, d]) = a.val * 2 ^ 24 + b.val * 2 ^ 16 + c.val * 2 ^ 8 + d.val :=
  swapInt_le a b c d

/-- C80: for four files in IDX format with complete bodies the reader delivers all samples, row by row, with the pixels divided by 256,
and the labels; data after the announced ones is ignored, and so is what was in the object before.
Missing: wrong sizes are not rejected (`C80_truncated`, `C80_counts`, `C80_wrap`). -/
theorem C80_decode_partial (u : Nat → Nat → Nat → Byte) (g : Nat → ℝ) (fs : String → Option (List Byte)) (name : String) {d : DataSource} (hd : d.WF)
    {n r c n' k r' c' k' : Nat} {px lab px' lab' : List Byte}
    (hn : n < 2 ^ 32) (hr : r < 2 ^ 32) (hc : c < 2 ^ 32) (hrc : r * c < 2 ^ 32) (hk : k < 2 ^ 32)
    (hn' : n' < 2 ^ 32) (hr' : r' < 2 ^ 32) (hc' : c' < 2 ^ 32) (hrc' : r' * c' < 2 ^ 32) (hk' : k' < 2 ^ 32)
    (f1 : fs (name ++ "/train-images.idx3-ubyte") = some (idxImages n r c px)) (l1 : n * (r * c) ≤ px.length)
    (f2 : fs (name ++ "/train-labels.idx1-ubyte") = some (idxLabels k lab)) (l2 : k ≤ lab.length)
    (f3 : fs (name ++ "/t10k-images.idx3-ubyte") = some (idxImages n' r' c' px')) (l3 : n' * (r' * c') ≤ px'.length)
    (f4 : fs (name ++ "/t10k-labels.idx1-ubyte") = some (idxLabels k' lab')) (l4 : k' ≤ lab'.length) :
    mnistLoad u g fs name d = .ok (true,
      { trainData := Mat.ofFn n (r * c) fun i j => byteAt px (i * (r * c) + j) / 256
        trainTruth := Mat.ofFn k 1 fun i _ => byteAt lab i
        valData := Mat.ofFn n' (r' * c') fun i j => byteAt px' (i * (r' * c') + j) / 256
        valTruth := Mat.ofFn k' 1 fun i _ => byteAt lab' i
        hasTrain := true
        hasVal := true }) := by
  have him : ∀ {n s : Nat} {px : List Byte} (b : Nat → Byte), n * s ≤ px.length →
      (Mat.ofFn n s fun i j => ((imageBuffer px s b (i + 1) j).val : ℝ)) = Mat.ofFn n s fun i j => byteAt px (i * s + j) := by
    intro n s px b h
    apply Mat.ofFn_congr
    intro i j hi hj
    have : (i + 1) * s ≤ n * s := Nat.mul_le_mul_right _ hi
    rw [imageBuffer_full (by rw [Nat.add_mul] at this; omega)]
    rfl
  have hla : ∀ {k : Nat} {lab : List Byte} (b : Nat → Byte), k ≤ lab.length →
      (Mat.ofFn k 1 fun i _ => ((if i < lab.length then lab.getD i 0 else b i : Byte).val : ℝ)) = Mat.ofFn k 1 fun i _ => byteAt lab i := by
    intro k lab b h
    apply Mat.ofFn_congr
    intro i j hi hj
    rw [if_pos (by omega)]
    rfl
  unfold mnistLoad
  rw [f1, readMatrix_images (u 0) g hn hr hc px hd.1, Nat.mod_eq_of_lt hrc, him _ l1, bind_ok']
  dsimp only
  rw [if_neg (by simp), f2, readMatrix_labels (u 1) g hk lab hd.2.1, hla _ l2, bind_ok']
  dsimp only
  rw [if_neg (by simp), f3, readMatrix_images (u 2) g hn' hr' hc' px' hd.2.2.1, Nat.mod_eq_of_lt hrc', him _ l3, bind_ok']
  dsimp only
  rw [if_neg (by simp), f4, readMatrix_labels (u 3) g hk' lab' hd.2.2.2, hla _ l4, bind_ok']
  dsimp only
  rw [if_neg (by simp), Mat.divScalar_ofFn', bind_ok']
  rw [Mat.divScalar_ofFn', bind_ok']
  rfl

/-- C80: the pixels are in `[0, 1)`. -/
theorem C80_range (l : List Byte) (i : Nat) : 0 ≤ byteAt l i / 256 ∧ byteAt l i / 256 < 1 := by
  have h : byteAt l i < 256 := by
    unfold byteAt
    exact_mod_cast (l.getD i 0).isLt
  have h0 : 0 ≤ byteAt l i := by unfold byteAt; positivity
  constructor
  · positivity
  · rw [div_lt_one (by norm_num)]
    exact h

/-- C80: no file content makes the reader fault (access outside of a buffer, failed assertion). -/
theorem C80_safe (u : Nat → Nat → Nat → Byte) (g : Nat → ℝ) (fs : String → Option (List Byte)) (name : String) {d : DataSource} (hd : d.WF) :
    ∃ b d', mnistLoad u g fs name d = .ok (b, d') ∧ d'.WF := by
  unfold mnistLoad
  obtain ⟨b1, m1, h1, w1⟩ := readMatrix_total (u 0) g (fs (name ++ "/train-images.idx3-ubyte")) hd.1
  obtain ⟨b2, m2, h2, w2⟩ := readMatrix_total (u 1) g (fs (name ++ "/train-labels.idx1-ubyte")) hd.2.1
  obtain ⟨b3, m3, h3, w3⟩ := readMatrix_total (u 2) g (fs (name ++ "/t10k-images.idx3-ubyte")) hd.2.2.1
  obtain ⟨b4, m4, h4, w4⟩ := readMatrix_total (u 3) g (fs (name ++ "/t10k-labels.idx1-ubyte")) hd.2.2.2
  rw [h1, bind_ok']
  dsimp only
  split
  · exact ⟨_, _, rfl, w1, hd.2⟩
  rw [h2, bind_ok']
  dsimp only
  split
  · exact ⟨_, _, rfl, w1, w2, hd.2.2⟩
  rw [h3, bind_ok']
  dsimp only
  split
  · exact ⟨_, _, rfl, w1, w2, w3, hd.2.2.2⟩
  rw [h4, bind_ok']
  dsimp only
  split
  · exact ⟨_, _, rfl, w1, w2, w3, w4⟩
  obtain ⟨f1, e1⟩ := w1.exists_ofFn
  obtain ⟨f3, e3⟩ := w3.exists_ofFn
  rw [e1, Mat.divScalar_ofFn', bind_ok']
  rw [e3, Mat.divScalar_ofFn', bind_ok']
  exact ⟨_, _, rfl, Mat.ofFn_WF _ _ _, w2, Mat.ofFn_WF _ _ _, w4⟩

/-- A file the reader recognises as unusable: it cannot be opened, or its first four bytes are not those of a byte vector or of byte images. -/
def Data.BadFile : Option (List Byte) → Prop
  | none => True
  | some l => 4 ≤ l.length ∧ ∀ t : Byte, (t = 1 ∨ t = 3) → l.take 4 ≠ [0, 0, 8, t]

theorem Data.readMatrix_bad (u : Nat → Nat → Byte) (g : Nat → ℝ) {f : Option (List Byte)} (h : BadFile f) (m : Mat ℝ) : readMatrix u g f m = .ok (false, m) := by
  cases f with
  | none => rfl
  | some bytes =>
    obtain ⟨h1, h2⟩ := h
    match bytes, h1, h2 with
    | a :: b :: c :: t :: rest, _, h2 =>
      unfold readMatrix
      dsimp only
      rw [← pos_zero, read_pos, bind_ok']
      dsimp only
      have e1 : (tab 2 fun j => if 0 + j < (a :: b :: c :: t :: rest).length then (a :: b :: c :: t :: rest).getD (0 + j) 0 else u 0 j) = [a, b] := by
        rw [tab_two, if_pos (by simp), if_pos (by simp)]
        rfl
      have e2 : (tab 1 fun j => if 0 + 2 + j < (a :: b :: c :: t :: rest).length then (a :: b :: c :: t :: rest).getD (0 + 2 + j) 0 else u 1 j) = [c] := by
        rw [tab_one, if_pos (by simp)]
        rfl
      have e3 : (tab 1 fun j => if 0 + 2 + 1 + j < (a :: b :: c :: t :: rest).length then (a :: b :: c :: t :: rest).getD (0 + 2 + 1 + j) 0 else u 2 j) = [t] := by
        rw [tab_one, if_pos (by simp)]
        rfl
      rw [e1]
      by_cases hm : le [a, b] ≠ 0
      · rw [if_pos hm]
        rfl
      rw [if_neg hm, read_pos, bind_ok']
      dsimp only
      rw [e2]
      by_cases hc : le [c] ≠ 8
      · rw [if_pos hc]
        rfl
      rw [if_neg hc, read_pos, bind_ok']
      dsimp only
      rw [e3]
      simp only [le, not_not] at hm hc
      have ha : a = 0 := Fin.ext (by simp; omega)
      have hb : b = 0 := Fin.ext (by simp; omega)
      have hc' : c = 8 := Fin.ext (by simp; omega)
      subst ha hb hc'
      have h3 : ∀ t' : Byte, (t' = 1 ∨ t' = 3) → t ≠ t' := fun t' ht he => h2 t' ht (by simp [he])
      rw [if_neg (fun he => h3 1 (Or.inl rfl) (Fin.ext (by simp only [le] at he; simp; omega))),
        if_neg (fun he => h3 3 (Or.inr rfl) (Fin.ext (by simp only [le] at he; simp; omega)))]
      rfl

/-- C80: when one of the four files cannot be opened or has a wrong start, the load is refused and the flags stay as they were. -/
theorem C80_refused (u : Nat → Nat → Nat → Byte) (g : Nat → ℝ) (fs : String → Option (List Byte)) (name : String) {d : DataSource} (hd : d.WF)
    (h : BadFile (fs (name ++ "/train-images.idx3-ubyte")) ∨ BadFile (fs (name ++ "/train-labels.idx1-ubyte")) ∨
      BadFile (fs (name ++ "/t10k-images.idx3-ubyte")) ∨ BadFile (fs (name ++ "/t10k-labels.idx1-ubyte"))) :
    ∃ d', mnistLoad u g fs name d = .ok (false, d') ∧ d'.hasTrain = d.hasTrain ∧ d'.hasVal = d.hasVal := by
  unfold mnistLoad
  obtain ⟨b1, m1, h1, w1⟩ := readMatrix_total (u 0) g (fs (name ++ "/train-images.idx3-ubyte")) hd.1
  obtain ⟨b2, m2, h2, w2⟩ := readMatrix_total (u 1) g (fs (name ++ "/train-labels.idx1-ubyte")) hd.2.1
  obtain ⟨b3, m3, h3, w3⟩ := readMatrix_total (u 2) g (fs (name ++ "/t10k-images.idx3-ubyte")) hd.2.2.1
  obtain ⟨b4, m4, h4, w4⟩ := readMatrix_total (u 3) g (fs (name ++ "/t10k-labels.idx1-ubyte")) hd.2.2.2
  have hb : ∀ {f : Option (List Byte)} {m m' : Mat ℝ} {u : Nat → Nat → Byte} {b : Bool}, BadFile f → readMatrix u g f m = .ok (b, m') → b = false := by
    intro f m m' u b hf he
    rw [readMatrix_bad u g hf m] at he
    injection he with he
    injection he with he _
    exact he.symm
  rw [h1, bind_ok']
  dsimp only
  split
  · exact ⟨_, rfl, rfl, rfl⟩
  rename_i c1
  rw [h2, bind_ok']
  dsimp only
  split
  · exact ⟨_, rfl, rfl, rfl⟩
  rename_i c2
  rw [h3, bind_ok']
  dsimp only
  split
  · exact ⟨_, rfl, rfl, rfl⟩
  rename_i c3
  rw [h4, bind_ok']
  dsimp only
  split
  · exact ⟨_, rfl, rfl, rfl⟩
  rename_i c4
  rcases h with h | h | h | h
  · exact absurd (hb h h1) (by simpa using c1)
  · exact absurd (hb h h2) (by simpa using c2)
  · exact absurd (hb h h3) (by simpa using c3)
  · exact absurd (hb h h4) (by simpa using c4)

/-- C80 as claimed fails: a file that is too short is accepted.  Missing labels are uninitialised memory (`u 4 i`), missing pixels are
those of the images before or uninitialised memory (`imageBuffer`). -/
theorem C80_truncated (u : Nat → Nat → Byte) (g : Nat → ℝ) {m : Mat ℝ} (hm : m.WF) (body : List Byte) {n r c : Nat}
    (hn : n < 2 ^ 32) (hr : r < 2 ^ 32) (hc : c < 2 ^ 32) (hrc : r * c < 2 ^ 32) :
    readMatrix u g (some (idxLabels n body)) m =
      .ok (true, Mat.ofFn n 1 fun i _ => ((if i < body.length then body.getD i 0 else u 4 i : Byte).val : ℝ)) ∧
    readMatrix u g (some (idxImages n r c body)) m =
      .ok (true, Mat.ofFn n (r * c) fun i j => ((imageBuffer body (r * c) (u 8) (i + 1) j).val : ℝ)) := by
  refine ⟨readMatrix_labels u g hn body hm, ?_⟩
  have := readMatrix_images u g hn hr hc body hm
  rwa [Nat.mod_eq_of_lt hrc] at this

/-- C80 as claimed fails: whether an empty file is accepted depends on uninitialised memory. -/
theorem C80_empty (g : Nat → ℝ) :
    ∃ u u', (∃ m, readMatrix u g (some []) ⟨0, 0, []⟩ = .ok (true, m)) ∧ (∃ m, readMatrix u' g (some []) ⟨0, 0, []⟩ = .ok (false, m)) := by
  refine ⟨fun v _ => if v = 1 then 8 else if v = 2 then 1 else 0, fun _ _ => 1, ⟨Mat.ofFn 0 1 fun _ _ => 0, ?_⟩, ⟨⟨0, 0, []⟩, ?_⟩⟩
  · unfold readMatrix
    dsimp only
    rw [← pos_zero [], read_pos, bind_ok']
    dsimp only
    rw [if_neg (by decide), read_pos, bind_ok']
    dsimp only
    rw [if_neg (by decide), read_pos, bind_ok']
    dsimp only
    rw [if_pos (by decide)]
    have h : ∀ (u : Nat → Nat → Byte) (p : Nat), (∀ j, u 3 j = 0) → readSize u 3 (pos [] p) = .ok (pos [] (p + 4), 0) := by
      intro u p hu
      unfold readSize
      rw [read_pos, bind_ok', tab_four]
      simp only [List.length_nil, Nat.not_lt_zero, if_false, hu]
      show Except.ok (_, swapInt (le [0, 0, 0, 0])) = _
      rw [swapInt_le]
      rfl
    rw [h _ _ (fun _ => rfl), bind_ok']
    dsimp only
    rw [read_pos, bind_ok']
    obtain ⟨f, hf⟩ := Mat.resize_ofFn g (show (⟨0, 0, []⟩ : Mat ℝ).WF from rfl) 0 1
    dsimp only
    rw [hf]
    rfl
  · unfold readMatrix
    dsimp only
    rw [← pos_zero [], read_pos, bind_ok']
    dsimp only
    rw [if_pos (by decide)]
    rfl

/-- C80 as claimed fails: the numbers of images and labels need not agree. -/
theorem C80_counts (u : Nat → Nat → Nat → Byte) (g : Nat → ℝ) :
    mnistLoad u g (fun s => if s = "d/train-images.idx3-ubyte" then some (idxImages 1 1 2 [0, 128]) else if s = "d/train-labels.idx1-ubyte" then
      some (idxLabels 2 [3, 4]) else if s = "d/t10k-images.idx3-ubyte" then some (idxImages 0 1 1 []) else some (idxLabels 0 [])) "d" .new = .ok (true,
      { trainData := Mat.ofFn 1 2 fun i j => byteAt [0, 128] (i * 2 + j) / 256
        trainTruth := Mat.ofFn 2 1 fun i _ => byteAt [3, 4] i
        valData := Mat.ofFn 0 1 fun i j => byteAt [] (i * 1 + j) / 256
        valTruth := Mat.ofFn 0 1 fun i _ => byteAt [] i
        hasTrain := true
        hasVal := true }) := by
  refine C80_decode_partial (r := 1) (c := 2) (r' := 1) (c' := 1) u g _ "d" (d := .new) ⟨rfl, rfl, rfl, rfl⟩ ?_ ?_ ?_ ?_ ?_ ?_ ?_ ?_ ?_ ?_ ?_ ?_ ?_ ?_ ?_ ?_ ?_ ?_
  all_goals decide

/-- C80 as claimed fails: the number of pixels is computed modulo 2^32; images of 65536 times 65536 pixels are read as images without pixels. -/
theorem C80_wrap (u : Nat → Nat → Byte) (g : Nat → ℝ) {m : Mat ℝ} (hm : m.WF) (body : List Byte) :
    readMatrix u g (some (idxImages 1 65536 65536 body)) m = .ok (true, Mat.ofFn 1 0 fun _ _ => 0) := by
  have := readMatrix_images u g (n := 1) (r := 65536) (c := 65536) (by norm_num) (by norm_num) (by norm_num) body hm
  rw [this]
  refine congrArg (fun t => Except.ok (true, t)) ?_
  have e : 65536 * 65536 % 2 ^ 32 = 0 := by norm_num
  rw [e]
  apply Mat.ofFn_congr
  intro i j _ hj
  omega

/-! ## CIFAR-10 -/

/-- C81: for six complete batch files the reader delivers 50000 training samples in the order of the files and 10000 validation samples,
with the label and the pixels divided by 255; the flags are not touched.
Missing: the reader does not report that it has data (`C81_flags`). -/
theorem C81_decode_partial (u : Nat → Nat → Nat → Byte) (g : Nat → ℝ) (fs : String → Option (List Byte)) (dir : String) {d : DataSource} (hd : d.WF)
    {b1 b2 b3 b4 b5 b6 : List Byte}
    (f1 : fs (dir ++ "/data_batch_1.bin") = some b1) (f2 : fs (dir ++ "/data_batch_2.bin") = some b2) (f3 : fs (dir ++ "/data_batch_3.bin") = some b3)
    (f4 : fs (dir ++ "/data_batch_4.bin") = some b4) (f5 : fs (dir ++ "/data_batch_5.bin") = some b5) (f6 : fs (dir ++ "/test_batch.bin") = some b6)
    (hl : ∀ b ∈ [b1, b2, b3, b4, b5, b6], 10000 * 3073 ≤ b.length) :
    cifarLoad u g fs dir d = .ok (true,
      { trainData := Mat.ofFn 50000 3072 fun i j => byteAt ([b1, b2, b3, b4, b5].getD (i / 10000) []) (i % 10000 * 3073 + 1 + j) / 255
        trainTruth := Mat.ofFn 50000 1 fun i _ => byteAt ([b1, b2, b3, b4, b5].getD (i / 10000) []) (i % 10000 * 3073)
        valData := Mat.ofFn 10000 3072 fun i j => byteAt b6 (i * 3073 + 1 + j) / 255
        valTruth := Mat.ofFn 10000 1 fun i _ => byteAt b6 (i * 3073)
        hasTrain := d.hasTrain
        hasVal := d.hasVal }) := by
  unfold cifarLoad
  rw [readFolder_eq 10000 (32 * 32 * 3) u g fs dir hd.1 hd.2.1 hd.2.2.1 hd.2.2.2 f1 f2 f3 f4 f5 f6]
  have e1 : 32 * 32 * 3 = 3072 := rfl
  have e2 : 5 * 10000 = 50000 := rfl
  rw [e1, e2]
  have hget : ∀ i, i < 50000 → 10000 * 3073 ≤ ([b1, b2, b3, b4, b5].getD (i / 10000) []).length := by
    intro i hi
    have : i / 10000 < 5 := by omega
    have hm : [b1, b2, b3, b4, b5].getD (i / 10000) [] ∈ [b1, b2, b3, b4, b5] := by
      generalize i / 10000 = q at this
      match q, this with
      | 0, _ => simp
      | 1, _ => simp
      | 2, _ => simp
      | 3, _ => simp
      | 4, _ => simp
    refine hl _ ?_
    simp only [List.mem_cons, List.not_mem_nil, or_false] at hm ⊢
    tauto
  have hb6 := hl b6 (by simp)
  have q1 : Mat.ofFn 50000 3072 (fun i j => ((lineBuffer ([b1, b2, b3, b4, b5].getD (i / 10000) []) 3072 (u (i / 10000) 0) (i % 10000 + 1) j).val : ℝ) / 255) =
      Mat.ofFn 50000 3072 fun i j => byteAt ([b1, b2, b3, b4, b5].getD (i / 10000) []) (i % 10000 * 3073 + 1 + j) / 255 := by
    apply Mat.ofFn_congr
    intro i j hi hj
    have := hget i hi
    rw [lineBuffer, if_pos (by omega)]
    rfl
  have q2 : Mat.ofFn 50000 1 (fun i (_ : Nat) => ((labelAt ([b1, b2, b3, b4, b5].getD (i / 10000) []) 3072 (u (i / 10000)) (i % 10000)).val : ℝ)) =
      Mat.ofFn 50000 1 fun i _ => byteAt ([b1, b2, b3, b4, b5].getD (i / 10000) []) (i % 10000 * 3073) := by
    apply Mat.ofFn_congr
    intro i j hi hj
    have := hget i hi
    rw [labelAt, if_pos (by omega)]
    rfl
  have q3 : Mat.ofFn 10000 3072 (fun i j => ((lineBuffer b6 3072 (u 5 0) (i + 1) j).val : ℝ) / 255) =
      Mat.ofFn 10000 3072 fun i j => byteAt b6 (i * 3073 + 1 + j) / 255 := by
    apply Mat.ofFn_congr
    intro i j hi hj
    rw [lineBuffer, if_pos (by omega)]
    rfl
  have q4 : Mat.ofFn 10000 1 (fun i (_ : Nat) => ((labelAt b6 3072 (u 5) i).val : ℝ)) = Mat.ofFn 10000 1 fun i _ => byteAt b6 (i * 3073) := by
    apply Mat.ofFn_congr
    intro i j hi hj
    rw [labelAt, if_pos (by omega)]
    rfl
  rw [q1, q2, q3, q4]

/-- Six files of zeros. -/
example (u : Nat → Nat → Nat → Byte) (g : Nat → ℝ) : ∃ d, cifarLoad u g (fun _ => some (List.replicate 30730000 0)) "cifar" .new = .ok (true, d) :=
  ⟨_, C81_decode_partial u g _ "cifar" (d := .new) ⟨rfl, rfl, rfl, rfl⟩ rfl rfl rfl rfl rfl rfl (by simp only [List.mem_cons, List.not_mem_nil, or_false]; rintro b (rfl | rfl | rfl | rfl | rfl | rfl) <;> rw [List.length_replicate])⟩

/-- C81: the pixels are in `[0, 1]`. -/
theorem C81_range (l : List Byte) (i : Nat) : 0 ≤ byteAt l i / 255 ∧ byteAt l i / 255 ≤ 1 := by
  have h : byteAt l i ≤ 255 := by
    unfold byteAt
    have := (l.getD i 0).isLt
    exact_mod_cast Nat.le_of_lt_succ this
  have h0 : 0 ≤ byteAt l i := by unfold byteAt; positivity
  constructor
  · positivity
  · rw [div_le_one (by norm_num)]
    exact h

/-- C81 as claimed fails: after the load of six files (whatever their length) a fresh reader answers that it has no data. -/
theorem C81_flags (u : Nat → Nat → Nat → Byte) (g : Nat → ℝ) (fs : String → Option (List Byte)) (dir : String)
    (h : ∀ s, (fs (dir ++ s)).isSome = true) :
    ∃ d, cifarLoad u g fs dir .new = .ok (true, d) ∧ d.hasData = false ∧ d.hasTrainData = false ∧ d.hasValidationData = false := by
  obtain ⟨b1, f1⟩ := Option.isSome_iff_exists.1 (h "/data_batch_1.bin")
  obtain ⟨b2, f2⟩ := Option.isSome_iff_exists.1 (h "/data_batch_2.bin")
  obtain ⟨b3, f3⟩ := Option.isSome_iff_exists.1 (h "/data_batch_3.bin")
  obtain ⟨b4, f4⟩ := Option.isSome_iff_exists.1 (h "/data_batch_4.bin")
  obtain ⟨b5, f5⟩ := Option.isSome_iff_exists.1 (h "/data_batch_5.bin")
  obtain ⟨b6, f6⟩ := Option.isSome_iff_exists.1 (h "/test_batch.bin")
  exact ⟨_, readFolder_eq 10000 (32 * 32 * 3) u g fs dir (d := .new) rfl rfl rfl rfl f1 f2 f3 f4 f5 f6, rfl, rfl, rfl⟩

/-- C81: when one of the six files cannot be opened the load is refused. -/
theorem C81_refused (u : Nat → Nat → Nat → Byte) (g : Nat → ℝ) (fs : String → Option (List Byte)) (dir : String) {d : DataSource} (hd : d.WF)
    (h : none ∈ [fs (dir ++ "/data_batch_1.bin"), fs (dir ++ "/data_batch_2.bin"), fs (dir ++ "/data_batch_3.bin"), fs (dir ++ "/data_batch_4.bin"),
      fs (dir ++ "/data_batch_5.bin"), fs (dir ++ "/test_batch.bin")]) :
    ∃ d', cifarLoad u g fs dir d = .ok (false, d') := by
  unfold cifarLoad readFolder
  dsimp only
  generalize 32 * 32 * 3 = s
  generalize 10000 = n
  obtain ⟨p, hp⟩ := Mat.resize_ofFn g hd.1 (5 * n) s
  obtain ⟨q, hq⟩ := Mat.resize_ofFn g hd.2.1 (5 * n) 1
  rw [hp, hq]
  by_cases h5 : none ∈ [fs (dir ++ "/data_batch_1.bin"), fs (dir ++ "/data_batch_2.bin"), fs (dir ++ "/data_batch_3.bin"), fs (dir ++ "/data_batch_4.bin"),
      fs (dir ++ "/data_batch_5.bin")]
  · obtain ⟨a', b', e⟩ := readBatches_missing n s u g (5 * n) _ 0 ⟨0, 0, []⟩ ⟨0, 0, []⟩ p q rfl rfl (by simp) h5
    rw [e, bind_ok']
    exact ⟨_, rfl⟩
  · have h6 : fs (dir ++ "/test_batch.bin") = none := by
      simp only [List.mem_cons, List.not_mem_nil, or_false, not_or] at h h5
      tauto
    have hs : ∀ x ∈ [fs (dir ++ "/data_batch_1.bin"), fs (dir ++ "/data_batch_2.bin"), fs (dir ++ "/data_batch_3.bin"), fs (dir ++ "/data_batch_4.bin"),
      fs (dir ++ "/data_batch_5.bin")], ∃ b, x = some b := fun x hx => by
        cases x with
        | none => exact absurd hx h5
        | some b => exact ⟨b, rfl⟩
    obtain ⟨b1, e1⟩ := hs (fs (dir ++ "/data_batch_1.bin")) (by simp)
    obtain ⟨b2, e2⟩ := hs (fs (dir ++ "/data_batch_2.bin")) (by simp)
    obtain ⟨b3, e3⟩ := hs (fs (dir ++ "/data_batch_3.bin")) (by simp)
    obtain ⟨b4, e4⟩ := hs (fs (dir ++ "/data_batch_4.bin")) (by simp)
    obtain ⟨b5, e5⟩ := hs (fs (dir ++ "/data_batch_5.bin")) (by simp)
    have e := readBatches_eq n s u g (5 * n) [b1, b2, b3, b4, b5] 0 ⟨0, 0, []⟩ ⟨0, 0, []⟩ p q rfl rfl (by simp)
    simp only [List.map_cons, List.map_nil] at e
    rw [e1, e2, e3, e4, e5, e, bind_ok']
    dsimp only
    rw [if_neg (by simp), h6]
    exact ⟨_, rfl⟩

/-- C81: a short batch file is accepted: a label that is not there is what was in memory, and a pixel that is not there is the pixel of the sample before. -/
theorem C81_truncated (u : Nat → Nat → Byte) (g : Nat → ℝ) (bytes : List Byte) {md mt : Mat ℝ} (hd : md.WF) (ht : mt.WF) :
    ∃ a b : Nat → Nat → ℝ, readBatch 10000 (32 * 32 * 3) u g (some bytes) md mt = .ok (true, Mat.ofFn 10000 3072 a, Mat.ofFn 10000 1 b) ∧
      (∀ i, bytes.length ≤ i * 3073 → b i 0 = ((u (i + 1) 0).val : ℝ)) ∧
      (∀ j, bytes.length ≤ 1 + j → a 0 j = ((u 0 j).val : ℝ)) ∧
      ∀ i j, bytes.length ≤ (i + 1) * 3073 + 1 + j → a (i + 1) j = a i j := by
  refine ⟨_, _, readBatch_eq 10000 (32 * 32 * 3) u g bytes hd ht, ?_, ?_, ?_⟩
  · intro i h
    rw [labelAt, if_neg (by omega)]
  · intro j h
    rw [lineBuffer, if_neg (by omega), lineBuffer]
  · intro i j h
    rw [lineBuffer, if_neg (by omega)]

/-! ## What the data sources report -/

/-- C82: the CSV reader stores the contents of the four files, and the answers `has_train_data` and `has_validation_data` are whether both matrices
have values; `load` returns `has_data`.
Missing: other readers (`C82_cifar`, `C82_reload`). -/
theorem C82_csv_partial {ps : List Char → Option ℝ} {junk : ℝ} {g : Nat → ℝ} {fs : List Char → Option (List Char)} {name : List Char} {d d' : DataSource} (hd : d.WF)
    {b : Bool} (h : csvLoad ps junk g fs name d = .ok (b, d')) :
    fromFile ps junk g (fs (csvNames name).1) = .ok d'.trainData ∧ fromFile ps junk g (fs (csvNames name).2.1) = .ok d'.trainTruth ∧
    (if (csvNames name).1 ≠ (csvNames name).2.2.1 ∧ (csvNames name).2.1 ≠ (csvNames name).2.2.2 then
      fromFile ps junk g (fs (csvNames name).2.2.1) = .ok d'.valData ∧ fromFile ps junk g (fs (csvNames name).2.2.2) = .ok d'.valTruth
      else d'.valData.size = 0 ∧ d'.valTruth.size = 0) ∧
    (d'.hasTrainData = true ↔ d'.trainData.size ≠ 0 ∧ d'.trainTruth.size ≠ 0) ∧
    (d'.hasValidationData = true ↔ d'.valData.size ≠ 0 ∧ d'.valTruth.size ≠ 0) ∧
    b = d'.hasData ∧ (b = true ↔ d'.hasTrainData = true ∨ d'.hasValidationData = true) := by
  unfold csvLoad at h
  generalize csvNames name = nm at h ⊢
  obtain ⟨n1, n2, n3, n4⟩ := nm
  dsimp only
  obtain ⟨m1, h1, h⟩ := ok_bind h
  rw [assign_WF hd.1 (fromFile_WF h1), bind_ok'] at h
  obtain ⟨m2, h2, h⟩ := ok_bind h
  dsimp only at h
  rw [assign_WF hd.2.1 (fromFile_WF h2), bind_ok'] at h
  obtain ⟨d2, h3, h⟩ := ok_bind h
  injection h with h
  injection h with hb hd'
  unfold csvVal at h3
  by_cases hc : n1 ≠ n3 ∧ n2 ≠ n4
  · rw [if_pos hc] at h3 ⊢
    obtain ⟨m3, e3, h3⟩ := ok_bind h3
    dsimp only at h3
    rw [assign_WF hd.2.2.1 (fromFile_WF e3), bind_ok'] at h3
    obtain ⟨m4, e4, h3⟩ := ok_bind h3
    rw [assign_WF hd.2.2.2 (fromFile_WF e4), bind_ok'] at h3
    injection h3 with h3
    subst h3 hd' hb
    refine ⟨h1, h2, ⟨e3, e4⟩, ?_, ?_, rfl, ?_⟩
    · simp [DataSource.hasTrainData]
    · simp [DataSource.hasValidationData]
    · simp [DataSource.hasTrainData, DataSource.hasValidationData, DataSource.hasData]
  · rw [if_neg hc] at h3 ⊢
    injection h3 with h3
    subst h3 hd' hb
    have hz : ∀ m : Mat ℝ, m.WF → (m.resize g 0 0).size = 0 := fun m hm => by
      obtain ⟨f, hf⟩ := Mat.resize_ofFn g hm 0 0
      rw [hf]
      rfl
    refine ⟨h1, h2, ⟨hz _ hd.2.2.1, hz _ hd.2.2.2⟩, ?_, ?_, rfl, ?_⟩
    · simp [DataSource.hasTrainData]
    · simp [DataSource.hasValidationData]
    · simp [DataSource.hasTrainData, DataSource.hasValidationData, DataSource.hasData]

/-- C82: when the four names are different and every file is missing or a table, the load succeeds. -/
theorem C82_csv_ok {ps : List Char → Option ℝ} {junk : ℝ} {g : Nat → ℝ} {fs : List Char → Option (List Char)} {name : List Char} {d : DataSource} (hd : d.WF)
    {m1 m2 m3 m4 : Mat ℝ} (hn : (csvNames name).1 ≠ (csvNames name).2.2.1 ∧ (csvNames name).2.1 ≠ (csvNames name).2.2.2)
    (h1 : fromFile ps junk g (fs (csvNames name).1) = .ok m1) (h2 : fromFile ps junk g (fs (csvNames name).2.1) = .ok m2)
    (h3 : fromFile ps junk g (fs (csvNames name).2.2.1) = .ok m3) (h4 : fromFile ps junk g (fs (csvNames name).2.2.2) = .ok m4) :
    ∃ d', csvLoad ps junk g fs name d = .ok (decide (m1.size ≠ 0 ∧ m2.size ≠ 0) || decide (m3.size ≠ 0 ∧ m4.size ≠ 0), d') ∧
      d'.trainData = m1 ∧ d'.trainTruth = m2 ∧ d'.valData = m3 ∧ d'.valTruth = m4 := by
  unfold csvLoad csvVal
  generalize csvNames name = nm at hn h1 h2 h3 h4 ⊢
  obtain ⟨n1, n2, n3, n4⟩ := nm
  dsimp only at hn h1 h2 h3 h4 ⊢
  rw [h1, bind_ok', assign_WF hd.1 (fromFile_WF h1), bind_ok', h2, bind_ok', assign_WF hd.2.1 (fromFile_WF h2), bind_ok', if_pos hn, h3, bind_ok',
    assign_WF hd.2.2.1 (fromFile_WF h3), bind_ok', h4, bind_ok', assign_WF hd.2.2.2 (fromFile_WF h4), bind_ok']
  exact ⟨_, rfl, rfl, rfl, rfl, rfl⟩

/-- One table of one number is found under each of the four names. -/
example (g : Nat → ℝ) : ∃ d, csvLoad (fun _ => some 7) 0 g (fun _ => some "7\n".toList) "iris_train_data.csv".toList .new = .ok (true, d) ∧
    d.valTruth = ⟨1, 1, [7]⟩ := by
  have h : fromFile (fun _ => some (7 : ℝ)) 0 g (some "7\n".toList) = .ok ⟨1, 1, [7]⟩ := by rfl
  obtain ⟨d, hd, _, _, _, h4⟩ := C82_csv_ok (fs := fun _ => some "7\n".toList) (name := "iris_train_data.csv".toList) (d := .new) ⟨rfl, rfl, rfl, rfl⟩
    (by decide +kernel) h h h h
  exact ⟨d, by rw [hd]; rfl, h4⟩

/-- C82: after a successful MNIST load the reader reports data, the size of an image and one annotation column. -/
theorem C82_mnist {u : Nat → Nat → Nat → Byte} {g : Nat → ℝ} {fs : String → Option (List Byte)} {name : String} {d d' : DataSource}
    (h : mnistLoad u g fs name d = .ok (true, d')) : d'.hasData = true ∧ d'.hasTrainData = true ∧ d'.hasValidationData = true := by
  unfold mnistLoad at h
  obtain ⟨⟨b1, m1⟩, h1, h⟩ := ok_bind h
  dsimp only at h
  split at h
  · injection h with h; injection h with h; simp at h
  obtain ⟨⟨b2, m2⟩, h2, h⟩ := ok_bind h
  dsimp only at h
  split at h
  · injection h with h; injection h with h; simp at h
  obtain ⟨⟨b3, m3⟩, h3, h⟩ := ok_bind h
  dsimp only at h
  split at h
  · injection h with h; injection h with h; simp at h
  obtain ⟨⟨b4, m4⟩, h4, h⟩ := ok_bind h
  dsimp only at h
  split at h
  · injection h with h; injection h with h; simp at h
  obtain ⟨m5, h5, h⟩ := ok_bind h
  obtain ⟨m6, h6, h⟩ := ok_bind h
  injection h with h
  injection h with _ h
  subst h
  exact ⟨rfl, rfl, rfl⟩

/-- C82 as claimed fails for CIFAR-10: no load changes the flags, so a fresh reader never reports data. -/
theorem C82_cifar {u : Nat → Nat → Nat → Byte} {g : Nat → ℝ} {fs : String → Option (List Byte)} {dir : String} {d d' : DataSource} {b : Bool}
    (h : cifarLoad u g fs dir d = .ok (b, d')) : d'.hasTrainData = d.hasTrainData ∧ d'.hasValidationData = d.hasValidationData ∧ d'.hasData = d.hasData := by
  have key : d'.hasTrain = d.hasTrain ∧ d'.hasVal = d.hasVal := by
    unfold cifarLoad readFolder at h
    dsimp only at h
    obtain ⟨⟨b1, m1, m2⟩, h1, h⟩ := ok_bind h
    dsimp only at h
    split at h
    · injection h with h; injection h with _ h; subst h; exact ⟨rfl, rfl⟩
    obtain ⟨⟨b2, m3, m4⟩, h2, h⟩ := ok_bind h
    dsimp only at h
    split at h
    · injection h with h; injection h with _ h; subst h; exact ⟨rfl, rfl⟩
    obtain ⟨m5, h5, h⟩ := ok_bind h
    obtain ⟨m6, h6, h⟩ := ok_bind h
    injection h with h
    injection h with _ h
    subst h
    exact ⟨rfl, rfl⟩
  exact ⟨key.1, key.2, by unfold DataSource.hasData; rw [key.1, key.2]⟩

/-- C82 as claimed fails for MNIST: a load that is refused because the labels are missing replaces the images (without scaling) and keeps the labels
and the answer of the load before. -/
theorem C82_reload (u : Nat → Nat → Nat → Byte) (g : Nat → ℝ) (fs : String → Option (List Byte)) (name : String) {d : DataSource} (hd : d.WF) {n r c : Nat}
    {px : List Byte} (hn : n < 2 ^ 32) (hr : r < 2 ^ 32) (hc : c < 2 ^ 32) (hrc : r * c < 2 ^ 32)
    (f1 : fs (name ++ "/train-images.idx3-ubyte") = some (idxImages n r c px)) (l1 : n * (r * c) ≤ px.length)
    (f2 : fs (name ++ "/train-labels.idx1-ubyte") = none) :
    mnistLoad u g fs name d = .ok (false, { d with trainData := Mat.ofFn n (r * c) fun i j => byteAt px (i * (r * c) + j) }) := by
  unfold mnistLoad
  rw [f1, readMatrix_images (u 0) g hn hr hc px hd.1, Nat.mod_eq_of_lt hrc, bind_ok']
  dsimp only
  rw [if_neg (by simp), f2]
  refine congrArg (fun t => Except.ok (false, { d with trainData := t })) ?_
  apply Mat.ofFn_congr
  intro i j hi hj
  have : (i + 1) * (r * c) ≤ n * (r * c) := Nat.mul_le_mul_right _ hi
  rw [imageBuffer_full (by rw [Nat.add_mul] at this; omega)]
  rfl

/-- C82: `data_size` and `annotation_cols` are the columns of the training matrices. -/
theorem C82_sizes (d : DataSource) : d.dataSize = d.trainData.cols ∧ d.annotationCols = d.trainTruth.cols := ⟨rfl, rfl⟩

/-! ## Names of the CSV files -/

/-- C94: when the four names are plain, each of them makes the reader open the same four files. -/
theorem C94_names_partial {p q r : List Char} (h : PlainNames p q r) {x y : List Char} (hx : x = "train".toList ∨ x = "test".toList)
    (hy : y = "data".toList ∨ y = "truth".toList) :
    csvNames (p ++ x ++ q ++ y ++ r) =
      (p ++ "train".toList ++ q ++ "data".toList ++ r, p ++ "train".toList ++ q ++ "truth".toList ++ r,
       p ++ "test".toList ++ q ++ "data".toList ++ r, p ++ "test".toList ++ q ++ "truth".toList ++ r) := by
  obtain ⟨h1, h2, h3, h4⟩ := h
  have rep1 : ∀ {x x' y y' : List Char}, PlainName p q r x x' y y' → replaceLast (p ++ x ++ q ++ y ++ r) x x' = p ++ x' ++ q ++ y ++ r := by
    intro x x' y y' h
    have := replaceLast_eq (w := x) (a := p) (b := q ++ y ++ r) (n := x') (by
      have := h.1
      simpa only [List.append_assoc] using this)
    simpa only [List.append_assoc] using this
  have rep2 : ∀ {x x' y y' : List Char}, PlainName p q r x x' y y' → replaceLast (p ++ x ++ q ++ y ++ r) y y' = p ++ x ++ q ++ y' ++ r := by
    intro x x' y y' h
    exact replaceLast_eq (w := y) (a := p ++ x ++ q) (b := r) (n := y') h.2.2.1
  have keep1 : ∀ {x x' y y' : List Char} (z : List Char), PlainName p q r x x' y y' → replaceLast (p ++ x ++ q ++ y ++ r) x' z = p ++ x ++ q ++ y ++ r :=
    fun z h => replaceLast_none h.2.1
  have keep2 : ∀ {x x' y y' : List Char} (z : List Char), PlainName p q r x x' y y' → replaceLast (p ++ x ++ q ++ y ++ r) y' z = p ++ x ++ q ++ y ++ r :=
    fun z h => replaceLast_none h.2.2.2
  unfold csvNames
  rcases hx with rfl | rfl <;> rcases hy with rfl | rfl
  · rw [keep1 _ h1, rep1 h1, keep2 _ h1, rep2 h1, keep2 _ h3, rep2 h3]
  · rw [keep1 _ h2, rep1 h2, keep2 _ h2, rep2 h2, keep2 _ h4, rep2 h4]
  · rw [keep1 _ h3, rep1 h3, keep2 _ h1, rep2 h1, keep2 _ h3, rep2 h3]
  · rw [keep1 _ h4, rep1 h4, keep2 _ h2, rep2 h2, keep2 _ h4, rep2 h4]

/-- C94: the contents of these four files become the training data, the training truth, the validation data and the validation truth.
Missing: names that are not plain (`C94_folder`, `C94_same_file`). -/
theorem C94_load_partial {ps : List Char → Option ℝ} {junk : ℝ} {g : Nat → ℝ} {fs : List Char → Option (List Char)} {d d' : DataSource} (hd : d.WF)
    {p q r : List Char} (h : PlainNames p q r) {x y : List Char} (hx : x = "train".toList ∨ x = "test".toList)
    (hy : y = "data".toList ∨ y = "truth".toList) {b : Bool} (hb : csvLoad ps junk g fs (p ++ x ++ q ++ y ++ r) d = .ok (b, d')) :
    fromFile ps junk g (fs (p ++ "train".toList ++ q ++ "data".toList ++ r)) = .ok d'.trainData ∧
    fromFile ps junk g (fs (p ++ "train".toList ++ q ++ "truth".toList ++ r)) = .ok d'.trainTruth ∧
    fromFile ps junk g (fs (p ++ "test".toList ++ q ++ "data".toList ++ r)) = .ok d'.valData ∧
    fromFile ps junk g (fs (p ++ "test".toList ++ q ++ "truth".toList ++ r)) = .ok d'.valTruth := by
  obtain ⟨h1, h2, h3, -⟩ := C82_csv_partial hd hb
  rw [C94_names_partial h hx hy] at h1 h2 h3
  have ne : ∀ z : List Char, p ++ "train".toList ++ q ++ z ++ r ≠ p ++ "test".toList ++ q ++ z ++ r := fun z he => by
    have := congrArg List.length he
    simp at this
  rw [if_pos ⟨ne _, ne _⟩] at h3
  exact ⟨h1, h2, h3⟩

/-- C94 as claimed fails: a word inside of a folder name is replaced too.  Asked for `latest/iris_train_data.csv` the reader opens files in the folder `latrain`,
and in `latest` only the test files. -/
theorem C94_folder : csvNames "latest/iris_train_data.csv".toList =
    ("latrain/iris_train_data.csv".toList, "latrain/iris_train_truth.csv".toList, "latest/iris_test_data.csv".toList, "latest/iris_test_truth.csv".toList) := by
  decide +kernel

/-- C94 as claimed fails: without `data` or `truth` in the name, the same file is read as data and as truth. -/
theorem C94_same_file : (csvNames "iris_train.csv".toList).1 = "iris_train.csv".toList ∧ (csvNames "iris_train.csv".toList).2.1 = "iris_train.csv".toList := by
  decide +kernel

/-- Names that are plain. -/
example : PlainNames "x/iris_".toList "_".toList ".csv".toList := by decide +kernel

end BeeDNN
