import Verif.Lemmas.Text

/-!
# Text input and output of matrices (claims C16, C17)

`GoodFormat pr ps rnd` (Verif/Lemmas/Text.lean): numbers print as non-empty tokens without blanks and
commas, and the token of `x` parses to `rnd x` (`x` rounded to the printed precision).
-/

namespace BeeDNN
variable {α : Type}

/-- `x 0 sep x 1 sep … sep x c` (no separator at the end). -/
def rowText (pr : α → List Char) (sep : Char) (c : Nat) (x : Nat → α) : List Char :=
  (tab c (fun j => pr (x j) ++ [sep])).flatten ++ pr (x c)

theorem rowText_space (pr : α → List Char) (c : Nat) (x : Nat → α) :
    rowText pr ' ' c x = lineText pr c x ++ pr (x c) := rfl

theorem rowText_reads {pr : α → List Char} {ps : List Char → Option α} {rnd : α → α} {junk : α}
    (hf : GoodFormat pr ps rnd) (c : Nat) (x : Nat → α) (e : Char) (he : isWs e = true) :
    Reads ps junk (rowText pr ' ' c x ++ [e]) (tab (c + 1) (fun j => rnd (x j))) := by
  rw [rowText_space, List.append_assoc, tab_succ]
  exact Reads.append (lineText_reads hf c x) (Reads.number hf (x c) he)

theorem rowText_end {pr : α → List Char} {ps : List Char → Option α} {rnd : α → α} {junk : α}
    (hf : GoodFormat pr ps rnd) (c : Nat) (x : Nat → α) :
    readLoop ps junk (rowText pr ' ' c x) [] = .ok (tab (c + 1) (fun j => rnd (x j))) := by
  rw [rowText_space, tab_succ]
  exact Reads.toEnd_number hf (lineText_reads hf c x) (x c)

/-! ## C16 -/

/-- What `toString` prints: every number is followed by a space, rows are separated by newlines. -/
theorem toStr_reads {pr : α → List Char} {ps : List Char → Option α} {rnd : α → α} {junk : α}
    (hf : GoodFormat pr ps rnd) (R C : Nat) (f : Nat → Nat → α) :
    ∃ s, toStr pr (Mat.ofFn R C f) = .ok s ∧ s.count '\n' = R - 1 ∧
      readLoop ps junk s [] = .ok (tab (R * C) (fun k => rnd (f (k / C) (k % C))) ++ [junk]) := by
  refine ⟨_, toStr_ofFn pr R C f, ?_, ?_⟩
  · rw [count_flatten_tab]
    simp only [List.count_append, count_lineText hf, Nat.zero_add]
    have : ∀ n, n ≤ R → ((List.range n).map (fun i => List.count '\n' (if i + 1 < R then ['\n'] else []))).sum
        = if n = R then R - 1 else n := by
      intro n
      induction n with
      | zero => intro _; split <;> simp; omega
      | succ n ih =>
        intro hn
        rw [List.range_succ, List.map_append, List.sum_append, ih (by omega), if_neg (by omega)]
        by_cases h : n + 1 < R
        · rw [if_neg (by omega)]; simp [h]
        · have : n + 1 = R := by omega
          rw [if_pos this]; simp [h]; omega
    rw [this R (Nat.le_refl R), if_pos rfl]
  · apply Reads.toEnd
    rw [← flatten_tab_tab R C (fun i j => rnd (f i j))]
    apply Reads.flatten
    intro i hi
    split
    · have := Reads.append (lineText_reads (junk := junk) hf C (f i)) (Reads.ws (c := '\n') (by decide))
      simpa using this
    · simpa using lineText_reads (junk := junk) hf C (f i)

/-- C16 (what happens), several rows: `fromString(toString(m))` writes behind the end of
the matrix it allocated. -/
theorem C16_overflow {pr : α → List Char} {ps : List Char → Option α} {rnd : α → α} (junk : α)
    (g : Nat → α) (hf : GoodFormat pr ps rnd) (R C : Nat) (hR : 2 ≤ R) (f : Nat → Nat → α) :
    (toStr pr (Mat.ofFn R C f)).bind (fromStr ps junk g) = .error .outOfBounds := by
  obtain ⟨s, h1, h2, h3⟩ := toStr_reads (junk := junk) hf R C f
  rw [h1]
  simp only [bind_ok, fromStr]
  rw [h3, h2]
  simp only [bind_ok']
  obtain ⟨d, hd⟩ := resize_empty g ((tab (R * C) (fun k => rnd (f (k / C) (k % C))) ++ [junk]).length /
    (R - 1 + 1)) (R - 1 + 1)
  rw [hd]
  apply copyVec_overflow
  simp only [List.length_append, tab_length, List.length_cons, List.length_nil]
  have e : R - 1 + 1 = R := by omega
  rw [e]
  have h5 : (R * C + (0 + 1)) / R = C := by
    rw [Nat.mul_add_div (by omega), Nat.div_eq_of_lt (by omega), Nat.add_zero]
  rw [h5, Nat.mul_comm C R]
  omega

/-- C16 (what happens), one row of width C: the result is a column with C+1 entries, the last one being
uninitialised. -/
theorem C16_one_row {pr : α → List Char} {ps : List Char → Option α} {rnd : α → α} (junk : α)
    (g : Nat → α) (hf : GoodFormat pr ps rnd) (C : Nat) (f : Nat → Nat → α) :
    (toStr pr (Mat.ofFn 1 C f)).bind (fromStr ps junk g) =
      .ok (Mat.ofFn (C + 1) 1 (fun i _ => if i < C then rnd (f 0 i) else junk)) := by
  obtain ⟨s, h1, h2, h3⟩ := toStr_reads (junk := junk) hf 1 C f
  rw [h1]
  simp only [bind_ok, fromStr]
  rw [h3, h2]
  simp only [bind_ok']
  obtain ⟨d, hd⟩ := resize_empty g ((tab (1 * C) (fun k => rnd (f (k / C) (k % C))) ++ [junk]).length /
    (1 - 1 + 1)) (1 - 1 + 1)
  rw [hd]
  simp only [List.length_append, tab_length, List.length_cons, List.length_nil, Nat.one_mul, Nat.sub_self,
    Nat.zero_add, Nat.div_one]
  rw [copyVec_ok _ (C + 1) 1 d (by simp) (fun i => if i < C then rnd (f 0 i) else junk)]
  · rw [Mat.ofFn_eq_flat]
    congr 1
    apply Mat.flat_congr
    intro i _
    simp
  · rw [eq_tab_iff]
    refine ⟨rfl, ?_⟩
    simp only [List.length_append, tab_length, List.length_cons, List.length_nil]
    intro i hi
    by_cases h : i < C
    · rw [List.getElem?_append_left (by simpa using h), tab_getElem?, if_pos h, if_pos h,
        Nat.div_eq_of_lt h, Nat.mod_eq_of_lt h]
    · rw [List.getElem?_append_right (by simp; omega)]
      have : i = C := by omega
      subst this
      simp

/-- C16 is violated for every matrix: `fromString(toString(m))` never returns the printed matrix. -/
theorem C16_never {pr : α → List Char} {ps : List Char → Option α} {rnd : α → α} (junk : α)
    (g : Nat → α) (hf : GoodFormat pr ps rnd) (R C : Nat) (f : Nat → Nat → α) :
    (toStr pr (Mat.ofFn R C f)).bind (fromStr ps junk g) ≠
      .ok (Mat.ofFn R C (fun i j => rnd (f i j))) := by
  rcases Nat.lt_or_ge R 2 with h | h
  · have : R = 0 ∨ R = 1 := by omega
    rcases this with rfl | rfl
    · obtain ⟨s, h1, h2, h3⟩ := toStr_reads (junk := junk) hf 0 C f
      rw [h1]
      simp only [bind_ok, fromStr]
      rw [h3, h2]
      simp only [bind_ok', Nat.zero_mul]
      have e1 : (tab 0 (fun k => rnd (f (k / C) (k % C))) ++ [junk]) = [junk] := rfl
      rw [e1]
      obtain ⟨d, hd⟩ := resize_empty g ([junk].length / (0 - 1 + 1)) (0 - 1 + 1)
      rw [hd]
      have e2 : [junk].length / (0 - 1 + 1) = 1 := by simp
      rw [e2, copyVec_ok [junk] 1 1 d (by simp) (fun _ => junk) rfl]
      intro e
      have := congrArg Mat.rows (Except.ok.inj e)
      simp at this
    · rw [C16_one_row junk g hf]
      intro e
      have e1 := congrArg Mat.rows (Except.ok.inj e)
      have e2 := congrArg Mat.cols (Except.ok.inj e)
      simp at e1 e2
      omega
  · rw [C16_overflow junk g hf R C h]
    intro e; cases e

theorem rowText_mem {pr : α → List Char} {ps : List Char → Option α} {rnd : α → α}
    (hf : GoodFormat pr ps rnd) {sep : Char} (hs : sep ≠ '\n') (c : Nat) (x : Nat → α) :
    '\n' ∉ rowText pr sep c x := by
  intro hmem
  unfold rowText at hmem
  rw [List.mem_append, List.mem_flatten] at hmem
  rcases hmem with ⟨l, hl, hc⟩ | hc
  · simp only [tab, List.mem_map] at hl
    obtain ⟨j, _, rfl⟩ := hl
    rw [List.mem_append] at hc
    rcases hc with hc | hc
    · have := hf.noWs _ _ hc
      simp [isWs] at this
    · simp at hc; exact hs hc.symm
  · have := hf.noWs _ _ hc
    simp [isWs] at this

/-- C16 (what happens) on text with `r+1` lines of `c+1` numbers and no trailing blank: the numbers are
read in order into a matrix with `c+1` rows and `r+1` columns. -/
theorem C16_swapped {pr : α → List Char} {ps : List Char → Option α} {rnd : α → α} (junk : α)
    (g : Nat → α) (hf : GoodFormat pr ps rnd) (r c : Nat) (f : Nat → Nat → α) :
    fromStr ps junk g ((tab r (fun i => rowText pr ' ' c (f i) ++ ['\n'])).flatten ++ rowText pr ' ' c (f r))
      = .ok (Mat.flat (c + 1) (r + 1) (fun k => rnd (f (k / (c + 1)) (k % (c + 1))))) := by
  have h1 : readLoop ps junk
      ((tab r (fun i => rowText pr ' ' c (f i) ++ ['\n'])).flatten ++ rowText pr ' ' c (f r)) [] =
      .ok (tab ((r + 1) * (c + 1)) (fun k => rnd (f (k / (c + 1)) (k % (c + 1))))) := by
    rw [← flatten_tab_tab (r + 1) (c + 1) (fun i j => rnd (f i j)), tab_succ, List.flatten_append]
    have := Reads.flatten (ps := ps) (junk := junk) (n := r)
      (t := fun i => rowText pr ' ' c (f i) ++ ['\n']) (v := fun i => tab (c + 1) (fun j => rnd (f i j)))
      (fun i _ => rowText_reads hf c (f i) '\n' (by decide))
    rw [this, rowText_end hf]
    simp [Except.map]
  have h2 : ((tab r (fun i => rowText pr ' ' c (f i) ++ ['\n'])).flatten ++
      rowText pr ' ' c (f r)).count '\n' = r := by
    rw [List.count_append, count_flatten_tab, List.count_eq_zero.mpr (rowText_mem hf (by decide) c _)]
    have : ∀ i, List.count '\n' (rowText pr ' ' c (f i) ++ ['\n']) = 1 := by
      intro i
      rw [List.count_append, List.count_eq_zero.mpr (rowText_mem hf (by decide) c _)]
      simp
    simp [this]
  unfold fromStr
  rw [h1]
  simp only [bind_ok', h2, tab_length]
  rw [Nat.mul_div_cancel_left _ (Nat.succ_pos r)]
  obtain ⟨d, hd⟩ := resize_empty g (c + 1) (r + 1)
  rw [hd]
  exact copyVec_ok _ _ _ _ (by simp [Nat.mul_comm]) _ (by simp)

/-- C16, partial: text with `n` lines of `n` numbers and no trailing blank is read correctly.  Missing: all
non-square matrices (rows and columns are exchanged, see `C16_swapped`) and the text that
`toString` really prints (`C16_never`). -/
theorem C16_square_partial {pr : α → List Char} {ps : List Char → Option α} {rnd : α → α} (junk : α)
    (g : Nat → α) (hf : GoodFormat pr ps rnd) (n : Nat) (f : Nat → Nat → α) :
    fromStr ps junk g ((tab n (fun i => rowText pr ' ' n (f i) ++ ['\n'])).flatten ++ rowText pr ' ' n (f n))
      = .ok (Mat.ofFn (n + 1) (n + 1) (fun i j => rnd (f i j))) := by
  exact C16_swapped junk g hf n n f

/-- A small number format for examples: non-negative numbers in unary. -/
def unaryPr (n : Nat) : List Char := 'x' :: List.replicate n 'y'
def unaryPs : List Char → Option Nat
  | 'x' :: l => if l.all (· == 'y') then some l.length else none
  | _ => none

theorem unary_good : GoodFormat unaryPr unaryPs id where
  nonempty := by simp [unaryPr]
  noWs := by
    intro x c hc
    simp [unaryPr] at hc
    rcases hc with rfl | ⟨_, rfl⟩ <;> decide
  noComma := by
    intro x hc
    simp [unaryPr] at hc
  parse := by
    intro x
    simp [unaryPr, unaryPs]

example : (toStr unaryPr (Mat.mk 1 2 [1, 2])).bind (fromStr unaryPs 99 (fun _ => 0)) =
    .ok ⟨3, 1, [1, 2, 99]⟩ := by decide
example : (toStr unaryPr (Mat.mk 2 2 [1, 2, 3, 0])).bind (fromStr unaryPs 99 (fun _ => 0)) =
    .error .outOfBounds := by decide

/-! ## C17 -/

theorem splitLines_line (l rest : List Char) (h : '\n' ∉ l) :
    splitLines (l ++ '\n' :: rest) = l :: splitLines rest := by
  induction l with
  | nil => simp [splitLines]
  | cons c l ih =>
    have h1 : c ≠ '\n' := fun e => h (by simp [e])
    have h2 : '\n' ∉ l := fun e => h (by simp [e])
    rw [List.cons_append, splitLines, if_neg h1, ih h2]

theorem splitLines_lines (n : Nat) (t : Nat → List Char) (h : ∀ i, i < n → '\n' ∉ t i) (rest : List Char) :
    splitLines ((tab n (fun i => t i ++ ['\n'])).flatten ++ rest) = tab n t ++ splitLines rest := by
  induction n generalizing rest with
  | zero => simp [tab]
  | succ n ih =>
    rw [tab_succ, tab_succ, List.flatten_append]
    simp only [List.flatten_cons, List.flatten_nil, List.append_nil, List.append_assoc,
      List.singleton_append]
    rw [ih (fun i hi => h i (by omega)), splitLines_line _ _ (h n (by omega))]

theorem readLines_map {ps : List Char → Option α} {junk : α} (L : List Nat) (t : Nat → List Char)
    (v : Nat → List α) (rest : List (List Char)) (hrest : ∀ l ∈ rest, l = [])
    (h : ∀ i ∈ L, t i ≠ [] ∧
      readLoop ps junk ((t i).map (fun c => if c = ',' then ' ' else c)) [] = .ok (v i)) :
    readLines ps junk (L.map t ++ rest) = .ok (L.length, (L.map v).flatten) := by
  induction L with
  | nil =>
    simp only [List.map_nil, List.nil_append, List.length_nil, List.flatten_nil]
    induction rest with
    | nil => rfl
    | cons l rest ih =>
      rw [readLines, if_pos (hrest l (by simp)), ih (fun l' h' => hrest l' (by simp [h']))]
  | cons i L ih =>
    obtain ⟨h1, h2⟩ := h i (by simp)
    rw [List.map_cons, List.cons_append, readLines, if_neg h1, h2]
    simp only [bind_ok']
    rw [ih (fun j hj => h j (by simp [hj]))]
    simp

theorem lineText_noComma {pr : α → List Char} {ps : List Char → Option α} {rnd : α → α}
    (hf : GoodFormat pr ps rnd) (C : Nat) (x : Nat → α) :
    (lineText pr C x).map (fun c => if c = ',' then ' ' else c) = lineText pr C x := by
  conv_rhs => rw [← List.map_id (lineText pr C x)]
  apply List.map_congr_left
  intro c hc
  have : c ≠ ',' := by
    rintro rfl
    unfold lineText at hc
    rw [List.mem_flatten] at hc
    obtain ⟨l, hl, hc⟩ := hc
    simp only [tab, List.mem_map] at hl
    obtain ⟨j, _, rfl⟩ := hl
    rw [List.mem_append] at hc
    rcases hc with hc | hc
    · exact hf.noComma _ hc
    · simp at hc
  simp [this]

/-- The comma-separated row becomes the space-separated one. -/
theorem rowText_comma {pr : α → List Char} {ps : List Char → Option α} {rnd : α → α}
    (hf : GoodFormat pr ps rnd) {sep : Char} (hs : sep = ' ' ∨ sep = ',') (c : Nat) (x : Nat → α) :
    (rowText pr sep c x).map (fun c => if c = ',' then ' ' else c) = rowText pr ' ' c x := by
  have hpr : ∀ y, (pr y).map (fun c => if c = ',' then ' ' else c) = pr y := by
    intro y
    conv_rhs => rw [← List.map_id (pr y)]
    apply List.map_congr_left
    intro d hd
    have : d ≠ ',' := fun e => hf.noComma y (e ▸ hd)
    simp [this]
  unfold rowText
  rw [List.map_append, hpr, List.map_flatten]
  congr 2
  unfold tab
  rw [List.map_map]
  apply List.map_congr_left
  intro j _
  simp only [Function.comp, List.map_append, hpr, List.map_cons, List.map_nil]
  rcases hs with rfl | rfl <;> simp

/-- C17 (what happens): `fromFile(toFile(m))` of a non-empty matrix has one column more than `m`,
filled with uninitialised values. -/
theorem C17_extra_column {pr : α → List Char} {ps : List Char → Option α} {rnd : α → α} (junk : α)
    (g : Nat → α) (hf : GoodFormat pr ps rnd) (R C : Nat) (hR : 0 < R) (hC : 0 < C) (f : Nat → Nat → α) :
    (toFile pr (Mat.ofFn R C f)).bind (fun t => fromFile ps junk g (some t)) =
      .ok (Mat.ofFn R (C + 1) (fun i j => if j < C then rnd (f i j) else junk)) := by
  rw [toFile_ofFn]
  simp only [bind_ok, fromFile]
  have h1 : splitLines (tab R (fun i => lineText pr C (f i) ++ ['\n'])).flatten =
      tab R (fun i => lineText pr C (f i)) ++ [[]] := by
    have := splitLines_lines R (fun i => lineText pr C (f i))
      (fun i _ => List.count_eq_zero.mp (count_lineText hf C (f i))) []
    rw [List.append_nil] at this
    rw [this]; rfl
  have h2 : readLines ps junk (tab R (fun i => lineText pr C (f i)) ++ [[]]) =
      .ok (R, (tab R (fun i => tab (C + 1) (fun j => if j < C then rnd (f i j) else junk))).flatten) := by
    have := readLines_map (ps := ps) (junk := junk) (List.range R) (fun i => lineText pr C (f i))
      (fun i => tab (C + 1) (fun j => if j < C then rnd (f i j) else junk)) [[]] (by simp) (by
        intro i _
        refine ⟨?_, ?_⟩
        · obtain ⟨c, rfl⟩ : ∃ c, C = c + 1 := ⟨C - 1, by omega⟩
          unfold lineText
          rw [tab_succ]
          simp
        · rw [lineText_noComma hf, Reads.toEnd (lineText_reads hf C (f i)), tab_succ]
          congr 1
          rw [if_neg (by omega)]
          congr 1
          apply tab_congr
          intro j hj
          rw [if_pos hj])
    rw [List.length_range] at this
    exact this
  rw [h1, h2, flatten_tab_tab R (C + 1) (fun i j => if j < C then rnd (f i j) else junk)]
  simp only [bind_ok', tab_length]
  rw [if_neg (by omega), Nat.mul_div_cancel_left _ hR]
  exact copyVec_ok _ _ _ _ (by simp) _ (by simp)

/-- C17 is violated for every matrix with at least one row: `fromFile(toFile(m))` never returns the
printed matrix. -/
theorem C17_never {pr : α → List Char} {ps : List Char → Option α} {rnd : α → α} (junk : α)
    (g : Nat → α) (hf : GoodFormat pr ps rnd) (R C : Nat) (hR : 0 < R) (f : Nat → Nat → α) :
    (toFile pr (Mat.ofFn R C f)).bind (fun t => fromFile ps junk g (some t)) ≠
      .ok (Mat.ofFn R C (fun i j => rnd (f i j))) := by
  rcases Nat.eq_zero_or_pos C with rfl | hC
  · rw [toFile_ofFn]
    simp only [bind_ok, fromFile]
    have h1 := splitLines_lines R (fun i => lineText pr 0 (f i))
      (fun i _ => List.count_eq_zero.mp (count_lineText hf 0 (f i))) []
    rw [List.append_nil] at h1
    rw [h1]
    have h2 := readLines_map (ps := ps) (junk := junk) [] (fun _ => []) (fun _ => [])
      (tab R (fun i => lineText pr 0 (f i)) ++ splitLines []) (by
        intro l hl
        rw [List.mem_append] at hl
        rcases hl with hl | hl
        · simp only [tab, List.mem_map] at hl
          obtain ⟨i, _, rfl⟩ := hl
          rfl
        · simpa [splitLines] using hl) (by simp)
    simp only [List.map_nil, List.nil_append, List.length_nil, List.flatten_nil] at h2
    rw [h2]
    simp only [bind_ok', if_true, pure_ok]
    intro e
    have := congrArg Mat.rows (Except.ok.inj e)
    simp at this
    omega
  · rw [C17_extra_column junk g hf R C hR hC]
    intro e
    have := congrArg Mat.cols (Except.ok.inj e)
    simp at this

/-- C17, partial: a file with `r` lines of `c+1` numbers separated by single spaces or commas, without a
separator at the end of the lines, is read correctly.  Missing: the files that `toFile` writes
(`C17_never`). -/
theorem C17_csv_partial {pr : α → List Char} {ps : List Char → Option α} {rnd : α → α} (junk : α)
    (g : Nat → α) (hf : GoodFormat pr ps rnd) (r c : Nat) (hr : 0 < r) (sep : Char)
    (hs : sep = ' ' ∨ sep = ',') (f : Nat → Nat → α) :
    fromFile ps junk g (some (tab r (fun i => rowText pr sep c (f i) ++ ['\n'])).flatten) =
      .ok (Mat.ofFn r (c + 1) (fun i j => rnd (f i j))) := by
  have hsn : sep ≠ '\n' := by rcases hs with rfl | rfl <;> decide
  have h1 := splitLines_lines r (fun i => rowText pr sep c (f i))
    (fun i _ => rowText_mem hf hsn c (f i)) []
  rw [List.append_nil] at h1
  have h2 := readLines_map (ps := ps) (junk := junk) (List.range r) (fun i => rowText pr sep c (f i))
      (fun i => tab (c + 1) (fun j => rnd (f i j))) (splitLines []) (by simp [splitLines]) (by
        intro i _
        refine ⟨?_, ?_⟩
        · unfold rowText
          simp [hf.nonempty]
        · rw [rowText_comma hf hs]; exact rowText_end hf c (f i))
  rw [List.length_range] at h2
  unfold fromFile
  simp only
  rw [h1]
  unfold tab at h2 ⊢
  rw [h2]
  have h3 := flatten_tab_tab r (c + 1) (fun i j => rnd (f i j))
  unfold tab at h3
  rw [h3]
  simp only [bind_ok', List.length_map, List.length_range]
  rw [if_neg (by omega), Nat.mul_div_cancel_left _ hr]
  exact copyVec_ok _ _ _ _ (by simp) _ (by simp [tab])

/-- C17 (what happens): when the number of values read is not a multiple of the number of non-empty lines,
`fromFile` writes behind the end of the matrix. -/
theorem C17_overflow {ps : List Char → Option α} (junk : α) (g : Nat → α) (text : List Char) (n : Nat)
    (vf : List α) (h : readLines ps junk (splitLines text) = .ok (n, vf)) (hn : 0 < n)
    (hdvd : ¬ n ∣ vf.length) : fromFile ps junk g (some text) = .error .outOfBounds := by
  unfold fromFile
  simp only
  rw [h]
  simp only [bind_ok']
  rw [if_neg (by omega)]
  apply copyVec_overflow
  have h1 : n * (vf.length / n) ≤ vf.length := Nat.mul_div_le _ _
  have h2 : n * (vf.length / n) ≠ vf.length := fun e => hdvd ⟨_, e.symm⟩
  omega

example : fromFile unaryPs 99 (fun _ => 0) (some "x,xy\nxyy x\n".toList) = .ok ⟨2, 2, [0, 1, 2, 0]⟩ := by
  decide
example : fromFile unaryPs 99 (fun _ => 0) (some "x,xy\nxyy\n".toList) = .error .outOfBounds := by decide
example : (toFile unaryPr (Mat.mk 2 1 [1, 2])).bind (fun t => fromFile unaryPs 99 (fun _ => 0) (some t)) =
    .ok ⟨2, 2, [1, 99, 2, 99]⟩ := by decide

end BeeDNN
