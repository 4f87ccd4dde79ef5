import Verif.Model.Text
import Verif.Lemmas.Matrix

/-! Lemmas on reading and writing matrices as text. -/

namespace BeeDNN
variable {α : Type}

/-- Assumptions on the number format: a printed number is a non-empty token without blanks, commas, that
parses to its rounded value. -/
structure GoodFormat (pr : α → List Char) (ps : List Char → Option α) (rnd : α → α) : Prop where
  nonempty : ∀ x, pr x ≠ []
  noWs : ∀ x c, c ∈ pr x → isWs c = false
  noComma : ∀ x, ',' ∉ pr x
  parse : ∀ x, ps (pr x) = some (rnd x)

section
variable (ps : List Char → Option α) (junk : α)

theorem readLoop_token (t rest acc : List Char) (h : ∀ c ∈ t, isWs c = false) :
    readLoop ps junk (t ++ rest) acc = readLoop ps junk rest (acc ++ t) := by
  induction t generalizing acc with
  | nil => simp
  | cons c t ih =>
    rw [List.cons_append, readLoop.eq_def]
    have hc : isWs c = false := h c (by simp)
    simp only [hc]
    have := ih (acc ++ [c]) (fun c' hc' => h c' (by simp [hc']))
    simp only [List.append_assoc, List.cons_append, List.nil_append] at this
    simpa using this

theorem readLoop_end {t : List Char} (ht : t ≠ []) {x : α} (hp : ps t = some x) :
    readLoop ps junk [] t = .ok [x] := by
  cases t with
  | nil => exact absurd rfl ht
  | cons c t => simp [readLoop, hp]

theorem readLoop_sep {c : Char} (hc : isWs c = true) {t : List Char} (ht : t ≠ []) {x : α}
    (hp : ps t = some x) (rest : List Char) :
    readLoop ps junk (c :: rest) t = (readLoop ps junk rest []).map (x :: ·) := by
  cases t with
  | nil => exact absurd rfl ht
  | cons d t => simp [readLoop, hc, hp]

theorem readLoop_sep_bad {c : Char} (hc : isWs c = true) {t : List Char} (ht : t ≠ [])
    (hp : ps t = none) (rest : List Char) :
    readLoop ps junk (c :: rest) t = .error .diverges := by
  cases t with
  | nil => exact absurd rfl ht
  | cons d t => simp [readLoop, hc, hp]

theorem readLoop_ws {c : Char} (hc : isWs c = true) (rest : List Char) :
    readLoop ps junk (c :: rest) [] = readLoop ps junk rest [] := by
  simp [readLoop, hc]

/-- The text `txt` delivers exactly the values `vs`, whatever follows. -/
def Reads (txt : List Char) (vs : List α) : Prop :=
  ∀ rest, readLoop ps junk (txt ++ rest) [] = (readLoop ps junk rest []).map (vs ++ ·)

theorem Reads.nil : Reads ps junk [] [] := by
  intro rest
  cases h : readLoop ps junk rest [] <;> simp [h, Except.map]

variable {ps junk}

theorem Reads.append {a b : List Char} {v w : List α} (ha : Reads ps junk a v) (hb : Reads ps junk b w) :
    Reads ps junk (a ++ b) (v ++ w) := by
  intro rest
  rw [List.append_assoc, ha, hb]
  cases readLoop ps junk rest [] <;> simp [Except.map]

theorem Reads.ws {c : Char} (hc : isWs c = true) : Reads ps junk [c] [] := by
  intro rest
  rw [List.singleton_append, readLoop_ws _ _ hc]
  cases h : readLoop ps junk rest [] <;> simp [Except.map]

theorem Reads.number {pr : α → List Char} {rnd : α → α} (hf : GoodFormat pr ps rnd) (x : α) {c : Char}
    (hc : isWs c = true) : Reads ps junk (pr x ++ [c]) [rnd x] := by
  intro rest
  rw [List.append_assoc, readLoop_token _ _ _ _ _ (hf.noWs x), List.nil_append, List.singleton_append,
    readLoop_sep _ _ hc (hf.nonempty x) (hf.parse x)]
  rfl

theorem Reads.flatten {n : Nat} {t : Nat → List Char} {v : Nat → List α}
    (h : ∀ i, i < n → Reads ps junk (t i) (v i)) :
    Reads ps junk (tab n t).flatten (tab n v).flatten := by
  induction n with
  | zero => exact Reads.nil ps junk
  | succ n ih =>
    rw [tab_succ, tab_succ, List.flatten_append, List.flatten_append]
    apply Reads.append (ih (fun i hi => h i (by omega)))
    simpa using h n (by omega)

/-- Reading to the end of the text. -/
theorem Reads.toEnd {txt : List Char} {vs : List α} (h : Reads ps junk txt vs) :
    readLoop ps junk txt [] = .ok (vs ++ [junk]) := by
  have := h []
  rw [List.append_nil] at this
  rw [this]; rfl

/-- Reading to the end when the text ends with a number. -/
theorem Reads.toEnd_number {pr : α → List Char} {rnd : α → α} (hf : GoodFormat pr ps rnd)
    {txt : List Char} {vs : List α} (h : Reads ps junk txt vs) (x : α) :
    readLoop ps junk (txt ++ pr x) [] = .ok (vs ++ [rnd x]) := by
  rw [h]
  have := readLoop_token ps junk (pr x) [] [] (hf.noWs x)
  rw [List.append_nil, List.nil_append] at this
  rw [this, readLoop_end _ _ (hf.nonempty x) (hf.parse x)]
  rfl

end

theorem flatten_tab_tab (R C : Nat) (f : Nat → Nat → α) :
    (tab R (fun i => tab C (f i))).flatten = tab (R * C) (fun k => f (k / C) (k % C)) := by
  induction R with
  | zero => simp [tab]
  | succ R ih =>
    rw [tab_succ, List.flatten_append, ih]
    rw [eq_tab_iff]
    refine ⟨by simp [Nat.succ_mul], fun k hk => ?_⟩
    rw [Nat.succ_mul] at hk
    by_cases hlt : k < R * C
    · rw [List.getElem?_append_left (by simpa using hlt), tab_getElem?, if_pos hlt]
    · rw [List.getElem?_append_right (by simp; omega)]
      simp only [tab_length, List.flatten_cons, List.flatten_nil, List.append_nil]
      rw [tab_getElem?, if_pos (by omega)]
      have : k = R * C + (k - R * C) := by omega
      have h1 : k / C = R := by
        rw [this]; exact idx_div (by omega)
      have h2 : k % C = k - R * C := by
        conv_lhs => rw [this]
        exact idx_mod (by omega)
      rw [h1, h2]

theorem forN_append {n : Nat} {f : Nat → List Char → Out (List Char)} (t : Nat → List Char)
    (h : ∀ i, i < n → ∀ s, f i s = .ok (s ++ t i)) (s : List Char) :
    forN n f s = .ok (s ++ (tab n t).flatten) := by
  refine forN_closed' (fun i => s ++ (tab i t).flatten) (by simp [tab]) rfl ?_
  intro i hi
  rw [h i hi, tab_succ, List.flatten_append]
  simp

/-- One printed row: every number followed by a space. -/
def lineText (pr : α → List Char) (C : Nat) (x : Nat → α) : List Char :=
  (tab C (fun j => pr (x j) ++ [' '])).flatten

theorem inner_loop (pr : α → List Char) (R C : Nat) (f : Nat → Nat → α) {i : Nat} (hi : i < R)
    (s : List Char) :
    forN C (fun iR ss => (do
      let x ← (Mat.ofFn R C f).get i iR
      return ss ++ (pr x ++ [' ']) : Out (List Char))) s = .ok (s ++ lineText pr C (f i)) := by
  apply forN_append
  intro j hj s
  rw [Mat.get_ofFn hi hj]; rfl

theorem toStr_ofFn (pr : α → List Char) (R C : Nat) (f : Nat → Nat → α) :
    toStr pr (Mat.ofFn R C f) = .ok (tab R (fun i =>
      lineText pr C (f i) ++ if i + 1 < R then ['\n'] else [])).flatten := by
  unfold toStr
  simp only [Mat.ofFn_rows, Mat.ofFn_cols]
  rw [forN_append (n := R) (t := fun i => lineText pr C (f i) ++ if i + 1 < R then ['\n'] else []),
    List.nil_append]
  intro i hi s
  rw [inner_loop pr R C f hi]
  simp only [bind_ok']
  split <;> simp [*]

theorem toFile_ofFn (pr : α → List Char) (R C : Nat) (f : Nat → Nat → α) :
    toFile pr (Mat.ofFn R C f) = .ok (tab R (fun i => lineText pr C (f i) ++ ['\n'])).flatten := by
  unfold toFile
  simp only [Mat.ofFn_rows, Mat.ofFn_cols]
  rw [forN_append (n := R) (t := fun i => lineText pr C (f i) ++ ['\n']), List.nil_append]
  intro i hi s
  rw [inner_loop pr R C f hi]
  simp

theorem lineText_reads {pr : α → List Char} {ps : List Char → Option α} {rnd : α → α} {junk : α}
    (hf : GoodFormat pr ps rnd) (C : Nat) (x : Nat → α) :
    Reads ps junk (lineText pr C x) (tab C (fun j => rnd (x j))) := by
  have := Reads.flatten (ps := ps) (junk := junk) (n := C) (t := fun j => pr (x j) ++ [' '])
    (v := fun j => [rnd (x j)]) (fun j _ => Reads.number hf (x j) (by decide))
  have e : (tab C (fun j => [rnd (x j)])).flatten = tab C (fun j => rnd (x j)) := by
    unfold tab
    rw [← List.flatMap_def, ← List.map_eq_flatMap]
  rwa [e] at this

theorem copyVec_ok (vf : List α) (R C : Nat) (d : Nat → α) (h : vf.length = R * C) (v : Nat → α)
    (hv : vf = tab vf.length v) : copyVec vf (Mat.flat R C d) = .ok (Mat.flat R C v) := by
  unfold copyVec
  rw [h]
  apply Mat.forN_flat
  intro i hi d' _
  have : rd vf i = .ok (v i) := by
    rw [hv]; exact rd_tab (by omega)
  rw [this]
  simp only [bind_ok']
  exact Mat.setRaw_flat hi

theorem copyVec_overflow (vf : List α) (R C : Nat) (d : Nat → α) (h : R * C < vf.length) :
    copyVec vf (Mat.flat R C d) = .error .outOfBounds := by
  have : Inhabited α := ⟨vf[0]'(by omega)⟩
  unfold copyVec
  obtain ⟨m, hm, d', hd'⟩ := forN_inv (n := R * C) (s := Mat.flat R C d)
    (f := fun i r => (do
      let x ← rd vf i
      r.setRaw i x : Out (Mat α))) (fun _ m => ∃ d', m = Mat.flat R C d') ⟨d, rfl⟩
    (by
      rintro i hi _ ⟨d', rfl⟩
      rw [rd_of_lt (by omega : i < vf.length)]
      simp only [bind_ok']
      exact ⟨_, Mat.setRaw_flat hi, _, rfl⟩)
  subst hd'
  refine forN_error h hm ?_
  rw [rd_of_lt h]
  simp only [bind_ok', Mat.setRaw]
  rw [wr_oob (by show (tab (R * C) d').length ≤ R * C; simp)]
  rfl

theorem resize_empty (g : Nat → α) (r c : Nat) :
    ∃ d, (Mat.mk 0 0 [] : Mat α).resize g r c = Mat.flat r c d := by
  refine ⟨g, ?_⟩
  unfold Mat.resize
  split
  · rename_i h; simp only at h; rw [h.1, h.2]; simp [Mat.flat, tab]
  · split
    · rename_i h
      simp only [Mat.size, Nat.zero_mul] at h
      simp [Mat.flat, h, tab]
    · rfl

theorem count_lineText {pr : α → List Char} {ps : List Char → Option α} {rnd : α → α}
    (hf : GoodFormat pr ps rnd) (C : Nat) (x : Nat → α) : (lineText pr C x).count '\n' = 0 := by
  rw [List.count_eq_zero]
  intro hmem
  unfold lineText at hmem
  rw [List.mem_flatten] at hmem
  obtain ⟨l, hl, hc⟩ := hmem
  simp only [tab, List.mem_map] at hl
  obtain ⟨j, _, rfl⟩ := hl
  rw [List.mem_append] at hc
  rcases hc with hc | hc
  · have := hf.noWs _ _ hc
    simp [isWs] at this
  · simp at hc

theorem count_flatten_tab (n : Nat) (t : Nat → List Char) (c : Char) :
    (tab n t).flatten.count c = ((List.range n).map (fun i => (t i).count c)).sum := by
  induction n with
  | zero => simp [tab]
  | succ n ih =>
    rw [tab_succ, List.flatten_append, List.count_append, ih, List.range_succ]
    simp

end BeeDNN
