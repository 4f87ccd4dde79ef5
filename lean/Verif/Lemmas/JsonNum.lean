import Verif.Model.Json
import Mathlib.Data.Nat.Digits.Lemmas
import Mathlib.Tactic.Linarith
import Mathlib.Tactic.Positivity
import Mathlib.Tactic.FieldSimp
import Mathlib.Tactic.Ring

/-! # Helper lemmas: numbers as JSON text -/

namespace BeeDNN.J

theorem digitChar_spec : ∀ d, d < 10 → (digitChar d).isDigit = true ∧ (digitChar d).toNat - 48 = d := by decide

theorem digitChar_ne_zero : ∀ d, d < 10 → d ≠ 0 → digitChar d ≠ '0' := by decide

theorem digVal_cons (c : Char) (t : Text) : digVal (c :: t) = (c.toNat - 48) * 10 ^ t.length + digVal t := by
  unfold digVal
  have : ∀ (t : Text) (a : Nat), t.foldl (fun a c => 10 * a + (c.toNat - 48)) a = a * 10 ^ t.length + t.foldl (fun a c => 10 * a + (c.toNat - 48)) 0 := by
    intro t
    induction t with
    | nil => intro a; simp
    | cons c t ih =>
      intro a
      rw [List.foldl_cons, List.foldl_cons, ih, ih (10 * 0 + (c.toNat - 48)), List.length_cons]
      ring
  rw [List.foldl_cons, this]
  simp

theorem digVal_nil : digVal [] = 0 := rfl

theorem digVal_append (s t : Text) : digVal (s ++ t) = digVal s * 10 ^ t.length + digVal t := by
  induction s with
  | nil => simp [digVal_nil]
  | cons c s ih =>
    rw [List.cons_append, digVal_cons, digVal_cons, ih, List.length_append, pow_add]
    ring

theorem digVal_zeros (k : Nat) : digVal (List.replicate k '0') = 0 := by
  induction k with
  | zero => rfl
  | succ k ih => rw [List.replicate_succ, digVal_cons, ih]; simp

theorem digVal_digits {l : List Nat} (h : ∀ d ∈ l, d < 10) : digVal (l.reverse.map digitChar) = Nat.ofDigits 10 l := by
  induction l with
  | nil => rfl
  | cons d l ih =>
    rw [List.reverse_cons, List.map_append, digVal_append, ih fun x hx => h x (by simp [hx]), Nat.ofDigits_cons]
    simp only [List.map_cons, List.map_nil, List.length_cons, List.length_nil]
    rw [digVal_cons, (digitChar_spec d (h d (by simp))).2, digVal_nil]
    simp
    ring

theorem decText_digits (n : Nat) : ∀ c ∈ decText n, c.isDigit = true := by
  unfold decText
  split
  · intro c hc
    rw [List.mem_singleton] at hc
    subst hc
    decide
  · intro c hc
    obtain ⟨d, hd, rfl⟩ := List.mem_map.1 hc
    exact (digitChar_spec d (Nat.digits_lt_base (by norm_num) (List.mem_reverse.1 hd))).1

theorem decText_ne_nil (n : Nat) : decText n ≠ [] := by
  unfold decText
  split
  · simp
  · rename_i h
    simpa [Nat.digits_ne_nil_iff_ne_zero] using h

theorem digVal_decText (n : Nat) : digVal (decText n) = n := by
  unfold decText
  split
  · rename_i h
    subst h
    rfl
  · rw [digVal_digits fun d hd => Nat.digits_lt_base (by norm_num) hd, Nat.ofDigits_digits]

theorem decText_head {n : Nat} (h : n ≠ 0) : ∃ c t, decText n = c :: t ∧ c ≠ '0' := by
  unfold decText
  rw [if_neg h]
  have hne : Nat.digits 10 n ≠ [] := Nat.digits_ne_nil_iff_ne_zero.2 h
  obtain ⟨d, l, hd⟩ := List.exists_cons_of_ne_nil (List.reverse_ne_nil_iff.2 hne)
  refine ⟨digitChar d, l.map digitChar, by rw [hd, List.map_cons], ?_⟩
  have hlast : (Nat.digits 10 n).getLast hne = d := by
    have : (Nat.digits 10 n) = l.reverse ++ [d] := by
      rw [← List.reverse_reverse (Nat.digits 10 n), hd, List.reverse_cons]
    simp [this]
  have hmem : d ∈ Nat.digits 10 n := by
    rw [← hlast]
    exact List.getLast_mem hne
  exact digitChar_ne_zero d (Nat.digits_lt_base (by norm_num) hmem) (by rw [← hlast]; exact Nat.getLast_digit_ne_zero 10 h)

theorem intOk_decText (n : Nat) : intOk (decText n) = true := by
  by_cases h : n = 0
  · subst h
    rfl
  · obtain ⟨c, t, ht, hc⟩ := decText_head h
    rw [ht]
    simp [intOk, hc]

theorem isDigits_decText (n : Nat) : isDigits (decText n) = true := by
  unfold isDigits
  simp only [Bool.and_eq_true, List.all_eq_true]
  exact ⟨by simpa using decText_ne_nil n, decText_digits n⟩

theorem decText_length {n : Nat} (h1 : 10 ^ 5 ≤ n) (h2 : n < 10 ^ 6) : (decText n).length = 6 := by
  unfold decText
  rw [if_neg (by omega), List.length_map, List.length_reverse]
  have a : (Nat.digits 10 n).length ≤ 6 := (Nat.digits_length_le_iff (by norm_num) n).2 h2
  have b : 5 < (Nat.digits 10 n).length := (Nat.lt_digits_length_iff (by norm_num) n).2 h1
  omega

/-! ## Splitting -/

theorem span_digits {i r : Text} (hi : ∀ c ∈ i, c.isDigit = true) (hr : ∀ c, r.head? = some c → c.isDigit = false) :
    (i ++ r).takeWhile Char.isDigit = i ∧ (i ++ r).dropWhile Char.isDigit = r := by
  rw [List.takeWhile_append_of_pos hi, List.dropWhile_append_of_pos hi]
  cases r with
  | nil => simp
  | cons c r => simp [hr c rfl]

/-- An exponent part: empty or starting with `e`. -/
def ExpOk (x : Text) (e : Int) : Prop := splitExp x = some e ∧ (x = [] ∨ ∃ r, x = 'e' :: r)

theorem splitFrac_form {f x : Text} {e : Int} (hf : ∀ c ∈ f, c.isDigit = true) (hx : ExpOk x e) :
    splitFrac ((if f = [] then [] else '.' :: f) ++ x) = some (f, e) := by
  have hxd : ∀ c, x.head? = some c → c.isDigit = false := by
    rcases hx.2 with rfl | ⟨r, rfl⟩
    · simp
    · intro c hc
      simp at hc
      subst hc
      decide
  by_cases h : f = []
  · rw [if_pos h, h, List.nil_append]
    have h2 : splitFrac x = (splitExp x).map (fun e => (([] : Text), e)) := by
      rcases hx.2 with h3 | ⟨r, h3⟩ <;> rw [h3]
      · rfl
      · rw [splitFrac]
        intro r' hr'
        injection hr' with h4 _
        exact absurd h4 (by decide)
    rw [h2, hx.1]
    rfl
  · rw [if_neg h, List.cons_append, splitFrac, (span_digits hf hxd).1, (span_digits hf hxd).2, hx.1]
    simp [h]

theorem splitNum_form (neg : Bool) {i f x : Text} {e : Int} (hi : ∀ c ∈ i, c.isDigit = true) (hok : intOk i = true)
    (hf : ∀ c ∈ f, c.isDigit = true) (hx : ExpOk x e) :
    splitNum ((if neg then ['-'] else []) ++ (i ++ ((if f = [] then [] else '.' :: f) ++ x))) = some ⟨neg, i, f, e⟩ := by
  have hr : ∀ c, ((if f = [] then [] else '.' :: f) ++ x).head? = some c → c.isDigit = false := by
    intro c hc
    by_cases h : f = []
    · rw [if_pos h, List.nil_append] at hc
      rcases hx.2 with h3 | ⟨r, h3⟩ <;> rw [h3] at hc
      · simp at hc
      · simp at hc
        subst hc
        decide
    · rw [if_neg h, List.cons_append] at hc
      simp at hc
      subst hc
      decide
  obtain ⟨c, i', rfl⟩ : ∃ c i', i = c :: i' := by
    cases i with
    | nil => simp [intOk] at hok
    | cons c i => exact ⟨c, i, rfl⟩
  have hc : c ≠ '-' := by
    rintro rfl
    exact absurd (hi '-' (by simp)) (by decide)
  have hneg : (((if neg then ['-'] else []) ++ (c :: i' ++ ((if f = [] then [] else '.' :: f) ++ x))).head? == some '-') = neg := by
    cases neg <;> simp [hc]
  have htl : (if neg = true then ((if neg then ['-'] else []) ++ (c :: i' ++ ((if f = [] then [] else '.' :: f) ++ x))).tail
      else ((if neg then ['-'] else []) ++ (c :: i' ++ ((if f = [] then [] else '.' :: f) ++ x)))) = c :: i' ++ ((if f = [] then [] else '.' :: f) ++ x) := by
    cases neg <;> simp
  unfold splitNum
  dsimp only
  rw [hneg, htl, (span_digits hi hr).1, (span_digits hi hr).2, if_pos hok, splitFrac_form hf hx]
  rfl

/-- The value of a text of the general form. -/
theorem numVal_form (neg : Bool) {i f x : Text} {e : Int} (hi : ∀ c ∈ i, c.isDigit = true) (hok : intOk i = true)
    (hf : ∀ c ∈ f, c.isDigit = true) (hx : ExpOk x e) :
    numVal ((if neg then ['-'] else []) ++ (i ++ ((if f = [] then [] else '.' :: f) ++ x))) =
      (if neg then -1 else 1) * (digVal (i ++ f) : ℝ) * (10 : ℝ) ^ (e - f.length) := by
  unfold numVal
  rw [splitNum_form neg hi hok hf hx]

theorem ExpOk_nil : ExpOk [] 0 := ⟨rfl, Or.inl rfl⟩

theorem isDigits_pad2 {t : Text} (h : isDigits t = true) : isDigits (pad2 t) = true := by
  unfold pad2
  split
  · simp only [isDigits, Bool.and_eq_true, List.all_eq_true] at h ⊢
    refine ⟨by simp, fun c hc => ?_⟩
    rcases List.mem_cons.1 hc with rfl | hc
    · decide
    · exact h.2 c hc
  · exact h

theorem digVal_pad2 (t : Text) : digVal (pad2 t) = digVal t := by
  unfold pad2
  split
  · rw [digVal_cons]
    simp
  · rfl

theorem ExpOk_sci (e : Int) : ExpOk ('e' :: (if e < 0 then '-' else '+') :: pad2 (decText e.natAbs)) e := by
  refine ⟨?_, Or.inr ⟨_, rfl⟩⟩
  have h := isDigits_pad2 (isDigits_decText e.natAbs)
  have hv : digVal (pad2 (decText e.natAbs)) = e.natAbs := by rw [digVal_pad2, digVal_decText]
  unfold splitExp
  dsimp only
  rw [if_pos (Or.inl rfl)]
  split
  · rename_i d hd
    by_cases he : e < 0
    · rw [if_pos he] at hd
      injection hd with _ hd
      rw [← hd, if_pos h, hv]
      congr 1
      omega
    · rw [if_neg he] at hd
      injection hd with hd _
      exact absurd hd (by decide)
  · rename_i d hd
    by_cases he : e < 0
    · rw [if_pos he] at hd
      injection hd with hd _
      exact absurd hd (by decide)
    · rw [if_neg he] at hd
      injection hd with _ hd
      rw [← hd, if_pos h, hv]
      congr 1
      omega
  · rename_i h1 h2
    by_cases he : e < 0
    · rw [if_pos he] at h1
      exact absurd rfl (h1 _)
    · rw [if_neg he] at h2
      exact absurd rfl (h2 _)

theorem strip_spec (f : Text) : ∃ k, f = strip f ++ List.replicate k '0' := by
  unfold strip
  refine ⟨(f.rtakeWhile (· == '0')).length, ?_⟩
  have h : ∀ c ∈ f.rtakeWhile (· == '0'), c = '0' := fun c hc => by
    simpa using List.mem_rtakeWhile_imp hc
  conv_lhs => rw [← List.rdropWhile_append_rtakeWhile (p := (· == '0')) (l := f)]
  rw [List.eq_replicate_of_mem h, List.length_replicate]

theorem strip_digits {f : Text} (hf : ∀ c ∈ f, c.isDigit = true) : ∀ c ∈ strip f, c.isDigit = true := by
  obtain ⟨k, hk⟩ := strip_spec f
  intro c hc
  apply hf
  rw [hk]
  exact List.mem_append_left _ hc

theorem dotted_eq (i f x : Text) : dotted i f ++ x = i ++ ((if strip f = [] then [] else '.' :: strip f) ++ x) := by
  unfold dotted
  split <;> simp

theorem splitNum_dotted (neg : Bool) {i f x : Text} {e : Int} (hi : ∀ c ∈ i, c.isDigit = true) (hok : intOk i = true)
    (hf : ∀ c ∈ f, c.isDigit = true) (hx : ExpOk x e) : (splitNum ((if neg then ['-'] else []) ++ (dotted i f ++ x))).isSome = true := by
  rw [dotted_eq, splitNum_form neg hi hok (strip_digits hf) hx]
  rfl

theorem numVal_dotted (neg : Bool) {i f x : Text} {e : Int} (hi : ∀ c ∈ i, c.isDigit = true) (hok : intOk i = true)
    (hf : ∀ c ∈ f, c.isDigit = true) (hx : ExpOk x e) :
    numVal ((if neg then ['-'] else []) ++ (dotted i f ++ x)) = (if neg then -1 else 1) * (digVal (i ++ f) : ℝ) * (10 : ℝ) ^ (e - f.length) := by
  rw [dotted_eq, numVal_form neg hi hok (strip_digits hf) hx]
  obtain ⟨k, hk⟩ := strip_spec f
  have h1 : digVal (i ++ f) = digVal (i ++ strip f) * 10 ^ k := by
    conv_lhs => rw [hk]
    rw [← List.append_assoc, digVal_append, digVal_zeros, List.length_replicate, add_zero]
  have h2 : f.length = (strip f).length + k := by
    conv_lhs => rw [hk]
    rw [List.length_append, List.length_replicate]
  have h10 : (10 : ℝ) ≠ 0 := by norm_num
  rw [h1, h2, mul_assoc, mul_assoc]
  congr 1
  push_cast
  rw [mul_assoc]
  congr 1
  rw [show e - ((strip f).length : Int) = (k : Int) + (e - ((strip f).length + k)) by ring, zpow_add₀ h10, zpow_natCast]

/-- `%g` of six digits is a JSON number with the value of these digits. -/
theorem gBody_spec (neg : Bool) {m : Nat} (h1 : 10 ^ 5 ≤ m) (h2 : m < 10 ^ 6) (e : Int) :
    (splitNum ((if neg then ['-'] else []) ++ gBody m e)).isSome = true ∧
    numVal ((if neg then ['-'] else []) ++ gBody m e) = (if neg then -1 else 1) * (m : ℝ) * (10 : ℝ) ^ (e - 5) := by
  have hlen := decText_length h1 h2
  have hdig := decText_digits m
  have hval := digVal_decText m
  obtain ⟨c, t, ht, hc⟩ := decText_head (n := m) (by omega)
  have htake : ∀ k, ∀ c ∈ (decText m).take k, c.isDigit = true := fun k c hc => hdig c (List.mem_of_mem_take hc)
  have hdrop : ∀ k, ∀ c ∈ (decText m).drop k, c.isDigit = true := fun k c hc => hdig c (List.mem_of_mem_drop hc)
  have hok : ∀ k, intOk ((decText m).take (k + 1)) = true := fun k => by
    rw [ht, List.take_succ_cons]
    simp [intOk, hc]
  unfold gBody
  dsimp only
  by_cases he1 : e < -4 ∨ 6 ≤ e
  · rw [if_pos he1]
    refine ⟨splitNum_dotted neg (htake 1) (hok 0) (hdrop 1) (ExpOk_sci e), ?_⟩
    rw [numVal_dotted neg (htake 1) (hok 0) (hdrop 1) (ExpOk_sci e), List.take_append_drop, hval, List.length_drop, hlen]
    norm_num
  · rw [if_neg he1]
    by_cases he2 : 0 ≤ e
    · rw [if_pos he2]
      have hx := fun (k : Nat) => splitNum_dotted neg (htake (k + 1)) (hok k) (hdrop (k + 1)) ExpOk_nil
      have hy := fun (k : Nat) => numVal_dotted neg (htake (k + 1)) (hok k) (hdrop (k + 1)) ExpOk_nil
      simp only [List.append_nil] at hx hy
      refine ⟨hx _, ?_⟩
      rw [hy, List.take_append_drop, hval, List.length_drop, hlen]
      congr 2
      omega
    · rw [if_neg he2]
      have hz : ∀ c ∈ List.replicate ((-e).toNat - 1) '0' ++ decText m, c.isDigit = true := by
        intro c hc
        rcases List.mem_append.1 hc with h | h
        · rw [List.eq_of_mem_replicate h]
          decide
        · exact hdig c h
      have h0 : ∀ c ∈ ['0'], c.isDigit = true := by decide
      have hx := splitNum_dotted neg h0 rfl hz ExpOk_nil
      have hy := numVal_dotted neg h0 rfl hz ExpOk_nil
      simp only [List.append_nil] at hx hy
      refine ⟨hx, ?_⟩
      rw [hy]
      have hd : digVal (['0'] ++ (List.replicate ((-e).toNat - 1) '0' ++ decText m)) = m := by
        rw [digVal_append, digVal_append, digVal_zeros, hval]
        simp [digVal]
      rw [hd, List.length_append, List.length_replicate, hlen]
      congr 2
      push_cast
      omega

theorem intText_spec (z : Int) : (splitNum (intText z)).isSome = true ∧ numVal (intText z) = z := by
  have hx := fun neg => splitNum_form neg (f := []) (decText_digits z.natAbs) (intOk_decText _) (by simp) ExpOk_nil
  have hy := fun neg => numVal_form neg (f := []) (decText_digits z.natAbs) (intOk_decText _) (by simp) ExpOk_nil
  simp only [if_true, List.append_nil, digVal_decText] at hx hy
  have e1 : intText z = (if decide (z < 0) = true then ['-'] else []) ++ decText z.natAbs := by
    unfold intText
    by_cases h : z < 0 <;> simp [h]
  rw [e1, hx, hy]
  refine ⟨rfl, ?_⟩
  have : (z.natAbs : ℝ) = |(z : ℝ)| := by
    rw [← Int.cast_abs, ← Int.natCast_natAbs]
    simp
  rw [this]
  by_cases h : z < 0
  · rw [abs_of_neg (by exact_mod_cast h)]
    simp [h]
  · rw [abs_of_nonneg (by exact_mod_cast not_lt.1 h)]
    simp [h]

theorem roundEven_spec {x : ℝ} (hx : 0 ≤ x) : |(roundEven x : ℝ) - x| ≤ 1 / 2 ∧ ⌊x⌋₊ ≤ roundEven x ∧ roundEven x ≤ ⌊x⌋₊ + 1 := by
  have h1 := Nat.floor_le hx
  have h2 := Nat.lt_floor_add_one x
  unfold roundEven
  split
  · exact ⟨abs_le.2 ⟨by linarith, by linarith⟩, le_refl _, by omega⟩
  · split
    · push_cast
      exact ⟨abs_le.2 ⟨by linarith, by linarith⟩, by omega, le_refl _⟩
    · split
      · exact ⟨abs_le.2 ⟨by linarith, by linarith⟩, le_refl _, by omega⟩
      · push_cast
        exact ⟨abs_le.2 ⟨by linarith, by linarith⟩, by omega, le_refl _⟩

/-- The digits of `%g` are the nearest ones. -/
theorem gMant_spec {x : ℝ} (hx : 0 < x) :
    10 ^ 5 ≤ (gMant x).1 ∧ (gMant x).1 < 10 ^ 6 ∧
    |((gMant x).1 : ℝ) * (10 : ℝ) ^ ((gMant x).2 - 5) - x| ≤ (10 : ℝ) ^ (Int.log 10 x - 5) / 2 := by
  have h10 : (10 : ℝ) ≠ 0 := by norm_num
  have l1 : (10 : ℝ) ^ Int.log 10 x ≤ x := by exact_mod_cast Int.zpow_log_le_self (b := 10) (by norm_num) hx
  have l2 : x < (10 : ℝ) ^ (Int.log 10 x + 1) := by exact_mod_cast Int.lt_zpow_succ_log_self (b := 10) (by norm_num) x
  have hs : (0 : ℝ) < (10 : ℝ) ^ (Int.log 10 x - 5) := by exact zpow_pos (by norm_num) _
  have e1 : (10 : ℝ) ^ Int.log 10 x = 10 ^ 5 * (10 : ℝ) ^ (Int.log 10 x - 5) := by
    rw [show Int.log 10 x = 5 + (Int.log 10 x - 5) by ring, zpow_add₀ h10]
    norm_num
  have e2 : (10 : ℝ) ^ (Int.log 10 x + 1) = 10 ^ 6 * (10 : ℝ) ^ (Int.log 10 x - 5) := by
    rw [show Int.log 10 x + 1 = 6 + (Int.log 10 x - 5) by ring, zpow_add₀ h10]
    norm_num
  rw [e1] at l1
  rw [e2] at l2
  have q1 : (10 : ℝ) ^ 5 ≤ x / (10 : ℝ) ^ (Int.log 10 x - 5) := by rwa [le_div_iff₀ hs]
  have q2 : x / (10 : ℝ) ^ (Int.log 10 x - 5) < (10 : ℝ) ^ 6 := by rwa [div_lt_iff₀ hs]
  have q0 : 0 ≤ x / (10 : ℝ) ^ (Int.log 10 x - 5) := by positivity
  obtain ⟨r1, r2, r3⟩ := roundEven_spec q0
  have f1 : 10 ^ 5 ≤ ⌊x / (10 : ℝ) ^ (Int.log 10 x - 5)⌋₊ := Nat.le_floor (by exact_mod_cast q1)
  have f2 : ⌊x / (10 : ℝ) ^ (Int.log 10 x - 5)⌋₊ < 10 ^ 6 := by
    rw [Nat.floor_lt q0]
    exact_mod_cast q2
  have hdist : |(roundEven (x / (10 : ℝ) ^ (Int.log 10 x - 5)) : ℝ) * (10 : ℝ) ^ (Int.log 10 x - 5) - x| ≤ (10 : ℝ) ^ (Int.log 10 x - 5) / 2 := by
    have : (roundEven (x / (10 : ℝ) ^ (Int.log 10 x - 5)) : ℝ) * (10 : ℝ) ^ (Int.log 10 x - 5) - x =
        ((roundEven (x / (10 : ℝ) ^ (Int.log 10 x - 5)) : ℝ) - x / (10 : ℝ) ^ (Int.log 10 x - 5)) * (10 : ℝ) ^ (Int.log 10 x - 5) := by
      field_simp
    rw [this, abs_mul, abs_of_pos hs]
    have := mul_le_mul_of_nonneg_right r1 hs.le
    linarith
  unfold gMant
  dsimp only
  split
  · rename_i hm
    rw [hm] at hdist
    refine ⟨le_refl _, by norm_num, ?_⟩
    have : ((10 ^ 5 : Nat) : ℝ) * (10 : ℝ) ^ (Int.log 10 x + 1 - 5) = ((10 ^ 6 : Nat) : ℝ) * (10 : ℝ) ^ (Int.log 10 x - 5) := by
      rw [show Int.log 10 x + 1 - 5 = 1 + (Int.log 10 x - 5) by ring, zpow_add₀ h10]
      push_cast
      ring
    dsimp only
    rw [this]
    exact hdist
  · exact ⟨by omega, by omega, hdist⟩

/-- A finite number is written as a JSON number whose value has a relative error of at most 5e-6. -/
theorem floatText_spec (neg : Bool) {x : ℝ} (hx : 0 ≤ x) :
    (splitNum (floatText (.fin neg x))).isSome = true ∧
    |numVal (floatText (.fin neg x)) - (if neg then -x else x)| ≤ 5 / 10 ^ 6 * x := by
  have e1 : floatText (.fin neg x) = (if neg then ['-'] else []) ++ gText x := by
    cases neg <;> rfl
  rw [e1]
  unfold gText
  by_cases h0 : x = 0
  · have hx := splitNum_form neg (i := ['0']) (f := []) (by decide) rfl (by simp) ExpOk_nil
    have hy := numVal_form neg (i := ['0']) (f := []) (by decide) rfl (by simp) ExpOk_nil
    simp only [if_true, List.append_nil] at hx hy
    rw [if_pos h0, hx, hy, h0]
    refine ⟨rfl, ?_⟩
    have : digVal ['0'] = 0 := rfl
    rw [this]
    simp
  · have hpos : 0 < x := lt_of_le_of_ne hx (Ne.symm h0)
    obtain ⟨m1, m2, m3⟩ := gMant_spec hpos
    obtain ⟨b1, b2⟩ := gBody_spec neg m1 m2 (gMant x).2
    rw [if_neg h0]
    refine ⟨b1, ?_⟩
    rw [b2]
    have l1 : (10 : ℝ) ^ Int.log 10 x ≤ x := by exact_mod_cast Int.zpow_log_le_self (b := 10) (by norm_num) hpos
    have e2 : (10 : ℝ) ^ Int.log 10 x = 10 ^ 5 * (10 : ℝ) ^ (Int.log 10 x - 5) := by
      rw [show Int.log 10 x = 5 + (Int.log 10 x - 5) by ring, zpow_add₀ (by norm_num)]
      norm_num
    have hle : (10 : ℝ) ^ (Int.log 10 x - 5) / 2 ≤ 5 / 10 ^ 6 * x := by
      rw [e2] at l1
      linarith
    refine le_trans (le_of_eq ?_) (m3.trans hle)
    cases neg
    · simp
    · simp only [if_true]
      rw [← abs_neg]
      congr 1
      ring

end BeeDNN.J
