import Verif.Lemmas.Json

/-!
# The JSON writer (JsonFile.cpp)
-/

namespace BeeDNN
open J

/-- C77: every properly nested sequence of calls (a list of trees) with clean names and strings and finite numbers runs without exception,
and the text is a JSON object whose members are those of the call tree, in order: strings and booleans equal, integers with equal value,
floats with a relative error of at most 5e-6 (six significant digits are written).
Missing: numbers that are not finite (`C77_not_finite`). -/
theorem C77_wellformed_partial (cs : List Node) (h : okAll cs) :
    ∃ w l, runCalls (callsAll cs) Writer.clear = .ok w ∧ parse w.toText = some (.obj l) ∧ allIs cs l := by
  obtain ⟨p, hp⟩ := run_clear cs
  refine ⟨_, jsonAll cs, hp, ?_, allIs_json cs h⟩
  have := pValue_top h (T := []) (by simp [Tail]) (n := (Node.vtext 0 (.sect [] cs)).length + 1) (by omega)
  rw [List.append_nil] at this
  rw [toText_eq]
  unfold parse
  rw [this]
  rfl

/-- C77: the digits that are written are the nearest ones; in the middle between two, the last one written is even. -/
theorem C77_ties (n : Nat) : roundEven (n + 1 / 2) % 2 = 0 ∧ |(roundEven (n + 1 / 2) : ℝ) - (n + 1 / 2)| = 1 / 2 := by
  have h : ⌊(n : ℝ) + 1 / 2⌋₊ = n := by
    rw [Nat.floor_eq_iff (by positivity)]
    constructor <;> linarith
  unfold roundEven
  rw [h, if_neg (by simp), if_neg (by simp)]
  split
  · refine ⟨by assumption, ?_⟩
    rw [sub_add_cancel_left, abs_neg]
    norm_num
  · refine ⟨by omega, ?_⟩
    push_cast
    rw [add_sub_add_left_eq_sub]
    norm_num

/-- C77: the sections are balanced, so that a further call adds at the top level. -/
theorem C77_balanced (cs ds : List Node) :
    (runCalls (callsAll cs) Writer.clear >>= fun w => runCalls (callsAll ds) w) = runCalls (callsAll (cs ++ ds)) Writer.clear := by
  rw [← runCalls_append]
  congr 1
  induction cs with
  | nil => rfl
  | cons c cs ih => rw [List.cons_append, callsAll, callsAll, List.append_assoc, ih]

/-- C77 as claimed fails for numbers that are not finite: a NaN or an infinity makes the text invalid. -/
theorem C77_not_finite {k : Text} (hk : Clean k) (x : FloatVal) (hx : ∀ neg mag, x ≠ .fin neg mag) :
    ∃ w, runCalls [.float k x] Writer.clear = .ok w ∧ parse w.toText = none := by
  have hc : okAll [.leaf k (.bool true)] := ⟨⟨hk, trivial⟩, trivial⟩
  refine ⟨_, rfl, ?_⟩
  obtain ⟨c, r, hcr, hs, hq⟩ : ∃ c r, floatText x ++ ['\n', '}'] = c :: r ∧ isSp c = false ∧ ∀ n, pValue n (c :: r) = none := by
    cases x with
    | fin neg mag => exact absurd rfl (hx neg mag)
    | inf neg =>
      cases neg
      · exact ⟨_, _, rfl, by decide, fun n => by cases n <;> rfl⟩
      · exact ⟨_, _, rfl, by decide, fun n => by cases n <;> rfl⟩
    | nan neg =>
      cases neg
      · exact ⟨_, _, rfl, by decide, fun n => by cases n <;> rfl⟩
      · exact ⟨_, _, rfl, by decide, fun n => by cases n <;> rfl⟩
  exact parse_single_none hk (by rw [hcr]; exact hq)

/-- C78: writing a string value `v` gives a JSON text with that value exactly when `v` is free of quotes, backslashes and control characters. -/
theorem C78_string_partial {k : Text} (hk : Clean k) (v : Text) :
    ∃ w, runCalls [.str k v] Writer.clear = .ok w ∧ (parse w.toText = some (.obj [(k, .str v)]) ↔ Clean v) := by
  refine ⟨_, rfl, fun h => ?_, fun h => ?_⟩
  · exact parse_single_str hk h
  · obtain ⟨w, l, h1, h2, h3⟩ := C77_wellformed_partial [.leaf k (.str v)] ⟨⟨hk, h⟩, trivial⟩
    injection h1 with h1
    subst h1
    rw [h2]
    match l, h3 with
    | [(a, .str s)], ⟨⟨ha, hs⟩, _⟩ =>
      have ha' : a = k := ha
      have hs' : s = v := hs
      rw [ha', hs']
    | [(a, .num s)], ⟨⟨_, hs⟩, _⟩ => exact hs.elim
    | [(a, .null)], ⟨⟨_, hs⟩, _⟩ => exact hs.elim
    | [(a, .bool _)], ⟨⟨_, hs⟩, _⟩ => exact hs.elim
    | [(a, .arr _)], ⟨⟨_, hs⟩, _⟩ => exact hs.elim
    | [(a, .obj _)], ⟨⟨_, hs⟩, _⟩ => exact hs.elim

/-- C78 as claimed fails: a quote ends the value, what follows is read as further members.
Here the value `u","k':"v` (one string for the caller) becomes the two members `k: u` and `k': v`. -/
theorem C78_injection {k k' u v : Text} (hk : Clean k) (hk' : Clean k') (hu : Clean u) (hv : Clean v) :
    ∃ w, runCalls [.str k (u ++ ('"' :: ',' :: '"' :: k' ++ ('"' :: ':' :: '"' :: v)))] Writer.clear = .ok w ∧
      parse w.toText = some (.obj [(k, .str u), (k', .str v)]) := by
  refine ⟨_, rfl, ?_⟩
  obtain ⟨N, hN, h⟩ := parse_single hk ('"' :: (u ++ ('"' :: ',' :: '"' :: k' ++ ('"' :: ':' :: '"' :: v))) ++ ['"'])
  obtain ⟨n, rfl⟩ : ∃ n, N = n + 2 := ⟨N - 2, by omega⟩
  have e : '"' :: (u ++ ('"' :: ',' :: '"' :: k' ++ ('"' :: ':' :: '"' :: v))) ++ ['"'] ++ ['\n', '}'] =
      '"' :: (u ++ '"' :: ',' :: '"' :: (k' ++ '"' :: ':' :: '"' :: (v ++ '"' :: ['\n', '}']))) := by simp
  have h2 : pMembers (n + 2) ('"' :: (k' ++ '"' :: ':' :: '"' :: (v ++ '"' :: ['\n', '}']))) = some ([(k', .str v)], []) := by
    rw [pMembers, ws_cons (by decide)]
    have e2 : pString (k' ++ '"' :: ':' :: '"' :: (v ++ '"' :: ['\n', '}'])) = some (k', ':' :: '"' :: (v ++ '"' :: ['\n', '}'])) := pString_clean hk' _
    simp only [e2, Option.bind_eq_bind, Option.bind_some, ws_cons (show isSp ':' = false by decide), pValue_str, pString_clean hv]
    rfl
  rw [e, pValue_str, pString_clean hu] at h
  refine h.trans ?_
  simp only [Option.map_some, Option.bind_some, afterMember, ws_cons (show isSp ',' = false by decide), h2, Option.bind_eq_bind]
  rfl

/-- C78: one `leave_section` more than sections were entered does not fail, but the text is no JSON; a second one throws. -/
theorem C78_leave (cs : List Node) (h : okAll cs) :
    (∃ w, runCalls (callsAll cs ++ [.leave]) Writer.clear = .ok w ∧ parse w.toText = none) ∧
    runCalls (callsAll cs ++ [.leave, .leave]) Writer.clear = .error .exception := by
  obtain ⟨p, hp⟩ := run_clear cs
  constructor
  · refine ⟨⟨true, [], renderAll 4 false cs ++ ['\n', '}']⟩, ?_, ?_⟩
    · rw [runCalls_append, hp]
      rfl
    · have e : (Writer.mk true [] (renderAll 4 false cs ++ ['\n', '}'])).toText = Node.vtext 0 (.sect [] cs) ++ ['\n', '}'] := by
        simp [Writer.toText, Node.vtext, sp]
      rw [e]
      unfold parse
      rw [pValue_top h (Tail_cons (by decide)) (by simp; omega)]
      rfl
  · rw [runCalls_append, hp]
    rfl

/-- Nested sections with every kind of value. -/
example : okAll [.leaf "a".toList (.int (-3)), .sect "s".toList [.leaf "x".toList (.float (.fin true 1.5)), .sect "e".toList [],
    .leaf "w".toList (.array [.fin false 0, .fin false 1e-9])], .leaf "b".toList (.bool true), .leaf "t".toList (.str "hello".toList)] := by
  refine ⟨⟨by unfold Clean; decide, trivial⟩, ⟨by unfold Clean; decide, ⟨by unfold Clean; decide, ?_⟩, ⟨by unfold Clean; decide, trivial⟩, ⟨by unfold Clean; decide, ?_⟩, trivial⟩,
    ⟨by unfold Clean; decide, trivial⟩, ⟨by unfold Clean; decide, by unfold Leaf.Ok Clean; decide⟩, trivial⟩
  · norm_num [Leaf.Ok, FloatVal.Finite]
  · intro x hx
    simp at hx
    rcases hx with rfl | rfl <;> norm_num [FloatVal.Finite]

end BeeDNN
