import Verif.Spec.JsonTree
import Verif.Lemmas.JsonNum
import Verif.Lemmas.Core

/-! # Helper lemmas: the JSON writer and the parser -/

namespace BeeDNN.J

/-! ## Exact text and value of a tree -/

/-- Comma separated. -/
noncomputable def commaText : List FloatVal → Text
  | [] => []
  | [x] => floatText x
  | x :: y :: l => floatText x ++ ',' :: commaText (y :: l)

noncomputable def Leaf.text : Leaf → Text
  | .str v => '"' :: v ++ ['"']
  | .int z => intText z
  | .float x => floatText x
  | .bool b => if b then ['t', 'r', 'u', 'e'] else ['f', 'a', 'l', 's', 'e']
  | .array xs => '[' :: commaText xs ++ [']']

noncomputable def Leaf.json : Leaf → Json
  | .str v => .str v
  | .int z => .num (intText z)
  | .float x => .num (floatText x)
  | .bool b => .bool b
  | .array xs => .arr (xs.map fun x => .num (floatText x))

def sp (k : Nat) : Text := List.replicate k ' '

mutual
noncomputable def Node.vtext (k : Nat) : Node → Text
  | .leaf _ v => v.text
  | .sect _ cs => '{' :: (renderAll (k + 4) false cs ++ ('\n' :: sp k ++ ['}']))
noncomputable def Node.render (k : Nat) : Node → Text
  | .leaf key v => '\n' :: sp k ++ '"' :: key ++ '"' :: ':' :: v.text
  | .sect key cs => '\n' :: sp k ++ '"' :: key ++ '"' :: ':' :: '{' :: (renderAll (k + 4) false cs ++ ('\n' :: sp k ++ ['}']))
noncomputable def renderAll (k : Nat) : Bool → List Node → Text
  | _, [] => []
  | p, n :: ns => (if p then [','] else []) ++ (n.render k ++ renderAll k true ns)
end

def Node.key : Node → Text
  | .leaf k _ => k
  | .sect k _ => k

theorem Node.render_eq (k : Nat) (n : Node) : n.render k = '\n' :: sp k ++ '"' :: n.key ++ '"' :: ':' :: n.vtext k := by
  cases n <;> simp [Node.render, Node.vtext, Node.key]

mutual
noncomputable def Node.json : Node → Json
  | .leaf _ v => v.json
  | .sect _ cs => .obj (jsonAll cs)
noncomputable def jsonAll : List Node → List (Text × Json)
  | [] => []
  | n :: ns => (n.key, n.json) :: jsonAll ns
end

/-! ## The writer -/

theorem commaText_fold (xs : List FloatVal) :
    (List.range xs.length).foldl (fun ss i =>
      let ss := ss ++ floatText (xs.getD i (.nan false))
      if i ≠ xs.length - 1 then ss ++ [','] else ss) [] = commaText xs := by
  have key : ∀ (xs pre : List FloatVal) (acc : Text),
      (List.range' pre.length xs.length).foldl (fun ss i =>
        let ss := ss ++ floatText ((pre ++ xs).getD i (.nan false))
        if i ≠ (pre ++ xs).length - 1 then ss ++ [','] else ss) acc = acc ++ commaText xs := by
    intro xs
    induction xs with
    | nil => intro pre acc; simp [commaText]
    | cons x xs ih =>
      intro pre acc
      rw [List.length_cons, List.range'_succ, List.foldl_cons]
      have h1 : (pre ++ x :: xs).getD pre.length (.nan false) = x := by simp
      have h2 : pre ++ x :: xs = (pre ++ [x]) ++ xs := by simp
      dsimp only
      rw [h1]
      have := ih (pre ++ [x]) (if pre.length ≠ (pre ++ x :: xs).length - 1 then acc ++ floatText x ++ [','] else acc ++ floatText x)
      rw [show (pre ++ [x]).length = pre.length + 1 by simp, ← h2] at this
      dsimp only at this
      rw [this]
      cases xs with
      | nil => simp [commaText]
      | cons y l => simp [commaText]
  have := key xs [] []
  simpa [List.range_eq_range'] using this

theorem addArray_eq (w : Writer) (k : Text) (xs : List FloatVal) : w.addArray k xs = w.addString k ((Leaf.array xs).text) := by
  unfold Writer.addArray
  dsimp only
  rw [commaText_fold]
  rfl

theorem Leaf.call_run (w : Writer) (k : Text) (v : Leaf) : (v.call k).run w = .ok (w.addString k v.text) := by
  cases v with
  | array xs => exact congrArg _ (addArray_eq w k xs)
  | _ => rfl

theorem runCalls_append (a b : List Call) (w : Writer) : runCalls (a ++ b) w = (runCalls a w >>= fun w => runCalls b w) := by
  induction a generalizing w with
  | nil => rfl
  | cons c a ih =>
    rw [List.cons_append, runCalls, runCalls]
    cases c.run w with
    | error e => rfl
    | ok w => exact ih w

theorem sp_add (k : Nat) : sp k ++ [' ', ' ', ' ', ' '] = sp (k + 4) := by
  unfold sp
  rw [List.replicate_add]
  rfl

mutual
theorem Node.run_calls (k : Nat) (p : Bool) (out : Text) : ∀ n : Node,
    runCalls n.calls ⟨p, sp k, out⟩ = .ok ⟨true, sp k, out ++ ((if p then [','] else []) ++ n.render k)⟩
  | .leaf key v => by
    rw [Node.calls, runCalls, Leaf.call_run]
    show Except.ok _ = _
    simp only [Writer.addString, Node.render]
    cases p <;> simp
  | .sect key cs => by
    rw [Node.calls, runCalls]
    show runCalls (callsAll cs ++ [.leave]) (Writer.enter ⟨p, sp k, out⟩ key) = _
    unfold Writer.enter
    dsimp only
    rw [runCalls_append, sp_add, run_callsAll (k + 4) false _ cs, bind_ok', runCalls]
    simp only [Call.run, Writer.leave]
    have h4 : ¬ (sp (k + 4)).length < 4 := by simp [sp]
    have hd : (sp (k + 4)).drop 4 = sp k := by simp [sp]
    rw [if_neg h4, hd]
    show Except.ok _ = _
    simp only [Node.render]
    cases p <;> simp
theorem run_callsAll (k : Nat) (p : Bool) (out : Text) : ∀ cs : List Node,
    runCalls (callsAll cs) ⟨p, sp k, out⟩ = .ok ⟨p || !cs.isEmpty, sp k, out ++ renderAll k p cs⟩
  | [] => by simp [callsAll, runCalls, renderAll]
  | n :: ns => by
    rw [callsAll, runCalls_append, Node.run_calls k p out n]
    show runCalls (callsAll ns) _ = _
    rw [run_callsAll k true _ ns, renderAll]
    simp
end

/-! ## The parser -/

theorem ws_cons {c : Char} (h : isSp c = false) (t : Text) : ws (c :: t) = c :: t := by simp [ws, h]

theorem ws_sp (k : Nat) (t : Text) : ws (sp k ++ t) = ws t := by
  induction k with
  | zero => rfl
  | succ k ih =>
    unfold sp at *
    rw [List.replicate_succ, List.cons_append]
    unfold ws at *
    rw [List.dropWhile_cons_of_pos (by decide), ih]

theorem ws_nl (t : Text) : ws ('\n' :: t) = ws t := by
  unfold ws
  rw [List.dropWhile_cons_of_pos (by decide)]

theorem pString_clean {v : Text} (hv : Clean v) (t : Text) : pString (v ++ '"' :: t) = some (v, t) := by
  induction v with
  | nil =>
    unfold pString
    simp
  | cons c v ih =>
    obtain ⟨h1, h2, h3⟩ := hv c (by simp)
    rw [List.cons_append]
    unfold pString
    rw [if_neg h1, if_neg h2, if_neg h3, ih fun c hc => hv c (by simp [hc])]
    rfl

theorem isDigit_isNumChar {c : Char} (h : c.isDigit = true) : isNumChar c = true := by simp [isNumChar, h]

theorem isDigits_numChar {t : Text} (h : isDigits t = true) : ∀ c ∈ t, isNumChar c = true := by
  simp only [isDigits, Bool.and_eq_true, List.all_eq_true] at h
  exact fun c hc => isDigit_isNumChar (h.2 c hc)

theorem splitExp_numChar {t : Text} (h : (splitExp t).isSome = true) : ∀ c ∈ t, isNumChar c = true := by
  unfold splitExp at h
  split at h
  · simp
  · split at h
    · rename_i c r hc
      have hc' : isNumChar c = true := by
        rcases hc with rfl | rfl <;> decide
      intro d hd
      rcases List.mem_cons.1 hd with rfl | hd
      · exact hc'
      · split at h <;> split at h
        · rename_i hs
          rcases List.mem_cons.1 hd with rfl | hd
          · decide
          · exact isDigits_numChar hs d hd
        · simp at h
        · rename_i hs
          rcases List.mem_cons.1 hd with rfl | hd
          · decide
          · exact isDigits_numChar hs d hd
        · simp at h
        · rename_i hs
          exact isDigits_numChar hs d hd
        · simp at h
    · simp at h

theorem takeWhile_numChar {t : Text} : ∀ c ∈ t.takeWhile Char.isDigit, isNumChar c = true :=
  fun c hc => isDigit_isNumChar (List.mem_takeWhile_imp hc)

theorem splitFrac_numChar {t : Text} (h : (splitFrac t).isSome = true) : ∀ c ∈ t, isNumChar c = true := by
  unfold splitFrac at h
  split at h
  · rename_i r
    split at h
    · simp at h
    · rw [Option.isSome_map] at h
      intro c hc
      rcases List.mem_cons.1 hc with rfl | hc
      · decide
      · rw [← List.takeWhile_append_dropWhile (p := Char.isDigit) (l := r)] at hc
        rcases List.mem_append.1 hc with hc | hc
        · exact takeWhile_numChar c hc
        · exact splitExp_numChar h c hc
  · rw [Option.isSome_map] at h
    exact splitExp_numChar h

theorem splitNum_numChar {t : Text} (h : (splitNum t).isSome = true) :
    (∀ c ∈ t, isNumChar c = true) ∧ ∃ c r, t = c :: r ∧ (c = '-' ∨ c.isDigit = true) := by
  have key : ∀ t : Text, intOk (t.takeWhile Char.isDigit) = true → (splitFrac (t.dropWhile Char.isDigit)).isSome = true →
      (∀ c ∈ t, isNumChar c = true) ∧ ∃ c r, t = c :: r ∧ c.isDigit = true := by
    intro t h1 h2
    constructor
    · intro c hc
      rw [← List.takeWhile_append_dropWhile (p := Char.isDigit) (l := t)] at hc
      rcases List.mem_append.1 hc with hc | hc
      · exact takeWhile_numChar c hc
      · exact splitFrac_numChar h2 c hc
    · cases t with
      | nil => simp [intOk] at h1
      | cons c r =>
        refine ⟨c, r, rfl, ?_⟩
        by_contra hc
        rw [List.takeWhile_cons_of_neg hc] at h1
        simp [intOk] at h1
  unfold splitNum at h
  dsimp only at h
  by_cases hn : (t.head? == some '-') = true
  · rw [if_pos hn] at h
    split at h
    · rename_i hi
      rw [Option.isSome_map] at h
      cases t with
      | nil => simp at hn
      | cons c r =>
        have hc : c = '-' := by simpa using hn
        obtain ⟨k1, -⟩ := key r hi h
        refine ⟨fun d hd => ?_, c, r, rfl, Or.inl hc⟩
        rcases List.mem_cons.1 hd with rfl | hd
        · rw [hc]; decide
        · exact k1 d hd
    · simp at h
  · rw [if_neg hn] at h
    split at h
    · rename_i hi
      rw [Option.isSome_map] at h
      obtain ⟨k1, c, r, k2, k3⟩ := key t hi h
      exact ⟨k1, c, r, k2, Or.inr k3⟩
    · simp at h

/-- What may follow a value. -/
def Tail (T : Text) : Prop := ∀ c, T.head? = some c → isNumChar c = false

theorem pNumber_eq {t T : Text} (h : (splitNum t).isSome = true) (hT : Tail T) : pNumber (t ++ T) = some (.num t, T) := by
  obtain ⟨h1, -⟩ := splitNum_numChar h
  have e1 : (t ++ T).takeWhile isNumChar = t := by
    rw [List.takeWhile_append_of_pos h1]
    cases T with
    | nil => simp
    | cons c r => simp [hT c rfl]
  have e2 : (t ++ T).dropWhile isNumChar = T := by
    rw [List.dropWhile_append_of_pos h1]
    cases T with
    | nil => simp
    | cons c r => simp [hT c rfl]
  unfold pNumber
  rw [e1, e2, if_pos h]

theorem pValue_start {c : Char} (hc : c = '-' ∨ c.isDigit = true) (n : Nat) (r : Text) : pValue (n + 1) (c :: r) = pNumber (c :: r) := by
  have hs : isSp c = false := by
    unfold isSp
    simp only [Bool.or_eq_false_iff, beq_eq_false_iff_ne]
    refine ⟨⟨⟨?_, ?_⟩, ?_⟩, ?_⟩ <;> rintro rfl <;> revert hc <;> decide
  rw [pValue, ws_cons hs]
  split
  · rename_i h; injection h with h _; subst h; exact absurd hc (by decide)
  · rename_i h; injection h with h _; subst h; exact absurd hc (by decide)
  · rename_i h; injection h with h _; subst h; exact absurd hc (by decide)
  · rename_i h; injection h with h _; subst h; exact absurd hc (by decide)
  · rename_i h; injection h with h _; subst h; exact absurd hc (by decide)
  · rename_i h; injection h with h _; subst h; exact absurd hc (by decide)
  · rfl

theorem pValue_num {t T : Text} (h : (splitNum t).isSome = true) (hT : Tail T) (n : Nat) : pValue (n + 1) (t ++ T) = some (.num t, T) := by
  obtain ⟨-, c, r, rfl, hc⟩ := splitNum_numChar h
  rw [List.cons_append, pValue_start hc, ← List.cons_append, pNumber_eq h hT]

theorem floatText_some {x : FloatVal} (hx : x.Finite) : (splitNum (floatText x)).isSome = true := by
  cases x with
  | fin neg x => exact (floatText_spec neg hx).1
  | inf => exact hx.elim
  | nan => exact hx.elim

theorem Tail_cons {c : Char} {t : Text} (h : isNumChar c = false) : Tail (c :: t) := by
  intro d hd
  simp at hd
  subst hd
  exact h

theorem pItems_eq {T : Text} : ∀ (xs : List FloatVal), xs ≠ [] → (∀ x ∈ xs, x.Finite) → ∀ n, xs.length + 1 ≤ n →
    pItems n (commaText xs ++ ']' :: T) = some (xs.map (fun x => .num (floatText x)), T)
  | [], h, _, _, _ => absurd rfl h
  | [x], _, hx, n, hn => by
    obtain ⟨n, rfl⟩ : ∃ k, n = k + 2 := ⟨n - 2, by simp at hn; omega⟩
    rw [pItems, commaText, pValue_num (floatText_some (hx x (by simp))) (Tail_cons (by decide))]
    simp only [Option.bind_eq_bind, Option.bind_some]
    rw [ws_cons (by decide)]
    rfl
  | x :: y :: l, _, hx, n, hn => by
    obtain ⟨n, rfl⟩ : ∃ k, n = k + 2 := ⟨n - 2, by simp at hn; omega⟩
    rw [pItems, commaText, List.append_assoc, List.cons_append, pValue_num (floatText_some (hx x (by simp))) (Tail_cons (by decide))]
    simp only [Option.bind_eq_bind, Option.bind_some]
    rw [ws_cons (by decide)]
    show ((pItems (n + 1) (commaText (y :: l) ++ ']' :: T)).bind fun l => some _) = _
    rw [pItems_eq (y :: l) (by simp) (fun z hz => hx z (by simp [hz])) (n + 1) (by simp at hn ⊢; omega)]
    rfl

theorem commaText_head {xs : List FloatVal} (h : xs ≠ []) (hx : ∀ x ∈ xs, x.Finite) (T : Text) :
    ∃ c r, commaText xs ++ T = c :: r ∧ (c = '-' ∨ c.isDigit = true) := by
  cases xs with
  | nil => exact absurd rfl h
  | cons x l =>
    obtain ⟨-, c, r, h1, h2⟩ := splitNum_numChar (floatText_some (hx x (by simp)))
    cases l with
    | nil => exact ⟨c, r ++ T, by rw [commaText, h1]; rfl, h2⟩
    | cons y l => exact ⟨c, _, by rw [commaText, h1]; rfl, h2⟩

theorem pValue_obj_empty {r T : Text} (h : ws r = '}' :: T) (n : Nat) : pValue (n + 1) ('{' :: r) = some (.obj [], T) := by
  rw [pValue, ws_cons (by decide)]
  show (match ws r with | '}' :: r => some (Json.obj [], r) | r => Option.map (fun p : List (Text × Json) × Text => (Json.obj p.1, p.2)) (pMembers n r)) = _
  rw [h]
  rfl

theorem pValue_obj {r q : Text} (h : ws r = '"' :: q) (n : Nat) :
    pValue (n + 1) ('{' :: r) = (pMembers n ('"' :: q)).map (fun p => (.obj p.1, p.2)) := by
  rw [pValue, ws_cons (by decide)]
  show (match ws r with | '}' :: r => some (Json.obj [], r) | r => Option.map (fun p : List (Text × Json) × Text => (Json.obj p.1, p.2)) (pMembers n r)) = _
  rw [h]
  rfl

theorem pValue_arr_empty {r T : Text} (h : ws r = ']' :: T) (n : Nat) : pValue (n + 1) ('[' :: r) = some (.arr [], T) := by
  rw [pValue, ws_cons (by decide)]
  show (match ws r with | ']' :: r => some (Json.arr [], r) | r => Option.map (fun p : List Json × Text => (Json.arr p.1, p.2)) (pItems n r)) = _
  rw [h]
  rfl

theorem pValue_arr {r q : Text} {c : Char} (h : ws r = c :: q) (hc : c ≠ ']') (n : Nat) :
    pValue (n + 1) ('[' :: r) = (pItems n (c :: q)).map (fun p => (.arr p.1, p.2)) := by
  rw [pValue, ws_cons (by decide)]
  show (match ws r with | ']' :: r => some (Json.arr [], r) | r => Option.map (fun p : List Json × Text => (Json.arr p.1, p.2)) (pItems n r)) = _
  rw [h]
  split
  · rename_i h
    injection h with h _
    exact absurd h hc
  · rfl

def Leaf.size : Leaf → Nat
  | .array xs => xs.length + 2
  | _ => 1

theorem pValue_leaf (v : Leaf) (hv : v.Ok) {T : Text} (hT : Tail T) : ∀ n, v.size ≤ n → pValue n (v.text ++ T) = some (v.json, T) := by
  intro n hn
  obtain ⟨n, rfl⟩ : ∃ k, n = k + 1 := ⟨n - 1, by cases v <;> simp [Leaf.size] at hn <;> omega⟩
  cases v with
  | str v =>
    rw [pValue]
    have : (Leaf.str v).text ++ T = '"' :: (v ++ '"' :: T) := by simp [Leaf.text]
    rw [this, ws_cons (by decide)]
    show (pString (v ++ '"' :: T)).map _ = _
    rw [pString_clean hv]
    rfl
  | int z => exact pValue_num (intText_spec z).1 hT n
  | float x => exact pValue_num (floatText_some hv) hT n
  | bool b =>
    rw [pValue]
    cases b
    · have : (Leaf.bool false).text ++ T = 'f' :: 'a' :: 'l' :: 's' :: 'e' :: T := rfl
      rw [this, ws_cons (by decide)]
      rfl
    · have : (Leaf.bool true).text ++ T = 't' :: 'r' :: 'u' :: 'e' :: T := rfl
      rw [this, ws_cons (by decide)]
      rfl
  | array xs =>
    have : (Leaf.array xs).text ++ T = '[' :: (commaText xs ++ ']' :: T) := by simp [Leaf.text]
    rw [this]
    by_cases h : xs = []
    · subst h
      rw [commaText, List.nil_append, pValue_arr_empty (ws_cons (by decide) _)]
      rfl
    · have hp := pItems_eq (T := T) xs h hv n (by simpa [Leaf.size] using hn)
      obtain ⟨c, r, h1, h2⟩ := commaText_head h hv (']' :: T)
      rw [h1] at hp ⊢
      have hs : isSp c = false := by
        unfold isSp
        simp only [Bool.or_eq_false_iff, beq_eq_false_iff_ne]
        refine ⟨⟨⟨?_, ?_⟩, ?_⟩, ?_⟩ <;> rintro rfl <;> revert h2 <;> decide
      rw [pValue_arr (ws_cons hs r) (by rintro rfl; exact absurd h2 (by decide)), hp]
      rfl

mutual
def Node.size : Node → Nat
  | .leaf _ v => v.size
  | .sect _ cs => 1 + sizeAll cs
def sizeAll : List Node → Nat
  | [] => 0
  | n :: ns => 1 + n.size + sizeAll ns
end

theorem sp_quote (k : Nat) (key T : Text) : ws ('\n' :: sp k ++ '"' :: key ++ T) = '"' :: (key ++ T) := by
  rw [List.append_assoc, List.cons_append, List.cons_append, ws_nl, ws_sp, ws_cons (by decide)]

mutual
theorem pValue_node (k : Nat) : ∀ (nd : Node), nd.Ok → ∀ {T : Text}, Tail T → ∀ n, nd.size ≤ n → pValue n (nd.vtext k ++ T) = some (nd.json, T)
  | .leaf key v, h, T, hT, n, hn => pValue_leaf v h.2 hT n hn
  | .sect key [], h, T, hT, n, hn => by
    obtain ⟨n, rfl⟩ : ∃ k, n = k + 1 := ⟨n - 1, by simp [Node.size] at hn; omega⟩
    rw [Node.vtext, List.cons_append]
    have : renderAll (k + 4) false [] ++ ('\n' :: sp k ++ ['}']) ++ T = '\n' :: (sp k ++ '}' :: T) := by simp [renderAll]
    rw [this, pValue_obj_empty (T := T) (by rw [ws_nl, ws_sp, ws_cons (by decide)])]
    rfl
  | .sect key (c :: cs), h, T, hT, n, hn => by
    obtain ⟨n, rfl⟩ : ∃ k, n = k + 1 := ⟨n - 1, by simp [Node.size] at hn; omega⟩
    rw [Node.vtext, List.cons_append]
    have hp := pMembers_all (k + 4) c cs h.2 (T := '\n' :: sp k ++ '}' :: T) (rest := T)
      (by rw [List.cons_append, ws_nl, ws_sp, ws_cons (by decide)]) (by exact Tail_cons (by decide)) n (by simp [Node.size] at hn; omega)
    have e1 : renderAll (k + 4) false (c :: cs) ++ ('\n' :: sp k ++ ['}']) ++ T = renderAll (k + 4) false (c :: cs) ++ ('\n' :: sp k ++ '}' :: T) := by simp
    rw [e1]
    obtain ⟨X, hX⟩ : ∃ X, renderAll (k + 4) false (c :: cs) ++ ('\n' :: sp k ++ '}' :: T) = '\n' :: sp (k + 4) ++ '"' :: c.key ++ X := by
      rw [renderAll, Node.render_eq]
      exact ⟨_, by simp; rfl⟩
    rw [hX] at hp ⊢
    have hp' : pMembers n ('"' :: (c.key ++ X)) = some (jsonAll (c :: cs), T) := by
      obtain ⟨n, rfl⟩ : ∃ k, n = k + 1 := ⟨n - 1, by simp [Node.size, sizeAll] at hn; omega⟩
      rw [pMembers] at hp ⊢
      rw [sp_quote] at hp
      rw [ws_cons (by decide)]
      exact hp
    rw [pValue_obj (sp_quote _ _ _), hp']
    rfl
theorem pMembers_all (k : Nat) : ∀ (c : Node) (cs : List Node), okAll (c :: cs) → ∀ {T rest : Text}, ws T = '}' :: rest → Tail T →
    ∀ n, sizeAll (c :: cs) ≤ n → pMembers n (renderAll k false (c :: cs) ++ T) = some (jsonAll (c :: cs), rest)
  | c, [], h, T, rest, hw, hT, n, hn => by
    obtain ⟨n, rfl⟩ : ∃ k, n = k + 1 := ⟨n - 1, by simp [sizeAll] at hn; omega⟩
    have hk : Clean c.key := by
      have := h.1
      cases c <;> exact this.1
    have e1 : renderAll k false [c] ++ T = '\n' :: sp k ++ '"' :: c.key ++ ('"' :: ':' :: (c.vtext k ++ T)) := by
      rw [renderAll, renderAll, Node.render_eq]
      simp
    rw [pMembers, e1, sp_quote]
    show ((pString (c.key ++ '"' :: ':' :: (c.vtext k ++ T))).bind _) = _
    rw [pString_clean hk]
    simp only [Option.bind_eq_bind, Option.bind_some]
    rw [ws_cons (by decide)]
    show ((pValue n (c.vtext k ++ T)).bind _) = _
    rw [pValue_node k c h.1 hT n (by simp [sizeAll] at hn; omega)]
    simp only [Option.bind_some]
    rw [hw]
    rfl
  | c, d :: ds, h, T, rest, hw, hT, n, hn => by
    obtain ⟨n, rfl⟩ : ∃ k, n = k + 1 := ⟨n - 1, by simp [sizeAll] at hn; omega⟩
    have hk : Clean c.key := by
      have := h.1
      cases c <;> exact this.1
    have e1 : renderAll k false (c :: d :: ds) ++ T = '\n' :: sp k ++ '"' :: c.key ++ ('"' :: ':' :: (c.vtext k ++ ',' :: (renderAll k false (d :: ds) ++ T))) := by
      rw [renderAll, renderAll, Node.render_eq]
      simp [renderAll]
    rw [pMembers, e1, sp_quote]
    show ((pString (c.key ++ '"' :: ':' :: (c.vtext k ++ ',' :: (renderAll k false (d :: ds) ++ T)))).bind _) = _
    rw [pString_clean hk]
    simp only [Option.bind_eq_bind, Option.bind_some]
    rw [ws_cons (by decide)]
    show ((pValue n (c.vtext k ++ ',' :: (renderAll k false (d :: ds) ++ T))).bind _) = _
    rw [pValue_node k c h.1 (Tail_cons (by decide)) n (by simp [sizeAll] at hn; omega)]
    simp only [Option.bind_eq_bind, Option.bind_some]
    rw [ws_cons (by decide)]
    show ((pMembers n (renderAll k false (d :: ds) ++ T)).bind _) = _
    rw [pMembers_all k d ds h.2 hw hT n (by simp [sizeAll] at hn ⊢; omega)]
    rfl
end

/-! ## Fuel -/

theorem commaText_length : ∀ {xs : List FloatVal}, (∀ x ∈ xs, x.Finite) → 2 * xs.length ≤ (commaText xs).length + 1
  | [], _ => by simp
  | [x], h => by
    obtain ⟨-, c, r, h1, -⟩ := splitNum_numChar (floatText_some (h x (by simp)))
    rw [commaText, h1]
    simp
  | x :: y :: l, h => by
    obtain ⟨-, c, r, h1, -⟩ := splitNum_numChar (floatText_some (h x (by simp)))
    have := commaText_length (xs := y :: l) fun z hz => h z (by simp [hz])
    rw [commaText, h1]
    simp at this ⊢
    omega

theorem Leaf.size_le (v : Leaf) (hv : v.Ok) : v.size ≤ v.text.length := by
  cases v with
  | str v => simp [Leaf.size, Leaf.text]
  | int z =>
    obtain ⟨-, c, r, h1, -⟩ := splitNum_numChar (intText_spec z).1
    simp [Leaf.size, Leaf.text, h1]
  | float x =>
    obtain ⟨-, c, r, h1, -⟩ := splitNum_numChar (floatText_some hv)
    simp [Leaf.size, Leaf.text, h1]
  | bool b => cases b <;> simp [Leaf.size, Leaf.text]
  | array xs =>
    have := commaText_length hv
    simp [Leaf.size, Leaf.text]
    by_cases h : xs = []
    · simp [h]
    · have : 0 < xs.length := List.length_pos_of_ne_nil h
      omega

mutual
theorem Node.size_le (k : Nat) : ∀ (n : Node), n.Ok → n.size ≤ (n.vtext k).length
  | .leaf _ v, h => Leaf.size_le v h.2
  | .sect _ cs, h => by
    have := sizeAll_le (k + 4) false cs h.2
    simp [Node.size, Node.vtext]
    omega
theorem sizeAll_le (k : Nat) (p : Bool) : ∀ (cs : List Node), okAll cs → sizeAll cs ≤ (renderAll k p cs).length
  | [], _ => by simp [sizeAll]
  | n :: ns, h => by
    have h1 := Node.size_le k n h.1
    have h2 := sizeAll_le k true ns h.2
    rw [sizeAll, renderAll, Node.render_eq]
    simp
    omega
end

/-- The text of a section. -/
theorem pValue_top {cs : List Node} (h : okAll cs) {T : Text} (hT : Tail T) {n : Nat} (hn : (Node.vtext 0 (.sect [] cs)).length ≤ n) :
    pValue n (Node.vtext 0 (.sect [] cs) ++ T) = some (.obj (jsonAll cs), T) := by
  have hok : (Node.sect [] cs).Ok := ⟨by simp [Clean], h⟩
  exact pValue_node 0 (.sect [] cs) hok hT n ((Node.size_le 0 _ hok).trans hn)

theorem run_clear (cs : List Node) : ∃ p, runCalls (callsAll cs) Writer.clear = .ok ⟨p, sp 4, renderAll 4 false cs⟩ := by
  have := run_callsAll 4 false [] cs
  rw [List.nil_append] at this
  exact ⟨_, this⟩

theorem toText_eq (p : Bool) (cs : List Node) : (Writer.mk p (sp 4) (renderAll 4 false cs)).toText = Node.vtext 0 (.sect [] cs) := by
  simp [Writer.toText, Node.vtext, sp]

/-! ## The value -/

theorem FloatVal.is_json {x : FloatVal} (h : x.Finite) : x.Is (.num (floatText x)) := by
  cases x with
  | fin neg x => exact floatText_spec neg h
  | inf => exact h.elim
  | nan => exact h.elim

theorem Leaf.is_json (v : Leaf) (h : v.Ok) : v.Is v.json := by
  cases v with
  | str v => rfl
  | int z => exact intText_spec z
  | float x => exact FloatVal.is_json h
  | bool b => rfl
  | array xs =>
    show List.Forall₂ FloatVal.Is xs (xs.map fun x => .num (floatText x))
    rw [List.forall₂_map_right_iff]
    exact List.forall₂_same.2 fun x hx => FloatVal.is_json (h x hx)

mutual
theorem Node.is_json : ∀ (n : Node), n.Ok → n.Is (n.key, n.json)
  | .leaf _ v, h => ⟨rfl, Leaf.is_json v h.2⟩
  | .sect _ cs, h => ⟨rfl, _, rfl, allIs_json cs h.2⟩
theorem allIs_json : ∀ (cs : List Node), okAll cs → allIs cs (jsonAll cs)
  | [], _ => trivial
  | n :: ns, h => ⟨Node.is_json n h.1, allIs_json ns h.2⟩
end

/-! ## Strings that are not clean -/

theorem pString_inv : ∀ (s : Text) {a b : Text}, pString s = some (a, b) →
    ∃ c, s = c ++ '"' :: b ∧ a.length ≤ c.length ∧ (a.length = c.length → Clean c ∧ a = c) := by
  intro s
  induction s using pString.induct with
  | case1 => intro a b h; simp [pString] at h
  | case2 r =>
    intro a b h
    unfold pString at h
    simp at h
    obtain ⟨rfl, rfl⟩ := h
    exact ⟨[], by simp, by simp, by simp [Clean]⟩
  | case3 a' b' c' d' r hne ih =>
    intro a b h
    unfold pString at h
    simp [Option.bind_eq_some_iff] at h
    obtain ⟨x, -, y, -, z, -, t, -, p, hp, rfl⟩ := h
    obtain ⟨c, hc, hl, -⟩ := ih hp
    refine ⟨'\\' :: 'u' :: a' :: b' :: c' :: d' :: c, by simp [hc], by simp; omega, fun h => ?_⟩
    simp at h
    omega
  | case4 e r hne hu ih =>
    intro a b h
    unfold pString at h
    simp [Option.bind_eq_some_iff] at h
    obtain ⟨x, -, p, hp, rfl⟩ := h
    obtain ⟨c, hc, hl, -⟩ := ih hp
    refine ⟨'\\' :: e :: c, by simp [hc], by simp; omega, fun h => ?_⟩
    simp at h
    omega
  | case5 hne => intro a b h; simp [pString] at h
  | case6 c r h1 h2 h3 =>
    intro a b h
    unfold pString at h
    rw [if_neg h1, if_neg h2, if_pos h3] at h
    simp at h
  | case7 c r h1 h2 h3 ih =>
    intro a b h
    unfold pString at h
    rw [if_neg h1, if_neg h2, if_neg h3] at h
    simp [Option.bind_eq_some_iff] at h
    obtain ⟨p, hp, rfl⟩ := h
    obtain ⟨d, hd, hl, he⟩ := ih hp
    refine ⟨c :: d, by simp [hd], by simpa using hl, fun h => ?_⟩
    obtain ⟨k1, k2⟩ := he (by simpa using h)
    refine ⟨fun x hx => ?_, by rw [k2]⟩
    rcases List.mem_cons.1 hx with rfl | hx
    · exact ⟨h1, h2, h3⟩
    · exact k1 x hx

/-- After a member. -/
def afterMember (N : Nat) (k : Text) (v : Json × Text) : Option (List (Text × Json) × Text) :=
  match ws v.2 with
  | ',' :: r => do
    let l ← pMembers N r
    return ((k, v.1) :: l.1, l.2)
  | '}' :: r => return ([(k, v.1)], r)
  | _ => none

theorem parse_single {k : Text} (hk : Clean k) (s : Text) :
    ∃ N, 2 ≤ N ∧ parse (Writer.clear.addString k s).toText =
      ((pValue N (s ++ ['\n', '}'])).bind (afterMember N k)).bind (fun p => if (ws p.2).isEmpty then some (.obj p.1) else none) := by
  have e1 : (Writer.clear.addString k s).toText = '{' :: ('\n' :: sp 4 ++ '"' :: k ++ ('"' :: ':' :: (s ++ ['\n', '}']))) := by
    simp [Writer.toText, Writer.addString, Writer.clear, sp]
  obtain ⟨N, hN, hN1⟩ : ∃ N, (Writer.clear.addString k s).toText.length = N + 1 ∧ 2 ≤ N := by
    rw [e1]
    exact ⟨_, rfl, by simp; omega⟩
  refine ⟨N, hN1, ?_⟩
  unfold parse
  rw [hN, e1, pValue_obj (sp_quote _ _ _), pMembers, ws_cons (by decide)]
  have e2 : pString (k ++ '"' :: ':' :: (s ++ ['\n', '}'])) = some (k, ':' :: (s ++ ['\n', '}'])) := pString_clean hk _
  simp only [e2, Option.bind_eq_bind, Option.bind_some, ws_cons (show isSp ':' = false by decide)]
  cases pValue N (s ++ ['\n', '}']) with
  | none => rfl
  | some v =>
    simp only [Option.bind_some]
    show (match Option.map (fun p : List (Text × Json) × Text => (Json.obj p.1, p.2)) (afterMember N k v) with
      | some (v, r) => if (ws r).isEmpty then some v else none
      | none => none) = _
    cases afterMember N k v with
    | none => rfl
    | some p => rfl

theorem parse_single_none {k s : Text} (hk : Clean k) (h : ∀ n, pValue n (s ++ ['\n', '}']) = none) : parse (Writer.clear.addString k s).toText = none := by
  obtain ⟨N, -, h1⟩ := parse_single hk s
  rw [h1, h]
  rfl

theorem pValue_str (n : Nat) (t : Text) : pValue (n + 1) ('"' :: t) = (pString t).map (fun p => (.str p.1, p.2)) := by
  rw [pValue, ws_cons (by decide)]
  rfl

theorem afterMember_head {N : Nat} {k : Text} {v : Json × Text} {l : List (Text × Json)} {r : Text} (h : afterMember N k v = some (l, r)) :
    ∃ l', l = (k, v.1) :: l' := by
  unfold afterMember at h
  split at h
  · simp [Option.bind_eq_some_iff] at h
    obtain ⟨a, b, -, rfl⟩ := h
    exact ⟨a, rfl⟩
  · simp at h
    exact ⟨[], h.1.symm⟩
  · simp at h

theorem parse_single_str {k v : Text} (hk : Clean k) {l : List (Text × Json)} (h : parse (Writer.clear.addStr k v).toText = some (.obj ((k, .str v) :: l))) : Clean v := by
  obtain ⟨N, hN, h1⟩ := parse_single hk ('"' :: v ++ ['"'])
  obtain ⟨n, rfl⟩ : ∃ n, N = n + 1 := ⟨N - 1, by omega⟩
  unfold Writer.addStr at h
  rw [h1, List.append_assoc, List.cons_append, pValue_str] at h
  cases hp : pString (v ++ (['"'] ++ ['\n', '}'])) with
  | none =>
    rw [hp] at h
    simp at h
  | some q =>
    rw [hp] at h
    simp only [Option.map_some, Option.bind_some] at h
    obtain ⟨p, hp1, hp2⟩ := Option.bind_eq_some_iff.1 h
    obtain ⟨l', hl'⟩ := afterMember_head (l := p.1) (r := p.2) hp1
    split at hp2
    · injection hp2 with hp2
      injection hp2 with hp2
      rw [hl'] at hp2
      injection hp2 with hp2 _
      injection hp2 with _ hp2
      injection hp2 with hq
      obtain ⟨c, hc, hl, he⟩ := pString_inv _ (a := q.1) (b := q.2) hp
      rw [hq] at hl he
      have hlen : v.length = c.length := by
        refine le_antisymm hl ?_
        by_contra hlt
        have hcq : (v ++ (['"'] ++ ['\n', '}']))[c.length]? = some '"' := by rw [hc]; simp
        rw [List.getElem?_append_right (by omega)] at hcq
        obtain ⟨d, hd⟩ : ∃ d, c.length - v.length = d + 1 := ⟨c.length - v.length - 1, by omega⟩
        rw [hd] at hcq
        match d, hcq with
        | 0, h => simp at h
        | 1, h => simp at h
        | d + 2, h => simp at h
      obtain ⟨k1, k2⟩ := he hlen
      rw [k2]
      exact k1
    · simp at hp2

end BeeDNN.J
