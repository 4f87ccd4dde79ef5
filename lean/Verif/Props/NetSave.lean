import Verif.Lemmas.NetSave

/-!
# Saved networks (NetUtil.cpp `save`)
-/

namespace BeeDNN
open J NetSave

/-- C79: the text of a network with savable layers is written without fault and is a JSON object. -/
theorem C79_valid (c : Bool) (t : Trainer) {ls : List Layer} (ho : Clean t.optName.toList) (hl : Clean t.loss.toList) (h : ∀ l ∈ ls, Savable l) :
    ∃ s j, text c t ls = .ok s ∧ parse s = some (.obj j) :=
  ⟨_, _, text_eq c t h, parse_text (tree_ok c t ho hl h)⟩

/-- C79: two networks with the same saved text have the same number of layers; layers at the same place have the same type, the same saved arguments,
and weights and biases that agree up to the six digits written; the training parameters and the kind of problem agree too.
Missing (and false, see below): the exact weights, the arguments of the classes in `Unsaved`, the shape of the weights, and networks with a `LayerDot`. -/
theorem C79_same_partial {c c' : Bool} {t t' : Trainer} {ls ls' : List Layer}
    (ho : Clean t.optName.toList) (hl : Clean t.loss.toList) (ho' : Clean t'.optName.toList) (hl' : Clean t'.loss.toList)
    (h : ∀ l ∈ ls, Savable l) (h' : ∀ l ∈ ls', Savable l) (e : text c t ls = text c' t' ls') :
    c = c' ∧ TrainSame t t' ∧ List.Forall₂ SavedSame ls ls' := by
  rw [text_eq c t h, text_eq c' t' h'] at e
  injection e with e
  have h1 := parse_text (tree_ok c t ho hl h)
  rw [e, parse_text (tree_ok c' t' ho' hl' h')] at h1
  injection h1 with h1
  injection h1 with h1
  exact tree_same h h' h1.symm

/-- C79 as claimed fails: `save` does not write the arguments of average pooling, zero padding, random flip, gated activation, Gaussian dropout
and recurrent layers; layers of these classes with the same type string and matrices give the same text, wherever they stand. -/
theorem C79_lost (c : Bool) (t : Trainer) (pre post : List Layer) (l : Layer) {k k' : LayerKind} (h : Unsaved k) (h' : Unsaved k')
    (ht : k.typeName = k'.typeName) :
    text c t (pre ++ { l with kind := k } :: post) = text c t (pre ++ { l with kind := k' } :: post) := by
  have hs : ∀ {k : LayerKind}, Unsaved k → special { l with kind := k } = .ok [] := fun {k} hk => by
    cases k <;> first | exact hk.elim | rfl
  have hl : ∀ i, layer i { l with kind := k } = layer i { l with kind := k' } := fun i => by
    unfold layer
    rw [hs h, hs h']
    show Except.ok _ = Except.ok _
    simp only [Layer.type, ht]
    rfl
  have hx : ∀ (pre : List Layer) i, layers i (pre ++ { l with kind := k } :: post) = layers i (pre ++ { l with kind := k' } :: post) := by
    intro pre
    induction pre with
    | nil => intro i; rw [List.nil_append, List.nil_append, layers, layers, hl]
    | cons p pre ih => intro i; rw [List.cons_append, List.cons_append, layers, layers, ih]
  unfold text
  rw [hx]
  simp

/-- C79 as claimed fails: the shape of a weight matrix is not written. -/
theorem C79_shape (c : Bool) (t : Trainer) (pre post : List Layer) (l : Layer) {m m' : Mat ℝ} (hd : m.data = m'.data) (hs : m.size = m'.size) :
    text c t (pre ++ { l with weight := m } :: post) = text c t (pre ++ { l with weight := m' } :: post) := by
  have hl : ∀ i, layer i { l with weight := m } = layer i { l with weight := m' } := fun i => by
    have e1 : special { l with weight := m } = special { l with weight := m' } := rfl
    have e2 : params { l with weight := m } = params { l with weight := m' } := by
      simp only [params, Layer.hasWeights, hd, hs]
      rfl
    unfold layer
    rw [e1, e2]
    rfl
  have hx : ∀ (pre : List Layer) i, layers i (pre ++ { l with weight := m } :: post) = layers i (pre ++ { l with weight := m' } :: post) := by
    intro pre
    induction pre with
    | nil => intro i; rw [List.nil_append, List.nil_append, layers, layers, hl]
    | cons p pre ih => intro i; rw [List.cons_append, List.cons_append, layers, layers, ih]
  unfold text
  rw [hx]
  simp

/-- The number 1 and the next `float` have the same six digits. -/
theorem next_float_text : floatText (flt 1) = floatText (flt (1 + 1 / 2 ^ 23)) := by
  have h1 : ¬ (1 : ℝ) < 0 := by norm_num
  have h2 : ¬ (1 + 1 / 2 ^ 23 : ℝ) < 0 := by norm_num
  have hlog : ∀ x : ℝ, 1 ≤ x → x < 10 → Int.log 10 x = 0 := fun x a b => by
    rw [Int.log_of_one_le_right _ a]
    have : ⌊x⌋₊ < 10 := (Nat.floor_lt (by linarith)).2 (by exact_mod_cast b)
    rw [Nat.log_of_lt this]
    rfl
  have hm : ∀ x : ℝ, 1 ≤ x → x < 1 + 1 / 10 ^ 6 → gMant x = (10 ^ 5, 0) := fun x a b => by
    have e : x / (10 : ℝ) ^ ((0 : Int) - 5) = 100000 * x := by
      norm_num [zpow_neg]
      ring
    have hf : ⌊100000 * x⌋₊ = 100000 := by
      rw [Nat.floor_eq_iff (by linarith)]
      push_cast
      constructor <;> norm_num at b ⊢ <;> linarith
    unfold gMant
    dsimp only
    rw [hlog x a (by norm_num at b; linarith), e]
    have hr : roundEven (100000 * x) = 100000 := by
      unfold roundEven
      rw [hf, if_pos]
      push_cast
      norm_num at b ⊢
      linarith
    rw [hr]
    rfl
  have e1 : |(1 : ℝ)| = 1 := abs_one
  have e2 : |(1 + 1 / 2 ^ 23 : ℝ)| = 1 + 1 / 2 ^ 23 := abs_of_pos (by norm_num)
  simp only [flt, h1, h2, e1, e2, decide_false, floatText, gText, hm 1 le_rfl (by norm_num), hm (1 + 1 / 2 ^ 23) (by norm_num) (by norm_num)]
  norm_num

/-- C79 as claimed fails for weights: networks of one gain layer with the weight 1 and with the next `float` have the same text. -/
theorem C79_weight (c : Bool) (t : Trainer) :
    text c t [{ kind := .gain, weight := ⟨1, 1, [1]⟩ }] = text c t [{ kind := .gain, weight := ⟨1, 1, [1 + 1 / 2 ^ 23]⟩ }] := by
  have hsav : ∀ x : ℝ, ∀ l ∈ [({ kind := .gain, weight := ⟨1, 1, [x]⟩ } : Layer)], Savable l := fun x l hl => by
    obtain rfl := List.mem_singleton.1 hl
    exact ⟨fun _ _ h => by simp at h, rfl, rfl, fun c hc => by simp at hc, fun c hc => by simp at hc, fun _ h => by simp at h⟩
  rw [text_eq c t (hsav 1), text_eq c t (hsav _)]
  have hw : ∀ x : ℝ, lNodes { kind := .gain, weight := ⟨1, 1, [x]⟩ } =
      [nS "Type" "Gain", nS "WeightInitializer" "", .leaf "Weight_0".toList (.array [flt x])] := fun x => rfl
  simp only [tree, layerNodes, hw, headNodes, List.length_cons, List.length_nil]
  simp only [Node.vtext, renderAll, Node.render, List.append_assoc, List.cons_append, List.nil_append, Leaf.text, commaText, next_float_text]

/-- C79: a network with a `LayerDot` cannot be saved: its object is used as a `LayerDense`, which is undefined behaviour. -/
theorem C79_dot (c : Bool) (t : Trainer) {pre : List Layer} (post : List Layer) (l : Layer) (i o : Nat) (h : ∀ l ∈ pre, Savable l) (hk : l.kind = .dot i o) :
    text c t (pre ++ l :: post) = .error .badCast := by
  have hs : special l = .error .badCast := by
    unfold special
    simp only [Layer.type, hk, LayerKind.typeName]
    rfl
  have hx : ∀ (pre : List Layer) j, (∀ l ∈ pre, Savable l) → layers j (pre ++ l :: post) = .error .badCast := by
    intro pre
    induction pre with
    | nil => intro j _; rw [List.nil_append, layers, layer, hs]; rfl
    | cons p pre ih =>
      intro j h
      rw [List.cons_append, layers, layer, special_eq (h p (by simp)), bind_ok']
      show (layers (j + 1) (pre ++ l :: post) >>= _) = _
      rw [ih (j + 1) fun m hm => h m (by simp [hm])]
      rfl
  unfold text
  rw [hx pre 0 h]
  rfl

/-- C79: the saved network is the list of objects behind its addresses, in order. -/
theorem C79_save (w : World) (n : Nat) (t : Trainer) {ls : List Layer} (h : List.Forall₂ (fun a l => w.deref a = .ok l) (w.nets n).layers ls) :
    save w n t = text (w.nets n).classif t ls := by
  have : ∀ {as : List Nat} {ls : List Layer}, List.Forall₂ (fun a l => w.deref a = .ok l) as ls → derefAll w as = .ok ls := by
    intro as ls h
    induction h with
    | nil => rfl
    | cons h1 _ ih => rw [derefAll, h1, bind_ok', ih]; rfl
  unfold save
  rw [this h]
  rfl

/-- A savable network with weights, an activation and a pooling layer. -/
example : ∀ l ∈ ([{ kind := .dense 1 2, weight := ⟨1, 2, [1, -3]⟩, bias := ⟨1, 2, [0, 1]⟩, wInit := "GlorotUniform", bInit := "Zeros" },
    { kind := .maxPool ⟨2, 2, 1, 2, 2, 1, 1, 4, 1⟩ }] : List Layer), Savable l := by
  intro l hl
  simp only [List.mem_cons, List.not_mem_nil, or_false] at hl
  rcases hl with rfl | rfl
  · exact ⟨fun _ _ h => by simp at h, rfl, rfl, (by decide : Clean "GlorotUniform".toList), (by decide : Clean "Zeros".toList), fun _ h => by simp at h⟩
  · exact ⟨fun _ _ h => by simp at h, rfl, rfl, (by decide : Clean "".toList), (by decide : Clean "".toList), fun _ h => by simp at h⟩

/-- Different layers that `C79_lost` speaks of: two zero paddings, and the two recurrent classes. -/
example : Unsaved (.zeroPad 4 4 1 1) ∧ Unsaved (.zeroPad 4 4 1 2) ∧ Unsaved (.simpleRNN 2 3) ∧ Unsaved (.simplestRNN 2) ∧
    (LayerKind.simpleRNN 2 3).typeName = (LayerKind.simplestRNN 2).typeName := ⟨trivial, trivial, trivial, trivial, rfl⟩

end BeeDNN
