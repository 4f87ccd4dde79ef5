import Verif.Model.NetSave
import Verif.Spec.NetSave
import Verif.Lemmas.Json
import Verif.Props.Activations

/-! # Helper lemmas: saved networks -/

namespace BeeDNN
open J

namespace NetSave

def nI (k : String) (z : Int) : Node := .leaf k.toList (.int z)
noncomputable def nF (k : String) (x : ℝ) : Node := .leaf k.toList (.float (flt x))
def nS (k v : String) : Node := .leaf k.toList (.str v.toList)
def nB (k : String) (b : Bool) : Node := .leaf k.toList (.bool b)

noncomputable def optNodes (t : Trainer) : List Node :=
  [nS "Optimizer" t.optName, nF "LearningRate" t.lr, nI "Epochs" t.epochs, nF "Decay" t.decay, nF "Momentum" t.mom,
    nI "Patience" t.patience, nI "BatchSize" t.batchSize, nS "Loss" t.loss, nB "KeepBest" t.keepBest,
    nI "ReboostEveryEpochs" t.reboostEvery, nB "ClassBalancingWeightLoss" t.balancing] ++
  (match t.reg with
    | some r => [nS "Regularizer" r.kind.name, nF "RegularizerParameter" r.param]
    | none => [])

noncomputable def headNodes (classif : Bool) (t : Trainer) (nb : Nat) : List Node :=
  [nS "Engine" "BeeDNN", nS "Problem" (if classif then "Classification" else "Regression"), .sect "Optimizer".toList (optNodes t), nI "NbLayers" nb]

theorem callsAll_append (a b : List Node) : callsAll (a ++ b) = callsAll a ++ callsAll b := by
  induction a with
  | nil => rfl
  | cons n a ih => rw [List.cons_append, callsAll, callsAll, ih, List.append_assoc]

theorem head_eq (classif : Bool) (t : Trainer) (nb : Nat) : head classif t nb = callsAll (headNodes classif t nb) := by
  unfold head headNodes optNodes
  cases t.reg <;> rfl

noncomputable def wNodes (l : Layer) : List Node :=
  if l.hasWeights then [nS "WeightInitializer" l.wInit, .leaf "Weight_0".toList (.array (l.weight.data.map flt))] else []
noncomputable def bNodes (l : Layer) : List Node :=
  if l.hasBiases then [nS "BiasInitializer" l.bInit, .leaf "Bias_0".toList (.array (l.bias.data.map flt))] else []

noncomputable def kNodes : LayerKind → List Node
  | .dense i o => [nI "InputSize" i, nI "OutputSize" o]
  | .channelBias r c ch => [nI "Rows" r, nI "Cols" c, nI "Channels" ch]
  | .dropout r => [nF "Rate" r]
  | .rrelu a b => [nF "Alpha1" a, nF "Alpha2" b]
  | .gaussianNoise x => [nF "Noise" x]
  | .uniformNoise x => [nF "Noise" x]
  | .maxPool p => [nI "InRows" p.inRows, nI "InCols" p.inCols, nI "Channels" p.channels, nI "RowFactor" p.rowFactor, nI "ColFactor" p.colFactor]
  | .globalMaxPool r c ch => [nI "InRows" r, nI "InCols" c, nI "Channels" ch]
  | .conv p => [nI "InRows" p.inRows, nI "InCols" p.inCols, nI "InChannels" p.inCh, nI "KernelRows" p.kRows,
        nI "KernelCols" p.kCols, nI "RowStride" p.rowStride, nI "ColStride" p.colStride, nI "OutChannels" p.outCh]
  | .tdBias f => [nI "FrameSize" f]
  | .tdDot f o => [nI "InFrameSize" f, nI "OutFrameSize" o]
  | .tdDense f o => [nI "InFrameSize" f, nI "OutFrameSize" o]
  | _ => []

/-- Names that `save` treats specially. -/
def reserved : List String := ["Dense", "Dot", "ChannelBias", "Dropout", "RRelu", "GaussianNoise", "UniformNoise", "MaxPool2D",
  "GlobalMaxPool2D", "Convolution2D", "TimeDistributedBias", "TimeDistributedDot", "TimeDistributedDense"]

instance (t : Text) : Decidable (Clean t) := by unfold Clean; infer_instance

theorem available_names : ∀ s ∈ availableActivations, s ∉ reserved ∧ Clean s.toList := by decide +kernel

theorem act_name {a : Activation} (h : getActivation a.name = some a) : a.name ∈ availableActivations := by
  by_contra hn
  rw [C25_unknown _ hn] at h
  simp at h

theorem special_eq {l : Layer} (h : Savable l) : special l = .ok (callsAll (kNodes l.kind)) := by
  unfold special
  cases hk : l.kind
  case dot i o => exact absurd hk (h.notDot i o)
  case activation a =>
    have ha := (available_names _ (act_name (h.act a hk))).1
    simp only [reserved, List.mem_cons, List.not_mem_nil, or_false, not_or] at ha
    simp only [Layer.type, hk, LayerKind.typeName]
    obtain ⟨h1, h2, h3, h4, h5, h6, h7, h8, h9, h10, h11, h12, h13⟩ := ha
    simp only [h1, h2, h3, h4, h5, h6, h7, h8, h9, h10, h11, h12, h13, if_false]
    rfl
  all_goals
    simp only [Layer.type, hk, LayerKind.typeName]
    rfl

noncomputable def lNodes (l : Layer) : List Node := nS "Type" l.type :: (wNodes l ++ (bNodes l ++ kNodes l.kind))

noncomputable def layerNodes : Nat → List Layer → List Node
  | _, [] => []
  | i, l :: ls => .sect ("Layer_".toList ++ decText i) (lNodes l) :: layerNodes (i + 1) ls

theorem params_eq (l : Layer) : params l = callsAll (wNodes l ++ bNodes l) := by
  unfold params wNodes bNodes
  rw [callsAll_append]
  cases l.hasWeights <;> cases l.hasBiases <;> rfl

theorem layers_eq : ∀ (ls : List Layer) (i : Nat), (∀ l ∈ ls, Savable l) → layers i ls = .ok (callsAll (layerNodes i ls))
  | [], _, _ => rfl
  | l :: ls, i, h => by
    rw [layers, layer, special_eq (h l (by simp)), bind_ok']
    show (layers (i + 1) ls >>= _) = _
    rw [layers_eq ls (i + 1) fun m hm => h m (by simp [hm]), bind_ok']
    refine congrArg Except.ok ?_
    rw [layerNodes, callsAll, Node.calls, lNodes, callsAll, params_eq, ← List.append_assoc (wNodes l), callsAll_append (wNodes l ++ bNodes l)]
    simp [nS, Node.calls, Leaf.call, addS]

/-- The saved tree. -/
noncomputable def tree (classif : Bool) (t : Trainer) (ls : List Layer) : List Node := headNodes classif t ls.length ++ layerNodes 0 ls

/-! ## Clean names -/

theorem Clean_append {s t : Text} (hs : Clean s) (ht : Clean t) : Clean (s ++ t) := by
  intro c hc
  rcases List.mem_append.1 hc with h | h
  · exact hs c h
  · exact ht c h

theorem Clean_decText (n : Nat) : Clean (decText n) := by
  intro c hc
  have h := decText_digits n c hc
  refine ⟨?_, ?_, ?_⟩
  · rintro rfl; exact absurd h (by decide)
  · rintro rfl; exact absurd h (by decide)
  · simp only [Char.isDigit, Bool.and_eq_true, decide_eq_true_eq] at h
    have := h.1
    have h2 : (48 : Nat) ≤ c.toNat := this
    omega

theorem flt_finite (x : ℝ) : (flt x).Finite := abs_nonneg x

theorem okAll_append {a b : List Node} (ha : okAll a) (hb : okAll b) : okAll (a ++ b) := by
  induction a with
  | nil => exact hb
  | cons n a ih => exact ⟨ha.1, ih ha.2⟩

theorem okAll_iff {a : List Node} : okAll a ↔ ∀ n ∈ a, n.Ok := by
  induction a with
  | nil => simp [okAll]
  | cons n a ih => simp [okAll, ih]

theorem nI_ok {k : String} (z : Int) (h : Clean k.toList) : (nI k z).Ok := ⟨h, trivial⟩
theorem nF_ok {k : String} (x : ℝ) (h : Clean k.toList) : (nF k x).Ok := ⟨h, flt_finite x⟩
theorem nS_ok {k v : String} (h : Clean k.toList) (hv : Clean v.toList) : (nS k v).Ok := ⟨h, hv⟩
theorem nB_ok {k : String} (b : Bool) (h : Clean k.toList) : (nB k b).Ok := ⟨h, trivial⟩

theorem kNodes_ok (k : LayerKind) : okAll (kNodes k) := by
  cases k <;> simp only [kNodes, okAll, and_true] <;> (repeat' apply And.intro) <;>
    first | exact nI_ok _ (by decide) | exact nF_ok _ (by decide) | exact flt_finite _ | trivial

theorem array_ok (k : String) (h : Clean k.toList) (xs : List ℝ) : (Node.leaf k.toList (.array (xs.map flt))).Ok :=
  ⟨h, fun x hx => by
    obtain ⟨y, -, rfl⟩ := List.mem_map.1 hx
    exact flt_finite y⟩

theorem type_clean {l : Layer} (h : Savable l) : Clean l.type.toList := by
  unfold Layer.type
  cases hk : l.kind
  case activation a => exact (available_names _ (act_name (h.act a hk))).2
  all_goals
    simp only [LayerKind.typeName]
    decide

theorem lNodes_ok {l : Layer} (h : Savable l) : okAll (lNodes l) := by
  refine ⟨nS_ok (by decide) (type_clean h), okAll_append ?_ (okAll_append ?_ (kNodes_ok _))⟩
  · unfold wNodes
    split
    · exact ⟨nS_ok (by decide) h.wInit, array_ok _ (by decide) _, trivial⟩
    · trivial
  · unfold bNodes
    split
    · exact ⟨nS_ok (by decide) h.bInit, array_ok _ (by decide) _, trivial⟩
    · trivial

theorem layerNodes_ok : ∀ (ls : List Layer) (i : Nat), (∀ l ∈ ls, Savable l) → okAll (layerNodes i ls)
  | [], _, _ => trivial
  | l :: ls, i, h => ⟨⟨Clean_append (by decide) (Clean_decText i), lNodes_ok (h l (by simp))⟩, layerNodes_ok ls (i + 1) fun m hm => h m (by simp [hm])⟩

theorem headNodes_ok (classif : Bool) (t : Trainer) (nb : Nat) (h1 : Clean t.optName.toList) (h2 : Clean t.loss.toList) : okAll (headNodes classif t nb) := by
  refine ⟨nS_ok (by decide) (by decide), nS_ok (by decide) (by cases classif <;> decide), ⟨by decide, okAll_append ?_ ?_⟩, nI_ok _ (by decide), trivial⟩
  · exact ⟨nS_ok (by decide) h1, nF_ok _ (by decide), nI_ok _ (by decide), nF_ok _ (by decide), nF_ok _ (by decide), nI_ok _ (by decide),
      nI_ok _ (by decide), nS_ok (by decide) h2, nB_ok _ (by decide), nI_ok _ (by decide), nB_ok _ (by decide), trivial⟩
  · cases t.reg with
    | none => trivial
    | some r => exact ⟨nS_ok (by decide) (by cases r.kind <;> decide), nF_ok _ (by decide), trivial⟩

theorem tree_ok (classif : Bool) (t : Trainer) {ls : List Layer} (h1 : Clean t.optName.toList) (h2 : Clean t.loss.toList) (h : ∀ l ∈ ls, Savable l) :
    okAll (tree classif t ls) := okAll_append (headNodes_ok _ _ _ h1 h2) (layerNodes_ok ls 0 h)

theorem text_eq (classif : Bool) (t : Trainer) {ls : List Layer} (h : ∀ l ∈ ls, Savable l) :
    text classif t ls = .ok (Node.vtext 0 (.sect [] (tree classif t ls))) := by
  unfold text
  rw [layers_eq ls 0 h, bind_ok', head_eq, ← callsAll_append]
  obtain ⟨p, hp⟩ := run_clear (headNodes classif t ls.length ++ layerNodes 0 ls)
  rw [hp, bind_ok']
  exact congrArg Except.ok (toText_eq p _)

theorem parse_text {cs : List Node} (h : okAll cs) : parse (Node.vtext 0 (.sect [] cs)) = some (.obj (jsonAll cs)) := by
  have := pValue_top h (T := []) (by simp [Tail]) (n := (Node.vtext 0 (.sect [] cs)).length + 1) (by omega)
  rw [List.append_nil] at this
  unfold parse
  rw [this]
  rfl

/-! ## Reading back -/

theorem flt_near {x y : ℝ} (h : floatText (flt x) = floatText (flt y)) : Near x y := by
  have key : ∀ x : ℝ, |numVal (floatText (flt x)) - x| ≤ 5 / 10 ^ 6 * |x| := fun x => by
    have := (floatText_spec (decide (x < 0)) (abs_nonneg x)).2
    have e : (if decide (x < 0) = true then -|x| else |x|) = x := by
      by_cases hx : x < 0
      · simp [hx, abs_of_neg hx]
      · simp [hx, abs_of_nonneg (not_lt.1 hx)]
    rw [e] at this
    exact this
  have h1 := abs_le.1 (key x)
  have h2 := abs_le.1 (key y)
  rw [h] at h1
  unfold Near
  rw [abs_le]
  constructor <;> linarith [h1.1, h1.2, h2.1, h2.2]

theorem int_inj {z z' : Int} (h : intText z = intText z') : z = z' := by
  have h1 := (intText_spec z).2
  have h2 := (intText_spec z').2
  rw [h] at h1
  exact_mod_cast h1.symm.trans h2

theorem arr_near : ∀ {xs ys : List ℝ}, (Leaf.array (xs.map flt)).json = (Leaf.array (ys.map flt)).json → List.Forall₂ Near xs ys
  | [], [], _ => .nil
  | [], _ :: _, h => by simp [Leaf.json] at h
  | _ :: _, [], h => by simp [Leaf.json] at h
  | x :: xs, y :: ys, h => by
    simp only [Leaf.json, List.map_cons, Json.arr.injEq, List.cons.injEq, Json.num.injEq] at h
    exact .cons (flt_near h.1) (arr_near (by simp only [Leaf.json, h.2]))

theorem jsonAll_map (cs : List Node) : jsonAll cs = cs.map fun n => (n.key, n.json) := by
  induction cs with
  | nil => rfl
  | cons n cs ih => rw [jsonAll, ih, List.map_cons]

/-- The first member of that name. -/
def look (k : Text) (l : List (Text × Json)) : Option Json := (l.find? (·.1 == k)).map Prod.snd

theorem look_append (k : Text) (a b : List (Text × Json)) : look k (a ++ b) = (look k a).or (look k b) := by
  unfold look
  rw [List.find?_append]
  cases a.find? (·.1 == k) <;> rfl

theorem jsonAll_append (a b : List Node) : jsonAll (a ++ b) = jsonAll a ++ jsonAll b := by
  simp [jsonAll_map]

theorem look_kNodes (k : LayerKind) : look "Weight_0".toList (jsonAll (kNodes k)) = none ∧ look "Bias_0".toList (jsonAll (kNodes k)) = none := by
  cases k <;> exact ⟨rfl, rfl⟩

theorem look_weight (l : Layer) : look "Weight_0".toList (jsonAll (lNodes l)) = if l.hasWeights then some (Leaf.array (l.weight.data.map flt)).json else none := by
  have h : jsonAll (lNodes l) = jsonAll [nS "Type" l.type] ++ (jsonAll (wNodes l) ++ (jsonAll (bNodes l) ++ jsonAll (kNodes l.kind))) := by
    rw [← jsonAll_append, ← jsonAll_append, ← jsonAll_append]
    rfl
  rw [h, look_append, look_append, look_append, (look_kNodes _).1]
  unfold wNodes bNodes
  cases l.hasWeights <;> cases l.hasBiases <;> rfl

theorem look_bias (l : Layer) : look "Bias_0".toList (jsonAll (lNodes l)) = if l.hasBiases then some (Leaf.array (l.bias.data.map flt)).json else none := by
  have h : jsonAll (lNodes l) = jsonAll [nS "Type" l.type] ++ (jsonAll (wNodes l) ++ (jsonAll (bNodes l) ++ jsonAll (kNodes l.kind))) := by
    rw [← jsonAll_append, ← jsonAll_append, ← jsonAll_append]
    rfl
  rw [h, look_append, look_append, look_append, (look_kNodes _).2]
  unfold wNodes bNodes
  cases l.hasWeights <;> cases l.hasBiases <;> rfl

/-- The type names of the classes other than `LayerActivation`. -/
def classNames : List String := ["Dense", "Dot", "Bias", "Gain", "Affine", "GlobalBias", "GlobalGain", "GlobalAffine", "ChannelBias", "Softmax", "Softmin", "MaxPool2D",
  "GlobalMaxPool2D", "AveragePooling2D", "GlobalAveragePooling2D", "ZeroPadding2D", "Convolution2D", "Dropout", "GaussianDropout", "GaussianNoise",
  "UniformNoise", "RandomFlip", "CRelu", "GatedActivation", "PRelu", "PELU", "TERELU", "RRelu", "TimeDistributedBias", "TimeDistributedDot",
  "TimeDistributedDense", "RNN"]

theorem available_class : ∀ s ∈ availableActivations, s ∉ classNames := by decide +kernel

theorem typeName_cases (k : LayerKind) : k.typeName ∈ classNames ∨ ∃ a, k = .activation a := by
  cases k
  case activation a => exact Or.inr ⟨a, rfl⟩
  all_goals exact Or.inl (by simp only [LayerKind.typeName]; decide)

/-- A library activation in the case of an activation layer. -/
def ActOk (k : LayerKind) : Prop := ∀ a, k = .activation a → getActivation a.name = some a

theorem name_not_act {k : LayerKind} (h : ActOk k) {s : String} (hs : s ∈ classNames) (he : k.typeName = s) (a : Activation) : k ≠ .activation a := by
  rintro rfl
  have he' : a.name = s := he
  exact available_class _ (act_name (h a rfl)) (he' ▸ hs)

theorem args_same {k k' : LayerKind} (h1 : ActOk k) (h2 : ActOk k') (ht : k.typeName = k'.typeName)
    (hj : jsonAll (kNodes k) = jsonAll (kNodes k')) : ArgsSame k k' := by
  have hn : ∀ s ∈ classNames, k.typeName = s → ∀ a, k' ≠ .activation a := fun s hs he a => name_not_act h2 hs (ht ▸ he) a
  cases k
  case activation a =>
    rcases typeName_cases k' with h | ⟨b, rfl⟩
    · exact absurd rfl (name_not_act h1 h ht a)
    · have e : a.name = b.name := ht
      have ha := h1 a rfl
      have hb := h2 b rfl
      rw [e] at ha
      rw [ha] at hb
      injection hb with hb
      show LayerKind.activation b = .activation a
      rw [hb]
  case dense i o =>
    have hn' := hn "Dense" (by decide) rfl
    cases k' <;> simp [LayerKind.typeName] at ht hn'
    simp only [kNodes, jsonAll, Node.json, nI, nF, Leaf.json, List.cons.injEq, Prod.mk.injEq, Json.num.injEq, true_and, and_true] at hj
    have e0 := int_inj hj.1.2
    have e1 := int_inj hj.2.2
    norm_cast at e0 e1
    subst e0 e1
    rfl
  case channelBias r c ch =>
    have hn' := hn "ChannelBias" (by decide) rfl
    cases k' <;> simp [LayerKind.typeName] at ht hn'
    simp only [kNodes, jsonAll, Node.json, nI, nF, Leaf.json, List.cons.injEq, Prod.mk.injEq, Json.num.injEq, true_and, and_true] at hj
    have e0 := int_inj hj.1.2
    have e1 := int_inj hj.2.1.2
    have e2 := int_inj hj.2.2.2
    norm_cast at e0 e1 e2
    subst e0 e1 e2
    rfl
  case globalMaxPool r c ch =>
    have hn' := hn "GlobalMaxPool2D" (by decide) rfl
    cases k' <;> simp [LayerKind.typeName] at ht hn'
    simp only [kNodes, jsonAll, Node.json, nI, nF, Leaf.json, List.cons.injEq, Prod.mk.injEq, Json.num.injEq, true_and, and_true] at hj
    have e0 := int_inj hj.1.2
    have e1 := int_inj hj.2.1.2
    have e2 := int_inj hj.2.2.2
    norm_cast at e0 e1 e2
    subst e0 e1 e2
    rfl
  case tdBias f =>
    have hn' := hn "TimeDistributedBias" (by decide) rfl
    cases k' <;> simp [LayerKind.typeName] at ht hn'
    simp only [kNodes, jsonAll, Node.json, nI, nF, Leaf.json, List.cons.injEq, Prod.mk.injEq, Json.num.injEq, true_and, and_true] at hj
    have e0 := int_inj hj.2
    norm_cast at e0
    subst e0
    rfl
  case tdDot f o =>
    have hn' := hn "TimeDistributedDot" (by decide) rfl
    cases k' <;> simp [LayerKind.typeName] at ht hn'
    simp only [kNodes, jsonAll, Node.json, nI, nF, Leaf.json, List.cons.injEq, Prod.mk.injEq, Json.num.injEq, true_and, and_true] at hj
    have e0 := int_inj hj.1.2
    have e1 := int_inj hj.2.2
    norm_cast at e0 e1
    subst e0 e1
    rfl
  case tdDense f o =>
    have hn' := hn "TimeDistributedDense" (by decide) rfl
    cases k' <;> simp [LayerKind.typeName] at ht hn'
    simp only [kNodes, jsonAll, Node.json, nI, nF, Leaf.json, List.cons.injEq, Prod.mk.injEq, Json.num.injEq, true_and, and_true] at hj
    have e0 := int_inj hj.1.2
    have e1 := int_inj hj.2.2
    norm_cast at e0 e1
    subst e0 e1
    rfl
  case maxPool p =>
    have hn' := hn "MaxPool2D" (by decide) rfl
    cases k' <;> simp [LayerKind.typeName] at ht hn'
    simp only [kNodes, jsonAll, Node.json, nI, nF, Leaf.json, List.cons.injEq, Prod.mk.injEq, Json.num.injEq, true_and, and_true] at hj
    have e0 := int_inj hj.1.2
    have e1 := int_inj hj.2.1.2
    have e2 := int_inj hj.2.2.1.2
    have e3 := int_inj hj.2.2.2.1.2
    have e4 := int_inj hj.2.2.2.2.2
    norm_cast at e0 e1 e2 e3 e4
    exact ⟨_, rfl, e0, e1, e2, e3, e4⟩
  case conv p =>
    have hn' := hn "Convolution2D" (by decide) rfl
    cases k' <;> simp [LayerKind.typeName] at ht hn'
    simp only [kNodes, jsonAll, Node.json, nI, nF, Leaf.json, List.cons.injEq, Prod.mk.injEq, Json.num.injEq, true_and, and_true] at hj
    have e0 := int_inj hj.1.2
    have e1 := int_inj hj.2.1.2
    have e2 := int_inj hj.2.2.1.2
    have e3 := int_inj hj.2.2.2.1.2
    have e4 := int_inj hj.2.2.2.2.1.2
    have e5 := int_inj hj.2.2.2.2.2.1.2
    have e6 := int_inj hj.2.2.2.2.2.2.1.2
    have e7 := int_inj hj.2.2.2.2.2.2.2.2
    norm_cast at e0 e1 e2 e3 e4 e5 e6 e7
    exact ⟨_, rfl, e0, e1, e2, e3, e4, e5, e6, e7⟩
  case dropout x =>
    have hn' := hn "Dropout" (by decide) rfl
    cases k' <;> simp [LayerKind.typeName] at ht hn'
    simp only [kNodes, jsonAll, Node.json, nI, nF, Leaf.json, List.cons.injEq, Prod.mk.injEq, Json.num.injEq, true_and, and_true] at hj
    exact ⟨_, rfl, flt_near hj.2⟩
  case gaussianNoise x =>
    have hn' := hn "GaussianNoise" (by decide) rfl
    cases k' <;> simp [LayerKind.typeName] at ht hn'
    simp only [kNodes, jsonAll, Node.json, nI, nF, Leaf.json, List.cons.injEq, Prod.mk.injEq, Json.num.injEq, true_and, and_true] at hj
    exact ⟨_, rfl, flt_near hj.2⟩
  case uniformNoise x =>
    have hn' := hn "UniformNoise" (by decide) rfl
    cases k' <;> simp [LayerKind.typeName] at ht hn'
    simp only [kNodes, jsonAll, Node.json, nI, nF, Leaf.json, List.cons.injEq, Prod.mk.injEq, Json.num.injEq, true_and, and_true] at hj
    exact ⟨_, rfl, flt_near hj.2⟩
  case rrelu a b =>
    have hn' := hn "RRelu" (by decide) rfl
    cases k' <;> simp [LayerKind.typeName] at ht hn'
    simp only [kNodes, jsonAll, Node.json, nI, nF, Leaf.json, List.cons.injEq, Prod.mk.injEq, Json.num.injEq, true_and, and_true] at hj
    exact ⟨_, _, rfl, flt_near hj.1.2, flt_near hj.2.2⟩
  all_goals trivial

theorem lNodes_parts (l : Layer) : jsonAll (lNodes l) = ("Type".toList, .str l.type.toList) :: (jsonAll (wNodes l) ++ (jsonAll (bNodes l) ++ jsonAll (kNodes l.kind))) := by
  rw [← jsonAll_append, ← jsonAll_append]
  rfl

theorem data_near {m m' : Mat ℝ} (h : m.WF) (h' : m'.WF)
    (e : (if decide (m.size ≠ 0) then some (Leaf.array (m.data.map flt)).json else none) =
      if decide (m'.size ≠ 0) then some (Leaf.array (m'.data.map flt)).json else none) : List.Forall₂ Near m.data m'.data := by
  by_cases h0 : m.size = 0
  · by_cases h1 : m'.size = 0
    · have e1 : m.data = [] := List.length_eq_zero_iff.1 (h.trans h0)
      have e2 : m'.data = [] := List.length_eq_zero_iff.1 (h'.trans h1)
      rw [e1, e2]
      exact .nil
    · simp [h0, h1] at e
  · by_cases h1 : m'.size = 0
    · simp [h0, h1] at e
    · simp only [ne_eq, h0, h1, not_false_eq_true, decide_true, if_true, Option.some.injEq] at e
      exact arr_near e

theorem lNodes_same {l l' : Layer} (h : Savable l) (h' : Savable l') (e : jsonAll (lNodes l) = jsonAll (lNodes l')) : SavedSame l l' := by
  have hw := look_weight l
  rw [e, look_weight] at hw
  have hb := look_bias l
  rw [e, look_bias] at hb
  rw [lNodes_parts, lNodes_parts] at e
  simp only [List.cons.injEq, Prod.mk.injEq, Json.str.injEq, true_and] at e
  have ht : l.type = l'.type := String.toList_injective e.1
  have ew : l.hasWeights = l'.hasWeights := by
    cases h1 : l.hasWeights <;> cases h2 : l'.hasWeights <;> simp [h1, h2] at hw <;> rfl
  have eb : l.hasBiases = l'.hasBiases := by
    cases h1 : l.hasBiases <;> cases h2 : l'.hasBiases <;> simp [h1, h2] at hb <;> rfl
  have e2 := List.append_inj e.2 (by
    unfold wNodes
    rw [ew]
    cases l'.hasWeights <;> rfl)
  have e3 := List.append_inj e2.2 (by
    unfold bNodes
    rw [eb]
    cases l'.hasBiases <;> rfl)
  exact ⟨ht, args_same h.act h'.act ht e3.2, data_near h.weight h'.weight hw.symm, data_near h.bias h'.bias hb.symm⟩

theorem layerNodes_same : ∀ {ls ls' : List Layer} {i : Nat}, (∀ l ∈ ls, Savable l) → (∀ l ∈ ls', Savable l) →
    jsonAll (layerNodes i ls) = jsonAll (layerNodes i ls') → List.Forall₂ SavedSame ls ls'
  | [], [], _, _, _, _ => .nil
  | [], _ :: _, _, _, _, h => by simp [layerNodes, jsonAll] at h
  | _ :: _, [], _, _, _, h => by simp [layerNodes, jsonAll] at h
  | l :: ls, l' :: ls', i, h1, h2, h => by
    simp only [layerNodes, jsonAll, Node.json, List.cons.injEq, Prod.mk.injEq, Json.obj.injEq] at h
    exact .cons (lNodes_same (h1 l (by simp)) (h2 l' (by simp)) h.1.2)
      (layerNodes_same (fun m hm => h1 m (by simp [hm])) (fun m hm => h2 m (by simp [hm])) h.2)

theorem optNodes_same {t t' : Trainer} (e : jsonAll (optNodes t) = jsonAll (optNodes t')) : TrainSame t t' := by
  unfold optNodes at e
  simp only [jsonAll_append, jsonAll, Node.json, nS, nI, nF, nB, Leaf.json, List.cons_append, List.nil_append, List.cons.injEq, Prod.mk.injEq, Json.str.injEq,
    Json.num.injEq, Json.bool.injEq] at e
  obtain ⟨⟨-, e1⟩, ⟨-, e2⟩, ⟨-, e3⟩, ⟨-, e4⟩, ⟨-, e5⟩, ⟨-, e6⟩, ⟨-, e7⟩, ⟨-, e8⟩, ⟨-, e9⟩, ⟨-, e10⟩, ⟨-, e11⟩, e12⟩ := e
  refine ⟨String.toList_injective e1, String.toList_injective e8, int_inj e3, int_inj e6, int_inj e7, e9, int_inj e10, e11, flt_near e2, flt_near e4,
    flt_near e5, ?_⟩
  cases h1 : t.reg with
  | none =>
    cases h2 : t'.reg with
    | none => exact .none
    | some r' => simp [h1, h2, jsonAll] at e12
  | some r =>
    cases h2 : t'.reg with
    | none => simp [h1, h2, jsonAll] at e12
    | some r' =>
      simp only [h1, h2, jsonAll, Node.json, Leaf.json, List.cons.injEq, Prod.mk.injEq, Json.str.injEq, Json.num.injEq] at e12
      refine .some ⟨?_, flt_near e12.2.1.2⟩
      have := String.toList_injective e12.1.2
      revert this
      cases r.kind <;> cases r'.kind <;> simp [RegKind.name]

theorem tree_same {c c' : Bool} {t t' : Trainer} {ls ls' : List Layer} (h : ∀ l ∈ ls, Savable l) (h' : ∀ l ∈ ls', Savable l)
    (e : jsonAll (tree c t ls) = jsonAll (tree c' t' ls')) : c = c' ∧ TrainSame t t' ∧ List.Forall₂ SavedSame ls ls' := by
  unfold tree headNodes at e
  simp only [jsonAll_append, jsonAll, Node.json, nS, nI, Leaf.json, List.cons_append, List.nil_append, List.cons.injEq, Prod.mk.injEq, Json.str.injEq,
    Json.num.injEq, Json.obj.injEq] at e
  refine ⟨?_, optNodes_same e.2.2.1.2, layerNodes_same h h' e.2.2.2.2⟩
  have := String.toList_injective e.2.1.2
  cases c <;> cases c' <;> simp at this <;> rfl

end NetSave

end BeeDNN
