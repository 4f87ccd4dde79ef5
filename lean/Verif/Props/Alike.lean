import Verif.Lemmas.Alike
import Verif.Props.Robust

/-! # Different networks that do the same: C142 -/

namespace BeeDNN
open Finset World

/-- C142: softmax or a strictly increasing activation at the end of a network with more than one output does not change the predicted classes. -/
theorem C142_classes {m m' : Mlp} (hm : Mlp.Topped m m') (hk : (m'.ply m.depth).kind.KeepsOrder) (hout : 1 < m.width m.depth) {w w' : World} {n n' : Nat}
    (h : Represents w n m) (h' : Represents w' n' m') (e e' : Nat → Env) (g g' : Nat → ℝ) (N : Nat) (x : Nat → Row) {o o' : Mat ℝ} (ho : o.WF) (ho' : o'.WF) :
    ∃ (v v' : World) (p : Mat ℝ), w.predictClasses e g n (Mat.ofFn N (m.width 0) x) o = .ok (v, p) ∧
      w'.predictClasses e' g' n' (Mat.ofFn N (m.width 0) x) o' = .ok (v', p) := by
  have hlast : m'.width m'.depth = m.width m.depth := by
    have hf := h'.ok.fits m.depth (by rw [hm.depth]; omega)
    rw [hm.depth, ← hm.width _ le_rfl]
    generalize m'.ply m.depth = p at hk hf
    cases hp : p.kind <;> rw [hp] at hk hf <;> simp only [PlyKind.KeepsOrder] at hk
    · exact hf.1
    · exact hf
  obtain ⟨v, h1, -⟩ := h.predict (e := e) N x ⟨0, 0, []⟩ Mat.WF_empty
  obtain ⟨v', h2, -⟩ := h'.predict (e := e') N x ⟨0, 0, []⟩ Mat.WF_empty
  rw [hm.width 0 (Nat.zero_le _), hlast] at h2
  obtain ⟨k, k1, k2⟩ := C49_argmax g N (m.width m.depth) hout (fun s => m.out (x s)) o ho
  obtain ⟨k', k1', k2'⟩ := C49_argmax g' N (m.width m.depth) hout (fun s => m'.out (x s)) o' ho'
  refine ⟨v, v', Mat.ofFn N 1 fun s _ => (k s : ℝ), ?_, ?_⟩
  · rw [predictClasses, h1, bind_ok']
    dsimp only
    rw [k1, bind_ok', pure_ok]
  · rw [predictClasses, h2, bind_ok']
    dsimp only
    rw [k1', bind_ok', pure_ok]
    congr 2
    refine Mat.ofFn_congr fun s _ hs _ => ?_
    congr 1
    refine (k2' s hs).unique ((k2 s hs).of_order fun i j => ?_)
    rw [hm.out]
    exact (hk.iff (by omega) _ i j).symm

/-- C142: units of a dense layer may be rescaled if the next dense layer makes up for it and the activation between is homogeneous (e.g. ReLU): the predictions are the same. -/
theorem C142_rescale {c : Nat → ℝ} {l : Nat} {m m' : Mlp} (hm : Mlp.Rescaled c l m m') (hc : ∀ j, j < m.width (l + 1) → 0 < c j) {w w' : World} {n n' : Nat}
    (h : Represents w n m) (h' : Represents w' n' m') (e e' : Nat → Env) (N : Nat) (x : Nat → Row) {o o' : Mat ℝ} (ho : o.WF) (ho' : o'.WF) :
    ∃ (v v' : World) (p : Mat ℝ), w.predict e n (Mat.ofFn N (m.width 0) x) o = .ok (v, p) ∧ w'.predict e' n' (Mat.ofFn N (m.width 0) x) o' = .ok (v', p) := by
  obtain ⟨v, h1, -⟩ := h.predict (e := e) N x o ho
  obtain ⟨v', h2, -⟩ := h'.predict (e := e') N x o' ho'
  rw [hm.like.width, hm.like.depth] at h2
  refine ⟨v, v', _, h1, ?_⟩
  rw [h2]
  simp only [hm.out h.ok hc]

/-- C142: without activations, depth adds nothing: there is a single dense layer that predicts the same for all batches. -/
theorem C142_linear {m : Mlp} (hm : m.Plain) {w : World} {n : Nat} (h : Represents w n m) :
    ∃ (W : Nat → Nat → ℝ) (b : Nat → ℝ), ∀ (w' : World) (n' : Nat), Represents w' n' (Mlp.ofDense (m.width 0) (m.width m.depth) W b) →
      ∀ (e e' : Nat → Env) (N : Nat) (x : Nat → Row) (o o' : Mat ℝ), o.WF → o'.WF →
        ∃ (v v' : World) (p : Mat ℝ), w.predict e n (Mat.ofFn N (m.width 0) x) o = .ok (v, p) ∧ w'.predict e' n' (Mat.ofFn N (m.width 0) x) o' = .ok (v', p) := by
  obtain ⟨W, b, hh⟩ := hm.hidden h.ok le_rfl
  refine ⟨W, b, fun w' n' h' e e' N x o o' ho ho' => ?_⟩
  obtain ⟨v, h1, -⟩ := h.predict (e := e) N x o ho
  obtain ⟨v', h2, -⟩ := h'.predict (e := e') N x o' ho'
  refine ⟨v, v', _, h1, ?_⟩
  refine h2.trans ?_
  congr 2
  exact Mat.ofFn_congr fun s j _ hj => (hh (x s) j hj).symm

/-- There is a network in the program that is this single layer. -/
noncomputable def denseWorld (C C' : Nat) (W : Nat → Nat → ℝ) (b : Nat → ℝ) : World :=
  { heap := [some { kind := .dense C C', weight := Mat.ofFn C C' W, bias := Mat.ofFn 1 C' (fun _ => b), wInit := "GlorotUniform", bInit := "Zeros" }],
    nets := fun n => if n = 0 then { layers := [0] } else {} }

theorem denseWorld_represents {C C' : Nat} (hC : 0 < C) (hC' : 0 < C') (W : Nat → Nat → ℝ) (b : Nat → ℝ) : Represents (denseWorld C C' W b) 0 (Mlp.ofDense C C' W b) where
  ok := ⟨Nat.one_pos, fun i _ => by simp only [Mlp.ofDense]; split <;> assumption, fun _ _ => trivial⟩
  nodup := by simp [denseWorld]
  count := rfl
  layer := fun i a hi => by
    match i with
    | 0 =>
      obtain rfl : 0 = a := by simpa [denseWorld] using hi
      exact ⟨_, rfl, ⟨Mat.ofFn_WF .., rfl, Mat.ofFn_WF .., rfl, rfl, rfl, rfl, rfl, rfl, rfl, rfl, rfl,
        fun m hm => absurd hm List.not_mem_nil, by simp [LayerKind.usesWeight], by simp [LayerKind.usesBias], fun _ => ⟨rfl, rfl, rfl⟩, trivial⟩,
        ⟨⟨C, C', rfl⟩, fun _ => rfl, fun _ => rfl⟩, fun h => absurd h (by decide)⟩
    | i + 1 => simp [denseWorld] at hi

/-- C142: these activations are strictly increasing, so that `C142_classes` holds for them. -/
theorem C142_rising {s : String} (hs : s ∈ risingActivations) : ∃ A, getActivation s = some A ∧ (PlyKind.act A).KeepsOrder := by
  simp only [risingActivations, List.mem_cons, List.not_mem_nil, or_false] at hs
  rcases hs with rfl | rfl | rfl | rfl | rfl | rfl | rfl | rfl | rfl | rfl | rfl
  · exact ⟨Act.asinh, rfl, Real.arsinh_strictMono⟩
  · exact ⟨Act.atan, rfl, Real.arctan_strictMono⟩
  · exact ⟨Act.divideBy256, rfl, fun x y h => by simp only [Act.divideBy256]; linarith⟩
  · exact ⟨Act.exponential, rfl, Real.exp_strictMono⟩
  · exact ⟨Act.identity, rfl, fun x y h => by simp only [Act.identity]; exact h⟩
  · exact ⟨Act.leakyRelu, rfl, fun x y h => by simp only [Act.leakyRelu]; split_ifs <;> linarith⟩
  · exact ⟨Act.leakyRelu256, rfl, fun x y h => by simp only [Act.leakyRelu256]; split_ifs <;> linarith⟩
  · refine ⟨Act.logSigmoid, rfl, fun x y h => ?_⟩
    simp only [Act.logSigmoid]
    have h1 := Real.exp_pos (-x)
    have h2 := Real.exp_pos (-y)
    refine Real.log_lt_log (by positivity) (one_div_lt_one_div_of_lt (by positivity) ?_)
    have := Real.exp_lt_exp.2 (neg_lt_neg h)
    linarith
  · refine ⟨Act.sigmoid, rfl, fun x y h => ?_⟩
    simp only [Act.sigmoid]
    have h2 := Real.exp_pos (-y)
    refine one_div_lt_one_div_of_lt (by positivity) ?_
    have := Real.exp_lt_exp.2 (neg_lt_neg h)
    linarith
  · refine ⟨Act.softPlus, rfl, fun x y h => ?_⟩
    show Real.log (1 + Real.exp x) < Real.log (1 + Real.exp y)
    have h1 := Real.exp_pos x
    have := Real.exp_lt_exp.2 h
    exact Real.log_lt_log (by positivity) (by linarith)
  · refine ⟨Act.tanh, rfl, strictMono_of_deriv_pos fun x => ?_⟩
    rw [(Act.good_tanh.hasDerivAt rfl x).deriv]
    have h := (C24_tanh_range x).1
    simp only [Act.tanh] at h ⊢
    nlinarith [h.1, h.2]

/-- C142: these activations are homogeneous, so that `C142_rescale` holds for them. -/
theorem C142_homogeneous {s : String} (hs : s ∈ homogeneousActivations) : ∃ A, getActivation s = some A ∧ A.Homogeneous := by
  simp only [homogeneousActivations, List.mem_cons, List.not_mem_nil, or_false] at hs
  rcases hs with rfl | rfl | rfl | rfl | rfl | rfl
  · exact ⟨Act.absolute, rfl, fun c x hc => by simp only [Act.absolute]; rw [abs_mul, abs_of_pos hc]⟩
  · exact ⟨Act.divideBy256, rfl, fun c x hc => by simp only [Act.divideBy256]; ring⟩
  · exact ⟨Act.identity, rfl, fun c x hc => by simp only [Act.identity]⟩
  · refine ⟨Act.leakyRelu, rfl, fun c x hc => ?_⟩
    simp only [Act.leakyRelu, ge_iff_le, mul_nonneg_iff_of_pos_left hc]
    split_ifs <;> ring
  · refine ⟨Act.leakyRelu256, rfl, fun c x hc => ?_⟩
    simp only [Act.leakyRelu256, ge_iff_le, mul_nonneg_iff_of_pos_left hc]
    split_ifs <;> ring
  · refine ⟨Act.relu, rfl, fun c x hc => ?_⟩
    simp only [Act.relu, gt_iff_lt, mul_pos_iff_of_pos_left hc]
    split_ifs <;> ring

/-! ## Networks of two and three layers -/

/-- A layer that hands on its two inputs, and one more. -/
noncomputable def onTop (p : Ply) : Mlp := { depth := 2, width := fun _ => 2, ply := fun i => if i = 0 then copyWitness.ply 0 else p }

/-- Network 0 is these two layers. -/
noncomputable def onTopWorld (l : Layer) : World :=
  { heap := [some { kind := .dense 2 2, weight := Mat.ofFn 2 2 (fun k j => if k = j then 1 else 0), bias := Mat.ofFn 1 2 (fun _ _ => 0), wInit := "GlorotUniform", bInit := "Zeros" },
      some l], nets := fun n => if n = 0 then { layers := [0, 1] } else {} }

theorem onTop_topped (p : Ply) : Mlp.Topped copyWitness (onTop p) where
  depth := rfl
  width := fun _ _ => rfl
  ply := fun i hi => by
    obtain rfl : i = 0 := by have : i < 1 := hi; omega
    rfl

theorem onTopWorld_represents {p : Ply} {l : Layer} (hf : p.kind.Fits 2 2) (hv : l.Valid) (hi : p.Is 2 2 l) (hl : l.first = false) : Represents (onTopWorld l) 0 (onTop p) where
  ok := ⟨Nat.two_pos, fun _ _ => Nat.two_pos, fun i _ => by
    match i with
    | 0 => trivial
    | i + 1 => exact hf⟩
  nodup := by simp [onTopWorld]
  count := rfl
  layer := fun i a ha => by
    match i with
    | 0 =>
      obtain rfl : 0 = a := by simpa [onTopWorld] using ha
      exact ⟨_, rfl, ⟨Mat.ofFn_WF .., rfl, Mat.ofFn_WF .., rfl, rfl, rfl, rfl, rfl, rfl, rfl, rfl, rfl,
        fun m hm => absurd hm List.not_mem_nil, by simp [LayerKind.usesWeight], by simp [LayerKind.usesBias], fun _ => ⟨rfl, rfl, rfl⟩, trivial⟩,
        ⟨⟨2, 2, rfl⟩, fun _ => rfl, fun _ => rfl⟩, fun h => absurd h (by decide)⟩
    | 1 =>
      obtain rfl : 1 = a := by simpa [onTopWorld] using ha
      exact ⟨l, rfl, hv, hi, fun _ => hl⟩
    | i + 2 => simp [onTopWorld] at ha

theorem softmaxTop_represents : Represents (onTopWorld { kind := .softmax }) 0 (onTop { kind := .softmax }) :=
  onTopWorld_represents rfl (Layer.valid_new .softmax "" "" trivial) ⟨rfl, fun h => (by cases h), fun h => (by cases h)⟩ rfl

theorem actTop_represents {s : String} {A : Activation} (hA : getActivation s = some A) : Represents (onTopWorld { kind := .activation A }) 0 (onTop { kind := .act A }) :=
  onTopWorld_represents ⟨rfl, s, hA⟩ (Layer.valid_new (.activation A) "" "" ⟨s, hA⟩) ⟨rfl, fun h => (by cases h), fun h => (by cases h)⟩ rfl

/-- C142: an activation that is not strictly increasing may change the class.  With ReLU at the end, the sample (-2, -1) is put into class 0 instead of 1. -/
theorem C142_relu (e : Nat → Env) (g : Nat → ℝ) (N : Nat) {o : Mat ℝ} (ho : o.WF) :
    ∃ (v v' : World), copyWorld.predictClasses e g 0 (Mat.ofFn N 2 fun _ k => if k = 0 then -2 else -1) o = .ok (v, Mat.ofFn N 1 fun _ _ => 1) ∧
      (onTopWorld { kind := .activation Act.relu }).predictClasses e g 0 (Mat.ofFn N 2 fun _ k => if k = 0 then -2 else -1) o = .ok (v', Mat.ofFn N 1 fun _ _ => 0) := by
  have o1 : ∀ j, j < 2 → copyWitness.out (fun k => if k = 0 then -2 else -1) j = if j = 0 then -2 else -1 := fun j hj => by
    show ∑ k ∈ range 2, (if k = 0 then (-2 : ℝ) else -1) * (if k = j then 1 else 0) + 0 = _
    interval_cases j <;> simp [sum_range_succ]
  have o2 : ∀ j, j < 2 → (onTop { kind := .act Act.relu }).out (fun k => if k = 0 then -2 else -1) j = 0 := fun j hj => by
    rw [(onTop_topped _).out]
    show Act.relu.apply (copyWitness.out _ j) = 0
    rw [o1 j hj]
    simp only [Act.relu]
    split_ifs <;> linarith
  obtain ⟨v, h1, -⟩ := copyWorld_represents.predict (e := e) N (fun _ k => if k = 0 then -2 else -1) ⟨0, 0, []⟩ Mat.WF_empty
  obtain ⟨v', h2, -⟩ := (actTop_represents (s := "Relu") rfl).predict (e := e) N (fun _ k => if k = 0 then -2 else -1) ⟨0, 0, []⟩ Mat.WF_empty
  replace h1 : copyWorld.predict e 0 (Mat.ofFn N 2 fun _ k => if k = 0 then -2 else -1) ⟨0, 0, []⟩ = .ok (v, Mat.ofFn N 2 fun _ => copyWitness.out fun k => if k = 0 then -2 else -1) := h1
  replace h2 : (onTopWorld { kind := .activation Act.relu }).predict e 0 (Mat.ofFn N 2 fun _ k => if k = 0 then -2 else -1) ⟨0, 0, []⟩ =
    .ok (v', Mat.ofFn N 2 fun _ => (onTop { kind := .act Act.relu }).out fun k => if k = 0 then -2 else -1) := h2
  obtain ⟨k, k1, k2⟩ := C49_argmax g N 2 (by decide) (fun _ => copyWitness.out fun k => if k = 0 then -2 else -1) o ho
  obtain ⟨k', k1', k2'⟩ := C49_argmax g N 2 (by decide) (fun _ => (onTop { kind := .act Act.relu }).out fun k => if k = 0 then -2 else -1) o ho
  refine ⟨v, v', ?_, ?_⟩
  · rw [predictClasses, h1, bind_ok']
    dsimp only
    rw [k1, bind_ok', pure_ok]
    congr 2
    refine Mat.ofFn_congr fun s _ hs _ => ?_
    have : k s = 1 := (k2 s hs).unique ⟨by decide, fun i hi => by rw [o1 i hi, o1 1 (by decide), if_neg Nat.one_ne_zero]; split_ifs <;> norm_num, fun i hi => by
      obtain rfl : i = 0 := by omega
      rw [o1 0 (by decide), o1 1 (by decide)]
      norm_num⟩
    rw [this, Nat.cast_one]
  · rw [predictClasses, h2, bind_ok']
    dsimp only
    rw [k1', bind_ok', pure_ok]
    congr 2
    refine Mat.ofFn_congr fun s _ hs _ => ?_
    have : k' s = 0 := (k2' s hs).unique ⟨by decide, fun i hi => by rw [o2 i hi, o2 0 (by decide)], fun i hi => absurd hi (Nat.not_lt_zero i)⟩
    rw [this, Nat.cast_zero]

/-- One input, two hidden units with ReLU, and one output; the second unit is multiplied by `c`. -/
noncomputable def bentNet (c : ℝ) : Mlp :=
  { depth := 3, width := fun i => if i = 1 ∨ i = 2 then 2 else 1
    ply := fun i => if i = 0 then { kind := .dense, weight := fun _ j => if j = 0 then -1 else c, bias := fun _ j => if j = 0 then 1 else c } else
      if i = 2 then { kind := .dense, weight := fun i _ => if i = 0 then 3 else 1 / c } else { kind := .act Act.relu } }

/-- Network 0 is this network. -/
noncomputable def bentWorld (c : ℝ) : World :=
  { heap := [some { kind := .dense 1 2, weight := Mat.ofFn 1 2 (fun _ j => if j = 0 then -1 else c), bias := Mat.ofFn 1 2 (fun _ j => if j = 0 then 1 else c), wInit := "GlorotUniform", bInit := "Zeros" },
      some { kind := .activation Act.relu },
      some { kind := .dense 2 1, weight := Mat.ofFn 2 1 (fun i _ => if i = 0 then 3 else 1 / c), bias := Mat.ofFn 1 1 (fun _ _ => 0), wInit := "GlorotUniform", bInit := "Zeros" }]
    nets := fun n => if n = 0 then { layers := [0, 1, 2] } else {} }

theorem bentWorld_represents (c : ℝ) : Represents (bentWorld c) 0 (bentNet c) where
  ok :=
    { depth := by show 0 < 3; decide
      pos := fun i _ => by simp only [bentNet]; split <;> decide
      fits := fun i hi => by
        have hi : i < 3 := hi
        interval_cases i
        · trivial
        · exact ⟨rfl, "Relu", rfl⟩
        · trivial }
  nodup := by simp [bentWorld]
  count := rfl
  layer := fun i a hi => by
    match i with
    | 0 =>
      obtain rfl : 0 = a := by simpa [bentWorld] using hi
      exact ⟨_, rfl, ⟨Mat.ofFn_WF .., rfl, Mat.ofFn_WF .., rfl, rfl, rfl, rfl, rfl, rfl, rfl, rfl, rfl,
        fun m hm => absurd hm List.not_mem_nil, by simp [LayerKind.usesWeight], by simp [LayerKind.usesBias], fun _ => ⟨rfl, rfl, rfl⟩, trivial⟩,
        ⟨⟨1, 2, rfl⟩, fun _ => rfl, fun _ => rfl⟩, fun h => absurd h (by decide)⟩
    | 1 =>
      obtain rfl : 1 = a := by simpa [bentWorld] using hi
      exact ⟨_, rfl, Layer.valid_new (.activation Act.relu) "" "" ⟨"Relu", rfl⟩, ⟨rfl, fun h => (by cases h), fun h => (by cases h)⟩, fun _ => rfl⟩
    | 2 =>
      obtain rfl : 2 = a := by simpa [bentWorld] using hi
      exact ⟨_, rfl, ⟨Mat.ofFn_WF .., rfl, Mat.ofFn_WF .., rfl, rfl, rfl, rfl, rfl, rfl, rfl, rfl, rfl,
        fun m hm => absurd hm List.not_mem_nil, by simp [LayerKind.usesWeight], by simp [LayerKind.usesBias], fun _ => ⟨rfl, rfl, rfl⟩, trivial⟩,
        ⟨⟨2, 1, rfl⟩, fun _ => rfl, fun _ => rfl⟩, fun _ => rfl⟩
    | i + 3 => simp [bentWorld] at hi

theorem bentNet_rescaled (c : ℝ) : Mlp.Rescaled (fun j => if j = 0 then 1 else c) 0 (bentNet 1) (bentNet c) where
  like := ⟨rfl, rfl, fun i => by simp only [bentNet]; split_ifs <;> rfl⟩
  depth := by show 0 + 2 < 3; decide
  before := rfl
  between := by
    obtain ⟨A, h1, h2⟩ := C142_homogeneous (s := "Relu") (by decide)
    obtain rfl : Act.relu = A := Option.some.inj h1
    exact ⟨_, rfl, h2⟩
  after := rfl
  other := fun i h0 h2 => by
    match i with
    | 0 => exact absurd rfl h0
    | 1 => rfl
    | 2 => exact absurd rfl h2
    | i + 3 => rfl
  weight := fun k j _ _ => by simp only [bentNet, if_pos]; split_ifs <;> ring
  bias := fun j _ => by simp only [bentNet, if_pos]; split_ifs <;> ring
  next := fun j q _ => by simp only [bentNet]; split_ifs <;> simp_all
  nextBias := fun q => rfl

/-! ## Witnesses -/

/-- Softmax or tanh after a layer that hands on its inputs. -/
example (e : Nat → Env) (g : Nat → ℝ) (x : Nat → Row) := C142_classes (onTop_topped { kind := .softmax }) (by exact trivial) (by decide) copyWorld_represents softmaxTop_represents
  e e g g 5 x Mat.WF_empty Mat.WF_empty

example (e : Nat → Env) (g : Nat → ℝ) (x : Nat → Row) : ∃ A, getActivation "Tanh" = some A ∧ ∃ (v v' : World) (p : Mat ℝ),
    copyWorld.predictClasses e g 0 (Mat.ofFn 5 2 x) ⟨0, 0, []⟩ = .ok (v, p) ∧ (onTopWorld { kind := .activation A }).predictClasses e g 0 (Mat.ofFn 5 2 x) ⟨0, 0, []⟩ = .ok (v', p) := by
  obtain ⟨A, h1, h2⟩ := C142_rising (s := "Tanh") (by decide)
  exact ⟨A, h1, C142_classes (onTop_topped { kind := .act A }) h2 (by decide) copyWorld_represents (actTop_represents h1) e e g g 5 x Mat.WF_empty Mat.WF_empty⟩

example (e : Nat → Env) (g : Nat → ℝ) := C142_relu e g 5 (o := ⟨0, 0, []⟩) Mat.WF_empty

example (e : Nat → Env) (x : Nat → Row) := C142_rescale (bentNet_rescaled 7) (fun j _ => by split_ifs <;> norm_num) (bentWorld_represents 1) (bentWorld_represents 7) e e 5 x Mat.WF_empty Mat.WF_empty

/-- Two dense layers. -/
theorem twoDense_represents (W : Nat → Nat → ℝ) (b : Nat → ℝ) :
    Represents (onTopWorld { kind := .dense 2 2, weight := Mat.ofFn 2 2 W, bias := Mat.ofFn 1 2 (fun _ => b), wInit := "GlorotUniform", bInit := "Zeros" }) 0
      (onTop { kind := .dense, weight := W, bias := fun _ => b }) :=
  onTopWorld_represents trivial ⟨Mat.ofFn_WF .., rfl, Mat.ofFn_WF .., rfl, rfl, rfl, rfl, rfl, rfl, rfl, rfl, rfl,
    fun m hm => absurd hm List.not_mem_nil, by simp [LayerKind.usesWeight], by simp [LayerKind.usesBias], fun _ => ⟨rfl, rfl, rfl⟩, trivial⟩
    ⟨⟨2, 2, rfl⟩, fun _ => rfl, fun _ => rfl⟩ rfl

example (W : Nat → Nat → ℝ) (b : Nat → ℝ) := C142_linear (m := onTop { kind := .dense, weight := W, bias := fun _ => b })
  (fun i _ => .inl (by simp only [onTop]; split <;> rfl)) (twoDense_represents W b)

/-- The single layer exists as a network of the program. -/
example (e : Nat → Env) (x : Nat → Row) (V : Nat → Nat → ℝ) (a : Nat → ℝ) : ∃ (W : Nat → Nat → ℝ) (b : Nat → ℝ) (v v' : World) (p : Mat ℝ),
    (onTopWorld { kind := .dense 2 2, weight := Mat.ofFn 2 2 V, bias := Mat.ofFn 1 2 (fun _ => a), wInit := "GlorotUniform", bInit := "Zeros" }).predict e 0 (Mat.ofFn 5 2 x) ⟨0, 0, []⟩ = .ok (v, p) ∧
      (denseWorld 2 2 W b).predict e 0 (Mat.ofFn 5 2 x) ⟨0, 0, []⟩ = .ok (v', p) := by
  obtain ⟨W, b, h⟩ := C142_linear (m := onTop { kind := .dense, weight := V, bias := fun _ => a }) (fun i _ => .inl (by simp only [onTop]; split <;> rfl)) (twoDense_represents V a)
  exact ⟨W, b, h _ _ (denseWorld_represents Nat.two_pos Nat.two_pos W b) e e 5 x _ _ Mat.WF_empty Mat.WF_empty⟩

end BeeDNN
