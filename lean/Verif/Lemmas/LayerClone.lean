import Verif.Lemmas.Layer
import Verif.Lemmas.Initializers
import Verif.Lemmas.OptimizerWF
import Verif.Props.Activations

/-! # Lemmas about constructing and cloning layers -/

namespace BeeDNN

theorem Mat.WF_empty {α : Type} : (⟨0, 0, []⟩ : Mat α).WF := rfl

theorem Mat.assign_eq [Inhabited α] (g : Nat → α) {m a : Mat α} (hm : m.WF) (ha : a.WF) : m.assign g a = .ok a := by
  obtain ⟨d, hd⟩ := ha.exists_ofFn
  rw [hd, Mat.assign_ofFn g hm]

theorem Mat.alloc_WF [Inhabited α] (g : Nat → α) (r c : Nat) : (Mat.alloc g r c).WF := by
  simp [Mat.alloc, Mat.WF, tab]

theorem Mat.setConstant_ok [Inhabited α] {m : Mat α} (hm : m.WF) (b : α) : ∃ m', m.setConstant b = .ok m' ∧ m'.WF := by
  obtain ⟨d, hd⟩ := hm.exists_ofFn
  exact ⟨_, by rw [hd, Mat.setConstant_ofFn], Mat.ofFn_WF ..⟩

theorem Mat.setRandom_ok (g : Nat → ℝ) {m : Mat ℝ} (hm : m.WF) (r c : Nat) (draw : Nat → ℝ) :
    ∃ m', m.setRandom g r c draw = .ok m' ∧ m'.WF := ⟨_, setRandom_ofFn g hm r c draw, Mat.ofFn_WF ..⟩

theorem Mat.setConstantRC_ok (g : Nat → ℝ) {m : Mat ℝ} (hm : m.WF) (r c : Nat) (b : ℝ) :
    ∃ m', m.setConstantRC g r c b = .ok m' ∧ m'.WF := ⟨_, Mat.setConstantRC_ofFn g hm r c b, Mat.ofFn_WF ..⟩

/-- Two layers agree in everything but the parameters, buffers and the state of the recurrence. -/
structure Layer.SameHead (l p : Layer) : Prop where
  kind : p.kind = l.kind
  train : p.train = l.train
  first : p.first = l.first
  wInit : p.wInit = l.wInit
  bInit : p.bInit = l.bInit
  fast : p.fastLUT = l.fastLUT

/-- `init` always succeeds on a valid layer and returns a valid layer. -/
theorem Layer.init_valid (e : Env) {l : Layer} (hv : l.Valid) :
    ∃ p, l.init e = .ok p ∧ p.Valid ∧ l.SameHead p := by
  obtain ⟨h1, h2, h3, h4, h5, h6, h7, h8, h9, h10, h11, h12, h13, n1, n2, n3, hm⟩ := hv
  have rz : ∀ {m : Mat ℝ}, m.WF → (m.resize e.g 0 0).WF := fun h => Mat.resize_WF h _ _
  unfold Layer.init
  split
  case h_1 i o hk =>
    split
    · exact ⟨l, rfl, ⟨h1, h2, h3, h4, h5, h6, h7, h8, h9, h10, h11, h12, h13, n1, n2, n3, hm⟩, ⟨rfl, rfl, rfl, rfl, rfl, rfl⟩⟩
    · obtain ⟨w, hw, ww⟩ := initCompute_WF e.g e.draw l.wInit h1 i o
      obtain ⟨b, hb, wb⟩ := initCompute_WF e.g e.drawX l.bInit h3 1 o
      simp only [hw, hb, bind_ok', pure_ok]
      exact ⟨_, rfl, ⟨ww, h2, wb, h4, h5, h6, h7, h8, h9, h10, h11, h12, h13, by simp [hk, LayerKind.usesWeight],
        by simp [hk, LayerKind.usesBias], n3, hm⟩, ⟨rfl, rfl, rfl, rfl, rfl, rfl⟩⟩
  case h_2 i o hk =>
    split
    · exact ⟨l, rfl, ⟨h1, h2, h3, h4, h5, h6, h7, h8, h9, h10, h11, h12, h13, n1, n2, n3, hm⟩, ⟨rfl, rfl, rfl, rfl, rfl, rfl⟩⟩
    · obtain ⟨w, hw, ww⟩ := initCompute_WF e.g e.draw l.wInit h1 i o
      simp only [hw, bind_ok', pure_ok]
      exact ⟨_, rfl, ⟨ww, h2, h3, h4, h5, h6, h7, h8, h9, h10, h11, h12, h13, by simp [hk, LayerKind.usesWeight],
        n2, n3, hm⟩, ⟨rfl, rfl, rfl, rfl, rfl, rfl⟩⟩
  case h_3 hk =>
    exact ⟨_, rfl, ⟨h1, h2, rz h3, h4, h5, h6, h7, h8, h9, h10, h11, h12, h13, n1,
      by simp [hk, LayerKind.usesBias], n3, hm⟩, ⟨rfl, rfl, rfl, rfl, rfl, rfl⟩⟩
  case h_4 hk =>
    exact ⟨_, rfl, ⟨rz h1, h2, h3, h4, h5, h6, h7, h8, h9, h10, h11, h12, h13,
      by simp [hk, LayerKind.usesWeight], n2, n3, hm⟩, ⟨rfl, rfl, rfl, rfl, rfl, rfl⟩⟩
  case h_5 hk =>
    exact ⟨_, rfl, ⟨rz h1, h2, rz h3, h4, h5, h6, h7, h8, h9, h10, h11, h12, h13,
      by simp [hk, LayerKind.usesWeight], by simp [hk, LayerKind.usesBias], n3, hm⟩, ⟨rfl, rfl, rfl, rfl, rfl, rfl⟩⟩
  case h_6 hk =>
    obtain ⟨b, hb, wb⟩ := Mat.setConstant_ok h3 (0 : ℝ)
    simp only [hb, bind_ok', pure_ok]
    exact ⟨_, rfl, ⟨h1, h2, wb, h4, h5, h6, h7, h8, h9, h10, h11, h12, h13, n1,
      by simp [hk, LayerKind.usesBias], n3, hm⟩, ⟨rfl, rfl, rfl, rfl, rfl, rfl⟩⟩
  case h_7 hk =>
    obtain ⟨b, hb, wb⟩ := Mat.setConstant_ok h1 (1 : ℝ)
    simp only [hb, bind_ok', pure_ok]
    exact ⟨_, rfl, ⟨wb, h2, h3, h4, h5, h6, h7, h8, h9, h10, h11, h12, h13,
      by simp [hk, LayerKind.usesWeight], n2, n3, hm⟩, ⟨rfl, rfl, rfl, rfl, rfl, rfl⟩⟩
  case h_8 hk =>
    obtain ⟨w, hw, ww⟩ := Mat.setConstant_ok h1 (1 : ℝ)
    obtain ⟨b, hb, wb⟩ := Mat.setConstant_ok h3 (0 : ℝ)
    simp only [hw, hb, bind_ok', pure_ok]
    exact ⟨_, rfl, ⟨ww, h2, wb, h4, h5, h6, h7, h8, h9, h10, h11, h12, h13,
      by simp [hk, LayerKind.usesWeight], by simp [hk, LayerKind.usesBias], n3, hm⟩, ⟨rfl, rfl, rfl, rfl, rfl, rfl⟩⟩
  case h_9 r c ch hk =>
    obtain ⟨b, hb, wb⟩ := initCompute_WF e.g e.draw l.bInit h3 1 ch
    simp only [hb, bind_ok', pure_ok]
    exact ⟨_, rfl, ⟨h1, h2, wb, h4, h5, h6, h7, h8, h9, h10, h11, h12, h13, n1,
      by simp [hk, LayerKind.usesBias], n3, hm⟩, ⟨rfl, rfl, rfl, rfl, rfl, rfl⟩⟩
  case h_10 p hk =>
    have hlt : ¬ ((1 : ℝ) < -1) := by norm_num
    obtain ⟨gw, hgw, wgw⟩ := Mat.setConstant_ok
      (Mat.resize_WF (g := e.g) h2 p.outCh (p.kRows * p.kCols * p.inCh)) (0 : ℝ)
    simp only [setRandomUniform, if_neg hlt, setDraws_resize e.g e.draw h1, Mat.scale_ofFn, bind_ok', pure_ok,
      Mat.ofFn_rows, Mat.ofFn_cols, hgw]
    exact ⟨_, rfl, ⟨Mat.ofFn_WF .., wgw, h3, h4, h5, h6, h7, h8, h9, h10, h11, h12, h13,
      by simp [hk, LayerKind.usesWeight], n2, n3, hm⟩, ⟨rfl, rfl, rfl, rfl, rfl, rfl⟩⟩
  case h_11 hk =>
    exact ⟨_, rfl, ⟨rz h1, h2, h3, h4, h5, h6, h7, h8, h9, h10, h11, h12, h13,
      by simp [hk, LayerKind.usesWeight], n2, n3, hm⟩, ⟨rfl, rfl, rfl, rfl, rfl, rfl⟩⟩
  case h_12 hk =>
    exact ⟨_, rfl, ⟨rz h1, h2, h3, h4, h5, h6, h7, h8, h9, h10, h11, h12, h13,
      by simp [hk, LayerKind.usesWeight], n2, n3, hm⟩, ⟨rfl, rfl, rfl, rfl, rfl, rfl⟩⟩
  case h_13 hk =>
    exact ⟨_, rfl, ⟨rz h1, h2, h3, h4, h5, h6, h7, h8, h9, h10, h11, h12, h13,
      by simp [hk, LayerKind.usesWeight], n2, n3, hm⟩, ⟨rfl, rfl, rfl, rfl, rfl, rfl⟩⟩
  case h_14 f hk =>
    obtain ⟨b, hb, wb⟩ := initCompute_WF e.g e.draw l.bInit h3 1 f
    simp only [hb, bind_ok', pure_ok]
    exact ⟨_, rfl, ⟨h1, h2, wb, h4, h5, h6, h7, h8, h9, h10, h11, h12, h13, n1,
      by simp [hk, LayerKind.usesBias], n3, hm⟩, ⟨rfl, rfl, rfl, rfl, rfl, rfl⟩⟩
  case h_15 f o hk =>
    obtain ⟨w, hw, ww⟩ := initCompute_WF e.g e.draw l.wInit h1 f o
    simp only [hw, bind_ok', pure_ok]
    exact ⟨_, rfl, ⟨ww, h2, h3, h4, h5, h6, h7, h8, h9, h10, h11, h12, h13, by simp [hk, LayerKind.usesWeight],
      n2, n3, hm⟩, ⟨rfl, rfl, rfl, rfl, rfl, rfl⟩⟩
  case h_16 f o hk =>
    obtain ⟨w, hw, ww⟩ := initCompute_WF e.g e.draw l.wInit h1 f o
    obtain ⟨b, hb, wb⟩ := initCompute_WF e.g e.drawX l.bInit h3 1 o
    simp only [hw, hb, bind_ok', pure_ok]
    exact ⟨_, rfl, ⟨ww, h2, wb, h4, h5, h6, h7, h8, h9, h10, h11, h12, h13, by simp [hk, LayerKind.usesWeight],
      by simp [hk, LayerKind.usesBias], n3, hm⟩, ⟨rfl, rfl, rfl, rfl, rfl, rfl⟩⟩
  case h_17 f u hk =>
    obtain ⟨a, ha, wa⟩ := Mat.setRandom_ok e.g h9 u u e.draw
    obtain ⟨b, hb, wb⟩ := Mat.setRandom_ok e.g h10 f u e.drawX
    obtain ⟨c, hc, wc⟩ := Mat.setConstantRC_ok e.g h11 1 u 0
    obtain ⟨d, hd, wd⟩ := Mat.setConstantRC_ok e.g h12 1 u 0
    simp only [simpleInit, ha, hb, hc, hd, bind_ok', pure_ok]
    exact ⟨_, rfl, ⟨h1, h2, h3, h4, h5, h6, h7, h8, wa, wb, wc, wd, by simp, n1, n2,
      by simp [hk, LayerKind.usesRec], hm⟩, ⟨rfl, rfl, rfl, rfl, rfl, rfl⟩⟩
  case h_18 f hk =>
    obtain ⟨a, ha, wa⟩ := Mat.setRandom_ok e.g h1 f f e.draw
    simp only [simplestInit, ha, bind_ok', pure_ok]
    exact ⟨_, rfl, ⟨wa, h2, h3, h4, h5, h6, h7, h8, h9, h10, h11, h12, by simp, by simp [hk, LayerKind.usesWeight], n2,
      n3, hm⟩, ⟨rfl, rfl, rfl, rfl, rfl, rfl⟩⟩
  case h_19 =>
    exact ⟨l, rfl, ⟨h1, h2, h3, h4, h5, h6, h7, h8, h9, h10, h11, h12, h13, n1, n2, n3, hm⟩, ⟨rfl, rfl, rfl, rfl, rfl, rfl⟩⟩

/-- A layer object right before the constructor calls `init`. -/
theorem Layer.valid_new (k : LayerKind) (wi bi : String) (hk : k.Made) : ({ kind := k, wInit := wi, bInit := bi } : Layer).Valid :=
  ⟨rfl, rfl, rfl, rfl, rfl, rfl, rfl, rfl, rfl, rfl, rfl, rfl, by simp, fun _ => rfl, fun _ => rfl, fun _ => ⟨rfl, rfl, rfl⟩, hk⟩

theorem Layer.new_ok (e : Env) (k : LayerKind) (wi bi : String) (hk : k.Made) :
    ∃ p, Layer.init e { kind := k, wInit := wi, bInit := bi } = .ok p ∧ p.Valid ∧ p.kind = k ∧ p.train = false ∧
      p.first = false ∧ p.wInit = wi ∧ p.bInit = bi ∧ p.fastLUT = true := by
  obtain ⟨p, hp, hv, hh⟩ := Layer.init_valid e (Layer.valid_new k wi bi hk)
  exact ⟨p, hp, hv, hh.kind, hh.train, hh.first, hh.wInit, hh.bInit, hh.fast⟩

/-- What becomes of the gradients of classes that need gradient matrices of the right size. -/
def Layer.GradKept (l p : Layer) : Prop :=
  match l.kind with
  | .prelu | .pelu | .terelu => p.gradWeight = l.gradWeight
  | .globalBias => p.gradBias.rows = 1 ∧ p.gradBias.cols = 1
  | .globalGain => p.gradWeight.rows = 1 ∧ p.gradWeight.cols = 1
  | .globalAffine => (p.gradWeight.rows = 1 ∧ p.gradWeight.cols = 1) ∧ p.gradBias.rows = 1 ∧ p.gradBias.cols = 1
  | _ => True

/-- What `clone` promises. -/
structure Layer.CloneOk (l p : Layer) : Prop where
  valid : p.Valid
  same : l.SameParams p
  train : p.train = false
  first : p.first = false
  bInit : l.kind = .bias → p.bInit = l.bInit
  fast : p.fastLUT = true
  h : l.kind.usesRec = true ∨ (∃ f, l.kind = .simplestRNN f) → p.h = l.h
  grads : l.GradKept p

/-- Clone of a class without parameters. -/
theorem Layer.cloneOk_plain {l : Layer} (hv : l.Valid) (hw : l.kind.usesWeight = false) (hb : l.kind.usesBias = false)
    (hr : l.kind.usesRec = false) (hk : l.kind ≠ .bias) (hs : ∀ f, l.kind ≠ .simplestRNN f) : l.CloneOk { kind := l.kind } where
  valid := Layer.valid_new l.kind "" "" hv.made
  same := ⟨rfl, (hv.noWeight hw).symm, (hv.noBias hb).symm, (hv.noRec hr).1.symm, (hv.noRec hr).2.1.symm, (hv.noRec hr).2.2.symm⟩
  train := rfl
  first := rfl
  bInit := fun h => absurd h hk
  fast := rfl
  h := by
    rintro (h | ⟨f, h⟩)
    · rw [hr] at h; cases h
    · exact absurd h (hs f)
  grads := by
    obtain ⟨k⟩ := l
    dsimp only at hw hb
    unfold Layer.GradKept
    cases k <;> first | trivial | cases hw | cases hb

/-- Clone of a class with parameters in `_weight` and `_bias`. -/
theorem Layer.cloneOk_params {l p : Layer} (hv : l.Valid) (pv : p.Valid) (hk : p.kind = l.kind) (ht : p.train = false)
    (hf : p.first = false) (hl : p.fastLUT = true) (hi : l.kind = .bias → p.bInit = l.bInit) (hr : l.kind.usesRec = false)
    (hs : ∀ f, l.kind ≠ .simplestRNN f) {w b gw : Mat ℝ} (hw : w = l.weight) (hb : b = l.bias) (hg : gw.WF)
    (hgk : l.GradKept { p with weight := w, bias := b, gradWeight := gw }) : l.CloneOk { p with weight := w, bias := b, gradWeight := gw } where
  valid := ⟨hw ▸ hv.weight, hg, hb ▸ hv.bias, pv.gradBias, pv.maxIndex, pv.mask, pv.im2colT, pv.tempImg, pv.whh, pv.wxh,
    pv.bh, pv.h, pv.saved, fun h => hw.trans (hv.noWeight (hk ▸ h)), fun h => hb.trans (hv.noBias (hk ▸ h)), pv.noRec, pv.made⟩
  same := by
    have h1 := hv.noRec hr
    have h2 := pv.noRec (hk ▸ hr)
    exact ⟨hk, hw, hb, h2.1.trans h1.1.symm, h2.2.1.trans h1.2.1.symm, h2.2.2.trans h1.2.2.symm⟩
  train := ht
  first := hf
  bInit := hi
  fast := hl
  h := by
    rintro (h | ⟨f, h⟩)
    · rw [hr] at h; cases h
    · exact absurd h (hs f)
  grads := hgk

theorem Layer.bias_none {l p : Layer} (hv : l.Valid) (pv : p.Valid) (hk : p.kind = l.kind) (h : l.kind.usesBias = false) :
    p.bias = l.bias := (pv.noBias (hk ▸ h)).trans (hv.noBias h).symm

theorem Layer.weight_none {l p : Layer} (hv : l.Valid) (pv : p.Valid) (hk : p.kind = l.kind) (h : l.kind.usesWeight = false) :
    p.weight = l.weight := (pv.noWeight (hk ▸ h)).trans (hv.noWeight h).symm

theorem Pool.create_again {r c k rf cf : Nat} {p : Pool} (h : Pool.create r c k rf cf = .ok p) :
    Pool.create p.inRows p.inCols p.channels p.rowFactor p.colFactor = .ok p := by
  obtain ⟨h1, h2, rfl⟩ := Pool.create_inv h
  exact h

theorem Conv.create_again {r c k kr kc o rs cs : Nat} {p : Conv} (h : Conv.create r c k kr kc o rs cs = .ok p) :
    Conv.create p.inRows p.inCols p.inCh p.kRows p.kCols p.outCh p.rowStride p.colStride = .ok p := by
  obtain ⟨h1, h2, rfl⟩ := Conv.create_inv h
  exact h

/-- Cloning a valid layer succeeds. -/
theorem Layer.clone_ok (e : Env) {l : Layer} (hv : l.Valid) : ∃ p, l.clone e = .ok p ∧ l.CloneOk p := by
  have ga : ∀ {s a}, getActivation s = some a → getActivation a.name = some a := by
    intro s a h; rw [C25_name s a h]; exact h
  unfold Layer.clone
  split
  case h_1 i o hk =>
    obtain ⟨p, hp, pv, pk, pt, pf, -, pb, pl⟩ := Layer.new_ok e (.dense i o) l.wInit l.bInit trivial
    simp only [newDense, hp, bind_ok', Mat.assign_eq e.g pv.weight hv.weight, Mat.assign_eq e.g pv.bias hv.bias, pure_ok]
    exact ⟨_, rfl, cloneOk_params hv pv (pk.trans hk.symm) pt pf pl (by simp [hk]) (by rw [hk]; rfl) (by simp [hk])
      rfl rfl pv.gradWeight (by rw [GradKept, hk]; trivial)⟩
  case h_2 i o hk =>
    obtain ⟨p, hp, pv, pk, pt, pf, -, pb, pl⟩ := Layer.new_ok e (.dot i o) "GlorotUniform" "" trivial
    simp only [newDot, hp, bind_ok', Mat.assign_eq e.g pv.weight hv.weight, pure_ok]
    have pk := pk.trans hk.symm
    exact ⟨_, rfl, cloneOk_params hv pv pk pt pf pl (by simp [hk]) (by rw [hk]; rfl) (by simp [hk])
      rfl (bias_none hv pv pk (by rw [hk]; rfl)) pv.gradWeight (by rw [GradKept, hk]; trivial)⟩
  case h_3 hk =>
    obtain ⟨p, hp, pv, pk, pt, pf, -, pb, pl⟩ := Layer.new_ok e .bias "" l.bInit trivial
    simp only [newBias, hp, bind_ok', Mat.assign_eq e.g pv.bias hv.bias, pure_ok]
    have pk := pk.trans hk.symm
    exact ⟨_, rfl, cloneOk_params hv pv pk pt pf pl (fun _ => pb) (by rw [hk]; rfl) (by simp [hk])
      (weight_none hv pv pk (by rw [hk]; rfl)) rfl pv.gradWeight (by rw [GradKept, hk]; trivial)⟩
  case h_4 hk =>
    obtain ⟨p, hp, pv, pk, pt, pf, -, pb, pl⟩ := Layer.new_ok e .gain "" "" trivial
    simp only [newGain, hp, bind_ok', Mat.assign_eq e.g pv.weight hv.weight, pure_ok]
    have pk := pk.trans hk.symm
    exact ⟨_, rfl, cloneOk_params hv pv pk pt pf pl (by simp [hk]) (by rw [hk]; rfl) (by simp [hk])
      rfl (bias_none hv pv pk (by rw [hk]; rfl)) pv.gradWeight (by rw [GradKept, hk]; trivial)⟩
  case h_5 hk =>
    obtain ⟨p, hp, pv, pk, pt, pf, -, pb, pl⟩ := Layer.new_ok e .affine "" "" trivial
    simp only [newAffine, hp, bind_ok', Mat.assign_eq e.g pv.weight hv.weight, Mat.assign_eq e.g pv.bias hv.bias, pure_ok]
    exact ⟨_, rfl, cloneOk_params hv pv (pk.trans hk.symm) pt pf pl (by simp [hk]) (by rw [hk]; rfl) (by simp [hk])
      rfl rfl pv.gradWeight (by rw [GradKept, hk]; trivial)⟩
  case h_6 hk =>
    obtain ⟨p, hp, pv, hh⟩ := Layer.init_valid e (l := { kind := .globalBias, bias := Mat.alloc e.g 1 1, gradBias := Mat.alloc e.g 1 1 })
      ⟨rfl, rfl, Mat.alloc_WF .., Mat.alloc_WF .., rfl, rfl, rfl, rfl, rfl, rfl, rfl, rfl, by simp, fun _ => rfl,
        by simp [LayerKind.usesBias], fun _ => ⟨rfl, rfl, rfl⟩, trivial⟩
    have hg : p.gradBias.rows = 1 ∧ p.gradBias.cols = 1 := by
      simp only [init] at hp
      obtain ⟨b, -, hp⟩ := ok_bind hp
      cases hp
      exact ⟨rfl, rfl⟩
    simp only [newGlobalBias, hp, bind_ok', Mat.assign_eq e.g pv.bias hv.bias, pure_ok]
    have pk := hh.kind.trans hk.symm
    exact ⟨_, rfl, cloneOk_params hv pv pk hh.train hh.first hh.fast (by simp [hk]) (by rw [hk]; rfl) (by simp [hk])
      (weight_none hv pv pk (by rw [hk]; rfl)) rfl pv.gradWeight (by rw [GradKept, hk]; exact hg)⟩
  case h_7 hk =>
    obtain ⟨p, hp, pv, hh⟩ := Layer.init_valid e (l := { kind := .globalGain, weight := Mat.alloc e.g 1 1, gradWeight := Mat.alloc e.g 1 1 })
      ⟨Mat.alloc_WF .., Mat.alloc_WF .., rfl, rfl, rfl, rfl, rfl, rfl, rfl, rfl, rfl, rfl, by simp,
        by simp [LayerKind.usesWeight], fun _ => rfl, fun _ => ⟨rfl, rfl, rfl⟩, trivial⟩
    have hg : p.gradWeight.rows = 1 ∧ p.gradWeight.cols = 1 := by
      simp only [init] at hp
      obtain ⟨b, -, hp⟩ := ok_bind hp
      cases hp
      exact ⟨rfl, rfl⟩
    simp only [newGlobalGain, hp, bind_ok', Mat.assign_eq e.g pv.weight hv.weight, pure_ok]
    have pk := hh.kind.trans hk.symm
    exact ⟨_, rfl, cloneOk_params hv pv pk hh.train hh.first hh.fast (by simp [hk]) (by rw [hk]; rfl) (by simp [hk])
      rfl (bias_none hv pv pk (by rw [hk]; rfl)) pv.gradWeight (by rw [GradKept, hk]; exact hg)⟩
  case h_8 hk =>
    obtain ⟨p, hp, pv, hh⟩ := Layer.init_valid e (l := { kind := .globalAffine, weight := Mat.alloc e.g 1 1, gradWeight := Mat.alloc e.g 1 1, bias := Mat.alloc e.g 1 1, gradBias := Mat.alloc e.g 1 1 })
      ⟨Mat.alloc_WF .., Mat.alloc_WF .., Mat.alloc_WF .., Mat.alloc_WF .., rfl, rfl, rfl, rfl, rfl, rfl, rfl, rfl, by simp,
        by simp [LayerKind.usesWeight], by simp [LayerKind.usesBias], fun _ => ⟨rfl, rfl, rfl⟩, trivial⟩
    have hg : (p.gradWeight.rows = 1 ∧ p.gradWeight.cols = 1) ∧ p.gradBias.rows = 1 ∧ p.gradBias.cols = 1 := by
      simp only [init] at hp
      obtain ⟨b, -, hp⟩ := ok_bind hp
      obtain ⟨b, -, hp⟩ := ok_bind hp
      cases hp
      exact ⟨⟨rfl, rfl⟩, rfl, rfl⟩
    simp only [newGlobalAffine, hp, bind_ok', Mat.assign_eq e.g pv.weight hv.weight, Mat.assign_eq e.g pv.bias hv.bias, pure_ok]
    have pk := hh.kind.trans hk.symm
    exact ⟨_, rfl, cloneOk_params hv pv pk hh.train hh.first hh.fast (by simp [hk]) (by rw [hk]; rfl) (by simp [hk])
      rfl rfl pv.gradWeight (by rw [GradKept, hk]; exact hg)⟩
  case h_9 r c ch hk =>
    obtain ⟨p, hp, pv, pk, pt, pf, -, pb, pl⟩ := Layer.new_ok e (.channelBias r c ch) "" l.bInit trivial
    simp only [newChannelBias, hp, bind_ok', Mat.assign_eq e.g pv.bias hv.bias, pure_ok]
    have pk := pk.trans hk.symm
    exact ⟨_, rfl, cloneOk_params hv pv pk pt pf pl (by simp [hk]) (by rw [hk]; rfl) (by simp [hk])
      (weight_none hv pv pk (by rw [hk]; rfl)) rfl pv.gradWeight (by rw [GradKept, hk]; trivial)⟩
  case h_10 a hk =>
    have hm := hv.made
    rw [hk] at hm
    obtain ⟨s, hs⟩ := hm
    refine ⟨{ kind := l.kind }, ?_, cloneOk_plain hv (by rw [hk]; rfl) (by rw [hk]; rfl) (by rw [hk]; rfl) (by simp [hk]) (by simp [hk])⟩
    rw [newActivation, ga hs, hk]
  case h_11 hk =>
    exact ⟨{ kind := l.kind }, by rw [newSoftmax, hk], cloneOk_plain hv (by rw [hk]; rfl) (by rw [hk]; rfl) (by rw [hk]; rfl) (by simp [hk]) (by simp [hk])⟩
  case h_12 hk =>
    exact ⟨{ kind := l.kind }, by rw [newSoftmin, hk], cloneOk_plain hv (by rw [hk]; rfl) (by rw [hk]; rfl) (by rw [hk]; rfl) (by simp [hk]) (by simp [hk])⟩
  case h_13 p hk =>
    have hm := hv.made
    rw [hk] at hm
    obtain ⟨r, c, k, rf, cf, hp⟩ := hm
    refine ⟨{ kind := l.kind }, ?_, cloneOk_plain hv (by rw [hk]; rfl) (by rw [hk]; rfl) (by rw [hk]; rfl) (by simp [hk]) (by simp [hk])⟩
    rw [newMaxPool, Pool.create_again hp, hk, bind_ok', pure_ok]
  case h_14 r c ch hk =>
    exact ⟨{ kind := l.kind }, by rw [newGlobalMaxPool, hk], cloneOk_plain hv (by rw [hk]; rfl) (by rw [hk]; rfl) (by rw [hk]; rfl) (by simp [hk]) (by simp [hk])⟩
  case h_15 p hk =>
    have hm := hv.made
    rw [hk] at hm
    obtain ⟨r, c, k, rf, cf, hp⟩ := hm
    refine ⟨{ kind := l.kind }, ?_, cloneOk_plain hv (by rw [hk]; rfl) (by rw [hk]; rfl) (by rw [hk]; rfl) (by simp [hk]) (by simp [hk])⟩
    rw [newAvgPool, Pool.create_again hp, hk, bind_ok', pure_ok]
  case h_16 r c ch hk =>
    exact ⟨{ kind := l.kind }, by rw [newGlobalAvgPool, hk], cloneOk_plain hv (by rw [hk]; rfl) (by rw [hk]; rfl) (by rw [hk]; rfl) (by simp [hk]) (by simp [hk])⟩
  case h_17 r c ch b hk =>
    exact ⟨{ kind := l.kind }, by rw [newZeroPad, hk], cloneOk_plain hv (by rw [hk]; rfl) (by rw [hk]; rfl) (by rw [hk]; rfl) (by simp [hk]) (by simp [hk])⟩
  case h_18 c hk =>
    have hm := hv.made
    rw [hk] at hm
    obtain ⟨p, hp, pv, pk, pt, pf, -, pb, pl⟩ := Layer.new_ok e (.conv c) "" "" hm
    obtain ⟨r, cc, k, kr, kc, o, rs, cs, hc⟩ := hm
    simp only [newConv, Conv.create_again hc, hp, bind_ok', Mat.assign_eq e.g pv.weight hv.weight,
      Mat.assign_eq e.g pv.gradWeight hv.gradWeight, pure_ok]
    have pk := pk.trans hk.symm
    exact ⟨_, rfl, cloneOk_params hv pv pk pt pf pl (by simp [hk]) (by rw [hk]; rfl) (by simp [hk])
      rfl (bias_none hv pv pk (by rw [hk]; rfl)) hv.gradWeight (by rw [GradKept, hk]; trivial)⟩
  case h_19 r hk =>
    exact ⟨{ kind := l.kind }, by rw [newDropout, hk], cloneOk_plain hv (by rw [hk]; rfl) (by rw [hk]; rfl) (by rw [hk]; rfl) (by simp [hk]) (by simp [hk])⟩
  case h_20 r hk =>
    exact ⟨{ kind := l.kind }, by rw [newGaussianDropout, hk], cloneOk_plain hv (by rw [hk]; rfl) (by rw [hk]; rfl) (by rw [hk]; rfl) (by simp [hk]) (by simp [hk])⟩
  case h_21 r hk =>
    exact ⟨{ kind := l.kind }, by rw [newGaussianNoise, hk], cloneOk_plain hv (by rw [hk]; rfl) (by rw [hk]; rfl) (by rw [hk]; rfl) (by simp [hk]) (by simp [hk])⟩
  case h_22 r hk =>
    exact ⟨{ kind := l.kind }, by rw [newUniformNoise, hk], cloneOk_plain hv (by rw [hk]; rfl) (by rw [hk]; rfl) (by rw [hk]; rfl) (by simp [hk]) (by simp [hk])⟩
  case h_23 r c ch hk =>
    exact ⟨{ kind := l.kind }, by rw [newRandomFlip, hk], cloneOk_plain hv (by rw [hk]; rfl) (by rw [hk]; rfl) (by rw [hk]; rfl) (by simp [hk]) (by simp [hk])⟩
  case h_24 hk =>
    exact ⟨{ kind := l.kind }, by rw [newCRelu, Layer.init, hk], cloneOk_plain hv (by rw [hk]; rfl) (by rw [hk]; rfl) (by rw [hk]; rfl) (by simp [hk]) (by simp [hk])⟩
  case h_25 a1 a2 hk =>
    have hm := hv.made
    rw [hk] at hm
    obtain ⟨s1, s2, b1, b2, h1, h2, rfl, rfl⟩ := hm
    refine ⟨{ kind := l.kind }, ?_, cloneOk_plain hv (by rw [hk]; rfl) (by rw [hk]; rfl) (by rw [hk]; rfl) (by simp [hk]) (by simp [hk])⟩
    rw [actName, bind_ok', actName, bind_ok', newGated, ga h1, ga h2, hk]
  case h_26 hk =>
    obtain ⟨p, hp, pv, pk, pt, pf, -, pb, pl⟩ := Layer.new_ok e .prelu "" "" trivial
    simp only [newPRelu, hp, bind_ok', Mat.assign_eq e.g pv.weight hv.weight, Mat.assign_eq e.g pv.gradWeight hv.gradWeight, pure_ok]
    have pk := pk.trans hk.symm
    exact ⟨_, rfl, cloneOk_params hv pv pk pt pf pl (by simp [hk]) (by rw [hk]; rfl) (by simp [hk])
      rfl (bias_none hv pv pk (by rw [hk]; rfl)) hv.gradWeight (by rw [GradKept, hk])⟩
  case h_27 hk =>
    obtain ⟨p, hp, pv, pk, pt, pf, -, pb, pl⟩ := Layer.new_ok e .pelu "" "" trivial
    simp only [newPELU, hp, bind_ok', Mat.assign_eq e.g pv.weight hv.weight, Mat.assign_eq e.g pv.gradWeight hv.gradWeight, pure_ok]
    have pk := pk.trans hk.symm
    exact ⟨_, rfl, cloneOk_params hv pv pk pt pf pl (by simp [hk]) (by rw [hk]; rfl) (by simp [hk])
      rfl (bias_none hv pv pk (by rw [hk]; rfl)) hv.gradWeight (by rw [GradKept, hk])⟩
  case h_28 hk =>
    obtain ⟨p, hp, pv, pk, pt, pf, -, pb, pl⟩ := Layer.new_ok e .terelu "" "" trivial
    simp only [newTERELU, hp, bind_ok', Mat.assign_eq e.g pv.weight hv.weight, Mat.assign_eq e.g pv.gradWeight hv.gradWeight, pure_ok]
    have pk := pk.trans hk.symm
    exact ⟨_, rfl, cloneOk_params hv pv pk pt pf pl (by simp [hk]) (by rw [hk]; rfl) (by simp [hk])
      rfl (bias_none hv pv pk (by rw [hk]; rfl)) hv.gradWeight (by rw [GradKept, hk])⟩
  case h_29 a1 a2 hk =>
    exact ⟨{ kind := l.kind }, by rw [newRRelu, hk], cloneOk_plain hv (by rw [hk]; rfl) (by rw [hk]; rfl) (by rw [hk]; rfl) (by simp [hk]) (by simp [hk])⟩
  case h_30 f hk =>
    obtain ⟨p, hp, pv, pk, pt, pf, -, pb, pl⟩ := Layer.new_ok e (.tdBias f) "" l.bInit trivial
    simp only [newTDBias, hp, bind_ok', Mat.assign_eq e.g pv.bias hv.bias, pure_ok]
    have pk := pk.trans hk.symm
    exact ⟨_, rfl, cloneOk_params hv pv pk pt pf pl (by simp [hk]) (by rw [hk]; rfl) (by simp [hk])
      (weight_none hv pv pk (by rw [hk]; rfl)) rfl pv.gradWeight (by rw [GradKept, hk]; trivial)⟩
  case h_31 f o hk =>
    obtain ⟨p, hp, pv, pk, pt, pf, -, pb, pl⟩ := Layer.new_ok e (.tdDot f o) l.wInit "" trivial
    simp only [newTDDot, hp, bind_ok', Mat.assign_eq e.g pv.weight hv.weight, pure_ok]
    have pk := pk.trans hk.symm
    exact ⟨_, rfl, cloneOk_params hv pv pk pt pf pl (by simp [hk]) (by rw [hk]; rfl) (by simp [hk])
      rfl (bias_none hv pv pk (by rw [hk]; rfl)) pv.gradWeight (by rw [GradKept, hk]; trivial)⟩
  case h_32 f o hk =>
    obtain ⟨p, hp, pv, pk, pt, pf, -, pb, pl⟩ := Layer.new_ok e (.tdDense f o) l.wInit l.bInit trivial
    simp only [newTDDense, hp, bind_ok', Mat.assign_eq e.g pv.weight hv.weight, Mat.assign_eq e.g pv.bias hv.bias, pure_ok]
    exact ⟨_, rfl, cloneOk_params hv pv (pk.trans hk.symm) pt pf pl (by simp [hk]) (by rw [hk]; rfl) (by simp [hk])
      rfl rfl pv.gradWeight (by rw [GradKept, hk]; trivial)⟩
  case h_33 f u hk =>
    obtain ⟨p, hp, pv, pk, pt, pf, -, pb, pl⟩ := Layer.new_ok e (.simpleRNN f u) "" "" trivial
    simp only [newSimpleRNN, hp, bind_ok', Mat.assign_eq e.g pv.whh hv.whh, Mat.assign_eq e.g pv.wxh hv.wxh,
      Mat.assign_eq e.g pv.bh hv.bh, Mat.assign_eq e.g pv.h hv.h, pure_ok]
    have pk := pk.trans hk.symm
    refine ⟨_, rfl, ⟨⟨pv.weight, pv.gradWeight, pv.bias, pv.gradBias, pv.maxIndex, pv.mask, pv.im2colT, pv.tempImg, hv.whh, hv.wxh,
      hv.bh, hv.h, pv.saved, pv.noWeight, pv.noBias, by simp [pk, hk, LayerKind.usesRec], pv.made⟩,
      ⟨pk, weight_none (p := p) hv pv pk (by rw [hk]; rfl), bias_none (p := p) hv pv pk (by rw [hk]; rfl), rfl, rfl, rfl⟩,
      pt, pf, by simp [hk], pl, fun _ => rfl, by rw [GradKept, hk]; trivial⟩⟩
  case h_34 f hk =>
    obtain ⟨p, hp, pv, pk, pt, pf, -, pb, pl⟩ := Layer.new_ok e (.simplestRNN f) "" "" trivial
    simp only [newSimplestRNN, hp, bind_ok', Mat.assign_eq e.g pv.weight hv.weight, Mat.assign_eq e.g pv.h hv.h, pure_ok]
    have pk := pk.trans hk.symm
    have h1 := hv.noRec (by rw [hk]; rfl)
    have h2 := pv.noRec (by rw [pk, hk]; rfl)
    refine ⟨_, rfl, ⟨⟨hv.weight, pv.gradWeight, pv.bias, pv.gradBias, pv.maxIndex, pv.mask, pv.im2colT, pv.tempImg, pv.whh, pv.wxh,
      pv.bh, hv.h, pv.saved, by simp [pk, hk, LayerKind.usesWeight], pv.noBias, pv.noRec, pv.made⟩,
      ⟨pk, rfl, bias_none (p := p) hv pv pk (by rw [hk]; rfl), h2.1.trans h1.1.symm, h2.2.1.trans h1.2.1.symm,
        h2.2.2.trans h1.2.2.symm⟩,
      pt, pf, by simp [hk], pl, fun _ => rfl, by rw [GradKept, hk]; trivial⟩⟩

end BeeDNN
