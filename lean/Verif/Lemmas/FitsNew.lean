import Verif.Lemmas.FitsRun
import Verif.Lemmas.Factory
import Verif.Spec.TrainAny

/-! # New layers fit -/

namespace BeeDNN
open Layer

namespace Layer

variable {first : Bool} {s s' : Form} {k : LayerKind}

/-- A layer without parameters. -/
theorem fits_plain (hk : k.Made) (hp : 0 < s.width ∧ 0 < s'.width) (ht : k.Takes first s s') (h0 : ∀ b, k.parShape b s.width s'.width = none) (wi bi : String) :
    ({ kind := k, wInit := wi, bInit := bi } : Layer).Fits first s s' where
  valid := Layer.valid_new k wi bi hk
  pos := hp
  takes := ht
  notFirst := fun _ => rfl
  params := .inl (full_none h0)
  grads := fun _ _ b rc h => by rw [h0 b] at h; cases h
  inits := fun h => by
    have := h0 true
    rw [show k = .bias from h] at this
    cases this

/-- A layer whose parameters the constructor makes. -/
theorem fits_made {l : Layer} (hv : l.Valid) (hf : l.first = false) (hk : l.kind = k) (hp : 0 < s.width ∧ 0 < s'.width) (ht : k.Takes first s s') (hfull : l.Full s s')
    (hb : k ≠ .bias) (hg : k.keepsGrad = true → ∀ b rc, k.parShape b s.width s'.width = some rc → (l.grad b).Shape rc.1 rc.2) : l.Fits first s s' where
  valid := hv
  pos := hp
  takes := by rw [hk]; exact ht
  notFirst := fun _ => hf
  params := .inl hfull
  grads := fun h1 _ b rc h2 => hg (by rw [← hk]; exact h1) b rc (by rw [← hk]; exact h2)
  inits := fun h => absurd (hk.symm.trans h) hb

/-- A layer without parameters yet. -/
theorem fits_lazy {l : Layer} (hv : l.Valid) (hf : l.first = false) (hk : l.kind = k) (hp : 0 < s.width ∧ 0 < s'.width) (ht : k.Takes first s s') (hl : k.isLazy = true)
    (h0 : ∀ b, (l.par b).size = 0) (hb : k = .bias → l.bInit ∈ initNames) : l.Fits first s s' where
  valid := hv
  pos := hp
  takes := by rw [hk]; exact ht
  notFirst := fun _ => hf
  params := .inr ⟨by rw [hk]; exact hl, h0⟩
  grads := fun _ hfull => by
    exfalso
    have : ∃ b rc, l.kind.parShape b s.width s'.width = some rc ∧ 0 < rc.1 * rc.2 := by
      rw [hk]
      cases k <;> first
        | exact absurd hl Bool.false_ne_true
        | exact ⟨true, _, rfl, by simpa using hp.1⟩
        | exact ⟨false, _, rfl, by simpa using hp.1⟩
    obtain ⟨b, rc, h1, h2⟩ := this
    have h3 := hfull b rc h1
    have h4 := h0 b
    rw [Mat.size, h3.2.1, h3.2.2] at h4
    omega
  inits := fun h _ => hb (hk.symm.trans h)

theorem new_of {e : Env} {wi bi : String} (hk : k.Made) {p : Layer} (h : Layer.init e { kind := k, wInit := wi, bInit := bi } = .ok p) :
    p.Valid ∧ p.kind = k ∧ p.first = false ∧ p.bInit = bi := by
  obtain ⟨q, h1, h2, h3, -, h4, -, h5, -⟩ := Layer.new_ok e k wi bi hk
  rw [h1] at h
  cases h
  exact ⟨h2, h3, h4, h5⟩

/-- A class without parameters whose constructor does nothing else. -/
theorem make_plain {e : Env} {wi bi : String} (hk : k.Made) (hp : 0 < s.width ∧ 0 < s'.width) (ht : k.Takes first s s')
    (h0 : ∀ b, k.parShape b s.width s'.width = none) (hm : k.make e wi bi = .ok { kind := k }) :
    ∃ l : Layer, k.make e wi bi = .ok l ∧ l.kind = k ∧ l.Fits first s s' := ⟨_, hm, rfl, fits_plain hk hp ht h0 "" ""⟩

theorem make_lazy {e : Env} {wi bi bi' : String} {p : Layer} (hk : k.Made) (hp : 0 < s.width ∧ 0 < s'.width) (ht : k.Takes first s s') (hl : k.isLazy = true)
    (h : Layer.init e { kind := k, bInit := bi' } = .ok p) (h0 : ∀ b, (p.par b).size = 0) (hb : k = .bias → bi' ∈ initNames)
    (hm : k.make e wi bi = Layer.init e { kind := k, bInit := bi' }) :
    ∃ l : Layer, k.make e wi bi = .ok l ∧ l.kind = k ∧ l.Fits first s s' := by
  obtain ⟨q1, q2, q3, q4⟩ := new_of hk h
  exact ⟨p, hm.trans h, q2, fits_lazy q1 q3 q2 hp ht hl h0 (by rw [q4]; exact hb)⟩

theorem make_made {e : Env} {wi bi wi' bi' : String} {p : Layer} (hk : k.Made) (hp : 0 < s.width ∧ 0 < s'.width) (ht : k.Takes first s s')
    (h : Layer.init e { kind := k, wInit := wi', bInit := bi' } = .ok p) (hfull : p.Full s s') (hb : k ≠ .bias) (hg : k.keepsGrad = false)
    (hm : k.make e wi bi = Layer.init e { kind := k, wInit := wi', bInit := bi' }) :
    ∃ l : Layer, k.make e wi bi = .ok l ∧ l.kind = k ∧ l.Fits first s s' := by
  obtain ⟨q1, q2, q3, q4⟩ := new_of hk h
  exact ⟨p, hm.trans h, q2, fits_made q1 q3 q2 hp ht hfull hb (fun h => absurd (hg.symm.trans h) Bool.false_ne_true)⟩

theorem init_shape (g draw : Nat → ℝ) {n : String} (hn : n ∈ initNames) (i o : Nat) :
    ∃ m, initCompute g draw n ⟨0, 0, []⟩ i o = .ok m ∧ m.Shape i o := by
  obtain ⟨x, hx⟩ := initCompute_known g draw hn (m := ⟨0, 0, []⟩) rfl i o
  exact ⟨_, hx, Mat.shape_ofFn _ _ _⟩

/-- The constructor of every class makes a layer that fits. -/
theorem make_fits (e : Env) {wi bi : String} (hwi : wi ∈ initNames) (hbi : bi ∈ initNames) (hk : k.Made) (hp : 0 < s.width ∧ 0 < s'.width)
    (ht : k.Takes first s s') (hs : k.Sized s s') :
    ∃ l : Layer, k.make e wi bi = .ok l ∧ l.kind = k ∧ l.Fits first s s' := by
  have z : ∀ g : Nat → ℝ, ((⟨0, 0, []⟩ : Mat ℝ).resize g 0 0).size = 0 := fun g => by simp [Mat.resize, Mat.size]
  have z := z e.g
  have ga : ∀ {n : String} {a : Activation}, getActivation n = some a → getActivation a.name = some a := fun {n a} h => by rw [C25_name n a h]; exact h
  have al : (Mat.alloc e.g 1 1).Shape 1 1 := ⟨Mat.alloc_WF .., rfl, rfl⟩
  obtain ⟨f₁, hf₁⟩ := al.exists_ofFn
  cases k with
  | dense i o =>
    obtain ⟨hi, ho⟩ : s.width = i ∧ s'.width = o := hs
    obtain ⟨w, w1, w2⟩ := init_shape e.g e.draw hwi i o
    obtain ⟨b, b1, b2⟩ := init_shape e.g e.drawX hbi 1 o
    refine make_made (p := { kind := .dense i o, wInit := wi, bInit := bi, weight := w, bias := b }) hk hp ht ?_
      (full_both rfl rfl (by rw [hi, ho]; exact w2) (by rw [ho]; exact b2)) (by simp) rfl rfl
    unfold Layer.init
    dsimp only
    rw [if_neg (by omega), w1, bind_ok', b1, bind_ok', pure_ok]
  | dot i o =>
    obtain ⟨hi, ho⟩ : s.width = i ∧ s'.width = o := hs
    obtain ⟨w, w1, w2⟩ := init_shape e.g e.draw hwi i o
    refine make_made (p := { kind := .dot i o, wInit := wi, weight := w }) hk hp ht ?_
      (full_weight rfl rfl (by rw [hi, ho]; exact w2)) (by simp) rfl rfl
    unfold Layer.init
    dsimp only
    rw [if_neg (by omega), w1, bind_ok', pure_ok]
  | bias => exact make_lazy hk hp ht rfl (bi' := bi) rfl (by intro b; cases b <;> first | exact z | rfl) (fun _ => hbi) rfl
  | gain => exact make_lazy hk hp ht rfl (bi' := "") rfl (by intro b; cases b <;> first | exact z | rfl) (fun h => by cases h) rfl
  | affine => exact make_lazy hk hp ht rfl (bi' := "") rfl (by intro b; cases b <;> exact z) (fun h => by cases h) rfl
  | prelu => exact make_lazy hk hp ht rfl (bi' := "") rfl (by intro b; cases b <;> first | exact z | rfl) (fun h => by cases h) rfl
  | pelu => exact make_lazy hk hp ht rfl (bi' := "") rfl (by intro b; cases b <;> first | exact z | rfl) (fun h => by cases h) rfl
  | terelu => exact make_lazy hk hp ht rfl (bi' := "") rfl (by intro b; cases b <;> first | exact z | rfl) (fun h => by cases h) rfl
  | globalBias =>
    have hm : newGlobalBias e = .ok { kind := .globalBias, bias := Mat.ofFn 1 1 (fun _ _ => 0), gradBias := Mat.alloc e.g 1 1 } := by
      simp only [newGlobalBias, init]
      rw [hf₁, Mat.setConstant_ofFn, bind_ok', pure_ok]
    obtain ⟨_, h1, h2, h3, -⟩ := Factory.good_globalBias e
    rw [hm] at h1
    cases h1
    exact ⟨_, hm, rfl, fits_made h3 rfl rfl hp ht (full_bias rfl rfl (Mat.shape_ofFn _ _ _)) (by simp) (fun _ b rc h => by
      cases b <;> cases h
      exact al)⟩
  | globalGain =>
    have hm : newGlobalGain e = .ok { kind := .globalGain, weight := Mat.ofFn 1 1 (fun _ _ => 1), gradWeight := Mat.alloc e.g 1 1 } := by
      simp only [newGlobalGain, init]
      rw [hf₁, Mat.setConstant_ofFn, bind_ok', pure_ok]
    obtain ⟨_, h1, h2, h3, -⟩ := Factory.good_globalGain e
    rw [hm] at h1
    cases h1
    exact ⟨_, hm, rfl, fits_made h3 rfl rfl hp ht (full_weight rfl rfl (Mat.shape_ofFn _ _ _)) (by simp) (fun _ b rc h => by
      cases b <;> cases h
      exact al)⟩
  | globalAffine =>
    have hm : newGlobalAffine e = .ok { kind := .globalAffine, weight := Mat.ofFn 1 1 (fun _ _ => 1), gradWeight := Mat.alloc e.g 1 1
                                        bias := Mat.ofFn 1 1 (fun _ _ => 0), gradBias := Mat.alloc e.g 1 1 } := by
      simp only [newGlobalAffine, init]
      rw [hf₁, Mat.setConstant_ofFn, bind_ok', Mat.setConstant_ofFn, bind_ok', pure_ok]
    obtain ⟨_, h1, h2, h3, -⟩ := Factory.good_globalAffine e
    rw [hm] at h1
    cases h1
    exact ⟨_, hm, rfl, fits_made h3 rfl rfl hp ht (full_both rfl rfl (Mat.shape_ofFn _ _ _) (Mat.shape_ofFn _ _ _)) (by simp) (fun _ b rc h => by
      cases b <;> cases h <;> exact al)⟩
  | channelBias r c ch =>
    obtain ⟨b, b1, b2⟩ := init_shape e.g e.draw hbi 1 ch
    refine make_made (p := { kind := .channelBias r c ch, bInit := bi, bias := b }) hk hp ht ?_
      (full_bias rfl rfl b2) (by simp) rfl rfl
    unfold Layer.init
    dsimp only
    rw [b1, bind_ok', pure_ok]
  | activation a =>
    obtain ⟨n, hn⟩ := hk
    exact make_plain ⟨n, hn⟩ hp ht (fun _ => rfl) (by
      show newActivation a.name = _
      unfold newActivation
      rw [ga hn])
  | softmax => exact make_plain hk hp ht (fun _ => rfl) rfl
  | softmin => exact make_plain hk hp ht (fun _ => rfl) rfl
  | maxPool p =>
    obtain ⟨_, _, _, _, _, hc⟩ := id hk
    exact make_plain hk hp ht (fun _ => rfl) (by
      show newMaxPool _ _ _ _ _ = _
      rw [newMaxPool, Pool.create_again hc, bind_ok', pure_ok])
  | avgPool p =>
    obtain ⟨_, _, _, _, _, hc⟩ := id hk
    exact make_plain hk hp ht (fun _ => rfl) (by
      show newAvgPool _ _ _ _ _ = _
      rw [newAvgPool, Pool.create_again hc, bind_ok', pure_ok])
  | globalMaxPool r c ch => exact make_plain hk hp ht (fun _ => rfl) rfl
  | globalAvgPool r c ch => exact make_plain hk hp ht (fun _ => rfl) rfl
  | zeroPad r c ch b => exact make_plain hk hp ht (fun _ => rfl) rfl
  | conv p =>
    obtain ⟨_, _, _, _, _, _, _, _, hc⟩ := id hk
    have hlt : ¬ ((1 : ℝ) < -1) := by norm_num
    obtain ⟨gw, hgw, -⟩ := Mat.setConstant_ok (Mat.resize_WF (g := e.g) (m := ⟨0, 0, []⟩) rfl p.outCh (p.kRows * p.kCols * p.inCh)) (0 : ℝ)
    have h : ∃ x, Layer.init e { kind := .conv p } = .ok { kind := .conv p, weight := Mat.ofFn p.outCh (p.kRows * p.kCols * p.inCh) x, gradWeight := gw } := by
      simp only [Layer.init, setRandomUniform, if_neg hlt]
      simp only [setDraws_resize e.g e.draw (Mat.WF_empty (α := ℝ)), Mat.scale_ofFn, bind_ok', pure_ok, Mat.ofFn_rows, Mat.ofFn_cols, hgw]
      exact ⟨_, rfl⟩
    obtain ⟨x, h⟩ := h
    refine make_made (wi' := "") (bi' := "") hk hp ht h (full_weight rfl rfl (Mat.shape_ofFn _ _ _)) (by simp) rfl ?_
    show newConv e _ _ _ _ _ _ _ _ = _
    rw [newConv, Conv.create_again hc, bind_ok']
  | dropout r => exact make_plain hk hp ht (fun _ => rfl) rfl
  | gaussianDropout r => exact False.elim ht
  | gaussianNoise r => exact make_plain hk hp ht (fun _ => rfl) rfl
  | uniformNoise r => exact make_plain hk hp ht (fun _ => rfl) rfl
  | randomFlip r c ch => exact make_plain hk hp ht (fun _ => rfl) rfl
  | crelu => exact make_plain hk hp ht (fun _ => rfl) rfl
  | gated a b =>
    obtain ⟨_, _, b1, b2, h1, h2, rfl, rfl⟩ := id hk
    exact make_plain hk hp ht (fun _ => rfl) (by
      show (actName (some b1) >>= fun s => actName (some b2) >>= fun s' => newGated s s') = _
      rw [actName, bind_ok', actName, bind_ok', newGated, ga h1, ga h2])
  | rrelu a b => exact make_plain hk hp ht (fun _ => rfl) rfl
  | tdBias f =>
    obtain ⟨b, b1, b2⟩ := init_shape e.g e.draw hbi 1 f
    refine make_made (p := { kind := .tdBias f, bInit := bi, bias := b }) hk hp ht ?_ (full_bias rfl rfl b2) (by simp) rfl rfl
    unfold Layer.init
    dsimp only
    rw [b1, bind_ok', pure_ok]
  | tdDot f o =>
    obtain ⟨w, w1, w2⟩ := init_shape e.g e.draw hwi f o
    refine make_made (p := { kind := .tdDot f o, wInit := wi, weight := w }) hk hp ht ?_ (full_weight rfl rfl w2) (by simp) rfl rfl
    unfold Layer.init
    dsimp only
    rw [w1, bind_ok', pure_ok]
  | tdDense f o =>
    obtain ⟨w, w1, w2⟩ := init_shape e.g e.draw hwi f o
    obtain ⟨b, b1, b2⟩ := init_shape e.g e.drawX hbi 1 o
    refine make_made (p := { kind := .tdDense f o, wInit := wi, bInit := bi, weight := w, bias := b }) hk hp ht ?_ (full_both rfl rfl w2 b2) (by simp) rfl rfl
    unfold Layer.init
    dsimp only
    rw [w1, bind_ok', b1, bind_ok', pure_ok]
  | simpleRNN f u => exact False.elim ht
  | simplestRNN f => exact False.elim ht

end Layer
end BeeDNN
