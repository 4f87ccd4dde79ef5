import Verif.Lemmas.SafeLoss
import Verif.Lemmas.NetFrame

/-! # One training step: what it changes and what it keeps -/

namespace BeeDNN
open HasWF

/-- Layers outside of `as` are the same; live layers stay live, valid and of the same class; no layer appears. -/
structure Evolve (as : List Nat) (w w' : World) : Prop where
  nets : w'.nets = w.nets
  touch : Touch as w w'
  keep : ∀ (a : Nat) (l' : Layer), w'.heap[a]? = some (some l') → ∃ l : Layer, w.heap[a]? = some (some l) ∧ l'.kind = l.kind ∧ l'.train = l.train ∧
    (l.Valid → l'.Valid)

theorem Evolve.refl (as : List Nat) (w : World) : Evolve as w w :=
  ⟨rfl, Touch.refl _ _, fun _ l h => ⟨l, h, rfl, rfl, id⟩⟩

theorem Evolve.trans {as : List Nat} {w w₁ w₂ : World} (h : Evolve as w w₁) (h' : Evolve as w₁ w₂) : Evolve as w w₂ :=
  ⟨h'.nets.trans h.nets, h.touch.trans h'.touch, fun a l hl => by
    obtain ⟨l₁, k1, k2, k2', k3⟩ := h'.keep a l hl
    obtain ⟨l₂, k4, k5, k5', k6⟩ := h.keep a l₁ k1
    exact ⟨l₂, k4, k2.trans k5, k2'.trans k5', fun hv => k3 (k6 hv)⟩⟩

theorem Evolve.mono {as bs : List Nat} {w w' : World} (h : Evolve as w w') (hs : ∀ a ∈ as, a ∈ bs) : Evolve bs w w' :=
  ⟨h.nets, h.touch.mono hs, h.keep⟩

theorem evolve_store {as : List Nat} {w : World} {a : Nat} {l l' : Layer} (h : w.heap[a]? = some (some l)) (ha : a ∈ as)
    (hk : l'.kind = l.kind) (hm : l'.train = l.train) (hv : l.Valid → l'.Valid) : Evolve as w (w.store a l') := by
  refine ⟨rfl, (touch_store l' h).mono (by simpa using ha), fun b k hb => ?_⟩
  by_cases hba : b = a
  · subst hba
    rw [World.store_same h] at hb
    injection hb with hb
    injection hb with hb
    subst hb
    exact ⟨l, h, hk, hm, hv⟩
  · rw [World.store_other l' hba] at hb
    exact ⟨k, hb, rfl, rfl, id⟩

/-- All layers reachable from network `n` are valid. -/
theorem AllValid.evolve {as bs : List Nat} {w w' : World} (h : AllValid w bs) (he : Evolve as w w') : AllValid w' bs := by
  intro a ha l hl
  obtain ⟨l₀, h0, -, -, hv⟩ := he.keep a l hl
  exact hv (h a ha l₀ h0)

theorem layerAt_mem {w : World} {n i a : Nat} (h : w.layerAt n i = .ok a) : a ∈ (w.nets n).layers := by
  unfold World.layerAt at h
  split at h
  · rename_i b hb
    injection h with h
    subst h
    exact List.mem_of_getElem? hb
  · cases h

theorem rd_mem {α : Type} {l : List α} {i : Nat} {x : α} (h : rd l i = .ok x) : x ∈ l := by
  unfold rd at h
  split at h
  · rename_i b hb
    injection h with h
    subst h
    exact List.mem_of_getElem? hb
  · cases h

theorem rd_inv {α : Type} {l : List α} {i : Nat} {x : α} (h : rd l i = .ok x) : l[i]? = some x := by
  unfold rd at h
  split at h
  · rename_i b hb
    injection h with h
    subst h
    exact hb
  · cases h

theorem wr_inv {α : Type} {l l' : List α} {i : Nat} {x : α} (h : wr l i x = .ok l') : i < l.length ∧ l' = l.set i x := by
  unfold wr at h
  split at h
  · rename_i hi; injection h with h; exact ⟨hi, h.symm⟩
  · cases h

theorem wr_wf {σ : Type} [HasWF σ] {l l' : List σ} {i : Nat} {x : σ} (hl : wf l) (hx : wf x) (h : wr l i x = .ok l') : wf l' := by
  obtain ⟨-, rfl⟩ := wr_inv h
  intro y hy
  rcases List.mem_or_eq_of_mem_set hy with h | h
  · exact hl y h
  · exact h ▸ hx

theorem wr_length {α : Type} {l l' : List α} {i : Nat} {x : α} (h : wr l i x = .ok l') : l'.length = l.length := by
  obtain ⟨-, rfl⟩ := wr_inv h; exact List.length_set ..

namespace Trainer

theorem fwdLoop_inv {e : Nat → Env} {n L : Nat} {s s' : World × List (Mat ℝ)} (hv : AllValid s.1 (s.1.nets n).layers)
    (hw : wf s.2) (h : fwdLoop e n L s = .ok s') :
    Evolve (s.1.nets n).layers s.1 s'.1 ∧ wf s'.2 ∧ s'.2.length = s.2.length := by
  refine forN_ok_inv (P := fun r : World × List (Mat ℝ) => Evolve (s.1.nets n).layers s.1 r.1 ∧ wf r.2 ∧ r.2.length = s.2.length)
    ?_ ⟨Evolve.refl _ _, hw, rfl⟩ h
  rintro i ⟨w, io⟩ ⟨w', io'⟩ ⟨h1, h2, h3⟩ h
  obtain ⟨a, ha, h⟩ := ok_bind h
  obtain ⟨l, hl, h⟩ := ok_bind h
  obtain ⟨x, hx, h⟩ := ok_bind h
  obtain ⟨o, ho, h⟩ := ok_bind h
  obtain ⟨⟨l', o'⟩, hf, h⟩ := ok_bind h
  obtain ⟨io₁, hio, h⟩ := ok_bind h
  injection h with h
  injection h with e1 e2
  subst e1 e2
  have ham : a ∈ (s.1.nets n).layers := by rw [← h1.nets]; exact layerAt_mem ha
  have hl := World.deref_inv hl
  have hlv : l.Valid := (hv.evolve h1) a ham l hl
  obtain ⟨k1, k2⟩ := Layer.forward_safe (e i) hlv (h2 x (rd_mem hx)) (h2 o (rd_mem ho)) _ hf
  exact ⟨h1.trans (evolve_store hl ham k1.kind k1.train fun _ => k1.valid), wr_wf h2 k2 hio, (wr_length hio).trans h3⟩

theorem bwdLoop_inv {e : Nat → Env} {n L : Nat} {io : List (Mat ℝ)} {s s' : World × List (Mat ℝ)}
    (hv : AllValid s.1 (s.1.nets n).layers) (hio : wf io) (hw : wf s.2) (h : bwdLoop e n L io s = .ok s') :
    Evolve (s.1.nets n).layers s.1 s'.1 ∧ wf s'.2 ∧ s'.2.length = s.2.length := by
  refine forN_ok_inv (P := fun r : World × List (Mat ℝ) => Evolve (s.1.nets n).layers s.1 r.1 ∧ wf r.2 ∧ r.2.length = s.2.length)
    ?_ ⟨Evolve.refl _ _, hw, rfl⟩ h
  rintro i ⟨w, gs⟩ ⟨w', gs'⟩ ⟨h1, h2, h3⟩ h
  obtain ⟨a, ha, h⟩ := ok_bind h
  obtain ⟨l, hl, h⟩ := ok_bind h
  obtain ⟨x, hx, h⟩ := ok_bind h
  obtain ⟨go, hgo, h⟩ := ok_bind h
  obtain ⟨gi, hgi, h⟩ := ok_bind h
  obtain ⟨⟨l', o'⟩, hf, h⟩ := ok_bind h
  obtain ⟨gs₁, hgs, h⟩ := ok_bind h
  injection h with h
  injection h with e1 e2
  subst e1 e2
  have ham : a ∈ (s.1.nets n).layers := by rw [← h1.nets]; exact layerAt_mem ha
  have hl := World.deref_inv hl
  have hlv : l.Valid := (hv.evolve h1) a ham l hl
  obtain ⟨k1, k2⟩ := Layer.backprop_safe _ hlv (hio x (rd_mem hx)) (h2 go (rd_mem hgo)) (h2 gi (rd_mem hgi)) _ hf
  exact ⟨h1.trans (evolve_store hl ham k1.kind k1.train fun _ => k1.valid), wr_wf h2 k2 hgs, (wr_length hgs).trans h3⟩

/-- Classes with this parameter. -/
def uses (b : Bool) (k : LayerKind) : Bool := if b then k.usesBias else k.usesWeight

/-- Pointers to parameters are pointers into layers of the network, or dangling. -/
def PtrOk (b : Bool) (w : World) (as ps : List Nat) : Prop :=
  ∀ a ∈ ps, a < w.heap.length ∧ ∀ l, w.heap[a]? = some (some l) → a ∈ as ∧ uses b l.kind = true

theorem PtrOk.evolve {b : Bool} {w w' : World} {as bs ps : List Nat} (h : PtrOk b w as ps) (he : Evolve bs w w') :
    PtrOk b w' as ps := by
  intro a ha
  obtain ⟨h1, h2⟩ := h a ha
  refine ⟨by rw [he.touch.length]; exact h1, fun l hl => ?_⟩
  obtain ⟨l₀, k1, k2, -⟩ := he.keep a l hl
  rw [k2]; exact h2 l₀ k1

theorem setPar_valid {l : Layer} {b : Bool} {m : Mat ℝ} (hv : l.Valid) (hm : m.WF) (hu : uses b l.kind = true) : (l.setPar b m).Valid := by
  unfold uses at hu
  unfold Layer.setPar
  cases b
  · exact ⟨hm, hv.gradWeight, hv.bias, hv.gradBias, hv.maxIndex, hv.mask, hv.im2colT, hv.tempImg, hv.whh, hv.wxh, hv.bh, hv.h,
      hv.saved, fun h => by (simp at hu h; rw [hu] at h; cases h), hv.noBias, hv.noRec, hv.made⟩
  · exact ⟨hv.weight, hv.gradWeight, hm, hv.gradBias, hv.maxIndex, hv.mask, hv.im2colT, hv.tempImg, hv.whh, hv.wxh, hv.bh, hv.h,
      hv.saved, hv.noWeight, fun h => by (simp at hu h; rw [hu] at h; cases h), hv.noRec, hv.made⟩

theorem setGrad_valid {l : Layer} {b : Bool} {m : Mat ℝ} (hv : l.Valid) (hm : m.WF) : (l.setGrad b m).Valid := by
  unfold Layer.setGrad
  cases b
  · exact ⟨hv.weight, hm, hv.bias, hv.gradBias, hv.maxIndex, hv.mask, hv.im2colT, hv.tempImg, hv.whh, hv.wxh, hv.bh, hv.h,
      hv.saved, hv.noWeight, hv.noBias, hv.noRec, hv.made⟩
  · exact ⟨hv.weight, hv.gradWeight, hv.bias, hm, hv.maxIndex, hv.mask, hv.im2colT, hv.tempImg, hv.whh, hv.wxh, hv.bh, hv.h,
      hv.saved, hv.noWeight, hv.noBias, hv.noRec, hv.made⟩

theorem setPar_kind (l : Layer) (b : Bool) (m : Mat ℝ) : (l.setPar b m).kind = l.kind := by
  unfold Layer.setPar; cases b <;> rfl
theorem setGrad_kind (l : Layer) (b : Bool) (m : Mat ℝ) : (l.setGrad b m).kind = l.kind := by
  unfold Layer.setGrad; cases b <;> rfl
theorem setPar_train (l : Layer) (b : Bool) (m : Mat ℝ) : (l.setPar b m).train = l.train := by
  unfold Layer.setPar; cases b <;> rfl
theorem setGrad_train (l : Layer) (b : Bool) (m : Mat ℝ) : (l.setGrad b m).train = l.train := by
  unfold Layer.setGrad; cases b <;> rfl
theorem par_WF {l : Layer} (hv : l.Valid) (b : Bool) : (l.par b).WF := by
  unfold Layer.par; cases b; exacts [hv.weight, hv.bias]
theorem grad_WF {l : Layer} (hv : l.Valid) (b : Bool) : (l.grad b).WF := by
  unfold Layer.grad; cases b; exacts [hv.gradWeight, hv.gradBias]

theorem regStep_inv {g : Nat → ℝ} {r : Option Reg} {b : Bool} {a a' : Nat} {w w' : World} {as : List Nat} (hv : AllValid w as)
    (h1 : ∀ l, w.heap[a]? = some (some l) → a ∈ as ∧ uses b l.kind = true)
    (h2 : ∀ l, w.heap[a']? = some (some l) → a' ∈ as) (h : regStep g r b a a' w = .ok w') : Evolve as w w' := by
  unfold regStep at h
  split at h
  · injection h with h; subst h; exact Evolve.refl _ _
  · obtain ⟨l, hl, h⟩ := ok_bind h
    obtain ⟨l', hl', h⟩ := ok_bind h
    obtain ⟨⟨m, d⟩, hr, h⟩ := ok_bind h
    dsimp only at h
    obtain ⟨l₂, hl₂, h⟩ := ok_bind h
    injection h with h
    subst h
    have hl := World.deref_inv hl
    have hl' := World.deref_inv hl'
    have hl₂ := World.deref_inv hl₂
    obtain ⟨ha, hu⟩ := h1 l hl
    have ha' := h2 l' hl'
    obtain ⟨km, kd⟩ := Reg.apply_safe (par_WF (hv a ha l hl) b) (grad_WF (hv a' ha' l' hl') b) _ hr
    refine (evolve_store hl ha (setPar_kind ..) (setPar_train ..) fun k => setPar_valid k km hu).trans ?_
    exact evolve_store hl₂ ha' (setGrad_kind ..) (setGrad_train ..) fun k => setGrad_valid k kd

theorem optStep_inv {g : Nat → ℝ} {ab : ℝ → ℝ} {r : Option Reg} {b : Bool} {a a' : Nat} {o o' : Opt ℝ} {w w' : World} {as : List Nat}
    (hv : AllValid w as) (ho : o.WF)
    (h1 : ∀ l, w.heap[a]? = some (some l) → a ∈ as ∧ uses b l.kind = true)
    (h2 : ∀ l, w.heap[a']? = some (some l) → a' ∈ as) (h : optStep g ab r b a a' o w = .ok (w', o')) :
    Evolve as w w' ∧ o'.WF ∧ o'.kind = o.kind ∧ o'.hyper = o.hyper := by
  obtain ⟨w₁, hr, h⟩ := ok_bind h
  have e1 := regStep_inv hv h1 h2 hr
  obtain ⟨l, hl, h⟩ := ok_bind h
  obtain ⟨l', hl', h⟩ := ok_bind h
  obtain ⟨⟨o₁, m⟩, hopt, h⟩ := ok_bind h
  injection h with h
  injection h with h h'
  subst h h'
  have hl := World.deref_inv hl
  obtain ⟨l₀, k1, k2, -, k3⟩ := e1.keep a l hl
  obtain ⟨ha, hu⟩ := h1 l₀ k1
  have hlv := (hv.evolve e1) a ha l hl
  obtain ⟨c1, c2, c3, c4⟩ := Opt.optimize_WF ho (par_WF hlv b) hopt
  exact ⟨e1.trans (evolve_store hl ha (setPar_kind ..) (setPar_train ..) fun k => setPar_valid k c2 (by rw [k2]; exact hu)), c1, c3, c4⟩

/-- Optimizers before and after: same classes and hyper-parameters. -/
def OptsSame (os os' : List (Opt ℝ)) : Prop := List.Forall₂ (fun o o' => o'.kind = o.kind ∧ o'.hyper = o.hyper) os os'

theorem OptsSame.refl (os : List (Opt ℝ)) : OptsSame os os := List.forall₂_same.2 fun _ _ => ⟨rfl, rfl⟩

theorem OptsSame.trans {a b c : List (Opt ℝ)} (h : OptsSame a b) (h' : OptsSame b c) : OptsSame a c := by
  induction h generalizing c with
  | nil => cases h'; exact .nil
  | cons h1 h2 ih =>
    cases h' with
    | cons k1 k2 => exact .cons ⟨k1.1.trans h1.1, k1.2.trans h1.2⟩ (ih k2)

theorem OptsSame.set {os : List (Opt ℝ)} {i : Nat} {o o' : Opt ℝ} (h : os[i]? = some o) (hk : o'.kind = o.kind) (hh : o'.hyper = o.hyper) :
    OptsSame os (os.set i o') := by
  induction os generalizing i with
  | nil => cases h
  | cons a as ih =>
    cases i with
    | zero =>
      injection h with h
      subst h
      exact .cons ⟨hk, hh⟩ (OptsSame.refl as)
    | succ i => exact .cons ⟨rfl, rfl⟩ (ih (by simpa using h))

theorem optLoop_inv {e : Nat → Env} {ab : ℝ → ℝ} {r : Option Reg} {b : Bool} {ps gs : List Nat} {off : Nat}
    {s s' : World × List (Opt ℝ)} {as : List Nat} (hv : AllValid s.1 as) (ho : wf s.2) (hp : PtrOk b s.1 as ps)
    (hg : ∀ a ∈ gs, ∀ l, s.1.heap[a]? = some (some l) → a ∈ as) (h : optLoop e ab r b ps gs off s = .ok s') :
    Evolve as s.1 s'.1 ∧ wf s'.2 ∧ OptsSame s.2 s'.2 := by
  refine forN_ok_inv (P := fun q : World × List (Opt ℝ) => Evolve as s.1 q.1 ∧ wf q.2 ∧ OptsSame s.2 q.2)
    ?_ ⟨Evolve.refl _ _, ho, OptsSame.refl _⟩ h
  rintro i ⟨w, os⟩ ⟨w', os'⟩ ⟨h1, h2, h3⟩ h
  obtain ⟨a, ha, h⟩ := ok_bind h
  obtain ⟨a', ha', h⟩ := ok_bind h
  obtain ⟨o, hoo, h⟩ := ok_bind h
  obtain ⟨⟨w₁, o₁⟩, hs, h⟩ := ok_bind h
  obtain ⟨os₁, hos, h⟩ := ok_bind h
  injection h with h
  injection h with e1 e2
  subst e1 e2
  obtain ⟨k1, k2, k3, k4⟩ := optStep_inv (as := as) (hv.evolve h1) (h2 o (rd_mem hoo))
    (fun l hl => (hp.evolve h1 a (rd_mem ha)).2 l hl)
    (fun l hl => by
      obtain ⟨l₀, c1, -⟩ := h1.keep a' l hl
      exact hg a' (rd_mem ha') l₀ c1) hs
  refine ⟨h1.trans k1, wr_wf h2 k2 hos, h3.trans ?_⟩
  rw [(wr_inv hos).2]
  exact OptsSame.set (rd_inv hoo) k3 k4

/-- Matrices of a trainer own buffers of their size. -/
structure Ok (t : Trainer) : Prop where
  inOut : ∀ m ∈ t.inOut, m.WF
  gradient : ∀ m ∈ t.gradient, m.WF
  opts : ∀ o ∈ t.opts, o.WF

/-- What a batch leaves alone in the trainer. -/
structure BatchKeep (t t' : Trainer) : Prop where
  same : { t with inOut := t'.inOut, gradient := t'.gradient, opts := t'.opts, onlineLoss := t'.onlineLoss
                  onlineGood := t'.onlineGood } = t'
  inOut : t'.inOut.length = t.inOut.length
  gradient : t'.gradient.length = t.gradient.length
  opts : OptsSame t.opts t'.opts

/-- The pointers of the trainer. -/
structure Ptrs (t : Trainer) (w : World) (as : List Nat) : Prop where
  weights : PtrOk false w as t.pWeights
  biases : PtrOk true w as t.pBiases
  gradW : t.pGradWeights = t.pWeights
  gradB : t.pGradBiases = t.pBiases

theorem Ptrs.evolve {t : Trainer} {w w' : World} {as bs : List Nat} (h : t.Ptrs w as) (he : Evolve bs w w') : t.Ptrs w' as :=
  ⟨h.weights.evolve he, h.biases.evolve he, h.gradW, h.gradB⟩

theorem addOnline_inv {g : Nat → ℝ} {ab : ℝ → ℝ} {eps : ℝ} {c : Bool} {t t' : Trainer} {p y : Mat ℝ}
    (h : addOnline g ab eps c t p y = .ok t') :
    ∃ x k, t' = { t with onlineLoss := x, onlineGood := k } ∧ y.rows = p.rows ∧
      (c = true → ∃ j, goodOnline p y = .ok j ∧ k = t.onlineGood + j) ∧ (c = false → k = t.onlineGood) := by
  obtain ⟨m, hm, h⟩ := ok_bind h
  have hr : y.rows = p.rows := by
    unfold lossCompute at hm
    split at hm
    · rename_i hl; exact loss_rows hl hm
    · cases hm
  obtain ⟨x, hx, h⟩ := ok_bind h
  dsimp only at h
  cases c
  · injection h with h
    exact ⟨t.onlineLoss + x, t.onlineGood, h.symm, hr, fun h => (by cases h), fun _ => rfl⟩
  · obtain ⟨k, hk, h⟩ := ok_bind h
    injection h with h
    exact ⟨t.onlineLoss + x, t.onlineGood + k, h.symm, hr, fun _ => ⟨k, hk, rfl⟩, fun h => by cases h⟩

theorem lossGradient_safe {g : Nat → ℝ} {ab : ℝ → ℝ} {eps : ℝ} {t : Trainer} {p y o : Mat ℝ} (ho : o.WF) :
    Safe (t.lossGradient g ab eps p y o) := by
  unfold lossGradient
  split
  · rename_i hl; exact (loss_safe hl ho).2
  · exact Safe.error _

/-- One batch changes only the layers of the network. -/
theorem trainBatch_inv {ab : ℝ → ℝ} {eps : ℝ} {e : Nat → Nat → Env} {w w' : World} {t t' : Trainer} {x y : Mat ℝ} {n : Nat}
    (hn : t.net = some n) (hv : AllValid w (w.nets n).layers) (ht : t.Ok) (hp : t.Ptrs w (w.nets n).layers)
    (h : trainBatch ab eps e w t x y = .ok (w', t')) :
    Evolve (w.nets n).layers w w' ∧ t'.Ok ∧ BatchKeep t t' := by
  unfold trainBatch at h
  rw [hn] at h
  dsimp only at h
  obtain ⟨x0, hx0, h⟩ := ok_bind h
  obtain ⟨x1, hx1, h⟩ := ok_bind h
  obtain ⟨io, hio, h⟩ := ok_bind h
  obtain ⟨⟨w₁, io₁⟩, hf, h⟩ := ok_bind h
  obtain ⟨p, hpp, h⟩ := ok_bind h
  obtain ⟨g0, hg0, h⟩ := ok_bind h
  obtain ⟨g1, hg1, h⟩ := ok_bind h
  obtain ⟨gs, hgs, h⟩ := ok_bind h
  obtain ⟨⟨w₂, gs₁⟩, hb, h⟩ := ok_bind h
  obtain ⟨⟨w₃, os⟩, ho1, h⟩ := ok_bind h
  obtain ⟨⟨w₄, os₁⟩, ho2, h⟩ := ok_bind h
  dsimp only at h
  obtain ⟨p', hp', h⟩ := ok_bind h
  obtain ⟨t₁, ht1, h⟩ := ok_bind h
  injection h with h
  injection h with e1 e2
  subst e1 e2
  have k0 : wf io := wr_wf (σ := Mat ℝ) ht.inOut (Mat.assign_safe (ht.inOut x0 (rd_mem hx0)) _ hx1) hio
  obtain ⟨a1, a2, a3⟩ := fwdLoop_inv (s := (w, io)) hv k0 hf
  have k1 : wf gs := wr_wf (σ := Mat ℝ) ht.gradient (lossGradient_safe (ht.gradient g0 (rd_mem hg0)) _ hg1) hgs
  have hv1 := hv.evolve a1
  obtain ⟨b1, b2, b3⟩ := bwdLoop_inv (s := (w₁, gs)) (by rw [a1.nets]; exact hv1) a2 k1 hb
  rw [a1.nets] at b1
  have ab1 := a1.trans b1
  have hp1 := hp.evolve ab1
  obtain ⟨c1, c2, c3⟩ := optLoop_inv (s := (w₂, t.opts)) (hv.evolve ab1) ht.opts hp1.weights
    (fun a ha l hl => (hp1.weights a (hp1.gradW ▸ ha)).2 l hl |>.1) ho1
  have abc := ab1.trans c1
  have hp2 := hp.evolve abc
  obtain ⟨d1, d2, d3⟩ := optLoop_inv (s := (w₃, os)) (hv.evolve abc) c2 hp2.biases
    (fun a ha l hl => (hp2.biases a (hp2.gradB ▸ ha)).2 l hl |>.1) ho2
  obtain ⟨x, k, e1, -, -, -⟩ := addOnline_inv ht1
  subst e1
  exact ⟨abc.trans d1, ⟨a2, b2, d2⟩, ⟨by rw [← hn], a3.trans (wr_length hio), b3.trans (wr_length hgs), c3.trans d3⟩⟩

end Trainer

end BeeDNN
