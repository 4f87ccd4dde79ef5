import Verif.Lemmas.FitsEpoch

/-! # Sizes: `fit` -/

namespace BeeDNN
open Finset HasWF

/-- Classes with parameters have a size for them. -/
theorem LayerKind.parShape_some {k : LayerKind} {first : Bool} {s s' : Form} (ht : k.Takes first s s') {b : Bool} (hu : Trainer.uses b k = true) :
    ∃ rc, k.parShape b s.width s'.width = some rc := by
  cases k <;> first
    | exact (show False from ht).elim
    | (cases b <;> first | exact ⟨_, rfl⟩ | cases hu)

theorem Layer.par_unused {l : Layer} (hv : l.Valid) {b : Bool} (hu : Trainer.uses b l.kind = false) : l.par b = ⟨0, 0, []⟩ := by
  cases b
  · exact hv.noWeight hu
  · exact hv.noBias hu

namespace Layer.Fits

variable {first : Bool} {s s' : Form} {l p : Layer}

/-- The clone of a layer that can be trained can be trained. -/
theorem clone (h : l.Fits first s s') (hc : l.CloneOk p) : p.Fits first s s' := by
  have hk := hc.same.kind
  have hp : ∀ b, p.par b = l.par b := by
    intro b
    cases b
    · exact hc.same.weight
    · exact hc.same.bias
  have hfull : p.Full s s' ↔ l.Full s s' := by
    unfold Layer.Full
    rw [hk]
    simp only [hp]
  refine ⟨hc.valid, h.pos, by rw [hk]; exact h.takes, fun _ => hc.first, ?_, ?_, ?_⟩
  · rw [hfull, hk]
    simp only [hp]
    exact h.params
  · intro h1 h2 b rc hb
    rw [hk] at h1 hb
    have h3 := h.grads h1 (hfull.1 h2) b rc hb
    have hg := hc.grads
    unfold Layer.GradKept at hg
    have hv := hc.valid
    cases hkk : l.kind <;> rw [hkk] at h1 hb hg <;> first
      | exact absurd h1 Bool.false_ne_true
      | skip
    case prelu | pelu | terelu =>
      cases b
      · have hg' : p.gradWeight = l.gradWeight := hg
        show p.gradWeight.Shape _ _
        rw [hg']
        exact h3
      · cases hb
    case globalBias =>
      cases b
      · cases hb
      · injection hb with hb; subst hb; exact ⟨hv.gradBias, hg⟩
    case globalGain =>
      cases b
      · injection hb with hb; subst hb; exact ⟨hv.gradWeight, hg⟩
      · cases hb
    case globalAffine =>
      cases b
      · injection hb with hb; subst hb; exact ⟨hv.gradWeight, hg.1⟩
      · injection hb with hb; subst hb; exact ⟨hv.gradBias, hg.2⟩
  · intro h1 h2
    rw [hk] at h1
    have h3 := h.inits h1 (by rw [← hc.same.bias]; exact h2)
    rw [hc.bInit h1]
    exact h3

theorem setFirst (h : l.Fits true s s') (f : Bool) : (l.setFirst f).Fits true s s' :=
  ⟨World.setFirst_valid f h.valid, h.pos, h.takes, (fun h0 => by cases h0), h.params, h.grads, h.inits⟩

end Layer.Fits

/-- A layer that can be trained, of the class of the network's layer `i`. -/
def Layer.Stands (form : Nat → Form) (kinds : Nat → LayerKind) (i : Nat) (l : Layer) : Prop :=
  l.Fits (decide (i = 0)) (form i) (form (i + 1)) ∧ l.kind = kinds i

theorem lasting_stands (form : Nat → Form) (kinds : Nat → LayerKind) : Lasting form (Layer.Stands form kinds) :=
  ⟨fun _ _ h => h.1, fun _ _ _ h h' hk _ => ⟨h', hk.trans h.2⟩⟩

/-- Network `n` with `d` layers that can be trained. -/
structure Ready (w : World) (n d : Nat) (form : Nat → Form) (kinds : Nat → LayerKind) : Prop where
  nodup : (w.nets n).layers.Nodup
  depth : (w.nets n).layers.length = d
  layers : OnNet w n (Layer.Stands form kinds)

theorem Ready.frame {w w' : World} {n b d : Nat} {form : Nat → Form} {kinds : Nat → LayerKind} (h : Ready w n d form kinds) (hf : Frame b w w') (hb : n ≠ b) :
    Ready w' n d form kinds :=
  ⟨by rw [hf.nets n hb]; exact h.nodup, by rw [hf.nets n hb]; exact h.depth, h.layers.congr (by rw [hf.nets n hb]) (hf.layers n hb)⟩

/-- Assignment of networks. -/
theorem Ready.assign {e : Nat → Env} {w : World} {n b d : Nat} {form : Nat → Form} {kinds : Nat → LayerKind} (h : Ready w n d form kinds) (ho : Owned w) (hb : b ≠ n) :
    ∃ w', w.assign e b n = .ok w' ∧ Ready w' b d form kinds ∧ Frame b w w' := by
  have hv : AllValid w (w.nets n).layers := h.layers.allValid fun _ _ hp => hp.1.valid
  obtain ⟨w', hw⟩ := World.assign_ok (e := e) ho hb hv
  obtain ⟨f, -, -, -, -, h2⟩ := World.assign_inv ho hb hv hw
  have hlen := h2.length_eq
  refine ⟨w', hw, ⟨f.owned.nodup b, by rw [← hlen]; exact h.depth, fun i a hi => ?_⟩, f⟩
  have hi' : i < (w'.nets b).layers.length := lt_of_some hi
  have hil : i < (w.nets n).layers.length := by omega
  obtain ⟨l, p, k1, k2, k3⟩ := (List.forall₂_iff_get.1 h2).2 i hil hi'
  rw [List.getElem?_eq_getElem hi'] at hi
  injection hi with hi
  rw [List.get_eq_getElem] at k1 k2
  rw [hi] at k2
  have hs := h.layers.at (List.getElem?_eq_getElem hil) k1
  exact ⟨p, k2, hs.1.clone k3, k3.same.kind.trans hs.2⟩

namespace Trainer

theorem Runs.ready {t : Trainer} {w : World} {n d : Nat} {form : Nat → Form} {kinds : Nat → LayerKind} (h : t.Runs w n d form kinds) : Ready w n d form kinds :=
  ⟨h.nodup, h.depth, h.layers.mono fun _ _ _ _ _ hp => ⟨hp.1, hp.2.1⟩⟩

/-- `set_net`. -/
theorem setNet_fits {g : Nat → ℝ} {w : World} {t : Trainer} {n d : Nat} {form : Nat → Form} {kinds : Nat → LayerKind} (h : Ready w n d form kinds) (hd : 0 < d)
    (hi : ∀ m ∈ t.inOut, m.WF) (hg : ∀ m ∈ t.gradient, m.WF) {k : OptKind} (hk : createOptimizer t.optName = some k) :
    ∃ w' t', setNet g w t n = .ok (w', t') ∧ t'.Runs w' n d form kinds ∧ w'.nets = w.nets ∧
      { t with net := t'.net, nbLayers := t'.nbLayers, gradient := t'.gradient, inOut := t'.inOut, opts := t'.opts,
               pWeights := t'.pWeights, pGradWeights := t'.pGradWeights, pBiases := t'.pBiases, pGradBiases := t'.pGradBiases } = t' := by
  obtain ⟨w', m1, m2, m3⟩ : ∃ w', markFirst w (w.nets n).layers = .ok w' ∧ w'.nets = w.nets ∧ OnNet w' n (Layer.Placed form kinds) := by
    cases has : (w.nets n).layers with
    | nil => have := h.depth; rw [has] at this; simp at this; omega
    | cons a as =>
      have hi0 : (w.nets n).layers[0]? = some a := by rw [has]; rfl
      obtain ⟨l, h1, h2⟩ := h.layers 0 a hi0
      unfold markFirst
      dsimp only
      rw [World.deref_eq h1, bind_ok']
      refine ⟨_, rfl, rfl, h.layers.store h.nodup hi0 h1 ⟨h2.1.setFirst _, h2.2, rfl⟩ fun j l₁ _ hj hp => ⟨hp.1, hp.2, ?_⟩⟩
      rw [hp.1.notFirst (decide_eq_false hj), decide_eq_false hj]
  have hn : (w'.nets n).layers = (w.nets n).layers := by rw [m2]
  have hlive : ∀ a ∈ (w.nets n).layers, ∃ l, w'.heap[a]? = some (some l) := fun a ha => by
    obtain ⟨i, hi⟩ := List.getElem?_of_mem ha
    obtain ⟨l, h1, -⟩ := m3 i a (by rw [hn]; exact hi)
    exact ⟨l, h1⟩
  unfold setNet
  dsimp only
  rw [m1, bind_ok', collect_eq _ _ _ hlive, bind_ok']
  simp only [List.nil_append]
  rw [makeOpts_ok g _ (k := k) (by exact hk), bind_ok']
  have hfresh : ∀ R C, ((Opt.new k).setParams g t.lr t.decay t.mom).Ready R C := fun R C =>
    ⟨Opt.init_WF g (Opt.new_WF k), .inl (Opt.init_fresh g (Opt.new_WF k))⟩
  have hp : ∀ b a, a ∈ (w.nets n).layers.filter (has b w') → ∃ i rc, (w'.nets n).layers[i]? = some a ∧
      (kinds i).parShape b (form i).width (form (i + 1)).width = some rc := by
    intro b a ha
    obtain ⟨ha, hb⟩ := List.mem_filter.mp ha
    obtain ⟨i, hi⟩ := List.getElem?_of_mem ha
    rw [← hn] at hi
    obtain ⟨l, h1, h2, h3, h4⟩ := m3 i a hi
    have hu : uses b l.kind = true := by
      by_contra hu
      have := Layer.par_unused h2.valid (eq_false_of_ne_true hu)
      simp only [has, h1] at hb
      cases b
      · simp [Layer.hasWeights, show l.weight = _ from this, Mat.size] at hb
      · simp [Layer.hasBiases, show l.bias = _ from this, Mat.size] at hb
    obtain ⟨rc, hrc⟩ := LayerKind.parShape_some h2.takes hu
    exact ⟨i, rc, hi, by rw [← h3]; exact hrc⟩
  refine ⟨w', _, rfl, ⟨hd, by rw [hn]; exact h.nodup, by rw [hn]; exact h.depth, m3, rfl, h.depth, ?_, ?_, ⟨resizeVec_WF _ hi, resizeVec_WF _ hg, ?_⟩, rfl, rfl, fun b => ?_⟩,
    m2, rfl⟩
  · rw [← h.depth]; exact resizeVec_length ..
  · rw [← h.depth]; exact resizeVec_length ..
  · intro o ho
    rw [(List.mem_replicate.1 ho).2]
    exact (hfresh 0 0).1
  · intro j a hj
    have hlt := lt_of_some hj
    have hm := List.mem_of_getElem? hj
    obtain ⟨i, rc, h1, h2⟩ := hp b a (by cases b <;> exact hm)
    refine ⟨i, rc, h1, h2, _, ?_, hfresh _ _⟩
    dsimp only
    rw [List.getElem?_replicate_of_lt]
    cases b
    · simp only [ptrs, Bool.false_eq_true, if_false] at hlt
      simp only [off, Bool.false_eq_true, if_false]
      omega
    · simp only [ptrs, if_true] at hlt
      simp only [off, if_true]
      omega

/-- Data to evaluate on. -/
def EvalData (loss : String) (form : Nat → Form) (d : Nat) (data : Mat ℝ × Mat ℝ) : Prop :=
  ∃ (N D : Nat) (x y : Nat → Row), TruthFits loss (form d).width D N y ∧ data = (Mat.ofFn N (form 0).width x, Mat.ofFn N D y)

/-- All environments of the layers are exact. -/
structure ExactEnv (e : FitEnv) : Prop where
  batch : ∀ i j k l, (e.batch i j k l).Exact
  eval : ∀ i j k, (e.eval i j k).Exact

theorem eval_fits {eps : ℝ} {e : Nat → Nat → Env} (he : ∀ k i, (e k i).Exact) {w : World} {t : Trainer} {n d : Nat} {form : Nat → Form} {kinds : Nat → LayerKind}
    (h : t.Runs w n d form kinds) (hl : t.loss ∈ listLoss) (hw : t.lossWeight.size = 0) (hval : 0 < t.valBatch) {data : Mat ℝ × Mat ℝ}
    (hd : EvalData t.loss form d data) :
    ∃ w' l a, t.computeLossAccuracy (fun x => |x|) eps e w data.1 data.2 true = .ok (w', l, a) ∧ t.Runs w' n d form kinds ∧ Stage n w w' := by
  obtain ⟨N, D, x, y, hT, rfl⟩ := hd
  obtain ⟨w', l, a, h1, h2, h3⟩ := computeLossAccuracy_fits (eps := eps) he h.net (lasting_placed form kinds) h.nodup h.depth h.pos h.layers hl hw hval x y hT
  exact ⟨w', l, a, h1, h.world h2 (by rw [h3]), (computeLossAccuracy_inv h.net h.allValid h1).stage⟩

/-- The state between epochs. -/
structure FitInv (t₀ : Trainer) (n b d : Nat) (form : Nat → Form) (kinds : Nat → LayerKind) (B : Nat) (k : Nat) (s : FitSt) : Prop where
  runs : s.t.Runs s.w n d form kinds
  owned : Owned s.w
  best : t₀.keepBest = true → Ready s.w b d form kinds
  loss : s.t.loss = t₀.loss
  weight : s.t.lossWeight.size = 0
  batch : s.t.batchAdj = B
  valid : s.t.valid = t₀.valid
  valBatch : s.t.valBatch = t₀.valBatch
  patience : s.t.patience = t₀.patience ∧ s.t.curPatience ≤ k
  keep : s.t.keepBest = t₀.keepBest
  epochs : s.t.epochs = t₀.epochs
  seen : s.seen.length = k ∧ ∀ ls ∈ s.seen, ls.map (Option.map Layer.kind) = (List.range d).map fun i => some (kinds i)

/-- The classes of the layers. -/
theorem _root_.BeeDNN.Ready.layersOf_kinds {w : World} {n d : Nat} {form : Nat → Form} {kinds : Nat → LayerKind} (h : Ready w n d form kinds) :
    (layersOf w n).map (Option.map Layer.kind) = (List.range d).map fun i => some (kinds i) := by
  refine List.ext_getElem? fun i => ?_
  unfold Trainer.layersOf
  rw [List.getElem?_map, List.getElem?_map, List.getElem?_map]
  by_cases hi : i < (w.nets n).layers.length
  · obtain ⟨l, h1, h2⟩ := h.layers i _ (List.getElem?_eq_getElem hi)
    rw [List.getElem?_eq_getElem hi, List.getElem?_range (by rw [← h.depth]; exact hi), Option.map_some, Option.map_some, Option.map_some, h1, Option.join_some, Option.map_some, h2.2]
  · rw [List.getElem?_eq_none (by omega), List.getElem?_eq_none (by rw [List.length_range, ← h.depth]; omega)]
    rfl

theorem epochStep_fits {eps : ℝ} {e : FitEnv} (he : ExactEnv e) {t₀ : Trainer} {n b d : Nat} {form : Nat → Form} {kinds : Nat → LayerKind} (hb : b ≠ n) {B N : Nat}
    (hB : 0 < B) {D : Nat} {Γ : Row → Row → Row} (hl : t₀.loss ∈ listLoss) (hlo : LossOk (fun x => |x|) eps t₀.loss (form d).width D Γ)
    (hv : ∀ data, t₀.valid = some data → EvalData t₀.loss form d data) (hvb : 0 < t₀.valBatch) (x y : Nat → Row)
    (hX : (form 0).Holds N (Mat.ofFn N (form 0).width x)) (hT : TruthFits t₀.loss (form d).width D N y) {k : Nat} {s : FitSt}
    (h : FitInv t₀ n b d form kinds B k s) (hp : t₀.patience = -1 ∨ (k : Int) < t₀.patience) :
    ∃ s', epochStep (fun x => |x|) eps e n b (Mat.ofFn N (form 0).width x) (Mat.ofFn N D y) k s = .ok s' ∧ FitInv t₀ n b d form kinds B (k + 1) s' := by
  obtain ⟨w, t, minLoss, maxAcc, iReboost, seen⟩ := s
  obtain ⟨w₁, t₁, a1, a3, a5, a6⟩ := epochTrain_fits (ab := fun x => |x|) (eps := eps) he.batch h.runs (D := D) (Γ := Γ) (by rw [h.loss]; exact hlo) h.weight hB h.batch x y hX
    (by rw [h.loss]; exact hT) k
  have fr := a5.frame h.owned
  have tloss : t₁.loss = t₀.loss := by rw [← a6]; exact h.loss
  have tweight : t₁.lossWeight.size = 0 := by rw [← a6]; exact h.weight
  have tvalid : t₁.valid = t₀.valid := by rw [← a6]; exact h.valid
  have tvb : t₁.valBatch = t₀.valBatch := by rw [← a6]; exact h.valBatch
  have tpat : t₁.patience = t₀.patience ∧ t₁.curPatience ≤ k := by rw [← a6]; exact h.patience
  have tkeep : t₁.keepBest = t₀.keepBest := by rw [← a6]; exact h.keep
  have tbatch : t₁.batchAdj = B := by rw [← a6]; exact h.batch
  have tep : t₁.epochs = t₀.epochs := by rw [← a6]; exact h.epochs
  -- evaluation
  obtain ⟨w₂, t₂, l, a, b1, b3, b0, b2⟩ : ∃ w₂ t₂ l a, evalValid (fun x => |x|) eps e k w₁ t₁ = .ok (w₂, t₂, l, a) ∧ t₁.Runs w₂ n d form kinds ∧ Stage n w₁ w₂ ∧
      { t₁ with curValLoss := t₂.curValLoss, curValAcc := t₂.curValAcc, valLoss := t₂.valLoss, valAcc := t₂.valAcc } = t₂ := by
    obtain hval | ⟨data, hval⟩ : t₁.valid = none ∨ ∃ data, t₁.valid = some data := by cases t₁.valid <;> simp
    · exact ⟨w₁, t₁, t₁.curTrainLoss, t₁.curTrainAcc, by unfold evalValid; rw [hval], a3, .refl n w₁, rfl⟩
    · obtain ⟨w₂, l, a, h1, h2, h3⟩ := eval_fits (eps := eps) (e := e.eval (k + 1)) (he.eval (k + 1)) a3 (by rw [tloss]; exact hl) tweight (by rw [tvb]; exact hvb)
        (by rw [tloss]; exact hv data (tvalid ▸ hval))
      refine ⟨w₂, { t₁ with curValLoss := l, curValAcc := a, valLoss := t₁.valLoss ++ [l], valAcc := t₁.valAcc ++ [a] }, l, a, ?_, h2, h3, rfl⟩
      unfold evalValid
      rw [hval]
      obtain ⟨x, y⟩ := data
      dsimp only at h1 ⊢
      rw [h1, bind_ok', pure_ok]
  have fr2 := b0.frame fr.owned
  -- the state before keeping the best
  obtain ⟨s₁, hs₁⟩ : ∃ s₁ : FitSt, s₁ = ⟨w₂, t₂, minLoss, maxAcc, iReboost, seen ++ [layersOf w₂ n]⟩ := ⟨_, rfl⟩
  have cur1 : s₁.t.curPatience ≤ k := by
    subst hs₁
    show t₂.curPatience ≤ _
    rw [← b2]
    exact tpat.2
  have r1 : FitInv t₀ n b d form kinds B (k + 1) s₁ := by
    subst hs₁
    refine ⟨b3.congr (by rw [← b2]), fr2.owned, fun hk => ((h.best hk).frame fr hb).frame fr2 hb, ?_, ?_, ?_, ?_, ?_, ?_, ?_, ?_, ?_⟩
    · show t₂.loss = _; rw [← b2]; exact tloss
    · show t₂.lossWeight.size = _; rw [← b2]; exact tweight
    · show t₂.batchAdj = _; rw [← b2]; exact tbatch
    · show t₂.valid = _; rw [← b2]; exact tvalid
    · show t₂.valBatch = _; rw [← b2]; exact tvb
    · exact ⟨by show t₂.patience = _; rw [← b2]; exact tpat.1, cur1.trans (by push_cast; omega)⟩
    · show t₂.keepBest = _; rw [← b2]; exact tkeep
    · show t₂.epochs = _; rw [← b2]; exact tep
    · refine ⟨?_, ?_⟩
      · simp only [List.length_append, List.length_singleton]
        rw [show seen.length = k from h.seen.1]
      · intro ls hls
        rcases List.mem_append.1 hls with hls | hls
        · exact h.seen.2 ls hls
        · rw [List.mem_singleton.1 hls]
          exact b3.ready.layersOf_kinds
  -- keeping the best
  obtain ⟨s₂, c1, r2⟩ : ∃ s₂, bestStep e k n b s₁ l a = .ok s₂ ∧ FitInv t₀ n b d form kinds B (k + 1) s₂ := by
    unfold bestStep
    split
    · obtain ⟨w₃, d1, d2, d4⟩ := r1.runs.ready.assign (e := e.copy (2 * k + 1)) r1.owned hb
      have hcase : ∀ mi ma, FitInv t₀ n b d form kinds B (k + 1) { s₁ with w := w₃, minLoss := mi, maxAcc := ma, t := { s₁.t with curPatience := 0 } } := fun mi ma =>
        ⟨(r1.runs.world (r1.runs.layers.congr (by rw [d4.nets n hb.symm]) (d4.layers n hb.symm)) (by rw [d4.nets n hb.symm])).congr rfl, d4.owned, fun _ => d2, r1.loss,
          r1.weight, r1.batch, r1.valid, r1.valBatch, ⟨r1.patience.1, by show (0 : Int) ≤ _; omega⟩, r1.keep, r1.epochs, r1.seen⟩
      have hcase' : FitInv t₀ n b d form kinds B (k + 1) { s₁ with t := { s₁.t with curPatience := s₁.t.curPatience + 1 } } :=
        ⟨r1.runs.congr rfl, r1.owned, r1.best, r1.loss, r1.weight, r1.batch, r1.valid, r1.valBatch,
          ⟨r1.patience.1, by show s₁.t.curPatience + 1 ≤ _; push_cast; omega⟩, r1.keep, r1.epochs, r1.seen⟩
      obtain ⟨s₂, e1, e2⟩ : ∃ s₂, keepStep (e.copy (2 * k + 1)) n b s₁ l a = .ok s₂ ∧ FitInv t₀ n b d form kinds B (k + 1) s₂ := by
        unfold keepStep
        split
        · split
          · exact ⟨_, by rw [d1, bind_ok']; rfl, hcase _ _⟩
          · exact ⟨_, rfl, hcase'⟩
        · split
          · exact ⟨_, by rw [d1, bind_ok']; rfl, hcase _ _⟩
          · exact ⟨_, rfl, hcase'⟩
      obtain ⟨p1, p2⟩ := e2.patience
      refine ⟨s₂, ?_, e2⟩
      rw [e1, bind_ok', patienceStep, if_neg]
      rw [p1]
      rintro ⟨h1, h2⟩
      rcases hp with hp | hp
      · exact h2 hp
      · push_cast at p2; omega
    · exact ⟨s₁, rfl, r1⟩
  refine ⟨reboostStep e.g s₂, ?_, ?_⟩
  · unfold epochStep
    dsimp only
    rw [a1, bind_ok']
    dsimp only
    rw [b1, bind_ok']
    dsimp only
    rw [← hs₁, c1, bind_ok']
    rfl
  · unfold reboostStep
    split
    · split
      · exact ⟨r2.runs, r2.owned, r2.best, r2.loss, r2.weight, r2.batch, r2.valid, r2.valBatch, r2.patience, r2.keep, r2.epochs, r2.seen⟩
      · exact ⟨r2.runs.init e.g, r2.owned, r2.best, r2.loss, r2.weight, r2.batch, r2.valid, r2.valBatch, r2.patience, r2.keep, r2.epochs, r2.seen⟩
    · exact r2

/-- Everything before the first epoch. -/
theorem start_fits {eps : ℝ} {e : FitEnv} (he : ExactEnv e) {w : World} {t : Trainer} {n b d : Nat} {form : Nat → Form} {kinds : Nat → LayerKind} (h : t.Runs w n d form kinds)
    (ho : Owned w) (hb : b ≠ n) {N D : Nat} (x y : Nat → Row) (hT : TruthFits t.loss (form d).width D N y)
    (hv : ∀ data, t.valid = some data → EvalData t.loss form d data) (hvb : 0 < t.valBatch) (hbal : t.balancing = false) (hl : t.loss ∈ listLoss) {B : Nat}
    (q1 : adjustBatch t.batchSize N = B) :
    ∃ s, start (fun x => |x|) eps e n b (Mat.ofFn N (form 0).width x) (Mat.ofFn N D y) w t = .ok s ∧ FitInv t n b d form kinds B 0 s := by
  unfold start
  rw [show classWeights e.g e.div0 (w.nets n).classif t.balancing t.train = .ok ⟨0, 0, []⟩ by
    unfold classWeights; rw [if_pos (.inr (by simp [hbal]))], bind_ok']
  dsimp only
  obtain ⟨t₂, ht₂⟩ : ∃ t₂ : Trainer, t₂ = { t with
    lossWeight := ⟨0, 0, []⟩, trainLoss := [], valLoss := [], trainAcc := [], valAcc := [], curTrainLoss := 1e10, curTrainAcc := 0
    curValLoss := 1e10, curValAcc := 0, curPatience := 0, batchAdj := adjustBatch t.batchSize (Mat.ofFn N (form 0).width x).rows
    opts := t.opts.map (Opt.init e.g) } := ⟨_, rfl⟩
  rw [← ht₂]
  have g2 : t₂.Runs w n d form kinds := by rw [ht₂]; exact (h.init e.g).congr rfl
  have k1 : t₂.loss = t.loss := by rw [ht₂]
  have k2 : t₂.lossWeight.size = 0 := by rw [ht₂]; rfl
  have k3 : t₂.batchAdj = B := by
    rw [ht₂]; exact q1
  have k4 : t₂.valid = t.valid := by rw [ht₂]
  have k5 : t₂.valBatch = t.valBatch := by rw [ht₂]
  have k6 : t₂.patience = t.patience ∧ t₂.curPatience ≤ ((0 : Nat) : Int) := by
    rw [ht₂]
    exact ⟨rfl, le_rfl⟩
  have k7 : t₂.keepBest = t.keepBest := by rw [ht₂]
  have k10 : t₂.epochs = t.epochs := by rw [ht₂]
  clear ht₂
  unfold initialBest
  split
  · rename_i hkb
    obtain ⟨w₂, l, a, c1, c0, c3⟩ := eval_fits (eps := eps) (e := e.eval 0) (he.eval 0) g2 (by rw [k1]; exact hl) k2 (by rw [k5]; exact hvb)
      (data := t₂.valid.getD (Mat.ofFn N (form 0).width x, Mat.ofFn N D y)) (by
        rw [k4, k1]
        cases hv' : t.valid with
        | none => exact ⟨N, D, x, y, hT, rfl⟩
        | some data => exact hv data hv')
    have fr := c3.frame ho
    obtain ⟨w₃, d1, d2, d4⟩ := c0.ready.assign (e := e.copy 0) fr.owned hb
    refine ⟨⟨w₃, t₂, l, a, 0, []⟩, ?_, ?_⟩
    · rw [c1, bind_ok']
      dsimp only
      rw [d1, bind_ok']
      rfl
    · exact ⟨c0.world (c0.layers.congr (by rw [d4.nets n hb.symm]) (d4.layers n hb.symm)) (by rw [d4.nets n hb.symm]), d4.owned, fun _ => d2, k1, k2, k3, k4, k5, k6, k7,
        k10, rfl, fun _ h => absurd h List.not_mem_nil⟩
  · rename_i hkb
    exact ⟨⟨w, t₂, 1e10, 0, 0, []⟩, rfl, g2, ho, fun hk => absurd (k7.trans hk) hkb, k1, k2, k3, k4, k5, k6, k7, k10, rfl, fun _ h => absurd h List.not_mem_nil⟩

/-- `fit` runs to the end; the trainer keeps the loss and refers to the network. -/
theorem fit_fits' {eps : ℝ} {e : FitEnv} (he : ExactEnv e) {w : World} {t : Trainer} {n b d : Nat} {form : Nat → Form} {kinds : Nat → LayerKind} (h : Ready w n d form kinds)
    (hd : 0 < d) (ho : Owned w) (hb : b ≠ n) (hbe : (w.nets b).layers = []) (hi : ∀ m ∈ t.inOut, m.WF) (hg : ∀ m ∈ t.gradient, m.WF)
    {o : OptKind} (hk : createOptimizer t.optName = some o) {N D : Nat} (hN : 0 < N) (x y : Nat → Row) (htr : t.train = some (Mat.ofFn N (form 0).width x, Mat.ofFn N D y))
    (hX : (form 0).Holds N (Mat.ofFn N (form 0).width x)) (hT : TruthFits t.loss (form d).width D N y)
    (hv : ∀ data, t.valid = some data → EvalData t.loss form d data) (hvb : 0 < t.valBatch) (hbs : 0 ≤ t.batchSize) (hbal : t.balancing = false)
    (hl : t.loss ∈ listLoss) {Γ : Row → Row → Row} (hlo : LossOk (fun x => |x|) eps t.loss (form d).width D Γ) (hpat : t.patience = -1 ∨ t.epochs ≤ t.patience) :
    ∃ w' t' seen, fit (fun x => |x|) eps e w t n b = .ok (w', t', seen) ∧ Ready w' n d form kinds ∧ Owned w' ∧ seen.length = t.epochs.toNat ∧
      t'.net = some n ∧ t'.loss = t.loss ∧ t'.lossWeight.size = 0 ∧ t'.valBatch = t.valBatch ∧
      ∀ ls ∈ seen, ls.map (Option.map Layer.kind) = (List.range d).map fun i => some (kinds i) := by
  obtain ⟨w₁, t₁, s1, s2, s3, s5⟩ := setNet_fits (g := e.g) h hd hi hg hk
  obtain ⟨B, q1, q2, q3, -⟩ := C50_adjusted t.batchSize N hbs hN
  have ow₁ : Owned w₁ := by
    obtain ⟨o1, -⟩ := setNet_inv hb ho (h.layers.allValid fun _ _ hp => hp.1.valid) (by rw [hbe]; intro a ha; cases ha) hi hg s1
    exact (o1.stage.frame ho).owned
  have tnb : t₁.nbLayers ≠ 0 := by rw [s2.nb]; omega
  have f1 : t₁.train = t.train := by rw [← s5]
  have f2 : t₁.valid = t.valid := by rw [← s5]
  have f3 : t₁.valBatch = t.valBatch := by rw [← s5]
  have f4 : t₁.batchSize = t.batchSize := by rw [← s5]
  have f5 : t₁.balancing = false := by rw [← s5]; exact hbal
  have f6 : t₁.patience = t.patience := by rw [← s5]
  have f7 : t₁.loss = t.loss := by rw [← s5]
  have f8 : t₁.keepBest = t.keepBest := by rw [← s5]
  have f9 : t₁.epochs = t.epochs := by rw [← s5]
  -- before the first epoch
  obtain ⟨s, u1, u3⟩ := start_fits (eps := eps) he s2 ow₁ hb x y (by rw [f7]; exact hT) (by rw [f2, f7]; exact hv) (by rw [f3]; exact hvb) f5 (by rw [f7]; exact hl)
    (B := B) (by rw [f4]; exact q1)
  have u2 : FitInv t n b d form kinds B 0 s := ⟨u3.runs, u3.owned, fun hk => u3.best (f8.trans hk), u3.loss.trans f7, u3.weight, u3.batch, u3.valid.trans f2, u3.valBatch.trans f3,
    ⟨u3.patience.1.trans f6, u3.patience.2⟩, u3.keep.trans f8, u3.epochs.trans f9, u3.seen⟩
  have hfit : fit (fun x => |x|) eps e w t n b = (do
        let s ← forN t.epochs.toNat (epochStep (fun x => |x|) eps e n b (Mat.ofFn N (form 0).width x) (Mat.ofFn N D y)) s
        let s ← finish e n b s
        return (s.w, s.t, s.seen)) := by
    unfold fit
    rw [s1, bind_ok']
    dsimp only
    rw [if_neg tnb, f1, htr]
    dsimp only
    rw [u1, bind_ok', f9]
  refine (forN_inv (n := t.epochs.toNat) (FitInv t n b d form kinds B)
    (f := epochStep (fun x => |x|) eps e n b (Mat.ofFn N (form 0).width x) (Mat.ofFn N D y)) (s := s) u2 ?_).elim ?_
  · intro i hi s₁ v1
    exact epochStep_fits he hb q2 hl hlo hv hvb x y hX hT v1 (hpat.imp_right fun h => by omega)
  · rintro s₁ ⟨v0, v1⟩
    obtain ⟨w₃, x1, x4, x5⟩ : ∃ (w₃ : World), restoreBest e n b s₁ = .ok w₃ ∧ Ready w₃ n d form kinds ∧ Owned w₃ := by
      unfold restoreBest
      by_cases hkb : t.keepBest = true
      · obtain ⟨w₃, d1, d2, d4⟩ := (v1.best hkb).assign (e := e.copy (2 * s₁.t.epochs.toNat + 1)) v1.owned hb.symm
        exact ⟨w₃, by rw [if_pos (v1.keep.trans hkb)]; exact d1, d2, d4.owned⟩
      · exact ⟨s₁.w, by rw [if_neg (by rw [v1.keep]; exact hkb)], v1.runs.ready, v1.owned⟩
    obtain ⟨w₄, y1, -⟩ := World.clear_ok x5 b
    have yf := frame_clear x5 y1
    refine ⟨w₄, s₁.t, s₁.seen, ?_, x4.frame yf hb.symm, yf.owned, v1.seen.1, v1.runs.net, v1.loss, v1.weight, v1.valBatch, v1.seen.2⟩
    rw [hfit, v0, bind_ok', finish, x1, bind_ok', y1, bind_ok', pure_ok]
    rfl

/-- `fit` runs to the end. -/
theorem fit_fits {eps : ℝ} {e : FitEnv} (he : ExactEnv e) {w : World} {t : Trainer} {n b d : Nat} {form : Nat → Form} {kinds : Nat → LayerKind} (h : Ready w n d form kinds)
    (hd : 0 < d) (ho : Owned w) (hb : b ≠ n) (hbe : (w.nets b).layers = []) (hi : ∀ m ∈ t.inOut, m.WF) (hg : ∀ m ∈ t.gradient, m.WF)
    {o : OptKind} (hk : createOptimizer t.optName = some o) {N D : Nat} (hN : 0 < N) (x y : Nat → Row) (htr : t.train = some (Mat.ofFn N (form 0).width x, Mat.ofFn N D y))
    (hX : (form 0).Holds N (Mat.ofFn N (form 0).width x)) (hT : TruthFits t.loss (form d).width D N y)
    (hv : ∀ data, t.valid = some data → EvalData t.loss form d data) (hvb : 0 < t.valBatch) (hbs : 0 ≤ t.batchSize) (hbal : t.balancing = false)
    (hl : t.loss ∈ listLoss) {Γ : Row → Row → Row} (hlo : LossOk (fun x => |x|) eps t.loss (form d).width D Γ) (hpat : t.patience = -1 ∨ t.epochs ≤ t.patience) :
    ∃ w' t' seen, fit (fun x => |x|) eps e w t n b = .ok (w', t', seen) ∧ Ready w' n d form kinds ∧ Owned w' ∧ seen.length = t.epochs.toNat := by
  obtain ⟨w', t', seen, h1, h2, h3, h4, -⟩ := fit_fits' (eps := eps) he h hd ho hb hbe hi hg hk hN x y htr hX hT hv hvb hbs hbal hl hlo hpat
  exact ⟨w', t', seen, h1, h2, h3, h4⟩

end Trainer

end BeeDNN
