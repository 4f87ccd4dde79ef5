import Verif.Lemmas.FitsLoop
import Verif.Lemmas.MlpFit

/-! # Sizes: batches, epochs and evaluation -/

namespace BeeDNN
open Finset HasWF

/-- A layer of a network between epochs. -/
def Layer.Placed (form : Nat → Form) (kinds : Nat → LayerKind) (i : Nat) (l : Layer) : Prop :=
  l.Fits (decide (i = 0)) (form i) (form (i + 1)) ∧ l.kind = kinds i ∧ l.first = decide (i = 0)

/-- All layers are in training mode. -/
def Training (w : World) (n : Nat) : Prop := OnNet w n fun _ l => l.train = true

theorem OnNet.and {w : World} {n : Nat} {P Q : Nat → Layer → Prop} (h : OnNet w n P) (h' : OnNet w n Q) : OnNet w n (fun i l => P i l ∧ Q i l) :=
  h.mono fun _ _ _ hi hl hp => ⟨hp, h'.at hi hl⟩

theorem OnNet.congr {w w' : World} {n : Nat} {P : Nat → Layer → Prop} (h : OnNet w n P) (hn : (w'.nets n).layers = (w.nets n).layers)
    (hh : ∀ a ∈ (w.nets n).layers, w'.heap[a]? = w.heap[a]?) : OnNet w' n P := by
  intro i a hi
  rw [hn] at hi
  rw [hh a (List.mem_of_getElem? hi)]
  exact h i a hi

theorem OnNet.allValid {w : World} {n : Nat} {P : Nat → Layer → Prop} (h : OnNet w n P) (hp : ∀ i l, P i l → l.Valid) : AllValid w (w.nets n).layers := by
  intro a ha l hl
  obtain ⟨i, hi⟩ := List.getElem?_of_mem ha
  exact hp i l (h.at hi hl)

theorem Form.Holds.sub {s : Form} {N N' : Nat} {x : Nat → Row} (h : s.Holds N (Mat.ofFn N s.width x)) {σ : Nat → Nat} (hσ : ∀ i, i < N' → σ i < N) :
    s.Holds N' (Mat.ofFn N' s.width (fun i => x (σ i))) := by
  rw [Form.holds_ofFn] at *
  exact fun hf i j hi hj => h hf (σ i) j (hσ i hi) hj

namespace Trainer

/-- The trainer trains network `n` with `d` layers. -/
structure Runs (t : Trainer) (w : World) (n d : Nat) (form : Nat → Form) (kinds : Nat → LayerKind) : Prop where
  pos : 0 < d
  nodup : (w.nets n).layers.Nodup
  depth : (w.nets n).layers.length = d
  layers : OnNet w n (Layer.Placed form kinds)
  net : t.net = some n
  nb : t.nbLayers = d
  inOut : t.inOut.length = d + 1
  gradient : t.gradient.length = d + 1
  ok : t.Ok
  gradW : t.pGradWeights = t.pWeights
  gradB : t.pGradBiases = t.pBiases
  ptr : ∀ b, PtrsFit w n form kinds b (t.ptrs b) (t.off b) t.opts

theorem PtrsFit.nets {w w' : World} {n : Nat} {form : Nat → Form} {kinds : Nat → LayerKind} {b : Bool} {ps : List Nat} {off : Nat} {os : List (Opt ℝ)}
    (h : PtrsFit w n form kinds b ps off os) (hn : (w'.nets n).layers = (w.nets n).layers) : PtrsFit w' n form kinds b ps off os := by
  unfold PtrsFit at *
  rw [hn]
  exact h

theorem Runs.ptrOk {t : Trainer} {w : World} {n d : Nat} {form : Nat → Form} {kinds : Nat → LayerKind} (h : t.Runs w n d form kinds) (b : Bool) :
    PtrOk b w (w.nets n).layers (t.ptrs b) := by
  intro a ha
  obtain ⟨j, hj⟩ := List.getElem?_of_mem ha
  obtain ⟨i, rc, h1, h2, -⟩ := h.ptr b j a hj
  obtain ⟨l, k1, k2⟩ := h.layers i a h1
  refine ⟨lt_of_some k1, fun l' hl' => ⟨List.mem_of_getElem? h1, ?_⟩⟩
  rw [k1] at hl'
  obtain rfl : l = l' := by injection hl' with hl'; injection hl'
  rw [k2.2.1]
  exact parShape_uses h2

theorem Runs.ptrs {t : Trainer} {w : World} {n d : Nat} {form : Nat → Form} {kinds : Nat → LayerKind} (h : t.Runs w n d form kinds) :
    t.Ptrs w (w.nets n).layers := ⟨h.ptrOk false, h.ptrOk true, h.gradW, h.gradB⟩

theorem Runs.allValid {t : Trainer} {w : World} {n d : Nat} {form : Nat → Form} {kinds : Nat → LayerKind} (h : t.Runs w n d form kinds) :
    AllValid w (w.nets n).layers := h.layers.allValid fun _ _ hp => hp.1.valid

theorem Runs.width {t : Trainer} {w : World} {n d : Nat} {form : Nat → Form} {kinds : Nat → LayerKind} (h : t.Runs w n d form kinds) : 0 < (form d).width := by
  have hp := h.pos
  obtain ⟨l, -, k⟩ := h.layers (d - 1) _ (List.getElem?_eq_getElem (by rw [h.depth]; omega))
  have := k.1.pos.2
  rwa [Nat.sub_add_cancel hp] at this

/-- One batch. -/
theorem trainBatch_fits {ab : ℝ → ℝ} {eps : ℝ} {e : Nat → Nat → Env} (he : ∀ k i, (e k i).Exact) {w : World} {t : Trainer} {n d : Nat} {form : Nat → Form}
    {kinds : Nat → LayerKind} (h : t.Runs w n d form kinds) (htr : Training w n) {D : Nat} {Γ : Row → Row → Row}
    (hl : LossOk ab eps t.loss (form d).width D Γ) (hw : t.lossWeight.size = 0) {N : Nat} (hN : 0 < N) {X : Nat → Row} (Y : Nat → Row)
    (hX : (form 0).Holds N (Mat.ofFn N (form 0).width X)) (hT : TruthFits t.loss (form d).width D N Y) :
    ∃ w' t', trainBatch ab eps e w t (Mat.ofFn N (form 0).width X) (Mat.ofFn N D Y) = .ok (w', t') ∧
      t'.Runs w' n d form kinds ∧ Training w' n ∧ BatchKeep t t' ∧ Evolve (w.nets n).layers w w' := by
  have hlt0 : 0 < t.inOut.length := by rw [h.inOut]; omega
  have hltd : d < t.gradient.length := by rw [h.gradient]; omega
  have hwf0 : (t.inOut[0]).WF := h.ok.inOut _ (List.getElem_mem hlt0)
  have hwfd : (t.gradient[d]).WF := h.ok.gradient _ (List.getElem_mem hltd)
  obtain ⟨w₁, io, f1, f2, f3, f4, ⟨M, f5, f6⟩, f7⟩ := fwdLoop_fits (e := e 0) (he 0) h.nodup h.depth
    ((h.layers.and htr).mono fun i a l _ _ hp => ⟨hp.1.1, hp.1.2.1, hp.1.2.2, hp.2⟩)
    (io := t.inOut.set 0 (Mat.ofFn N (form 0).width X))
    (wr_wf (σ := Mat ℝ) h.ok.inOut (Mat.ofFn_WF _ _ _) (wr_of_lt hlt0)) (by rw [List.length_set, h.inOut]) hN (List.getElem?_set_self hlt0) hX
  obtain ⟨P, rfl⟩ := f6.exists_ofFn
  have lg := (hl t (e 4 1).g N P Y rfl hw hT _ hwfd).2
  obtain ⟨w₂, gs, b1, b2, b3, b4, b5⟩ := bwdLoop_fits (e := e 1) (by rw [f2]; exact h.nodup) (by rw [f2]; exact h.depth) f7
    (gs := t.gradient.set d _) (wr_wf (σ := Mat ℝ) h.ok.gradient (Mat.ofFn_WF _ _ _) (wr_of_lt hltd)) (by rw [List.length_set, h.gradient])
    (List.getElem?_set_self hltd) (Mat.shape_ofFn N (form d).width (fun s => Γ (P s) (Y s)))
  rw [f2] at b2
  obtain ⟨w₃, os, c1, c2, c3, c4, c5⟩ := optLoop_fits (e := e 2) (ab := ab) (r := t.reg) (b := false) (by rw [b2]; exact h.nodup) b5
    (ps := t.pWeights) (off := 0) (os := t.opts) ((h.ptr false).nets (by rw [b2]))
  rw [b2] at c2
  have p3 : PtrsFit w n form kinds true t.pBiases t.pWeights.length os := by
    intro j a hj
    obtain ⟨i, rc, h1, h2, o, h3, h4⟩ := h.ptr true j a hj
    exact ⟨i, rc, h1, h2, o, by rw [c5 _ (.inr (by omega))]; exact h3, h4⟩
  obtain ⟨w₄, os', d1, d2, d3, d4, d5⟩ := optLoop_fits (e := e 3) (ab := ab) (r := t.reg) (b := true) (by rw [c2]; exact h.nodup) c3
    (ps := t.pBiases) (off := t.pWeights.length) (os := os) (p3.nets (by rw [c2]))
  rw [c2] at d2
  obtain ⟨x, a1, -⟩ := addOnline_mlp (g := (e 4 2).g) (c := (w₄.nets n).classif) (t := { t with inOut := io, gradient := gs, opts := os' }) hl hw h.width P Y hT
  have hrun : trainBatch ab eps e w t (Mat.ofFn N (form 0).width X) (Mat.ofFn N D Y) = .ok (w₄,
      { t with inOut := io, gradient := gs, opts := os', onlineLoss := t.onlineLoss + x, onlineGood := t.onlineGood + if (w₄.nets n).classif
        then nbRight N (form d).width D P Y else 0 }) := by
    unfold trainBatch
    rw [h.net]
    dsimp only
    rw [rd_of_lt hlt0, bind_ok', Mat.assign_ofFn _ hwf0, bind_ok', wr_of_lt hlt0, bind_ok', h.nb, f1, bind_ok']
    dsimp only
    rw [rd_some f5, bind_ok', rd_of_lt hltd, bind_ok', lg, bind_ok', wr_of_lt hltd, bind_ok', b1, bind_ok']
    dsimp only
    rw [h.gradW, h.gradB, c1, bind_ok']
    dsimp only
    rw [d1, bind_ok']
    dsimp only
    rw [bind_ok']
    simp only [h.gradW, h.gradB, h.nb, h.net] at a1 ⊢
    rw [a1, bind_ok']
    rfl
  obtain ⟨g1, g2, g3⟩ := trainBatch_inv h.net h.allValid h.ok h.ptrs hrun
  refine ⟨w₄, _, hrun, ⟨h.pos, by rw [d2]; exact h.nodup, by rw [d2]; exact h.depth, d3.mono fun i a l _ _ hp => ⟨hp.1.1, hp.1.2.1, hp.1.2.2.1⟩, h.net, h.nb,
    f4, b4, g2, h.gradW, h.gradB, fun b => ?_⟩, d3.mono fun i a l _ _ hp => hp.1.2.2.2, g3, g1⟩
  have hn4 : (w₄.nets n).layers = (w.nets n).layers := by rw [d2]
  cases b
  · intro j a hj
    have hjl : j < t.pWeights.length := lt_of_some hj
    obtain ⟨i, rc, h1, h2, o, h3, h4⟩ := c4 j a hj
    exact ⟨i, rc, by rw [hn4]; rw [b2] at h1; exact h1, h2, o, (d5 (j + 0) (.inl hjl)).trans h3, h4⟩
  · exact d4.nets (by rw [hn4, c2])

theorem Runs.world {t : Trainer} {w w' : World} {n d : Nat} {form : Nat → Form} {kinds : Nat → LayerKind} (h : t.Runs w n d form kinds)
    (h' : OnNet w' n (Layer.Placed form kinds)) (hl : (w'.nets n).layers = (w.nets n).layers) : t.Runs w' n d form kinds :=
  ⟨h.pos, by rw [hl]; exact h.nodup, by rw [hl]; exact h.depth, h', h.net, h.nb, h.inOut, h.gradient, h.ok, h.gradW, h.gradB, fun b => (h.ptr b).nets hl⟩

/-- A change of the trainer that leaves alone what training needs. -/
theorem Runs.congr {t t' : Trainer} {w : World} {n d : Nat} {form : Nat → Form} {kinds : Nat → LayerKind} (h : t.Runs w n d form kinds)
    (e : { t' with net := t.net, nbLayers := t.nbLayers, inOut := t.inOut, gradient := t.gradient, pWeights := t.pWeights,
                   pGradWeights := t.pGradWeights, pBiases := t.pBiases, pGradBiases := t.pGradBiases, opts := t.opts } = t') :
    t'.Runs w n d form kinds := by
  rw [← e]
  exact ⟨h.pos, h.nodup, h.depth, h.layers, h.net, h.nb, h.inOut, h.gradient, ⟨h.ok.inOut, h.ok.gradient, h.ok.opts⟩, h.gradW, h.gradB, h.ptr⟩

theorem Runs.init {t : Trainer} {w : World} {n d : Nat} {form : Nat → Form} {kinds : Nat → LayerKind} (h : t.Runs w n d form kinds) (g : Nat → ℝ) :
    { t with opts := t.opts.map (Opt.init g) }.Runs w n d form kinds := by
  refine ⟨h.pos, h.nodup, h.depth, h.layers, h.net, h.nb, h.inOut, h.gradient, ⟨h.ok.inOut, h.ok.gradient, ?_⟩, h.gradW, h.gradB, ?_⟩
  · intro o ho
    obtain ⟨o', h1, rfl⟩ := List.mem_map.1 ho
    exact Opt.init_WF g (h.ok.opts o' h1)
  · intro b j a hj
    obtain ⟨i, rc, h1, h2, o, h3, h4⟩ := h.ptr b j a hj
    refine ⟨i, rc, h1, h2, o.init g, ?_, Opt.init_WF g h4.1, .inl (Opt.init_fresh g h4.1)⟩
    show (t.opts.map (Opt.init g))[j + t.off b]? = _
    rw [List.getElem?_map, h3]; rfl

/-- One epoch. -/
theorem trainEpoch_fits {ab : ℝ → ℝ} {eps : ℝ} {e : Nat → Nat → Nat → Env} (he : ∀ j k i, (e j k i).Exact) {w : World} {t : Trainer} {n d : Nat} {form : Nat → Form}
    {kinds : Nat → LayerKind} (h : t.Runs w n d form kinds) (htr : Training w n) {D : Nat} {Γ : Row → Row → Row}
    (hl : LossOk ab eps t.loss (form d).width D Γ) (hw : t.lossWeight.size = 0) {N B : Nat} (hB : 0 < B) (hb : t.batchAdj = B) {X : Nat → Row} (Y : Nat → Row)
    (hX : (form 0).Holds N (Mat.ofFn N (form 0).width X)) (hT : TruthFits t.loss (form d).width D N Y) :
    ∃ w' t', trainEpoch ab eps e (Mat.ofFn N (form 0).width X) (Mat.ofFn N D Y) w t = .ok (w', t') ∧
      t'.Runs w' n d form kinds ∧ Training w' n ∧ BatchKeep t t' ∧ Evolve (w.nets n).layers w w' := by
  unfold trainEpoch
  rw [hb, Mat.ofFn_rows, batchLoop_eq N _ _ B hB]
  refine (forN_inv (n := nbBatches N B) (s := (w, t)) (fun _ (s : World × Trainer) => s.2.Runs s.1 n d form kinds ∧ Training s.1 n ∧ BatchKeep t s.2 ∧
      Evolve (w.nets n).layers w s.1) ⟨h, htr, BatchKeep.refl t, Evolve.refl _ _⟩
      (f := fun k (s : World × Trainer) => trainBatch ab eps (e k) s.1 s.2
        (rowsOf (form 0).width (batchStart B k) (batchEnd N B k) X) (rowsOf D (batchStart B k) (batchEnd N B k) Y)) ?_).elim ?_
  rotate_left
  · rintro ⟨w', t'⟩ ⟨h1, h2⟩
    exact ⟨w', t', h1, h2⟩
  · rintro k hk ⟨w₂, t₂⟩ ⟨i1, i2, i3, i4⟩
    dsimp only at *
    have hlt := (nbBatches_lt hB).1 hk
    have h1 : batchStart B k < batchEnd N B k := by unfold batchEnd batchStart; rw [Nat.add_mul]; omega
    have h2 : batchEnd N B k ≤ N := by unfold batchEnd; omega
    obtain ⟨w₃, t₃, b1, b2, b3, b4, b5⟩ := trainBatch_fits (ab := ab) (eps := eps) (e := e k) (he k) i1 i2 (D := D) (Γ := Γ)
      (by rw [← i3.same]; exact hl) (by rw [← i3.same]; exact hw) (N := batchEnd N B k - batchStart B k) (by omega)
      (X := fun s => X (batchStart B k + s)) (fun s => Y (batchStart B k + s)) (hX.sub fun i hi => by omega)
      (by rw [← i3.same]; exact hT.sub fun i hi => ⟨batchStart B k + i, by omega, rfl⟩)
    refine ⟨(w₃, t₃), b1, b2, b3, i3.trans b4, i4.trans ?_⟩
    rw [← i4.nets]; exact b5

end Trainer

end BeeDNN
