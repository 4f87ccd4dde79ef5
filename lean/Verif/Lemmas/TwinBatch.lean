import Verif.Lemmas.TwinLoop
import Verif.Lemmas.FitsRun

/-! # Two runs: batches and epochs -/

namespace BeeDNN
open Finset HasWF

namespace Trainer

theorem addOnline_twin {eps : ℝ} {c : Bool} {t : Trainer} {N K D : Nat} (hl : t.loss ∈ listLoss) (hw : t.lossWeight.size = 0) (hK : 0 < K) (P Y : Nat → Row)
    (hT : TruthFits t.loss K D N Y) : ∃ t', ∀ g, addOnline g (fun x => |x|) eps c t (Mat.ofFn N K P) (Mat.ofFn N D Y) = .ok t' := by
  cases c
  · refine ⟨?t, fun g => ?eq⟩
    case eq =>
      obtain ⟨M, h1, -, h2⟩ := lossCompute_fits (eps := eps) hl hw hK (P := P) hT g Mat.WF_empty
      unfold addOnline
      rw [h1, bind_ok', h2, bind_ok', if_neg Bool.false_ne_true]
      rfl
  · refine ⟨?t2, fun g => ?eq2⟩
    case eq2 =>
      obtain ⟨M, h1, -, h2⟩ := lossCompute_fits (eps := eps) hl hw hK (P := P) hT g Mat.WF_empty
      unfold addOnline
      rw [h1, bind_ok', h2, bind_ok', if_pos rfl, goodOnline_ofFn N K D P Y hK hT.cols, bind_ok']
      rfl

/-- One batch in two runs. -/
theorem trainBatch_twin {eps : ℝ} {e f : Nat → Nat → Env} (he : ∀ k i, (e k i).Exact) (hef : ∀ k i, (e k i).Twin (f k i)) {w v : World} (hcore : v.core = w.core)
    {t : Trainer} {n d : Nat} {form : Nat → Form}
    {kinds : Nat → LayerKind} (h : t.Runs w n d form kinds) (htr : Training w n) (h' : t.Runs v n d form kinds) (htr' : Training v n) {D : Nat} {Γ : Row → Row → Row}
    (hls : t.loss ∈ listLoss) (hl : LossOk (fun x => |x|) eps t.loss (form d).width D Γ) (hw : t.lossWeight.size = 0) {N : Nat} (hN : 0 < N) {X : Nat → Row} (Y : Nat → Row)
    (hX : (form 0).Holds N (Mat.ofFn N (form 0).width X)) (hT : TruthFits t.loss (form d).width D N Y) :
    ∃ w' v' t', trainBatch (fun x => |x|) eps e w t (Mat.ofFn N (form 0).width X) (Mat.ofFn N D Y) = .ok (w', t') ∧
      trainBatch (fun x => |x|) eps f v t (Mat.ofFn N (form 0).width X) (Mat.ofFn N D Y) = .ok (v', t') ∧ v'.core = w'.core := by
  have hlt0 : 0 < t.inOut.length := by rw [h.inOut]; omega
  have hltd : d < t.gradient.length := by rw [h.gradient]; omega
  have hwf0 : (t.inOut[0]).WF := h.ok.inOut _ (List.getElem_mem hlt0)
  have hwfd : (t.gradient[d]).WF := h.ok.gradient _ (List.getElem_mem hltd)
  obtain ⟨w₁, v₁, io, f1, f1', f0, f2, f3, f4, ⟨M, f5, f6⟩, f7⟩ := fwdLoop_twin (e := e 0) (f := f 0) (he 0) (hef 0) hcore h.nodup h.depth
    ((h.layers.and htr).mono fun i a l _ _ hp => ⟨hp.1.1, hp.1.2.1, hp.1.2.2, hp.2⟩)
    ((h'.layers.and htr').mono fun i a l _ _ hp => ⟨hp.1.1, hp.1.2.1, hp.1.2.2, hp.2⟩)
    (io := t.inOut.set 0 (Mat.ofFn N (form 0).width X))
    (wr_wf (σ := Mat ℝ) h.ok.inOut (Mat.ofFn_WF _ _ _) (wr_of_lt hlt0)) (by rw [List.length_set, h.inOut]) hN (List.getElem?_set_self hlt0) hX
  obtain ⟨P, rfl⟩ := f6.exists_ofFn
  have lg := (hl t (e 4 1).g N P Y rfl hw hT _ hwfd).2
  have lg' := (hl t (f 4 1).g N P Y rfl hw hT _ hwfd).2
  obtain ⟨w₂, v₂, gs, b1, b1', b0, b2, b3, b4, b5⟩ := bwdLoop_twin (e := e 1) (f := f 1) f0 (by rw [f2]; exact h.nodup) (by rw [f2]; exact h.depth) f7
    (gs := t.gradient.set d _) (wr_wf (σ := Mat ℝ) h.ok.gradient (Mat.ofFn_WF _ _ _) (wr_of_lt hltd)) (by rw [List.length_set, h.gradient])
    (List.getElem?_set_self hltd) (Mat.shape_ofFn N (form d).width (fun s => Γ (P s) (Y s)))
  rw [f2] at b2
  obtain ⟨w₃, v₃, os, c1, c1', c0, c2, c3, c4, c5⟩ := optLoop_twin (e := e 2) (f := f 2) (ab := fun x => |x|) (r := t.reg) (b := false) b0 (by rw [b2]; exact h.nodup) b5
    (ps := t.pWeights) (off := 0) (os := t.opts) ((h.ptr false).nets (by rw [b2]))
  rw [b2] at c2
  have p3 : PtrsFit w n form kinds true t.pBiases t.pWeights.length os := by
    intro j a hj
    obtain ⟨i, rc, h1, h2, o, h3, h4⟩ := h.ptr true j a hj
    exact ⟨i, rc, h1, h2, o, by rw [c5 _ (.inr (by omega))]; exact h3, h4⟩
  obtain ⟨w₄, v₄, os', d1, d1', d0, d2, d3, d4, d5⟩ := optLoop_twin (e := e 3) (f := f 3) (ab := fun x => |x|) (r := t.reg) (b := true) c0 (by rw [c2]; exact h.nodup) c3
    (ps := t.pBiases) (off := t.pWeights.length) (os := os) (p3.nets (by rw [c2]))
  obtain ⟨t', a1⟩ := addOnline_twin (eps := eps) (c := (w₄.nets n).classif) (t := { t with inOut := io, gradient := gs, opts := os' }) hls hw h.width P Y hT
  refine ⟨w₄, v₄, t', ?_, ?_, d0⟩
  · unfold trainBatch
    rw [h.net]
    dsimp only
    rw [rd_of_lt hlt0, bind_ok', Mat.assign_ofFn _ hwf0, bind_ok', wr_of_lt hlt0, bind_ok', h.nb, f1, bind_ok']
    dsimp only
    rw [rd_some f5, bind_ok', rd_of_lt hltd, bind_ok', lg, bind_ok', wr_of_lt hltd, bind_ok', b1, bind_ok']
    dsimp only
    rw [h.gradW, h.gradB, c1, bind_ok']
    dsimp only
    rw [d1, bind_ok']
    dsimp only
    rw [bind_ok']
    have := a1 (e 4 2).g
    simp only [h.gradW, h.gradB, h.nb, h.net] at this ⊢
    rw [this, bind_ok']
    rfl
  · unfold trainBatch
    rw [h.net]
    dsimp only
    rw [rd_of_lt hlt0, bind_ok', Mat.assign_ofFn _ hwf0, bind_ok', wr_of_lt hlt0, bind_ok', h.nb, f1', bind_ok']
    dsimp only
    rw [rd_some f5, bind_ok', rd_of_lt hltd, bind_ok', lg', bind_ok', wr_of_lt hltd, bind_ok', b1', bind_ok']
    dsimp only
    rw [h.gradW, h.gradB, c1', bind_ok']
    dsimp only
    rw [d1', bind_ok']
    dsimp only
    rw [bind_ok']
    have := a1 (f 4 2).g
    simp only [h.gradW, h.gradB, h.nb, h.net, World.core_nets d0] at this ⊢
    rw [this, bind_ok']
    rfl

/-- One epoch in two runs. -/
theorem trainEpoch_twin {eps : ℝ} {e f : Nat → Nat → Nat → Env} (he : ∀ j k i, (e j k i).Exact) (hef : ∀ j k i, (e j k i).Twin (f j k i)) {w v : World} (hcore : v.core = w.core)
    {t : Trainer} {n d : Nat} {form : Nat → Form}
    {kinds : Nat → LayerKind} (h : t.Runs w n d form kinds) (htr : Training w n) (h' : t.Runs v n d form kinds) (htr' : Training v n) {D : Nat} {Γ : Row → Row → Row}
    (hls : t.loss ∈ listLoss) (hl : LossOk (fun x => |x|) eps t.loss (form d).width D Γ) (hw : t.lossWeight.size = 0) {N B : Nat} (hB : 0 < B) (hb : t.batchAdj = B)
    {X : Nat → Row} (Y : Nat → Row)
    (hX : (form 0).Holds N (Mat.ofFn N (form 0).width X)) (hT : TruthFits t.loss (form d).width D N Y) :
    ∃ w' v' t', trainEpoch (fun x => |x|) eps e (Mat.ofFn N (form 0).width X) (Mat.ofFn N D Y) w t = .ok (w', t') ∧
      trainEpoch (fun x => |x|) eps f (Mat.ofFn N (form 0).width X) (Mat.ofFn N D Y) v t = .ok (v', t') ∧ v'.core = w'.core := by
  unfold trainEpoch
  rw [hb, Mat.ofFn_rows, batchLoop_eq N _ _ B hB, batchLoop_eq N _ _ B hB]
  refine (forN_twin (n := nbBatches N B) (s := (w, t)) (t := (v, t)) (fun _ (s s' : World × Trainer) => s'.2 = s.2 ∧ s'.1.core = s.1.core ∧ s.2.Runs s.1 n d form kinds ∧
      Training s.1 n ∧ s.2.Runs s'.1 n d form kinds ∧ Training s'.1 n ∧ BatchKeep t s.2) ⟨rfl, hcore, h, htr, h', htr', BatchKeep.refl t⟩
      (f := fun k (s : World × Trainer) => trainBatch (fun x => |x|) eps (e k) s.1 s.2
        (rowsOf (form 0).width (batchStart B k) (batchEnd N B k) X) (rowsOf D (batchStart B k) (batchEnd N B k) Y))
      (g := fun k (s : World × Trainer) => trainBatch (fun x => |x|) eps (f k) s.1 s.2
        (rowsOf (form 0).width (batchStart B k) (batchEnd N B k) X) (rowsOf D (batchStart B k) (batchEnd N B k) Y)) ?_).elim ?_
  rotate_left
  · rintro ⟨w', t'⟩ ⟨⟨v', t''⟩, h1, h1', rfl, h2, -⟩
    exact ⟨w', v', _, h1, h1', h2⟩
  · rintro k hk ⟨w₂, t₂'⟩ ⟨v₂, t₂⟩ ⟨rfl, i0, i1, i2, i1', i2', i3⟩
    dsimp only at *
    have hlt := (nbBatches_lt hB).1 hk
    have h1 : batchStart B k < batchEnd N B k := by unfold batchEnd batchStart; rw [Nat.add_mul]; omega
    have h2 : batchEnd N B k ≤ N := by unfold batchEnd; omega
    have eX : (form 0).Holds (batchEnd N B k - batchStart B k) (Mat.ofFn (batchEnd N B k - batchStart B k) (form 0).width fun s => X (batchStart B k + s)) :=
      hX.sub fun i hi => by omega
    have eT : TruthFits t₂.loss (form d).width D (batchEnd N B k - batchStart B k) fun s => Y (batchStart B k + s) := by
      rw [← i3.same]; exact hT.sub fun i hi => ⟨batchStart B k + i, by omega, rfl⟩
    have el : LossOk (fun x => |x|) eps t₂.loss (form d).width D Γ := by rw [← i3.same]; exact hl
    have els : t₂.loss ∈ listLoss := by rw [← i3.same]; exact hls
    have ew : t₂.lossWeight.size = 0 := by rw [← i3.same]; exact hw
    have eN : 0 < batchEnd N B k - batchStart B k := by omega
    obtain ⟨w₃, v₃, t₃, b1, b1', b0⟩ := trainBatch_twin (eps := eps) (e := e k) (f := f k) (he k) (hef k) i0 i1 i2 i1' i2' els el ew eN _ eX eT
    obtain ⟨w₄, t₄, c1, c2, c3, c4, c5⟩ := trainBatch_fits (ab := fun x => |x|) (eps := eps) (e := e k) (he k) i1 i2 el ew eN _ eX eT
    obtain ⟨v₄, t₅, d1, d2, d3, d4, d5⟩ := trainBatch_fits (ab := fun x => |x|) (eps := eps) (e := f k) (fun a b => (hef k a b).exact (he k a b)) i1' i2' el ew eN _ eX eT
    obtain ⟨rfl, rfl⟩ : w₃ = w₄ ∧ t₃ = t₄ := by rw [b1] at c1; injection c1 with c1; injection c1 with x y; exact ⟨x, y⟩
    obtain ⟨rfl, rfl⟩ : v₃ = v₄ ∧ t₃ = t₅ := by rw [b1'] at d1; injection d1 with d1; injection d1 with x y; exact ⟨x, y⟩
    exact ⟨(w₃, t₃), (v₃, t₃), b1, b1', rfl, b0, c2, c3, d2, d3, i3.trans c4⟩

end Trainer

theorem predictLoop_twin {e f : Nat → Env} (he : ∀ i, (e i).Exact) (hef : ∀ i, (e i).Twin (f i)) {form : Nat → Form} {P : Nat → Layer → Prop} (hP : Lasting form P) {n d N : Nat}
    (hN : 0 < N) : ∀ (as : List Nat) (k : Nat) (w v : World), v.core = w.core → (w.nets n).layers.Nodup → (w.nets n).layers.length = d → OnNet w n P → OnNet v n P →
      (w.nets n).layers.drop k = as → k ≤ d → ∀ M o : Mat ℝ, M.Shape N (form k).width → o.WF →
      ∃ w' v' x M', World.predictLoop e k as w M o = .ok (w', x, M') ∧ World.predictLoop f k as v M o = .ok (v', x, M') ∧ v'.core = w'.core
  | [], k, w, v, h0, hd, hc, h, h', hk, hle, M, o, hM, ho => ⟨w, v, _, _, rfl, rfl, h0⟩
  | a :: as, k, w, v, h0, hd, hc, h, h', hk, hle, M, o, hM, ho => by
    have hka : (w.nets n).layers[k]? = some a := by
      have := congrArg (fun l => l[0]?) hk
      simpa using this
    have hlt : k < d := by rw [← hc]; exact lt_of_some hka
    have hka' : (v.nets n).layers[k]? = some a := by rw [World.core_nets h0]; exact hka
    obtain ⟨l, hla, hl⟩ := h k a hka
    obtain ⟨m, hma, hcc⟩ := World.core_at h0 hla
    have hm := h'.at hka' hma
    have hk' : (w.nets n).layers.drop (k + 1) = as := by
      have := congrArg (List.drop 1) hk
      simpa [List.drop_drop] using this
    obtain ⟨l', m', M', f1, f1', f2, f2', f3, -⟩ := (hP.fits k l hl).forward2 (hP.fits k m hm) hcc (he k) (hef k) hN hM ho
    obtain ⟨w', v', x, M'', g1, g1', g2⟩ := predictLoop_twin he hef hP hN as (k + 1) (w.store a l') (v.store a m') (World.store_core h0 f3 a) hd hc
      (h.store hd hka hla (hP.keep k l l' hl f2.fits f2.kind f2.mark) fun _ _ _ _ hp => hp)
      (h'.store (by rw [World.core_nets h0]; exact hd) hka' hma (hP.keep k m m' hm f2'.fits f2'.kind f2'.mark) fun _ _ _ _ hp => hp)
      hk' hlt M' M' f2.shape f2.shape.1
    refine ⟨w', v', x, M'', ?_, ?_, g2⟩
    · rw [World.predictLoop, World.deref_eq hla, bind_ok', f1, bind_ok']
      dsimp only
      rw [Mat.assign_eq _ hM.1 f2.shape.1, bind_ok']
      exact g1
    · rw [World.predictLoop, World.deref_eq hma, bind_ok', f1', bind_ok']
      dsimp only
      rw [Mat.assign_eq _ hM.1 f2.shape.1, bind_ok']
      exact g1'

/-- Predictions are the same in two runs. -/
theorem predict_twin {e f : Nat → Env} (he : ∀ i, (e i).Exact) (hef : ∀ i, (e i).Twin (f i)) {form : Nat → Form} {P : Nat → Layer → Prop} (hP : Lasting form P) {w v : World}
    (hcore : v.core = w.core) {n d N : Nat} (hN : 0 < N)
    (hd : (w.nets n).layers.Nodup) (hc : (w.nets n).layers.length = d) (h : OnNet w n P) (h' : OnNet v n P) {M o : Mat ℝ} (hM : M.Shape N (form 0).width) (ho : o.WF) :
    ∃ w' v' M', w.predict e n M o = .ok (w', M') ∧ v.predict f n M o = .ok (v', M') ∧ v'.core = w'.core := by
  obtain ⟨w', v', x, M', h1, h1', h2⟩ := predictLoop_twin he hef hP hN _ 0 w v hcore hd hc h h' rfl (Nat.zero_le _) M o hM ho
  rw [List.drop_zero] at h1 h1'
  rw [← World.core_nets hcore] at h1'
  exact ⟨w', v', M', by unfold World.predict; rw [h1]; rfl, by unfold World.predict; rw [h1']; rfl, h2⟩

namespace World

theorem setTrainAll_twin (b : Bool) : ∀ (as : List Nat) (w v : World), v.core = w.core →
    (∃ w' v', setTrainAll b as w = .ok w' ∧ setTrainAll b as v = .ok v' ∧ v'.core = w'.core) ∨ ∃ x, setTrainAll b as w = .error x
  | [], w, v, h => .inl ⟨w, v, rfl, rfl, h⟩
  | a :: as, w, v, h => by
    unfold setTrainAll
    cases hw : w.deref a with
    | error x => exact .inr ⟨x, rfl⟩
    | ok l =>
      have hl : w.heap[a]? = some (some l) := by
        unfold deref at hw
        split at hw
        · rename_i h1; injection hw with hw; rw [← hw]; exact h1
        · cases hw
        · cases hw
      obtain ⟨m, h1, h2⟩ := core_at h hl
      rw [deref_eq h1, bind_ok', bind_ok']
      refine setTrainAll_twin b as _ _ (store_core h ?_ a)
      obtain ⟨_, _, _, _, _, rfl⟩ := Layer.core_eq h2
      rfl

theorem setTrain_twin {w v : World} (h : v.core = w.core) {n : Nat} {b : Bool} {w' : World} (hw : w.setTrain n b = .ok w') :
    ∃ v', v.setTrain n b = .ok v' ∧ v'.core = w'.core := by
  unfold setTrain at *
  have hn := core_nets h
  rw [hn]
  have h0 : (v.setNet n { v.nets n with train := b }).core = (w.setNet n { w.nets n with train := b }).core := by
    have := congrArg World.heap h
    simp only [core] at this
    unfold setNet core
    simp only [hn, this]
  rw [hn] at h0
  obtain ⟨w₁, v₁, h1, h2, h3⟩ | ⟨x, hx⟩ := setTrainAll_twin b (w.nets n).layers _ _ h0
  · rw [hw] at h1
    injection h1 with h1
    subst h1
    exact ⟨v₁, h2, h3⟩
  · rw [hw] at hx; cases hx

end World

end BeeDNN
