import Verif.Lemmas.MlpBatch

/-! # Training a perceptron: `set_net` -/

namespace BeeDNN
open Finset HasWF

/-- Parameter matrices are not empty. -/
theorem PlyKind.shape_ne {k : PlyKind} {C C' : Nat} (hf : k.Fits C C') (hC : 0 < C) (hC' : 0 < C') (b : Bool) (hb : k.has b = true) :
    (k.shape b C C').1 * (k.shape b C C').2 ≠ 0 := by
  have hmul : ∀ {a b : Nat}, 0 < a * b → a ≠ 0 ∧ b ≠ 0 := fun h => Nat.mul_ne_zero_iff.mp h.ne'
  refine Nat.mul_ne_zero_iff.mpr ?_
  cases k with
  | conv R S K kR kC O rs cs =>
    obtain ⟨h1, h2, -, -, h3, h4⟩ := hf
    rw [h1] at hC
    rw [h2] at hC'
    exact ⟨(hmul hC').2, Nat.mul_ne_zero (Nat.mul_ne_zero h3.ne' h4.ne') (hmul hC).2⟩
  | channelBias R S K =>
    obtain ⟨h1, h2⟩ := hf
    rw [h1] at hC
    exact ⟨Nat.one_ne_zero, (hmul hC).2⟩
  | tdBias T F =>
    obtain ⟨h1, h2⟩ := hf
    rw [h1] at hC
    exact ⟨Nat.one_ne_zero, (hmul hC).2⟩
  | tdDot T F O =>
    obtain ⟨h1, h2⟩ := hf
    rw [h1] at hC
    rw [h2] at hC'
    cases b
    · exact ⟨(hmul hC).2, (hmul hC').2⟩
    · exact ⟨Nat.one_ne_zero, (hmul hC').2⟩
  | tdDense T F O =>
    obtain ⟨h1, h2⟩ := hf
    rw [h1] at hC
    rw [h2] at hC'
    cases b
    · exact ⟨(hmul hC).2, (hmul hC').2⟩
    · exact ⟨Nat.one_ne_zero, (hmul hC').2⟩
  | _ =>
    cases b
    · exact ⟨hC.ne', hC'.ne'⟩
    · exact ⟨Nat.one_ne_zero, hC'.ne'⟩

theorem Ply.is_uses_not {p : Ply} {C C' : Nat} {l : Layer} (h : p.Is C C' l) {b : Bool} (hb : p.has b = false) :
    Trainer.uses b l.kind = false := by
  obtain ⟨k, W, B⟩ := p
  have hk := h.kind
  cases k <;> cases b <;> simp only [Ply.has, PlyKind.has, Bool.not_false, Bool.true_eq_false] at hb <;>
    simp only [PlyKind.Of] at hk <;> (try obtain ⟨i, o, hk⟩ := hk) <;> (try obtain ⟨p, _, hk⟩ := hk) <;> rw [hk] <;> rfl

theorem Ply.has_iff {p : Ply} {C C' : Nat} {l : Layer} (h : p.Is C C' l) (hf : p.kind.Fits C C') (hC : 0 < C) (hC' : 0 < C') (hv : l.Valid) (b : Bool) :
    (if b then l.hasBiases else l.hasWeights) = p.has b := by
  cases hb : p.has b
  · have hu := Ply.is_uses_not h hb
    cases b
    · simp [Layer.hasWeights, hv.noWeight hu, Mat.size]
    · simp [Layer.hasBiases, hv.noBias hu, Mat.size]
  · have hne := PlyKind.shape_ne hf hC hC' b hb
    cases b
    · simpa [Layer.hasWeights, h.weight hb, Mat.size] using hne
    · simpa [Layer.hasBiases, h.bias hb, Mat.size] using hne

theorem Ply.is_first {p : Ply} {C C' : Nat} {l : Layer} (h : p.Is C C' l) (f : Bool) : p.Is C C' (l.setFirst f) :=
  ⟨h.kind, h.weight, h.bias⟩

namespace Trainer

theorem markFirst_mlp {w : World} {n : Nat} {m : Mlp} (h : Represents w n m) :
    ∃ w', markFirst w (w.nets n).layers = .ok w' ∧ w'.nets = w.nets ∧ Represents w' n m := by
  obtain ⟨a, ha⟩ := h.get h.ok.depth
  obtain ⟨l, h1, h2, h3, h4⟩ := h.layer 0 a ha
  cases has : (w.nets n).layers with
  | nil => rw [has] at ha; cases ha
  | cons b as =>
    rw [has] at ha
    injection ha with ha
    subst ha
    unfold markFirst
    dsimp only
    rw [World.deref_eq h1, bind_ok']
    refine ⟨_, rfl, rfl, h.ok, h.nodup, h.count, fun i c hi => ?_⟩
    by_cases hcb : c = b
    · subst hcb
      have hi' : (w.nets n).layers[0]? = some c := by rw [has]; rfl
      obtain rfl := h.inj hi' hi
      exact ⟨_, World.store_same h1, World.setFirst_valid _ h2, Ply.is_first h3 _, fun h0 => absurd h0 (by omega)⟩
    · obtain ⟨l₁, k1, k2⟩ := h.layer i c hi
      exact ⟨l₁, (World.store_other _ hcb).trans k1, k2⟩

theorem makeOpts_ok (g : Nat → ℝ) (t : Trainer) {k : OptKind} (h : createOptimizer t.optName = some k) : ∀ j,
    makeOpts g t j = .ok (List.replicate j ((Opt.new k).setParams g t.lr t.decay t.mom))
  | 0 => rfl
  | j + 1 => by
    rw [makeOpts, makeOpts_ok g t h j, bind_ok', h, List.replicate_succ']
    rfl

/-- `set_net` gets a trainer going. -/
theorem setNet_mlp {g : Nat → ℝ} {w : World} {t : Trainer} {n : Nat} {m : Mlp} (h : Represents w n m) (hi : ∀ m ∈ t.inOut, m.WF)
    (hg : ∀ m ∈ t.gradient, m.WF) {k : OptKind} (hk : createOptimizer t.optName = some k) :
    ∃ w' t', setNet g w t n = .ok (w', t') ∧ t'.Going w' n m ∧ w'.nets = w.nets ∧
      t'.opts = List.replicate (t'.pWeights.length + t'.pBiases.length) ((Opt.new k).setParams g t.lr t.decay t.mom) ∧
      { t with net := t'.net, nbLayers := t'.nbLayers, gradient := t'.gradient, inOut := t'.inOut, opts := t'.opts,
               pWeights := t'.pWeights, pGradWeights := t'.pGradWeights, pBiases := t'.pBiases, pGradBiases := t'.pGradBiases } = t' := by
  obtain ⟨w', m1, m2, m3⟩ := markFirst_mlp h
  have hn : (w'.nets n).layers = (w.nets n).layers := by rw [m2]
  have hlive : ∀ a ∈ (w.nets n).layers, ∃ l, w'.heap[a]? = some (some l) := fun a ha => by
    obtain ⟨i, hi⟩ := List.getElem?_of_mem ha
    obtain ⟨l, h1, -⟩ := m3.layer i a (by rw [hn]; exact hi)
    exact ⟨l, h1⟩
  unfold setNet
  dsimp only
  rw [m1, bind_ok', collect_eq _ _ _ hlive, bind_ok']
  simp only [List.nil_append]
  rw [makeOpts_ok g _ (k := k) (by exact hk), bind_ok']
  have hp : ∀ b, PtrsTo b (w'.nets n).layers m ((w.nets n).layers.filter (has b w')) := fun b =>
    ⟨h.nodup.filter _, fun a ha => by rw [hn]; exact (List.mem_filter.mp ha).1, fun i a hia => by
      obtain ⟨l, h1, h2, h3, -⟩ := m3.layer i a hia
      have hi' := m3.lt hia
      rw [List.mem_filter]
      have : has b w' a = (m.ply i).has b := by
        simp only [has, h1]
        exact Ply.has_iff h3 (h.ok.fits i hi') (h.ok.pos i hi'.le) (h.ok.pos (i + 1) hi') h2 b
      rw [this]
      exact ⟨fun x => x.2, fun x => ⟨by rw [← hn]; exact List.mem_of_getElem? hia, x⟩⟩⟩
  have hfresh : ∀ R C, ((Opt.new k).setParams g t.lr t.decay t.mom).Ready R C := fun R C =>
    ⟨Opt.init_WF g (Opt.new_WF k), .inl (Opt.init_fresh g (Opt.new_WF k))⟩
  refine ⟨w', _, rfl, ⟨m3, rfl, h.count, ?_, ?_, ⟨resizeVec_WF _ hi, resizeVec_WF _ hg, ?_⟩, rfl, rfl, fun b => ?_, by simp, ?_⟩, m2, rfl, rfl⟩
  · rw [← h.count]; exact resizeVec_length ..
  · rw [← h.count]; exact resizeVec_length ..
  · intro o ho
    rw [(List.mem_replicate.1 ho).2]
    exact (hfresh 0 0).1
  · cases b <;> exact hp _
  · intro b j a i hj _
    refine ⟨_, ?_, hfresh _ _⟩
    dsimp only
    rw [List.getElem?_replicate_of_lt]
    have := lt_of_some hj
    cases b
    · simp only [ptrs, Bool.false_eq_true, if_false] at this
      simp only [off, Bool.false_eq_true, if_false]
      omega
    · simp only [ptrs, if_true] at this
      simp only [off, if_true]
      omega

end Trainer

end BeeDNN
