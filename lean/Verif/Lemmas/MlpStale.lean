import Verif.Lemmas.MlpRun

/-! # Training a perceptron after its layers have been replaced -/

namespace BeeDNN
open Finset HasWF

namespace Trainer

/-- Deleted layers stay deleted. -/
theorem Dead.evolve {t : Trainer} {w w' : World} {n : Nat} {m : Mlp} (hd : t.Dead w) (hr : Represents w n m) (he : Evolve (w.nets n).layers w w') : t.Dead w' := by
  intro a ha
  have h := hd a ha
  rw [he.touch.other a (fun hm => by
    obtain ⟨i, hi⟩ := List.getElem?_of_mem hm
    obtain ⟨l, k, -⟩ := hr.layer i a hi
    rw [h] at k
    injection k with k
    cases k)]
  exact h

theorem Dead.scratch {t : Trainer} {w w' : World} (hd : t.Dead w) (hs : w.Scratch w') : t.Dead w' := by
  intro a ha
  have h := hd a ha
  rcases hs.cell a with h1 | ⟨l, l', h1, -⟩
  · exact h1.trans h
  · rw [h] at h1
    injection h1 with h1
    cases h1

theorem optLoop_dead {e : Nat → Env} {ab : ℝ → ℝ} (r : Option Reg) {b : Bool} {ps : List Nat} {off : Nat} {w : World} {os : List (Opt ℝ)} (hne : ps ≠ [])
    (hd : ∀ a ∈ ps, w.heap[a]? = some none) (ho : off < os.length) : optLoop e ab r b ps ps off (w, os) = .error .useAfterFree := by
  have hl : 0 < ps.length := List.length_pos_of_ne_nil hne
  refine forN_error hl (forN_zero _ _) ?_
  dsimp only
  rw [rd_of_lt hl, bind_ok', bind_ok', Nat.zero_add, rd_of_lt ho, bind_ok']
  unfold optStep regStep
  cases r <;> dsimp only <;> simp only [bind_ok', World.deref, hd _ (List.getElem_mem hl)] <;> rfl

theorem trainBatch_stale {ab : ℝ → ℝ} {eps : ℝ} {e : Nat → Nat → Env} {w : World} {t : Trainer} {n : Nat} {m : Mlp} (hr : Represents w n m)
    (hn : t.net = some n) (hL : t.nbLayers = m.depth) (hi : t.inOut.length = m.depth + 1) (hg : t.gradient.length = m.depth + 1) (hok : t.Ok)
    (hgw : t.pGradWeights = t.pWeights) (hgb : t.pGradBiases = t.pBiases) (hc : t.opts.length = t.pWeights.length + t.pBiases.length)
    (hd : t.Dead w) (hne : t.pWeights ++ t.pBiases ≠ []) {D : Nat} {Γ : Row → Row → Row}
    (hl : LossOk ab eps t.loss (m.width m.depth) D Γ) (hw : t.lossWeight.size = 0)
    (N : Nat) (X Y : Nat → Row) (hT : TruthFits t.loss (m.width m.depth) D N Y) :
    trainBatch ab eps e w t (Mat.ofFn N (m.width 0) X) (Mat.ofFn N D Y) = .error .useAfterFree := by
  have hlt0 : 0 < t.inOut.length := by rw [hi]; omega
  have hltd : m.depth < t.gradient.length := by rw [hg]; omega
  have hwf0 : (t.inOut[0]).WF := hok.inOut _ (List.getElem_mem hlt0)
  have hwfd : (t.gradient[m.depth]).WF := hok.gradient _ (List.getElem_mem hltd)
  obtain ⟨w₁, io, f1, fs, fp, f2, f3, f4⟩ := fwdLoop_mlp (e := e 0) hr (io := t.inOut.set 0 (Mat.ofFn N (m.width 0) X))
    (wr_wf (σ := Mat ℝ) hok.inOut (Mat.ofFn_WF _ _ _) (wr_of_lt hlt0)) (by rw [List.length_set, hi]) N X (List.getElem?_set_self hlt0)
  have hr₁ := hr.scratch fs
  have lg := (hl t (e 4 1).g N (fun s => m.out (X s)) Y rfl hw hT _ hwfd).2
  have hgs : wf (t.gradient.set m.depth (Mat.ofFn N (m.width m.depth) (fun s => Γ (m.out (X s)) (Y s)))) :=
    wr_wf (σ := Mat ℝ) hok.gradient (Mat.ofFn_WF _ _ _) (wr_of_lt hltd)
  obtain ⟨w₂, gs, b1, b2, b3, b4, b5, b6⟩ := bwdLoop_mlp (e := e 1) hr₁ fp (io := io) (gs := t.gradient.set m.depth _) hgs
    (by rw [List.length_set, hg]) (fun s => Γ (m.out (X s)) (Y s)) f4 (List.getElem?_set_self hltd)
  have ev := (bwdLoop_inv hr₁.allValid f2 hgs b1).1
  have hd2 : t.Dead w₂ := (hd.scratch fs).evolve hr₁ ev
  unfold trainBatch
  rw [hn]
  dsimp only
  rw [rd_of_lt hlt0, bind_ok', Mat.assign_ofFn _ hwf0, bind_ok', wr_of_lt hlt0, bind_ok', hL, f1, bind_ok']
  dsimp only
  rw [rd_some (f4 m.depth (Nat.le_refl _)), bind_ok', rd_of_lt hltd, bind_ok']
  have lg' : t.lossGradient (e 4 1).g ab eps (Mat.ofFn N (m.width m.depth) fun s => m.hidden (X s) m.depth) (Mat.ofFn N D Y) t.gradient[m.depth] =
    .ok (Mat.ofFn N (m.width m.depth) (fun s => Γ (m.out (X s)) (Y s))) := lg
  rw [lg', bind_ok', wr_of_lt hltd, bind_ok', b1, bind_ok']
  dsimp only
  rw [hgw, hgb]
  by_cases hpw : t.pWeights = []
  · have hpb : t.pBiases ≠ [] := fun h => hne (by rw [hpw, h]; rfl)
    have c1 : optLoop (e 2) ab t.reg false t.pWeights t.pWeights 0 (w₂, t.opts) = .ok (w₂, t.opts) := by
      unfold optLoop
      rw [hpw]
      rfl
    rw [c1, bind_ok']
    dsimp only
    have hlen : t.pWeights.length < t.opts.length := by
      have := List.length_pos_of_ne_nil hpb
      omega
    rw [optLoop_dead t.reg hpb (fun a ha => hd2 a (List.mem_append_right _ ha)) hlen]
    rfl
  · have hlen : 0 < t.opts.length := by
      have := List.length_pos_of_ne_nil hpw
      omega
    rw [optLoop_dead t.reg hpw (fun a ha => hd2 a (List.mem_append_left _ ha)) hlen]
    rfl

/-- The first batch after the layers have been replaced. -/
theorem epochStep_stale {ab : ℝ → ℝ} {eps : ℝ} {e : FitEnv} {t₀ : Trainer} {n b : Nat} {m : Mlp} {B N : Nat} (hN : 0 < N) (hB : 0 < B)
    {D : Nat} {Γ : Row → Row → Row} (hlo : LossOk ab eps t₀.loss (m.width m.depth) D Γ) (x y : Nat → Row) (hT : TruthFits t₀.loss (m.width m.depth) D N y) {k : Nat} {s : FitSt}
    (h : Stale .none t₀ n b m B s) (hne : s.t.pWeights ++ s.t.pBiases ≠ []) :
    epochStep ab eps e n b (Mat.ofFn N (m.width 0) x) (Mat.ofFn N D y) k s = .error .useAfterFree := by
  obtain ⟨m', hlike, hrep⟩ := h.rep
  obtain ⟨σ, p1, p2⟩ := C50_data e.g (e.perm k) (decide (s.t.batchAdj < (N : Int))) N (m.width 0) D x y
  obtain ⟨w₁, a1, a2⟩ := hrep.setTrain true
  have s1 := World.setTrain_inv a1
  have hd : s.t.Dead w₁ := by
    intro a ha
    have hlt : a < w₁.heap.length := by
      have h0 := (List.getElem?_eq_some_iff.1 (h.dead a ha)).1
      have := s1.touch.length
      omega
    rw [List.getElem?_eq_getElem hlt]
    cases hc : w₁.heap[a] with
    | none => rfl
    | some l =>
      obtain ⟨l₀, d1, -⟩ := s1.keep a l (by rw [List.getElem?_eq_getElem hlt, hc])
      rw [h.dead a ha] at d1
      injection d1 with d1
      cases d1
  obtain ⟨t₁, ht₁⟩ : ∃ t₁ : Trainer, t₁ = { s.t with onlineLoss := 0, onlineGood := 0 } := ⟨_, rfl⟩
  have tb : ∀ e' N' X' Y', TruthFits t₀.loss (m.width m.depth) D N' Y' → trainBatch ab eps e' w₁ t₁ (Mat.ofFn N' (m.width 0) X') (Mat.ofFn N' D Y') = .error .useAfterFree := by
    intro e' N' X' Y' hT'
    rw [← hlike.width]
    have e1 : t₁.net = some n := by rw [ht₁]; exact h.net
    have e2 : t₁.nbLayers = m'.depth := by rw [ht₁, hlike.depth]; exact h.layers
    have e3 : t₁.inOut.length = m'.depth + 1 := by rw [ht₁, hlike.depth]; exact h.inOut
    have e4 : t₁.gradient.length = m'.depth + 1 := by rw [ht₁, hlike.depth]; exact h.gradient
    have e5 : t₁.Ok := by rw [ht₁]; exact ⟨h.ok.inOut, h.ok.gradient, h.ok.opts⟩
    have e7 : t₁.pGradWeights = t₁.pWeights := by rw [ht₁]; exact h.gradW
    have e8 : t₁.pGradBiases = t₁.pBiases := by rw [ht₁]; exact h.gradB
    have e9 : t₁.opts.length = t₁.pWeights.length + t₁.pBiases.length := by rw [ht₁]; exact h.count
    have e10 : t₁.Dead w₁ := by rw [ht₁]; exact hd
    have e11 : t₁.pWeights ++ t₁.pBiases ≠ [] := by rw [ht₁]; exact hne
    have e12 : t₁.loss = t₀.loss := by rw [ht₁]; exact h.loss
    have e13 : t₁.lossWeight.size = 0 := by rw [ht₁]; exact h.weight
    exact trainBatch_stale a2 e1 e2 e3 e4 e5 e7 e8 e9 e10 e11 (by rw [e12, hlike.depth, hlike.width]; exact hlo) e13 N' X' Y' (by rw [e12, hlike.depth, hlike.width]; exact hT')
  have tbatch : t₁.batchAdj = B := by rw [ht₁]; exact h.batch
  unfold epochStep epochTrain
  dsimp only
  rw [Mat.ofFn_rows, p2, bind_ok']
  dsimp only
  rw [a1, bind_ok', ← ht₁]
  unfold trainEpoch
  rw [tbatch, Mat.ofFn_rows, batchLoop_eq N _ _ B hB, forN_error (k := 0) ((nbBatches_lt hB).2 (by omega)) (forN_zero _ _) (tb _ _ _ _ (hT.sub fun i hi => ⟨σ (batchStart B 0 + i), perm_lt p1 (by unfold batchStart batchEnd at *; omega), rfl⟩))]
  rfl

/-- `fit` of a perceptron with any patience: it ends without fault or it uses a deleted layer; no other fault is possible. -/
theorem fit_mlp_or {eps : ℝ} {e : FitEnv} {w : World} {t : Trainer} {n b : Nat} {m : Mlp} (h : Represents w n m) (ho : Owned w) (hb : b ≠ n) (hbe : (w.nets b).layers = [])
    (hi : ∀ m ∈ t.inOut, m.WF) (hg : ∀ m ∈ t.gradient, m.WF) {k : OptKind} (hk : createOptimizer t.optName = some k)
    {N D : Nat} (hN : 0 < N) (x y : Nat → Row) (hd : t.train = some (Mat.ofFn N (m.width 0) x, Mat.ofFn N D y))
    (hT : TruthFits t.loss (m.width m.depth) D N y) (hv : ∀ d, t.valid = some d → DataOk t.loss m d) (hvb : 0 < t.valBatch) (hbs : 0 ≤ t.batchSize) (hbal : t.balancing = false) (hkb : t.keepBest = true)
    {Γ : Row → Row → Row} (hl : t.loss ∈ listLoss) (hlo : LossOk (fun x => |x|) eps t.loss (m.width m.depth) D Γ)
    (hpar : ∃ b i, i < m.depth ∧ (m.ply i).has b = true) :
    (∃ r, fit (fun x => |x|) eps e w t n b = .ok r) ∨ fit (fun x => |x|) eps e w t n b = .error .useAfterFree := by
  obtain ⟨lr, B, s, hlrv, hlr, hB, q2, u2, -, hfit⟩ := start_mlp (eps := eps) (e := e) h ho hb hbe hi hg hk hN x y hd hT hv hvb hbs (classWeights_off hbal)
    (EvalOkW.none hl (h.ok.pos _ (Nat.le_refl _)))
  rw [hfit]
  have fin : ∀ r : FitSt, Owned r.w → (∃ m', Represents r.w b m') → r.t.keepBest = true → ∃ r', finish e n b r = .ok r' := by
    rintro r h1 ⟨m', h2⟩ h3
    obtain ⟨w₃, d1, -, -, d4, -⟩ := h2.assign (e := e.copy (2 * r.t.epochs.toNat + 1)) h1 hb.symm
    obtain ⟨w₄, y1, -⟩ := World.clear_ok d4.owned b
    exact ⟨{ r with w := w₄ }, by rw [finish, restoreBest, if_pos h3, d1, bind_ok', y1, bind_ok']; rfl⟩
  have key : ∀ K, (∃ r, forN K (epochStep (fun x => |x|) eps e n b (Mat.ofFn N (m.width 0) x) (Mat.ofFn N D y)) s = .ok r ∧
      ((∃ ms r' v, RunInv .none eps t n b m B (w.nets n).classif (k = .sgd ∧ t.reg = none) lr N ms r' v K r) ∨ (Stale .none t n b m B r ∧ r.t.pWeights ++ r.t.pBiases ≠ []))) ∨
      forN K (epochStep (fun x => |x|) eps e n b (Mat.ofFn N (m.width 0) x) (Mat.ofFn N D y)) s = .error .useAfterFree := by
    intro K
    induction K with
    | zero => exact .inl ⟨s, forN_zero _ _, .inl ⟨_, _, _, u2⟩⟩
    | succ K ih =>
      rcases ih with ⟨r, r1, ⟨ms, rr, vv, r2⟩ | ⟨r2, r3⟩⟩ | r1
      · left
        obtain ⟨s₂, m', right, vl, z1, z2, z3, -⟩ := epochStep_mlp (e := e) hb hN q2 hlr (EvalOkW.none hl (h.ok.pos _ (Nat.le_refl _))) hlo hv hvb x y hT r2 (.inr hkb)
        refine ⟨s₂, by rw [forN_succ, r1]; exact z1, ?_⟩
        rcases z3 with z3 | ⟨-, z3⟩
        · exact .inl ⟨_, _, _, z3⟩
        · refine .inr ⟨z3, ?_⟩
          have st := epochStep_inv hb (r2.inv hkb) z1
          obtain ⟨w₁, t₁, l, a, s₃, k1, k2, k3, -, -, -, -, -, k7, k8⟩ := st
          have t2 := bestStep_tail hb k2 k7
          have t3 : TailKeep n b s₃ s₂ := k8 ▸ reboostStep_tail t2.inv
          have tt := ((k3.settings k3.curPatience k3.lr).trans (t2.trans t3).settings)
          rw [show s₂.t.pWeights = r.t.pWeights by rw [← tt], show s₂.t.pBiases = r.t.pBiases by rw [← tt]]
          obtain ⟨c, i, hi, hc⟩ := hpar
          have hlk := r2.like K le_rfl
          have hrep := r2.going.rep
          obtain ⟨a, ha⟩ : ∃ a, (r.w.nets n).layers[i]? = some a :=
            ⟨_, List.getElem?_eq_getElem (by rw [hrep.count, hlk.depth]; exact hi)⟩
          have hm := ((r2.going.ptr c).mem i a ha).2 (by rw [Ply.has, hlk.kind i]; exact hc)
          intro h0
          have h1 := List.append_eq_nil_iff.1 h0
          cases c
          · rw [show r.t.ptrs false = r.t.pWeights from rfl, h1.1] at hm; cases hm
          · rw [show r.t.ptrs true = r.t.pBiases from rfl, h1.2] at hm; cases hm
      · right
        rw [forN_succ, r1]
        exact epochStep_stale hN q2 hlo x y hT r2 r3
      · right
        rw [forN_succ, r1]
        rfl
  rcases key t.epochs.toNat with ⟨r, r1, r2⟩ | r1
  · left
    obtain ⟨r', f1⟩ : ∃ r', finish e n b r = .ok r' := by
      rcases r2 with ⟨ms, rr, vv, r2⟩ | ⟨r2, -⟩
      · obtain ⟨j, -, j2⟩ := r2.best hkb
        exact fin r r2.owned ⟨_, j2⟩ (r2.keep.trans hkb)
      · obtain ⟨m', -, j2⟩ := r2.best
        exact fin r r2.owned ⟨_, j2⟩ r2.keep
    exact ⟨(r'.w, r'.t, r'.seen), by rw [r1, bind_ok', f1, bind_ok']; rfl⟩
  · right
    rw [r1]
    rfl

end Trainer

end BeeDNN
