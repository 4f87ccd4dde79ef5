import Verif.Lemmas.TwinClone

/-! # Two runs: evaluation, the data of an epoch, `set_net` -/

namespace BeeDNN
open Finset HasWF

theorem whileF_twin {σ τ : Type} {c : σ → Bool} {b : σ → Out σ} {c' : τ → Bool} {b' : τ → Out τ} (P : Nat → σ → τ → Prop) {m : Nat}
    (hc : ∀ k s t, P k s t → (c s = true ↔ k < m) ∧ (c' t = true ↔ k < m))
    (hb : ∀ k s t, k < m → P k s t → ∃ s' t', b s = .ok s' ∧ b' t = .ok t' ∧ P (k + 1) s' t') :
    ∀ (j fuel : Nat) (s : σ) (t : τ), j ≤ m → j ≤ fuel → P (m - j) s t → ∃ s' t', whileF fuel c b s = .ok s' ∧ whileF fuel c' b' t = .ok t' ∧ P m s' t'
  | 0, fuel, s, t, _, _, h => by
    have h0 := hc _ s t h
    have h1 : c s = false := by
      cases hcs : c s
      · rfl
      · exact absurd (h0.1.1 hcs) (by omega)
    have h2 : c' t = false := by
      cases hcs : c' t
      · rfl
      · exact absurd (h0.2.1 hcs) (by omega)
    cases fuel <;> exact ⟨s, t, by simp [whileF, h1], by simp [whileF, h2], h⟩
  | j + 1, 0, s, t, _, h, _ => absurd h (by omega)
  | j + 1, fuel + 1, s, t, hj, hf, h => by
    have hk : m - (j + 1) < m := by omega
    obtain ⟨s', t', h1, h1', h2⟩ := hb _ s t hk h
    obtain ⟨s'', t'', h3, h3', h4⟩ := whileF_twin P hc hb j fuel s' t' (by omega) (by omega) (by rw [show m - j = m - (j + 1) + 1 by omega]; exact h2)
    refine ⟨s'', t'', ?_, ?_, h4⟩
    · rw [whileF, if_pos ((hc _ s t h).1.2 hk), h1]
      exact h3
    · rw [whileF, if_pos ((hc _ s t h).2.2 hk), h1']
      exact h3'

namespace Trainer

/-- Evaluations in two runs. -/
theorem computeLossAccuracy_twin {eps : ℝ} {e f : Nat → Nat → Env} (he : ∀ k i, (e k i).Exact) (hef : ∀ k i, (e k i).Twin (f k i)) {w v : World} (hcore : v.core = w.core)
    {t : Trainer} {n d : Nat} (hnet : t.net = some n)
    {form : Nat → Form} {P : Nat → Layer → Prop} (hP : Lasting form P) (hd : (w.nets n).layers.Nodup) (hc : (w.nets n).layers.length = d) (hpos : 0 < d)
    (h : OnNet w n P) (h' : OnNet v n P) (hl : t.loss ∈ listLoss) (hw : t.lossWeight.size = 0) (hval : 0 < t.valBatch) {N D : Nat} (X Y : Nat → Row)
    (hY : TruthFits t.loss (form d).width D N Y) {acc : Bool} :
    ∃ w' v' l a, t.computeLossAccuracy (fun x => |x|) eps e w (Mat.ofFn N (form 0).width X) (Mat.ofFn N D Y) acc = .ok (w', l, a) ∧
      t.computeLossAccuracy (fun x => |x|) eps f v (Mat.ofFn N (form 0).width X) (Mat.ofFn N D Y) acc = .ok (v', l, a) ∧ v'.core = w'.core := by
  obtain ⟨B, hB⟩ : ∃ B : Nat, t.valBatch = B := ⟨t.valBatch.toNat, by omega⟩
  have hB0 : 0 < B := by omega
  have hK : 0 < (form d).width := by
    obtain ⟨l, -, k⟩ := h (d - 1) _ (List.getElem?_eq_getElem (by omega))
    have := (hP.fits _ _ k).pos.2
    rwa [Nat.sub_add_cancel hpos] at this
  unfold computeLossAccuracy
  rw [hnet, World.core_nets hcore]
  dsimp only
  split
  · exact ⟨w, v, 0, 0, rfl, rfl, hcore⟩
  rw [hB]
  have fin : ∀ {r r' : Out EvalSt} {F : EvalSt → ℝ × ℝ} {Q : EvalSt → EvalSt → Prop}, (∀ s s', Q s s' → F s' = F s ∧ s'.w.core = s.w.core) → (∃ s s', r = .ok s ∧ r' = .ok s' ∧ Q s s') →
      ∃ w' v' l a, (r >>= fun s => (.ok (s.w, F s) : Out (World × ℝ × ℝ))) = .ok (w', l, a) ∧ (r' >>= fun s => (.ok (s.w, F s) : Out (World × ℝ × ℝ))) = .ok (v', l, a) ∧
        v'.core = w'.core := by
    rintro _ _ F Q hQ ⟨s, s', rfl, rfl, h2⟩
    refine ⟨s.w, s'.w, (F s).1, (F s).2, rfl, ?_, (hQ s s' h2).2⟩
    rw [← (hQ s s' h2).1]
    rfl
  refine fin (F := fun s => (s.loss, 100 * s.good / (Mat.ofFn N (form 0).width X).rows)) ?_ (whileF_twin (fun k (s s' : EvalSt) => s.k = k ∧ s'.k = k ∧ s.iStart = k * B ∧ s'.iStart = k * B ∧ OnNet s.w n P ∧ s.w.nets = w.nets ∧
      s.mOut.WF ∧ s.mSamples.WF ∧ s.mTruth.WF ∧ s.mLoss.WF ∧ OnNet s'.w n P ∧ s'.w.core = s.w.core ∧ s'.mOut = s.mOut ∧ s'.mSamples = s.mSamples ∧ s'.mTruth = s.mTruth ∧
      s'.mLoss.WF ∧ s'.loss = s.loss ∧ s'.good = s.good)
    (m := nbBatches N B) ?_ ?_ (nbBatches N B) _ _ _ le_rfl (by rw [Mat.ofFn_rows]; exact nbBatches_le hB0) ?_)
  · rintro s s' ⟨-, -, -, -, -, -, -, -, -, -, -, h2, -, -, -, -, h3, h4⟩
    exact ⟨by rw [h3, h4], h2⟩
  · rintro k s s' ⟨-, -, h2, h3, -⟩
    simp only [decide_eq_true_eq, Mat.ofFn_rows, h2, h3]
    exact ⟨(nbBatches_lt hB0).symm, (nbBatches_lt hB0).symm⟩
  · rintro k ⟨k', iStart, w₁, mOut, mS, mT, mL, loss, good⟩ ⟨k'', iStart', v₁, mOut', mS', mT', mL', loss', good'⟩ hk ⟨h1, h1', h2, h2', h3, h3', h4, h5, h6, h7, g1, g2, g3, g4, g5, g6, g7, g8⟩
    dsimp only at h1 h1' h2 h2' h3 h3' h4 h5 h6 h7 g1 g2 g3 g4 g5 g6 g7 g8
    subst h1
    replace h1' := h1'.symm
    subst h1' h2 h2' g3 g4 g5 g7 g8
    have hk' := (nbBatches_lt hB0).1 hk
    have ee : (if ((k' * B : Nat) : Int) + B > ((Mat.ofFn N (form 0).width X).rows : Int) then ((Mat.ofFn N (form 0).width X).rows : Int)
        else ((k' * B : Nat) : Int) + B) = ((batchEnd N B k' : Nat) : Int) := by
      rw [Mat.ofFn_rows]
      unfold batchEnd
      rw [Nat.add_mul, Nat.one_mul]
      split <;> omega
    have hlt : k' * B < batchEnd N B k' := by unfold batchEnd; rw [Nat.add_mul]; omega
    have hle : batchEnd N B k' ≤ N := by unfold batchEnd; omega
    dsimp only
    rw [ee, Mat.viewRowInt_ofFn _ hlt hle, bind_ok', bind_ok', rowsOf, Mat.assign_ofFn _ h5, Mat.assign_ofFn _ h5, bind_ok', bind_ok', Mat.viewRowInt_ofFn _ hlt hle, bind_ok', bind_ok', rowsOf,
      Mat.assign_ofFn _ h6, Mat.assign_ofFn _ h6, bind_ok', bind_ok']
    obtain ⟨w₂, M, p1, p2, p3, p4⟩ := predict_fits (e := fun i => e k' (i + 3)) (fun i => he k' (i + 3)) hP (N := batchEnd N B k' - k' * B) (by omega)
      (by rw [h3']; exact hd) (by rw [h3']; exact hc) hpos h3 (Mat.shape_ofFn _ _ fun i => X (k' * B + i)) h4
    have n1 := World.core_nets g2
    obtain ⟨v₂, M', q1, q2, q3, q4⟩ := predict_fits (e := fun i => f k' (i + 3)) (fun i => (hef k' (i + 3)).exact (he k' (i + 3))) hP (N := batchEnd N B k' - k' * B) (by omega)
      (by rw [n1, h3']; exact hd) (by rw [n1, h3']; exact hc) hpos g1 (Mat.shape_ofFn _ _ fun i => X (k' * B + i)) h4
    obtain ⟨w₃, v₃, M'', r1, r1', r2⟩ := predict_twin (e := fun i => e k' (i + 3)) (f := fun i => f k' (i + 3)) (fun i => he k' (i + 3)) (fun i => hef k' (i + 3)) hP g2
      (N := batchEnd N B k' - k' * B) (by omega) (by rw [h3']; exact hd) (d := d) (by rw [h3', hc]) h3 g1 (Mat.shape_ofFn _ _ fun i => X (k' * B + i)) h4
    obtain ⟨rfl, rfl⟩ : w₂ = w₃ ∧ M = M'' := by rw [p1] at r1; injection r1 with r1; injection r1 with x y; exact ⟨x, y⟩
    obtain ⟨rfl, rfl⟩ : v₂ = v₃ ∧ M' = M := by rw [q1] at r1'; injection r1' with r1'; injection r1' with x y; exact ⟨x, y⟩
    obtain ⟨Q, rfl⟩ := p2.exists_ofFn
    obtain ⟨L, m1, m2, m3⟩ := lossCompute_fits (eps := eps) (P := Q) (Y := fun i => Y (k' * B + i)) (N := batchEnd N B k' - k' * B) hl hw hK
      (hY.sub fun i hi => ⟨k' * B + i, by omega, rfl⟩) (e k' 2).g h7
    obtain ⟨L', m1', m2', m3'⟩ := lossCompute_fits (eps := eps) (P := Q) (Y := fun i => Y (k' * B + i)) (N := batchEnd N B k' - k' * B) hl hw hK
      (hY.sub fun i hi => ⟨k' * B + i, by omega, rfl⟩) (f k' 2).g g6
    erw [p1]
    erw [q1]
    rw [bind_ok', bind_ok']
    dsimp only
    erw [m1]
    erw [m1']
    obtain ⟨q, hq⟩ : ∃ q, goodIf acc (batchEnd N B k' - k' * B) (Mat.ofFn (batchEnd N B k' - k' * B) (form d).width Q)
        (Mat.ofFn (batchEnd N B k' - k' * B) D fun i => Y (k' * B + i)) = .ok q := by
      unfold goodIf
      split
      · exact ⟨_, goodEval_ofFn _ (form d).width D _ _ hK hY.cols⟩
      · exact ⟨0, rfl⟩
    rw [bind_ok', bind_ok', m3, m3', bind_ok', bind_ok', show (((batchEnd N B k' : Nat) : Int) - ((k' * B : Nat) : Int)).toNat = batchEnd N B k' - k' * B by omega]
    erw [hq]
    rw [bind_ok', bind_ok']
    have hb : (((k' * B : Nat) : Int) + (B : Int)).toNat = (k' + 1) * B := by rw [Nat.add_mul, Nat.one_mul]; omega
    exact ⟨_, _, rfl, rfl, rfl, rfl, hb, hb, p4, p3.trans h3', Mat.ofFn_WF _ _ _, Mat.ofFn_WF _ _ _, Mat.ofFn_WF _ _ _, m2, q4, r2, rfl, rfl, rfl, m2', rfl, rfl⟩
  · rw [Nat.sub_self]
    exact ⟨rfl, rfl, by simp, by simp, h, rfl, Mat.WF_empty, Mat.WF_empty, Mat.WF_empty, Mat.WF_empty, h', hcore, rfl, rfl, rfl, Mat.WF_empty, rfl, rfl⟩

theorem eval_twin {eps : ℝ} {e f : Nat → Nat → Env} (he : ∀ k i, (e k i).Exact) (hef : ∀ k i, (e k i).Twin (f k i)) {w v : World} (hcore : v.core = w.core) {t : Trainer} {n d : Nat}
    {form : Nat → Form} {kinds : Nat → LayerKind} (h : t.Runs w n d form kinds) (h' : t.Runs v n d form kinds) (hl : t.loss ∈ listLoss) (hw : t.lossWeight.size = 0)
    (hval : 0 < t.valBatch) {data : Mat ℝ × Mat ℝ} (hd : EvalData t.loss form d data) :
    ∃ w' v' l a, t.computeLossAccuracy (fun x => |x|) eps e w data.1 data.2 true = .ok (w', l, a) ∧ t.computeLossAccuracy (fun x => |x|) eps f v data.1 data.2 true = .ok (v', l, a) ∧
      v'.core = w'.core ∧ t.Runs w' n d form kinds ∧ t.Runs v' n d form kinds ∧ Stage n w w' := by
  obtain ⟨w₁, l₁, a₁, p1, p2, p3⟩ := eval_fits (eps := eps) he h hl hw hval hd
  obtain ⟨v₁, l₂, a₂, q1, q2, -⟩ := eval_fits (eps := eps) (fun k i => (hef k i).exact (he k i)) h' hl hw hval hd
  obtain ⟨N, D, x, y, hT, rfl⟩ := hd
  obtain ⟨w', v', l, a, h1, h1', h2⟩ := computeLossAccuracy_twin (eps := eps) he hef hcore h.net (lasting_placed form kinds) h.nodup h.depth h.pos h.layers h'.layers hl hw hval x y hT
    (acc := true)
  obtain ⟨rfl, rfl, rfl⟩ : w₁ = w' ∧ l₁ = l ∧ a₁ = a := by rw [p1] at h1; injection h1 with h1; injection h1 with x y; injection y with y z; exact ⟨x, y, z⟩
  obtain rfl : v₁ = v' := by rw [q1] at h1'; injection h1' with h1'; injection h1'
  exact ⟨w₁, v₁, l₁, a₁, p1, h1', h2, p2, q2, p3⟩

/-- The data of an epoch in two runs. -/
theorem epochData_twin (g g' : Nat → ℝ) (draw : Nat → Nat) (shuffle : Bool) (n C D : Nat) (x y : Nat → Nat → ℝ) :
    epochData g draw shuffle (Mat.ofFn n C x) (Mat.ofFn n D y) = epochData g' draw shuffle (Mat.ofFn n C x) (Mat.ofFn n D y) := by
  unfold epochData
  cases shuffle
  · simp only [Bool.false_eq_true, if_false, Mat.assign_eq g Mat.WF_empty (Mat.ofFn_WF ..), Mat.assign_eq g' Mat.WF_empty (Mat.ofFn_WF ..), bind_ok', pure_ok]
  · obtain ⟨p, hp, hperm⟩ := randPerm_perm draw n
    have hlen : p.length = n := by simpa using hperm.length_eq
    have hq : ∀ i, i < n → p[i]? = some (p.getD i 0) ∧ p.getD i 0 < n := by
      intro i hi
      have : p[i]? = some p[i] := List.getElem?_eq_getElem (by omega)
      rw [List.getD, this]
      refine ⟨rfl, ?_⟩
      have := hperm.mem_iff.1 (List.getElem_mem (l := p) (by omega : i < p.length))
      simpa using this
    simp only [if_true]
    rw [show (Mat.ofFn n C x).rows = n from rfl, hp, bind_ok', bind_ok', Mat.applyRowPermutation_ofFn g p x Mat.WF_empty hlen (fun i => p.getD i 0) hq,
      Mat.applyRowPermutation_ofFn g' p x Mat.WF_empty hlen (fun i => p.getD i 0) hq, bind_ok', bind_ok',
      Mat.applyRowPermutation_ofFn g p y Mat.WF_empty hlen (fun i => p.getD i 0) hq, Mat.applyRowPermutation_ofFn g' p y Mat.WF_empty hlen (fun i => p.getD i 0) hq]

theorem collect_twin : ∀ (as : List Nat) {w v : World} (_ : v.core = w.core) (t : Trainer) {t' : Trainer} (_ : collect as w t = .ok t'), collect as v t = .ok t'
  | [], w, v, h, t, t', ht => ht
  | a :: as, w, v, h, t, t', ht => by
    obtain ⟨l, h1, h2⟩ := ok_bind ht
    obtain ⟨m, h3, h4⟩ := World.core_at h (World.deref_inv h1)
    rw [collect, World.deref_eq h3, bind_ok']
    have e1 : m.hasWeights = l.hasWeights := by unfold Layer.hasWeights; rw [Layer.core_weight h4]
    have e2 : m.hasBiases = l.hasBiases := by unfold Layer.hasBiases; rw [Layer.core_bias h4]
    rw [e1, e2]
    exact collect_twin as h _ h2

theorem makeOpts_twin (g g' : Nat → ℝ) (t : Trainer) : ∀ k, makeOpts g t k = makeOpts g' t k
  | 0 => rfl
  | k + 1 => by
    rw [makeOpts, makeOpts, makeOpts_twin g g' t k]
    unfold Opt.setParams
    cases createOptimizer t.optName with
    | none => rfl
    | some o =>
      have h : ({ Opt.new o with lr := t.lr, decay := t.decay, mom := t.mom } : Opt ℝ).WF := Opt.new_WF o
      simp only [Opt.init_twin (g := g) (g' := g') h]

/-- `set_net` in two runs. -/
theorem setNet_twin {g g' : Nat → ℝ} {w v w' : World} (hcore : v.core = w.core) {t t' : Trainer} {n : Nat} (h : setNet g w t n = .ok (w', t')) :
    ∃ v', setNet g' v t n = .ok (v', t') ∧ v'.core = w'.core := by
  unfold setNet at h ⊢
  rw [World.core_nets hcore]
  dsimp only at h ⊢
  obtain ⟨w₁, h1, h⟩ := ok_bind h
  obtain ⟨t₁, h2, h⟩ := ok_bind h
  obtain ⟨os, h3, h⟩ := ok_bind h
  injection h with h
  injection h with h4 h5
  subst h4
  obtain ⟨v₁, k1, k2⟩ : ∃ v₁, markFirst v (w.nets n).layers = .ok v₁ ∧ v₁.core = w₁.core := by
    unfold markFirst at h1 ⊢
    split at h1
    · rename_i he
      injection h1 with h1
      subst h1
      exact ⟨v, rfl, hcore⟩
    · rename_i a as he
      obtain ⟨l, h6, h7⟩ := ok_bind h1
      injection h7 with h7
      subst h7
      obtain ⟨m, h8, h9⟩ := World.core_at hcore (World.deref_inv h6)
      refine ⟨v.store a (m.setFirst true), by rw [World.deref_eq h8, bind_ok']; rfl, World.store_core hcore ?_ a⟩
      obtain ⟨_, _, _, _, _, rfl⟩ := Layer.core_eq h9
      rfl
  refine ⟨v₁, ?_, k2⟩
  rw [k1, bind_ok', collect_twin _ k2 _ h2, bind_ok', makeOpts_twin g' g, h3, bind_ok', ← h5]
  rfl

end Trainer

end BeeDNN
