import Verif.Lemmas.FitsBatch
import Verif.Lemmas.MlpRun

/-! # Sizes: prediction, evaluation, and one epoch -/

namespace BeeDNN
open Finset HasWF

/-- A property of layers of the network that forward passes keep. -/
structure Lasting (form : Nat → Form) (P : Nat → Layer → Prop) : Prop where
  fits : ∀ i l, P i l → l.Fits (decide (i = 0)) (form i) (form (i + 1))
  keep : ∀ i l l', P i l → l'.Fits (decide (i = 0)) (form i) (form (i + 1)) → l'.kind = l.kind → l'.first = l.first → P i l'

theorem lasting_fits (form : Nat → Form) : Lasting form (fun i l => l.Fits (decide (i = 0)) (form i) (form (i + 1))) :=
  ⟨fun _ _ h => h, fun _ _ _ _ h _ _ => h⟩

theorem lasting_placed (form : Nat → Form) (kinds : Nat → LayerKind) : Lasting form (Layer.Placed form kinds) :=
  ⟨fun _ _ h => h.1, fun _ _ _ h h' hk hf => ⟨h', hk.trans h.2.1, hf.trans h.2.2⟩⟩

theorem predictLoop_fits {e : Nat → Env} (he : ∀ i, (e i).Exact) {form : Nat → Form} {P : Nat → Layer → Prop} (hP : Lasting form P) {n d N : Nat} (hN : 0 < N) :
    ∀ (as : List Nat) (k : Nat) (w : World), (w.nets n).layers.Nodup → (w.nets n).layers.length = d → OnNet w n P →
      (w.nets n).layers.drop k = as → k ≤ d → ∀ M o : Mat ℝ, M.Shape N (form k).width → o.WF → (k = d → o.Shape N (form k).width) →
      ∃ w' x M', World.predictLoop e k as w M o = .ok (w', x, M') ∧ M'.Shape N (form d).width ∧ w'.nets = w.nets ∧ OnNet w' n P
  | [], k, w, hd, hc, h, hk, hle, M, o, hM, ho, hko => by
    have hl := congrArg List.length hk
    rw [List.length_drop, hc, List.length_nil] at hl
    obtain rfl : k = d := by omega
    exact ⟨w, _, _, rfl, hko rfl, rfl, h⟩
  | a :: as, k, w, hd, hc, h, hk, hle, M, o, hM, ho, hko => by
    have hka : (w.nets n).layers[k]? = some a := by
      have := congrArg (fun l => l[0]?) hk
      simpa using this
    have hlt : k < d := by rw [← hc]; exact lt_of_some hka
    obtain ⟨l, hla, hl⟩ := h k a hka
    have hk' : (w.nets n).layers.drop (k + 1) = as := by
      have := congrArg (List.drop 1) hk
      simpa [List.drop_drop] using this
    obtain ⟨l', M', f1, f2⟩ := (hP.fits k l hl).forward (he k) hN hM ho
    obtain ⟨w', x, M'', g1, g2, g3, g4⟩ := predictLoop_fits he hP hN as (k + 1) (w.store a l') hd hc
      (h.store hd hka hla (hP.keep k l l' hl f2.fits f2.kind f2.mark) fun _ _ _ _ hp => hp) hk' hlt M' M' f2.shape f2.shape.1 (fun _ => f2.shape)
    refine ⟨w', x, M'', ?_, g2, g3, g4⟩
    rw [World.predictLoop, World.deref_eq hla, bind_ok', f1, bind_ok']
    dsimp only
    rw [Mat.assign_eq _ hM.1 f2.shape.1, bind_ok']
    exact g1

theorem predict_fits {e : Nat → Env} (he : ∀ i, (e i).Exact) {form : Nat → Form} {P : Nat → Layer → Prop} (hP : Lasting form P) {w : World} {n d N : Nat} (hN : 0 < N)
    (hd : (w.nets n).layers.Nodup) (hc : (w.nets n).layers.length = d) (hpos : 0 < d) (h : OnNet w n P) {M o : Mat ℝ} (hM : M.Shape N (form 0).width) (ho : o.WF) :
    ∃ w' M', w.predict e n M o = .ok (w', M') ∧ M'.Shape N (form d).width ∧ w'.nets = w.nets ∧ OnNet w' n P := by
  obtain ⟨w', x, M', h1, h2⟩ := predictLoop_fits he hP hN _ 0 w hd hc h rfl (Nat.zero_le _) M o hM ho (fun h0 => absurd hpos (by omega))
  rw [List.drop_zero] at h1
  exact ⟨w', M', by unfold World.predict; rw [h1]; rfl, h2⟩

namespace World

theorem setTrainAll_all (b : Bool) : ∀ (as : List Nat) (w : World) (_ : ∀ a ∈ as, ∃ l, w.heap[a]? = some (some l)),
    ∃ w', setTrainAll b as w = .ok w' ∧ w'.nets = w.nets ∧
      ∀ (a : Nat) (l : Layer), a ∈ as → w.heap[a]? = some (some l) → w'.heap[a]? = some (some (l.setTrain b))
  | [], w, _ => ⟨w, rfl, rfl, fun a l h => by cases h⟩
  | a :: as, w, hl => by
    obtain ⟨l, h0⟩ := hl a List.mem_cons_self
    have hlive : ∀ c ∈ as, ∃ k, (w.store a (l.setTrain b)).heap[c]? = some (some k) := fun c hc => by
      by_cases hca : c = a
      · subst hca; exact ⟨_, World.store_same h0⟩
      · obtain ⟨k, hk⟩ := hl c (List.mem_cons_of_mem _ hc)
        exact ⟨k, (World.store_other _ hca).trans hk⟩
    obtain ⟨w', h1, h2, h3⟩ := setTrainAll_all b as (w.store a (l.setTrain b)) hlive
    obtain ⟨w'', h1', -, h3'⟩ := setTrainAll_ok b as (w.store a (l.setTrain b)) hlive
    obtain rfl : w' = w'' := by rw [h1] at h1'; injection h1'
    refine ⟨w', by rw [setTrainAll, World.deref_eq h0, bind_ok']; exact h1, h2, fun c k hc hk => ?_⟩
    by_cases hca : c = a
    · subst hca
      rw [h0] at hk
      obtain rfl : l = k := by injection hk with hk; injection hk
      obtain ⟨l', j1, rfl | rfl⟩ := h3' c (l.setTrain b) (World.store_same h0)
      · exact j1
      · exact j1
    · exact h3 c k ((List.mem_cons.1 hc).resolve_left hca) ((World.store_other _ hca).trans hk)

end World

theorem Layer.Fits.setTrain {first : Bool} {s s' : Form} {l : Layer} (h : l.Fits first s s') (b : Bool) : (l.setTrain b).Fits first s s' :=
  ⟨World.setTrain_valid b h.valid, h.pos, h.takes, h.notFirst, h.params, h.grads, h.inits⟩

theorem OnNet.setTrain {w : World} {n : Nat} {P : Nat → Layer → Prop} (h : OnNet w n P) (b : Bool) :
    ∃ w', w.setTrain n b = .ok w' ∧ OnNet w' n (fun i l' => ∃ l, P i l ∧ l' = l.setTrain b) := by
  have hl : ((w.setNet n { w.nets n with train := b }).nets n).layers = (w.nets n).layers := by simp
  obtain ⟨w', h1, h2, h3⟩ := World.setTrainAll_all b (w.nets n).layers (w.setNet n { w.nets n with train := b }) (fun a ha => by
    obtain ⟨i, hi⟩ := List.getElem?_of_mem ha
    obtain ⟨l, k, -⟩ := h i a hi
    exact ⟨l, k⟩)
  refine ⟨w', h1, fun i a hi => ?_⟩
  rw [h2, hl] at hi
  obtain ⟨l, k1, k2⟩ := h i a hi
  exact ⟨_, h3 a l (List.mem_of_getElem? hi) k1, l, k2, rfl⟩

namespace Trainer

/-- Evaluation: no fault. -/
theorem computeLossAccuracy_fits {eps : ℝ} {e : Nat → Nat → Env} (he : ∀ k i, (e k i).Exact) {w : World} {t : Trainer} {n d : Nat} (hnet : t.net = some n)
    {form : Nat → Form} {P : Nat → Layer → Prop} (hP : Lasting form P) (hd : (w.nets n).layers.Nodup) (hc : (w.nets n).layers.length = d) (hpos : 0 < d)
    (h : OnNet w n P) (hl : t.loss ∈ listLoss) (hw : t.lossWeight.size = 0) (hval : 0 < t.valBatch) {N D : Nat} (X Y : Nat → Row)
    (hY : TruthFits t.loss (form d).width D N Y) {acc : Bool} :
    ∃ w' l a, t.computeLossAccuracy (fun x => |x|) eps e w (Mat.ofFn N (form 0).width X) (Mat.ofFn N D Y) acc = .ok (w', l, a) ∧ OnNet w' n P ∧
      w'.nets = w.nets := by
  obtain ⟨B, hB⟩ : ∃ B : Nat, t.valBatch = B := ⟨t.valBatch.toNat, by omega⟩
  have hB0 : 0 < B := by omega
  have hK : 0 < (form d).width := by
    obtain ⟨l, -, k⟩ := h (d - 1) _ (List.getElem?_eq_getElem (by omega))
    have := (hP.fits _ _ k).pos.2
    rwa [Nat.sub_add_cancel hpos] at this
  unfold computeLossAccuracy
  rw [hnet]
  dsimp only
  split
  · exact ⟨w, 0, 0, rfl, h, rfl⟩
  rw [hB]
  have fin : ∀ {r : Out EvalSt} {f : EvalSt → ℝ × ℝ} {Q : EvalSt → Prop}, (∀ s, Q s → OnNet s.w n P ∧ s.w.nets = w.nets) → (∃ s, r = .ok s ∧ Q s) →
      ∃ w' l a, (r >>= fun s => (.ok (s.w, f s) : Out (World × ℝ × ℝ))) = .ok (w', l, a) ∧ OnNet w' n P ∧ w'.nets = w.nets := by
    rintro _ f Q hQ ⟨s, rfl, h2⟩
    exact ⟨s.w, (f s).1, (f s).2, rfl, hQ s h2⟩
  refine fin (f := fun s => (s.loss, 100 * s.good / (Mat.ofFn N (form 0).width X).rows)) ?_ (whileF_prog (fun k (s : EvalSt) => s.k = k ∧ s.iStart = k * B ∧ OnNet s.w n P ∧ s.w.nets = w.nets ∧ s.mOut.WF ∧ s.mSamples.WF ∧ s.mTruth.WF ∧ s.mLoss.WF)
    (m := nbBatches N B) ?_ ?_ (nbBatches N B) _ _ le_rfl (by rw [Mat.ofFn_rows]; exact nbBatches_le hB0) ?_)
  · rintro s ⟨-, -, h2, h3, -⟩
    exact ⟨h2, h3⟩
  · rintro k s ⟨-, h2, -⟩
    simp only [decide_eq_true_eq, Mat.ofFn_rows, h2]
    exact (nbBatches_lt hB0).symm
  · rintro k ⟨k', iStart, w₁, mOut, mS, mT, mL, loss, good⟩ hk ⟨h1, h2, h3, h3', h4, h5, h6, h7⟩
    dsimp only at h1 h2 h3 h3' h4 h5 h6 h7
    subst h1 h2
    have hk' := (nbBatches_lt hB0).1 hk
    have ee : (if ((k' * B : Nat) : Int) + B > ((Mat.ofFn N (form 0).width X).rows : Int) then ((Mat.ofFn N (form 0).width X).rows : Int)
        else ((k' * B : Nat) : Int) + B) = ((batchEnd N B k' : Nat) : Int) := by
      rw [Mat.ofFn_rows]
      unfold batchEnd
      rw [Nat.add_mul, Nat.one_mul]
      split <;> omega
    have hlt : k' * B < batchEnd N B k' := by unfold batchEnd; rw [Nat.add_mul]; omega
    have hle : batchEnd N B k' ≤ N := by unfold batchEnd; omega
    dsimp only
    rw [ee, Mat.viewRowInt_ofFn _ hlt hle, bind_ok', rowsOf, Mat.assign_ofFn _ h5, bind_ok', Mat.viewRowInt_ofFn _ hlt hle, bind_ok', rowsOf,
      Mat.assign_ofFn _ h6, bind_ok']
    obtain ⟨w₂, M, p1, p2, p3, p4⟩ := predict_fits (e := fun i => e k' (i + 3)) (fun i => he k' (i + 3)) hP (N := batchEnd N B k' - k' * B) (by omega)
      (by rw [h3']; exact hd) (by rw [h3']; exact hc) hpos h3 (Mat.shape_ofFn _ _ fun i => X (k' * B + i)) h4
    obtain ⟨Q, rfl⟩ := p2.exists_ofFn
    obtain ⟨L, m1, m2, m3⟩ := lossCompute_fits (eps := eps) (P := Q) (Y := fun i => Y (k' * B + i)) (N := batchEnd N B k' - k' * B) hl hw hK
      (hY.sub fun i hi => ⟨k' * B + i, by omega, rfl⟩) (e k' 2).g h7
    erw [p1]
    rw [bind_ok']
    dsimp only
    erw [m1]
    obtain ⟨q, hq⟩ : ∃ q, goodIf acc (batchEnd N B k' - k' * B) (Mat.ofFn (batchEnd N B k' - k' * B) (form d).width Q)
        (Mat.ofFn (batchEnd N B k' - k' * B) D fun i => Y (k' * B + i)) = .ok q := by
      unfold goodIf
      split
      · exact ⟨_, goodEval_ofFn _ (form d).width D _ _ hK hY.cols⟩
      · exact ⟨0, rfl⟩
    rw [bind_ok', m3, bind_ok', show (((batchEnd N B k' : Nat) : Int) - ((k' * B : Nat) : Int)).toNat = batchEnd N B k' - k' * B by omega]
    erw [hq]
    rw [bind_ok']
    refine ⟨_, rfl, rfl, ?_, p4, p3.trans h3', Mat.ofFn_WF _ _ _, Mat.ofFn_WF _ _ _, Mat.ofFn_WF _ _ _, m2⟩
    dsimp only; rw [Nat.add_mul, Nat.one_mul]; omega
  · rw [Nat.sub_self]
    exact ⟨rfl, by simp, h, rfl, Mat.WF_empty, Mat.WF_empty, Mat.WF_empty, Mat.WF_empty⟩

/-- The training part of one epoch. -/
theorem epochTrain_fits {ab : ℝ → ℝ} {eps : ℝ} {e : FitEnv} (he : ∀ i j k l, (e.batch i j k l).Exact) {w : World} {t : Trainer} {n d : Nat} {form : Nat → Form}
    {kinds : Nat → LayerKind} (h : t.Runs w n d form kinds) {D : Nat} {Γ : Row → Row → Row}
    (hl : LossOk ab eps t.loss (form d).width D Γ) (hw : t.lossWeight.size = 0) {N B : Nat} (hB : 0 < B) (hb : t.batchAdj = B) (x y : Nat → Row)
    (hX : (form 0).Holds N (Mat.ofFn N (form 0).width x)) (hT : TruthFits t.loss (form d).width D N y) (k : Nat) :
    ∃ (w' : World) (t' : Trainer), epochTrain ab eps e n (Mat.ofFn N (form 0).width x) (Mat.ofFn N D y) k w t = .ok (w', t') ∧
      t'.Runs w' n d form kinds ∧ Stage n w w' ∧
      { t with inOut := t'.inOut, gradient := t'.gradient, opts := t'.opts, onlineLoss := t'.onlineLoss
               onlineGood := t'.onlineGood, curTrainLoss := t'.curTrainLoss, trainLoss := t'.trainLoss
               curTrainAcc := t'.curTrainAcc, trainAcc := t'.trainAcc } = t' := by
  obtain ⟨σ, p1, p2⟩ := C50_data e.g (e.perm k) (decide (t.batchAdj < (N : Int))) N (form 0).width D x y
  obtain ⟨w₁, a1, a2⟩ := h.layers.setTrain true
  have s1 := World.setTrain_inv a1
  have pl : ∀ (b : Bool) i (l' : Layer), (∃ l, Layer.Placed form kinds i l ∧ l' = l.setTrain b) → Layer.Placed form kinds i l' := by
    rintro b i l' ⟨l, hl, rfl⟩
    exact ⟨hl.1.setTrain b, hl.2.1, hl.2.2⟩
  have g1 : { t with onlineLoss := 0, onlineGood := 0 }.Runs w₁ n d form kinds := (h.world (a2.mono fun i a l _ _ hp => pl true i l hp) s1.layers).congr rfl
  have htr : Training w₁ n := a2.mono fun i a l' _ _ => by
    rintro ⟨l, -, rfl⟩
    rfl
  obtain ⟨w₂, t₂, b1, b2, b3, b4, b5⟩ := trainEpoch_fits (ab := ab) (eps := eps) (e := e.batch k) (he k) g1 htr (D := D) (Γ := Γ) hl hw hB hb
    (X := fun i => x (σ i)) (fun i => y (σ i)) (hX.sub fun i hi => perm_lt p1 hi) (hT.sub fun i hi => ⟨σ i, perm_lt p1 hi, rfl⟩)
  obtain ⟨w₃, c1, c2⟩ := b2.layers.setTrain false
  have s2 := b5.stage
  have s3 := World.setTrain_inv c1
  have g3 : t₂.Runs w₃ n d form kinds := b2.world (c2.mono fun i a l _ _ hp => pl false i l hp) s3.layers
  have st := (s1.trans s2).trans s3
  have same := b4.same
  have hrun : epochTrain ab eps e n (Mat.ofFn N (form 0).width x) (Mat.ofFn N D y) k w t =
      .ok (w₃, if (w₃.nets n).classif then
        { t₂ with curTrainLoss := fdiv e.div0 t₂.onlineLoss N, trainLoss := t₂.trainLoss ++ [fdiv e.div0 t₂.onlineLoss N]
                  curTrainAcc := fdiv e.div0 (100 * t₂.onlineGood) N, trainAcc := t₂.trainAcc ++ [fdiv e.div0 (100 * t₂.onlineGood) N] }
        else { t₂ with curTrainLoss := fdiv e.div0 t₂.onlineLoss N, trainLoss := t₂.trainLoss ++ [fdiv e.div0 t₂.onlineLoss N] }) := by
    unfold epochTrain
    dsimp only
    rw [show (Mat.ofFn N (form 0).width x).rows = N from rfl, p2, bind_ok', a1, bind_ok']
    dsimp only
    erw [b1]
    rw [bind_ok']
    dsimp only
    rw [c1, bind_ok']
    cases (w₃.nets n).classif <;> rfl
  refine ⟨w₃, _, hrun, ?_, st, ?_⟩
  · split <;> exact g3.congr rfl
  · split <;> rw [← same]

end Trainer

end BeeDNN
