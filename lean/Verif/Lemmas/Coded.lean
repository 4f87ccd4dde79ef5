import Verif.Spec.Coded
import Verif.Lemmas.TwinEval
import Verif.Props.Loss
import Verif.Lemmas.MlpLoss

/-! # Lemmas: training with class numbers and with one-hot rows -/

namespace BeeDNN
open Finset HasWF

theorem hotRows_max {c : Nat → Nat} {K : Nat} {i : Nat} (hc : c i < K) (k : Nat) : IsFirstMax K (hotRows c i) k ↔ k = c i := by
  unfold IsFirstMax hotRows
  constructor
  · rintro ⟨h1, h2, h3⟩
    by_contra hk
    have := h2 (c i) hc
    simp only [if_neg hk, if_true] at this
    linarith
  · rintro rfl
    refine ⟨hc, fun j _ => ?_, fun j hj => ?_⟩
    · rw [if_pos rfl]
      split <;> norm_num
    · rw [if_pos rfl, if_neg (by omega)]
      norm_num

open Classical in
theorem nbRight_coded {K N : Nat} (hK : 1 < K) {c : Nat → Nat} (hc : ∀ i, i < N → c i < K) (P : Nat → Row) : nbRight N K 1 P (classRows c) = nbRight N K K P (hotRows c) := by
  unfold nbRight
  refine congrArg Finset.card ?_
  refine filter_congr fun i hi => ?_
  have hi := mem_range.1 hi
  unfold IsRight
  rw [if_neg (by omega), if_pos rfl, if_neg (by omega), if_neg (by omega)]
  simp only [hotRows_max (hc i hi), classRows, Nat.cast_inj]

namespace Trainer
variable {T V : Option (Mat ℝ × Mat ℝ)}

theorem lossCompute_coded {g : Nat → ℝ} {eps : ℝ} {t : Trainer} (ht : t.loss = "CategoricalCrossEntropy") {K N : Nat} (hK : K ≤ 2147483648) {c : Nat → Nat} (hc : ∀ i, i < N → c i < K)
    (P : Nat → Row) {o : Mat ℝ} (ho : o.WF) :
    (t.coded T V).lossCompute g (fun x => |x|) eps (Mat.ofFn N K P) (Mat.ofFn N 1 (classRows c)) o = t.lossCompute g (fun x => |x|) eps (Mat.ofFn N K P) (Mat.ofFn N K (hotRows c)) o := by
  unfold lossCompute
  rw [ht]
  exact (C60_sparse_eq_onehot g eps hK P (classRows c) t.lossWeight o ho c (fun _ _ => rfl) hc).1

theorem lossGradient_coded {g : Nat → ℝ} {eps : ℝ} {t : Trainer} (ht : t.loss = "CategoricalCrossEntropy") {K N : Nat} (hK : K ≤ 2147483648) {c : Nat → Nat} (hc : ∀ i, i < N → c i < K)
    (P : Nat → Row) {o : Mat ℝ} (ho : o.WF) :
    (t.coded T V).lossGradient g (fun x => |x|) eps (Mat.ofFn N K P) (Mat.ofFn N 1 (classRows c)) o = t.lossGradient g (fun x => |x|) eps (Mat.ofFn N K P) (Mat.ofFn N K (hotRows c)) o := by
  unfold lossGradient
  rw [ht]
  exact (C60_sparse_eq_onehot g eps hK P (classRows c) t.lossWeight o ho c (fun _ _ => rfl) hc).2

theorem addOnline_coded {g : Nat → ℝ} {eps : ℝ} {b : Bool} {t t' : Trainer} (ht : t.loss = "CategoricalCrossEntropy") {K N : Nat} (hK1 : 1 < K) (hK : K ≤ 2147483648) {c : Nat → Nat}
    (hc : ∀ i, i < N → c i < K) (P : Nat → Row) (h : addOnline g (fun x => |x|) eps b t (Mat.ofFn N K P) (Mat.ofFn N K (hotRows c)) = .ok t') :
    addOnline g (fun x => |x|) eps b (t.coded T V) (Mat.ofFn N K P) (Mat.ofFn N 1 (classRows c)) = .ok (t'.coded T V) := by
  unfold addOnline at h ⊢
  rw [lossCompute_coded ht hK hc P Mat.WF_empty]
  obtain ⟨m, h1, h⟩ := ok_bind h
  obtain ⟨x, h2, h⟩ := ok_bind h
  rw [h1, bind_ok', h2, bind_ok']
  dsimp only at h ⊢
  cases b
  · rw [if_neg Bool.false_ne_true] at h ⊢
    injection h with h
    subst h
    rfl
  · rw [if_pos rfl, goodOnline_ofFn N K _ P _ (by omega) (.inl rfl), bind_ok'] at h
    rw [if_pos rfl, goodOnline_ofFn N K _ P _ (by omega) (.inr rfl), bind_ok', nbRight_coded hK1 hc]
    injection h with h
    subst h
    rfl

/-- One batch. -/
theorem trainBatch_coded {eps : ℝ} {e : Nat → Nat → Env} (he : ∀ k i, (e k i).Exact) {w : World} {t : Trainer} {n d : Nat} {form : Nat → Form}
    {kinds : Nat → LayerKind} (h : t.Runs w n d form kinds) (htr : Training w n) (ht : t.loss = "CategoricalCrossEntropy") (hK1 : 1 < (form d).width) (hK : (form d).width ≤ 2147483648)
    {N : Nat} (hN : 0 < N) {X : Nat → Row} {c : Nat → Nat} (hX : (form 0).Holds N (Mat.ofFn N (form 0).width X)) (hc : ∀ i, i < N → c i < (form d).width) {w' : World} {t' : Trainer}
    (hr : trainBatch (fun x => |x|) eps e w t (Mat.ofFn N (form 0).width X) (Mat.ofFn N (form d).width (hotRows c)) = .ok (w', t')) :
    trainBatch (fun x => |x|) eps e w (t.coded T V) (Mat.ofFn N (form 0).width X) (Mat.ofFn N 1 (classRows c)) = .ok (w', t'.coded T V) := by
  have hlt0 : 0 < t.inOut.length := by rw [h.inOut]; omega
  have hltd : d < t.gradient.length := by rw [h.gradient]; omega
  have hwf0 : (t.inOut[0]).WF := h.ok.inOut _ (List.getElem_mem hlt0)
  have hwfd : (t.gradient[d]).WF := h.ok.gradient _ (List.getElem_mem hltd)
  obtain ⟨w₁, io, f1, f2, f3, f4, ⟨M, f5, f6⟩, f7⟩ := fwdLoop_fits (e := e 0) (he 0) h.nodup h.depth
    ((h.layers.and htr).mono fun i a l _ _ hp => ⟨hp.1.1, hp.1.2.1, hp.1.2.2, hp.2⟩)
    (io := t.inOut.set 0 (Mat.ofFn N (form 0).width X))
    (wr_wf (σ := Mat ℝ) h.ok.inOut (Mat.ofFn_WF _ _ _) (wr_of_lt hlt0)) (by rw [List.length_set, h.inOut]) hN (List.getElem?_set_self hlt0) hX
  obtain ⟨P, rfl⟩ := f6.exists_ofFn
  unfold trainBatch at hr ⊢
  rw [h.net] at hr
  rw [show (t.coded T V).net = some n from h.net]
  dsimp only at hr ⊢
  rw [rd_of_lt hlt0, bind_ok', Mat.assign_ofFn _ hwf0, bind_ok', wr_of_lt hlt0, bind_ok', h.nb, f1, bind_ok'] at hr
  rw [show (t.coded T V).inOut = t.inOut from rfl, show (t.coded T V).nbLayers = d from h.nb, show (t.coded T V).gradient = t.gradient from rfl,
    rd_of_lt hlt0, bind_ok', Mat.assign_ofFn _ hwf0, bind_ok', wr_of_lt hlt0, bind_ok', f1, bind_ok']
  dsimp only at hr ⊢
  rw [rd_some f5, bind_ok', rd_of_lt hltd, bind_ok'] at hr
  rw [rd_some f5, bind_ok', rd_of_lt hltd, bind_ok', lossGradient_coded ht hK hc P hwfd]
  obtain ⟨gL, g1, hr⟩ := ok_bind hr
  obtain ⟨gs, g2, hr⟩ := ok_bind hr
  obtain ⟨⟨w₂, gs'⟩, g3, hr⟩ := ok_bind hr
  obtain ⟨⟨w₃, os⟩, g4, hr⟩ := ok_bind hr
  obtain ⟨⟨w₄, os'⟩, g5, hr⟩ := ok_bind hr
  dsimp only at g3 g4 g5 hr
  rw [g1, bind_ok', g2, bind_ok', g3, bind_ok']
  dsimp only
  erw [g4]
  rw [bind_ok']
  dsimp only
  erw [g5]
  rw [bind_ok']
  dsimp only
  rw [bind_ok'] at hr ⊢
  obtain ⟨t₁, g6, hr⟩ := ok_bind hr
  have := addOnline_coded (T := T) (V := V) (by exact ht) hK1 hK hc P g6
  erw [this]
  injection hr with hr
  injection hr with q1 q2
  subst q1 q2
  rfl

/-- One epoch. -/
theorem trainEpoch_coded {eps : ℝ} {e : Nat → Nat → Nat → Env} (he : ∀ j k i, (e j k i).Exact) {w : World} {t : Trainer} {n d : Nat} {form : Nat → Form}
    {kinds : Nat → LayerKind} (h : t.Runs w n d form kinds) (htr : Training w n) (ht : t.loss = "CategoricalCrossEntropy") (hK1 : 1 < (form d).width) (hK : (form d).width ≤ 2147483648)
    {Γ : Row → Row → Row} (hl : LossOk (fun x => |x|) eps t.loss (form d).width (form d).width Γ) (hw : t.lossWeight.size = 0) {N B : Nat} (hB : 0 < B) (hb : t.batchAdj = B)
    {X : Nat → Row} {c : Nat → Nat} (hX : (form 0).Holds N (Mat.ofFn N (form 0).width X)) (hc : ∀ i, i < N → c i < (form d).width) {w' : World} {t' : Trainer}
    (hr : trainEpoch (fun x => |x|) eps e (Mat.ofFn N (form 0).width X) (Mat.ofFn N (form d).width (hotRows c)) w t = .ok (w', t')) :
    trainEpoch (fun x => |x|) eps e (Mat.ofFn N (form 0).width X) (Mat.ofFn N 1 (classRows c)) w (t.coded T V) = .ok (w', t'.coded T V) := by
  unfold trainEpoch at hr ⊢
  rw [hb, Mat.ofFn_rows, batchLoop_eq N _ _ B hB] at hr
  rw [show (t.coded T V).batchAdj = B from hb, Mat.ofFn_rows, batchLoop_eq N _ _ B hB]
  refine (forN_twin (n := nbBatches N B) (s := (w, t)) (t := (w, t.coded T V)) (fun _ (s s' : World × Trainer) => s' = (s.1, s.2.coded T V) ∧ s.2.Runs s.1 n d form kinds ∧
      Training s.1 n ∧ BatchKeep t s.2) ⟨rfl, h, htr, BatchKeep.refl t⟩
      (f := fun k (s : World × Trainer) => trainBatch (fun x => |x|) eps (e k) s.1 s.2
        (rowsOf (form 0).width (batchStart B k) (batchEnd N B k) X) (rowsOf (form d).width (batchStart B k) (batchEnd N B k) (hotRows c)))
      (g := fun k (s : World × Trainer) => trainBatch (fun x => |x|) eps (e k) s.1 s.2
        (rowsOf (form 0).width (batchStart B k) (batchEnd N B k) X) (rowsOf 1 (batchStart B k) (batchEnd N B k) (classRows c))) ?_).elim ?_
  rotate_left
  · rintro ⟨w₁, t₁⟩ ⟨⟨v', t''⟩, h1, h1', h2, -⟩
    dsimp only at h2
    rw [h2] at h1'
    rw [h1] at hr
    injection hr with hr
    injection hr with q1 q2
    subst q1 q2
    exact h1'
  · rintro k hk ⟨w₂, t₂⟩ ⟨v₂, t₂'⟩ ⟨i0, i1, i2, i3⟩
    dsimp only at *
    injection i0 with i0 i0'
    subst i0 i0'
    have hlt := (nbBatches_lt hB).1 hk
    have h1 : batchStart B k < batchEnd N B k := by unfold batchEnd batchStart; rw [Nat.add_mul]; omega
    have h2 : batchEnd N B k ≤ N := by unfold batchEnd; omega
    have eX : (form 0).Holds (batchEnd N B k - batchStart B k) (Mat.ofFn (batchEnd N B k - batchStart B k) (form 0).width fun s => X (batchStart B k + s)) :=
      hX.sub fun i hi => by omega
    have eL : t₂.loss = "CategoricalCrossEntropy" := by rw [← i3.same]; exact ht
    have eT : TruthFits t₂.loss (form d).width (form d).width (batchEnd N B k - batchStart B k) (hotRows fun s => c (batchStart B k + s)) := by
      rw [eL, TruthFits, if_neg (by decide)]
      exact ⟨rfl, fun h => absurd h (by decide)⟩
    have el : LossOk (fun x => |x|) eps t₂.loss (form d).width (form d).width Γ := by rw [← i3.same]; exact hl
    have ew : t₂.lossWeight.size = 0 := by rw [← i3.same]; exact hw
    have eN : 0 < batchEnd N B k - batchStart B k := by omega
    obtain ⟨w₄, t₄, c1, c2, c3, c4, c5⟩ := trainBatch_fits (ab := fun x => |x|) (eps := eps) (e := e k) (he k) i1 i2 el ew eN _ eX eT
    exact ⟨(w₄, t₄), (w₄, t₄.coded T V), c1, trainBatch_coded (he k) i1 i2 eL hK1 hK eN eX (fun i hi => hc _ (by omega)) c1, rfl, c2, c3, i3.trans c4⟩

/-- The data of an epoch, in the same order for two kinds of truths. -/
theorem epochData_coded (g : Nat → ℝ) (draw : Nat → Nat) (shuffle : Bool) (n C : Nat) (x : Nat → Row) :
    ∃ σ : Nat → Nat, ((List.range n).map σ).Perm (List.range n) ∧ ∀ (D : Nat) (y : Nat → Row),
      epochData g draw shuffle (Mat.ofFn n C x) (Mat.ofFn n D y) = .ok (Mat.ofFn n C (fun i => x (σ i)), Mat.ofFn n D (fun i => y (σ i))) := by
  unfold epochData
  cases shuffle
  · refine ⟨fun i => i, by simp, fun D y => ?_⟩
    simp only [Bool.false_eq_true, if_false, Mat.assign_eq g Mat.WF_empty (Mat.ofFn_WF ..), bind_ok', pure_ok]
  · obtain ⟨p, hp, hperm⟩ := randPerm_perm draw n
    have hlen : p.length = n := by simpa using hperm.length_eq
    have hq : ∀ i, i < n → p[i]? = some (p.getD i 0) ∧ p.getD i 0 < n := by
      intro i hi
      have : p[i]? = some p[i] := List.getElem?_eq_getElem (by omega)
      rw [List.getD, this]
      refine ⟨rfl, ?_⟩
      have := hperm.mem_iff.1 (List.getElem_mem (l := p) (by omega : i < p.length))
      simpa using this
    refine ⟨fun i => p.getD i 0, ?_, fun D y => ?_⟩
    · have : (List.range n).map (fun i => p.getD i 0) = p := by
        refine List.ext_getElem (by simp [hlen]) fun i h1 h2 => ?_
        simp [List.getD, h2]
      rw [this]; exact hperm
    · simp only [if_true]
      rw [show (Mat.ofFn n C x).rows = n from rfl, hp, bind_ok']
      rw [Mat.applyRowPermutation_ofFn g p x Mat.WF_empty hlen (fun i => p.getD i 0) hq, bind_ok',
        Mat.applyRowPermutation_ofFn g p y Mat.WF_empty hlen (fun i => p.getD i 0) hq, bind_ok', pure_ok]

/-- The training part of one epoch. -/
theorem epochTrain_coded {eps : ℝ} {e : FitEnv} (he : ∀ i j k l, (e.batch i j k l).Exact) {w : World} {t : Trainer} {n d : Nat} {form : Nat → Form}
    {kinds : Nat → LayerKind} (h : t.Runs w n d form kinds) (ht : t.loss = "CategoricalCrossEntropy") (hK1 : 1 < (form d).width) (hK : (form d).width ≤ 2147483648)
    {Γ : Row → Row → Row} (hl : LossOk (fun x => |x|) eps t.loss (form d).width (form d).width Γ) (hw : t.lossWeight.size = 0) {N B : Nat} (hB : 0 < B) (hb : t.batchAdj = B)
    {x : Nat → Row} {c : Nat → Nat} (hX : (form 0).Holds N (Mat.ofFn N (form 0).width x)) (hc : ∀ i, i < N → c i < (form d).width) (k : Nat) {w' : World} {t' : Trainer}
    (hr : epochTrain (fun x => |x|) eps e n (Mat.ofFn N (form 0).width x) (Mat.ofFn N (form d).width (hotRows c)) k w t = .ok (w', t')) :
    epochTrain (fun x => |x|) eps e n (Mat.ofFn N (form 0).width x) (Mat.ofFn N 1 (classRows c)) k w (t.coded T V) = .ok (w', t'.coded T V) := by
  obtain ⟨σ, p1, p2⟩ := epochData_coded e.g (e.perm k) (decide (t.batchAdj < (N : Int))) N (form 0).width x
  obtain ⟨w₁, a1, a2⟩ := h.layers.setTrain true
  have s1 := World.setTrain_inv a1
  have g1 : { t with onlineLoss := 0, onlineGood := 0 }.Runs w₁ n d form kinds := (h.world (a2.mono fun i a l _ _ hp => by
    obtain ⟨l, hl, rfl⟩ := hp
    exact ⟨hl.1.setTrain true, hl.2.1, hl.2.2⟩) s1.layers).congr rfl
  have htr : Training w₁ n := a2.mono fun i a l' _ _ => by
    rintro ⟨l, -, rfl⟩
    rfl
  unfold epochTrain at hr ⊢
  dsimp only at hr ⊢
  rw [show (Mat.ofFn N (form 0).width x).rows = N from rfl, p2, bind_ok', a1, bind_ok'] at hr
  rw [show (Mat.ofFn N (form 0).width x).rows = N from rfl, show (t.coded T V).batchAdj = t.batchAdj from rfl, p2, bind_ok', a1, bind_ok']
  dsimp only at hr ⊢
  obtain ⟨⟨w₂, t₂⟩, b1, hr⟩ := ok_bind hr
  have b2 := trainEpoch_coded (T := T) (V := V) (he k) g1 htr ht hK1 hK hl hw hB hb (X := fun i => x (σ i)) (c := fun i => c (σ i)) (hX.sub fun i hi => perm_lt p1 hi)
    (fun i hi => hc _ (perm_lt p1 hi)) b1
  erw [b2]
  rw [bind_ok']
  dsimp only at hr ⊢
  obtain ⟨w₃, c1, hr⟩ := ok_bind hr
  rw [c1, bind_ok']
  cases hcl : (w₃.nets n).classif
  · rw [hcl] at hr
    injection hr with hr
    injection hr with q1 q2
    subst q1 q2
    rfl
  · rw [hcl] at hr
    injection hr with hr
    injection hr with q1 q2
    subst q1 q2
    rfl

/-- Evaluation. -/
theorem computeLossAccuracy_coded {eps : ℝ} {e : Nat → Nat → Env} (he : ∀ k i, (e k i).Exact) {w : World} {t : Trainer} {n d : Nat} (hnet : t.net = some n)
    {form : Nat → Form} {P : Nat → Layer → Prop} (hP : Lasting form P) (hd : (w.nets n).layers.Nodup) (hc : (w.nets n).layers.length = d) (hpos : 0 < d)
    (h : OnNet w n P) (ht : t.loss = "CategoricalCrossEntropy") (hK1 : 1 < (form d).width) (hK : (form d).width ≤ 2147483648) (hw : t.lossWeight.size = 0) (hval : 0 < t.valBatch)
    {N : Nat} (X : Nat → Row) {c : Nat → Nat} (hcl : ∀ i, i < N → c i < (form d).width) {acc : Bool} :
    ∃ w' l a, t.computeLossAccuracy (fun x => |x|) eps e w (Mat.ofFn N (form 0).width X) (Mat.ofFn N (form d).width (hotRows c)) acc = .ok (w', l, a) ∧
      (t.coded T V).computeLossAccuracy (fun x => |x|) eps e w (Mat.ofFn N (form 0).width X) (Mat.ofFn N 1 (classRows c)) acc = .ok (w', l, a) := by
  obtain ⟨B, hB⟩ : ∃ B : Nat, t.valBatch = B := ⟨t.valBatch.toNat, by omega⟩
  have hB0 : 0 < B := by omega
  have hl : t.loss ∈ listLoss := by rw [ht]; decide
  have hT : ∀ (M : Nat) (Y : Nat → Row), TruthFits t.loss (form d).width (form d).width M Y := fun M Y => by
    rw [ht, TruthFits, if_neg (by decide)]
    exact ⟨rfl, fun h => absurd h (by decide)⟩
  unfold computeLossAccuracy
  rw [hnet, show (t.coded T V).net = some n from hnet]
  dsimp only
  split
  · exact ⟨w, 0, 0, rfl, rfl⟩
  rw [show (t.coded T V).valBatch = B from hB, hB]
  have fin : ∀ {r r' : Out EvalSt} {F : EvalSt → ℝ × ℝ} {Q : EvalSt → EvalSt → Prop}, (∀ s s', Q s s' → F s' = F s ∧ s'.w = s.w) → (∃ s s', r = .ok s ∧ r' = .ok s' ∧ Q s s') →
      ∃ w' l a, (r >>= fun s => (.ok (s.w, F s) : Out (World × ℝ × ℝ))) = .ok (w', l, a) ∧ (r' >>= fun s => (.ok (s.w, F s) : Out (World × ℝ × ℝ))) = .ok (w', l, a) := by
    rintro _ _ F Q hQ ⟨s, s', rfl, rfl, h2⟩
    refine ⟨s.w, (F s).1, (F s).2, rfl, ?_⟩
    rw [← (hQ s s' h2).1, ← (hQ s s' h2).2]
    rfl
  refine fin (F := fun s => (s.loss, 100 * s.good / (Mat.ofFn N (form 0).width X).rows)) ?_ (whileF_twin (fun k (s s' : EvalSt) => s.k = k ∧ s.iStart = k * B ∧ OnNet s.w n P ∧ s.w.nets = w.nets ∧
      s.mOut.WF ∧ s.mSamples.WF ∧ s.mTruth.WF ∧ s.mLoss.WF ∧ s'.mTruth.WF ∧ s' = { s with mTruth := s'.mTruth })
    (m := nbBatches N B) ?_ ?_ (nbBatches N B) _ _ _ le_rfl (by rw [Mat.ofFn_rows]; exact nbBatches_le hB0) ?_)
  · rintro s s' ⟨-, -, -, -, -, -, -, -, -, h2⟩
    rw [h2]
    exact ⟨rfl, rfl⟩
  · rintro k s s' ⟨-, h2, -, -, -, -, -, -, -, h3⟩
    rw [h3]
    simp only [decide_eq_true_eq, Mat.ofFn_rows, h2]
    exact ⟨(nbBatches_lt hB0).symm, (nbBatches_lt hB0).symm⟩
  · rintro k ⟨k'', iStart, w₁, mOut, mS, mT, mL, loss, good⟩ ⟨k', iStart', v₁, mOut', mS', mT', mL', loss', good'⟩ hk ⟨h1, h2, h3, h3', h4, h5, h6, h7, g1, g2⟩
    dsimp only at h1 h2 h3 h3' h4 h5 h6 h7 g1 g2
    injection g2 with u1 u2 u3 u4 u5 u6 u7 u8 u9
    subst u1 u2 u3 u4 u5 u7 u8 u9 h1 h2
    have hk' := (nbBatches_lt hB0).1 hk
    have ee : (if ((k' * B : Nat) : Int) + B > ((Mat.ofFn N (form 0).width X).rows : Int) then ((Mat.ofFn N (form 0).width X).rows : Int)
        else ((k' * B : Nat) : Int) + B) = ((batchEnd N B k' : Nat) : Int) := by
      rw [Mat.ofFn_rows]
      unfold batchEnd
      rw [Nat.add_mul, Nat.one_mul]
      split <;> omega
    have hlt : k' * B < batchEnd N B k' := by unfold batchEnd; rw [Nat.add_mul]; omega
    have hle : batchEnd N B k' ≤ N := by unfold batchEnd; omega
    dsimp only
    rw [ee, Mat.viewRowInt_ofFn _ hlt hle, bind_ok', bind_ok', rowsOf, Mat.assign_ofFn _ h5, bind_ok', bind_ok', Mat.viewRowInt_ofFn _ hlt hle, bind_ok', Mat.viewRowInt_ofFn _ hlt hle, bind_ok', rowsOf, rowsOf,
      Mat.assign_ofFn _ h6, bind_ok', Mat.assign_ofFn _ g1, bind_ok']
    obtain ⟨w₂, M, p1, p2, p3, p4⟩ := predict_fits (e := fun i => e k' (i + 3)) (fun i => he k' (i + 3)) hP (N := batchEnd N B k' - k' * B) (by omega)
      (by rw [h3']; exact hd) (by rw [h3']; exact hc) hpos h3 (Mat.shape_ofFn _ _ fun i => X (k' * B + i)) h4
    obtain ⟨Q, rfl⟩ := p2.exists_ofFn
    have hcl' : ∀ i, i < batchEnd N B k' - k' * B → (fun i => c (k' * B + i)) i < (form d).width := fun i hi => hcl _ (by omega)
    obtain ⟨L, m1, m2, m3⟩ := lossCompute_fits (eps := eps) (P := Q) (Y := hotRows fun i => c (k' * B + i)) (N := batchEnd N B k' - k' * B) hl hw (by omega) (hT _ _) (e k' 2).g h7
    have m1' := (lossCompute_coded (g := (e k' 2).g) (eps := eps) (T := T) (V := V) ht hK hcl' Q h7).trans m1
    erw [p1]
    rw [bind_ok', bind_ok']
    dsimp only
    erw [m1]
    erw [m1']
    obtain ⟨q, hq, hq'⟩ : ∃ q, goodIf acc (batchEnd N B k' - k' * B) (Mat.ofFn (batchEnd N B k' - k' * B) (form d).width Q)
        (Mat.ofFn (batchEnd N B k' - k' * B) (form d).width (hotRows fun i => c (k' * B + i))) = .ok q ∧
        goodIf acc (batchEnd N B k' - k' * B) (Mat.ofFn (batchEnd N B k' - k' * B) (form d).width Q)
        (Mat.ofFn (batchEnd N B k' - k' * B) 1 (classRows fun i => c (k' * B + i))) = .ok q := by
      unfold goodIf
      split
      · exact ⟨_, goodEval_ofFn _ (form d).width _ _ _ (by omega) (.inl rfl), by rw [goodEval_ofFn _ (form d).width _ _ _ (by omega) (.inr rfl), nbRight_coded hK1 hcl']⟩
      · exact ⟨0, rfl, rfl⟩
    rw [bind_ok', bind_ok', m3, bind_ok', bind_ok', show (((batchEnd N B k' : Nat) : Int) - ((k' * B : Nat) : Int)).toNat = batchEnd N B k' - k' * B by omega]
    erw [hq]
    erw [hq']
    rw [bind_ok', bind_ok']
    have hb : (((k' * B : Nat) : Int) + (B : Int)).toNat = (k' + 1) * B := by rw [Nat.add_mul, Nat.one_mul]; omega
    exact ⟨_, _, rfl, rfl, rfl, hb, p4, p3.trans h3', Mat.ofFn_WF _ _ _, Mat.ofFn_WF _ _ _, Mat.ofFn_WF _ _ _, m2, Mat.ofFn_WF _ _ _, rfl⟩
  · rw [Nat.sub_self]
    exact ⟨rfl, by simp, h, rfl, Mat.WF_empty, Mat.WF_empty, Mat.WF_empty, Mat.WF_empty, Mat.WF_empty, rfl⟩

theorem eval_coded {eps : ℝ} {e : Nat → Nat → Env} (he : ∀ k i, (e k i).Exact) {w w' : World} {t : Trainer} {n d : Nat} {form : Nat → Form} {kinds : Nat → LayerKind}
    (h : t.Runs w n d form kinds) (ht : t.loss = "CategoricalCrossEntropy") (hK1 : 1 < (form d).width) (hK : (form d).width ≤ 2147483648) (hw : t.lossWeight.size = 0)
    (hval : 0 < t.valBatch) {a b : Mat ℝ × Mat ℝ} (hs : SameClasses (form 0).width (form d).width a b) {r : ℝ × ℝ}
    (hr : t.computeLossAccuracy (fun x => |x|) eps e w a.1 a.2 true = .ok (w', r)) :
    (t.coded T V).computeLossAccuracy (fun x => |x|) eps e w b.1 b.2 true = .ok (w', r) := by
  obtain ⟨N, x, c, hc, rfl, rfl⟩ := hs
  obtain ⟨w₁, l, m, h1, h2⟩ := computeLossAccuracy_coded (eps := eps) (T := T) (V := V) he h.net (lasting_placed form kinds) h.nodup h.depth h.pos h.layers ht hK1 hK hw hval x hc (acc := true)
  rw [← hr, h1]
  exact h2

/-- The state of `fit` with the coded trainer. -/
def _root_.BeeDNN.Trainer.FitSt.coded (T V : Option (Mat ℝ × Mat ℝ)) (s : FitSt) : FitSt := { s with t := s.t.coded T V }

theorem bestStep_coded {e : FitEnv} {k n b : Nat} {s s' : FitSt} {l a : ℝ} (h : bestStep e k n b s l a = .ok s') : bestStep e k n b (s.coded T V) l a = .ok (s'.coded T V) := by
  unfold bestStep at h ⊢
  rw [show (s.coded T V).t.keepBest = s.t.keepBest from rfl, show (s.coded T V).t.patience = s.t.patience from rfl]
  split at h
  · rename_i hk
    rw [if_pos hk]
    obtain ⟨s₁, h1, h2⟩ := ok_bind h
    have k1 : keepStep (e.copy (2 * k + 1)) n b (s.coded T V) l a = .ok (s₁.coded T V) := by
      unfold keepStep at h1 ⊢
      rw [show (s.coded T V).w = s.w from rfl, show (s.coded T V).maxAcc = s.maxAcc from rfl, show (s.coded T V).minLoss = s.minLoss from rfl]
      split at h1
      · rename_i hc
        rw [if_pos hc]
        split at h1
        · rename_i hc
          rw [if_pos hc]
          obtain ⟨w, h3, h4⟩ := ok_bind h1
          injection h4 with h4
          subst h4
          rw [h3]
          rfl
        · rename_i hc
          rw [if_neg hc]
          injection h1 with h4
          subst h4
          rfl
      · rename_i hc
        rw [if_neg hc]
        split at h1
        · rename_i hc
          rw [if_pos hc]
          obtain ⟨w, h3, h4⟩ := ok_bind h1
          injection h4 with h4
          subst h4
          rw [h3]
          rfl
        · rename_i hc
          rw [if_neg hc]
          injection h1 with h4
          subst h4
          rfl
    rw [k1, bind_ok']
    unfold patienceStep at h2 ⊢
    rw [show (s₁.coded T V).t.curPatience = s₁.t.curPatience from rfl, show (s₁.coded T V).t.patience = s₁.t.patience from rfl, show (s₁.coded T V).w = s₁.w from rfl]
    split at h2
    · rename_i hc
      rw [if_pos hc]
      dsimp only at h2 ⊢
      obtain ⟨w, h3, h4⟩ := ok_bind h2
      injection h4 with h4
      subst h4
      rw [h3]
      rfl
    · rename_i hc
      rw [if_neg hc]
      injection h2 with h2
      subst h2
      rfl
  · rename_i hk
    rw [if_neg hk]
    injection h with h
    subst h
    rfl

theorem reboostStep_coded (g : Nat → ℝ) (s : FitSt) : reboostStep g (s.coded T V) = (reboostStep g s).coded T V := by
  unfold reboostStep
  rw [show (s.coded T V).t.reboostEvery = s.t.reboostEvery from rfl, show (s.coded T V).iReboost = s.iReboost from rfl]
  split
  · split <;> rfl
  · rfl

theorem _root_.BeeDNN.SameClasses.evalData {form : Nat → Form} {d : Nat} {a b : Mat ℝ × Mat ℝ} (h : SameClasses (form 0).width (form d).width a b) :
    EvalData "CategoricalCrossEntropy" form d a := by
  obtain ⟨N, x, c, hc, rfl, -⟩ := h
  refine ⟨N, _, x, hotRows c, ?_, rfl⟩
  rw [TruthFits, if_neg (by decide)]
  exact ⟨rfl, fun h => absurd h (by decide)⟩

theorem _root_.BeeDNN.SameValid.evalData {form : Nat → Form} {d : Nat} {u v : Option (Mat ℝ × Mat ℝ)} (h : SameValid (form 0).width (form d).width u v) {a : Mat ℝ × Mat ℝ} (ha : u = some a) :
    EvalData "CategoricalCrossEntropy" form d a := by
  rcases h with ⟨h, -⟩ | ⟨a', b, h, -, hs⟩
  · rw [h] at ha; cases ha
  · rw [h] at ha
    injection ha with ha
    subst ha
    exact hs.evalData

theorem hot_fits {K N : Nat} (c : Nat → Nat) : TruthFits "CategoricalCrossEntropy" K K N (hotRows c) := by
  rw [TruthFits, if_neg (by decide)]
  exact ⟨rfl, fun h => absurd h (by decide)⟩

theorem epochStep_coded {eps : ℝ} {e : FitEnv} (he : ExactEnv e) {t₀ : Trainer} {n b d : Nat} {form : Nat → Form} {kinds : Nat → LayerKind} {B N : Nat}
    (hB : 0 < B) (ht : t₀.loss = "CategoricalCrossEntropy") (hK1 : 1 < (form d).width) (hK : (form d).width ≤ 2147483648)
    (hv : SameValid (form 0).width (form d).width t₀.valid V) (hvb : 0 < t₀.valBatch) {x : Nat → Row} {c : Nat → Nat}
    (hX : (form 0).Holds N (Mat.ofFn N (form 0).width x)) (hc : ∀ i, i < N → c i < (form d).width) {k : Nat} {s s' : FitSt}
    (h : FitInv t₀ n b d form kinds B k s)
    (hr : epochStep (fun x => |x|) eps e n b (Mat.ofFn N (form 0).width x) (Mat.ofFn N (form d).width (hotRows c)) k s = .ok s') :
    epochStep (fun x => |x|) eps e n b (Mat.ofFn N (form 0).width x) (Mat.ofFn N 1 (classRows c)) k (s.coded T V) = .ok (s'.coded T V) := by
  have sl : s.t.loss = "CategoricalCrossEntropy" := h.loss.trans ht
  obtain ⟨ψ, hlo, -⟩ := lossOk_of_mem eps (s := "CategoricalCrossEntropy") (by decide) (show 0 < (form d).width by omega) (form d).width
  have hlo' : LossOk (fun x => |x|) eps s.t.loss (form d).width (form d).width (lossGrad eps "CategoricalCrossEntropy" ψ) := by rw [sl]; exact hlo
  obtain ⟨w₁, t₁, a1, a3, a5, a6⟩ := epochTrain_fits (ab := fun x => |x|) (eps := eps) he.batch h.runs hlo' h.weight hB h.batch x (hotRows c) hX (by rw [sl]; exact hot_fits c) k
  have a2 := epochTrain_coded (T := T) (V := V) he.batch h.runs sl hK1 hK hlo' h.weight hB h.batch hX hc k a1
  have tloss : t₁.loss = "CategoricalCrossEntropy" := by rw [← a6]; exact sl
  have tweight : t₁.lossWeight.size = 0 := by rw [← a6]; exact h.weight
  have tvalid : t₁.valid = t₀.valid := by rw [← a6]; exact h.valid
  have tvb : t₁.valBatch = t₀.valBatch := by rw [← a6]; exact h.valBatch
  unfold epochStep at hr ⊢
  rw [a1, bind_ok'] at hr
  erw [a2]
  rw [bind_ok']
  dsimp only at hr ⊢
  obtain ⟨⟨w₂, t₂, l, a⟩, b1, hr⟩ := ok_bind hr
  have b2 : evalValid (fun x => |x|) eps e k w₁ (t₁.coded T V) = .ok (w₂, t₂.coded T V, l, a) := by
    unfold evalValid at b1 ⊢
    rw [tvalid] at b1
    rw [show (t₁.coded T V).valid = V from rfl]
    rcases hv with ⟨v1, v2⟩ | ⟨u, v, v1, v2, v3⟩
    · rw [v1] at b1
      rw [v2]
      injection b1 with b1
      injection b1 with q1 b1
      injection b1 with q2 b1
      injection b1 with q3 q4
      subst q1 q2 q3 q4
      rw [tvalid, v1] at *
      rfl
    · obtain ⟨u1, u2⟩ := u
      obtain ⟨v4, v5⟩ := v
      rw [v1] at b1
      rw [v2]
      dsimp only at b1 ⊢
      obtain ⟨⟨w₃, l', a'⟩, b3, b1⟩ := ok_bind b1
      have b4 := eval_coded (T := T) (V := V) (he.eval (k + 1)) a3 tloss hK1 hK tweight (by rw [tvb]; exact hvb) v3 b3
      dsimp only at b1 b4
      injection b1 with b1
      injection b1 with q1 b1
      injection b1 with q2 b1
      injection b1 with q3 q4
      subst q1 q2 q3 q4
      rw [v2] at b4
      rw [b4]
      rfl
  rw [b2, bind_ok']
  dsimp only at hr ⊢
  obtain ⟨s₂, c1, hr⟩ := ok_bind hr
  have c2 := bestStep_coded (T := T) (V := V) c1
  erw [c2]
  injection hr with hr
  subst hr
  rw [bind_ok', reboostStep_coded]
  rfl

theorem start_coded {eps : ℝ} {e : FitEnv} (he : ExactEnv e) {w : World} {t : Trainer} {n b d : Nat} {form : Nat → Form} {kinds : Nat → LayerKind} (h : t.Runs w n d form kinds)
    {N : Nat} {x : Nat → Row} {c : Nat → Nat} (ht : t.loss = "CategoricalCrossEntropy") (hK1 : 1 < (form d).width) (hK : (form d).width ≤ 2147483648)
    (hv : SameValid (form 0).width (form d).width t.valid V) (hvb : 0 < t.valBatch) (hbal : t.balancing = false) (hc : ∀ i, i < N → c i < (form d).width) {s : FitSt}
    (hr : start (fun x => |x|) eps e n b (Mat.ofFn N (form 0).width x) (Mat.ofFn N (form d).width (hotRows c)) w t = .ok s) :
    start (fun x => |x|) eps e n b (Mat.ofFn N (form 0).width x) (Mat.ofFn N 1 (classRows c)) w (t.coded T V) = .ok (s.coded T V) := by
  unfold start at hr ⊢
  rw [show classWeights e.g e.div0 (w.nets n).classif t.balancing t.train = .ok ⟨0, 0, []⟩ by
    unfold classWeights; rw [if_pos (.inr (by simp [hbal]))], bind_ok'] at hr
  rw [show classWeights e.g e.div0 (w.nets n).classif (t.coded T V).balancing (t.coded T V).train = .ok ⟨0, 0, []⟩ by
    unfold classWeights; rw [if_pos (.inr (by simp [Trainer.coded, hbal]))], bind_ok']
  dsimp only at hr ⊢
  obtain ⟨t₂, ht₂⟩ : ∃ t₂ : Trainer, t₂ = { t with
    lossWeight := ⟨0, 0, []⟩, trainLoss := [], valLoss := [], trainAcc := [], valAcc := [], curTrainLoss := 1e10, curTrainAcc := 0
    curValLoss := 1e10, curValAcc := 0, curPatience := 0, batchAdj := adjustBatch t.batchSize (Mat.ofFn N (form 0).width x).rows
    opts := t.opts.map (Opt.init e.g) } := ⟨_, rfl⟩
  rw [← ht₂] at hr
  have g2 : t₂.Runs w n d form kinds := by rw [ht₂]; exact (h.init e.g).congr rfl
  have k1 : t₂.loss = "CategoricalCrossEntropy" := by rw [ht₂]; exact ht
  have k2 : t₂.lossWeight.size = 0 := by rw [ht₂]; rfl
  have k4 : t₂.valid = t.valid := by rw [ht₂]
  have k5 : t₂.valBatch = t.valBatch := by rw [ht₂]
  obtain ⟨⟨w₁, l, a⟩, h1, hr⟩ := ok_bind hr
  have h2 : initialBest (fun x => |x|) eps e n b (Mat.ofFn N (form 0).width x) (Mat.ofFn N 1 (classRows c)) w (t₂.coded T V) = .ok (w₁, l, a) := by
    unfold initialBest at h1 ⊢
    rw [show (t₂.coded T V).keepBest = t₂.keepBest from rfl]
    split at h1
    · rename_i hkb
      rw [if_pos hkb]
      obtain ⟨⟨w₂, l', a'⟩, b3, b1⟩ := ok_bind h1
      have hs : SameClasses (form 0).width (form d).width (t₂.valid.getD (Mat.ofFn N (form 0).width x, Mat.ofFn N (form d).width (hotRows c)))
          ((t₂.coded T V).valid.getD (Mat.ofFn N (form 0).width x, Mat.ofFn N 1 (classRows c))) := by
        rw [k4, show (t₂.coded T V).valid = V from rfl]
        rcases hv with ⟨v1, v2⟩ | ⟨u, v, v1, v2, v3⟩
        · rw [v1, v2]
          exact ⟨N, x, c, hc, rfl, rfl⟩
        · rw [v1, v2]
          exact v3
      have b4 := eval_coded (T := T) (V := V) (he.eval 0) g2 k1 hK1 hK k2 (by rw [k5]; exact hvb) hs b3
      rw [b4, bind_ok']
      exact b1
    · rename_i hkb
      rw [if_neg hkb]
      exact h1
  have h3 : initialBest (fun x => |x|) eps e n b (Mat.ofFn N (form 0).width x) (Mat.ofFn N 1 (classRows c)) w { t.coded T V with
    lossWeight := ⟨0, 0, []⟩, trainLoss := [], valLoss := [], trainAcc := [], valAcc := [], curTrainLoss := 1e10, curTrainAcc := 0
    curValLoss := 1e10, curValAcc := 0, curPatience := 0, batchAdj := adjustBatch (t.coded T V).batchSize (Mat.ofFn N (form 0).width x).rows
    opts := (t.coded T V).opts.map (Opt.init e.g) } = .ok (w₁, l, a) := by
    rw [← h2, ht₂]
    rfl
  rw [h3, bind_ok']
  injection hr with hr
  subst hr
  rw [ht₂]
  rfl

theorem collect_coded : ∀ (as : List Nat) (w : World) (t : Trainer) {t' : Trainer} (_ : collect as w t = .ok t'), collect as w (t.coded T V) = .ok (t'.coded T V)
  | [], w, t, t', h => by injection h with h; subst h; rfl
  | a :: as, w, t, t', h => by
    obtain ⟨l, h1, h2⟩ := ok_bind h
    rw [collect, h1, bind_ok']
    dsimp only at h2 ⊢
    have := collect_coded as w _ h2
    refine Eq.trans ?_ this
    congr 1
    split <;> split <;> rfl

theorem makeOpts_coded (g : Nat → ℝ) (t : Trainer) : ∀ k, makeOpts g (t.coded T V) k = makeOpts g t k
  | 0 => rfl
  | k + 1 => by
    rw [makeOpts, makeOpts, makeOpts_coded g t k]
    rfl

theorem setNet_coded {g : Nat → ℝ} {w w' : World} {t t' : Trainer} {n : Nat} (h : setNet g w t n = .ok (w', t')) : setNet g w (t.coded T V) n = .ok (w', t'.coded T V) := by
  unfold setNet at h ⊢
  dsimp only at h ⊢
  obtain ⟨w₁, h1, h⟩ := ok_bind h
  obtain ⟨t₁, h2, h⟩ := ok_bind h
  obtain ⟨os, h3, h⟩ := ok_bind h
  injection h with h
  injection h with h4 h5
  subst h4 h5
  rw [h1, bind_ok']
  have k2 := collect_coded (T := T) (V := V) _ _ _ h2
  erw [k2]
  rw [bind_ok', makeOpts_coded]
  erw [h3]
  rfl

/-- The whole training. -/
theorem fit_coded {eps : ℝ} {e : FitEnv} (he : ExactEnv e) {w w' : World} {t t' : Trainer} {seen : List (List (Option Layer))} {n b d : Nat} {form : Nat → Form} {kinds : Nat → LayerKind}
    (h : Ready w n d form kinds) (hd : 0 < d) (ho : Owned w) (hb : b ≠ n) (hbe : (w.nets b).layers = []) (hi : ∀ m ∈ t.inOut, m.WF) (hg : ∀ m ∈ t.gradient, m.WF)
    {o : OptKind} (hk : createOptimizer t.optName = some o) {N : Nat} (hN : 0 < N) {x : Nat → Row} {c : Nat → Nat} (hc : ∀ i, i < N → c i < (form d).width)
    (htr : t.train = some (Mat.ofFn N (form 0).width x, Mat.ofFn N (form d).width (hotRows c))) (hX : (form 0).Holds N (Mat.ofFn N (form 0).width x))
    (ht : t.loss = "CategoricalCrossEntropy") (hK1 : 1 < (form d).width) (hK : (form d).width ≤ 2147483648)
    (hv : SameValid (form 0).width (form d).width t.valid V) (hvb : 0 < t.valBatch) (hbs : 0 ≤ t.batchSize) (hbal : t.balancing = false)
    (hpat : t.patience = -1 ∨ t.epochs ≤ t.patience) (hr : fit (fun x => |x|) eps e w t n b = .ok (w', t', seen)) :
    fit (fun x => |x|) eps e w (t.coded (some (Mat.ofFn N (form 0).width x, Mat.ofFn N 1 (classRows c))) V) n b =
      .ok (w', t'.coded (some (Mat.ofFn N (form 0).width x, Mat.ofFn N 1 (classRows c))) V, seen) := by
  obtain ⟨T, hT⟩ : ∃ T, T = some (Mat.ofFn N (form 0).width x, Mat.ofFn N 1 (classRows c)) := ⟨_, rfl⟩
  rw [← hT]
  obtain ⟨ψ, hlo, -⟩ := lossOk_of_mem eps (s := "CategoricalCrossEntropy") (by decide) (show 0 < (form d).width by omega) (form d).width
  rw [← ht] at hlo
  obtain ⟨w₁, t₁, s1, s2, s3, s5⟩ := setNet_fits (g := e.g) h hd hi hg hk
  obtain ⟨B, q1, q2, q3, -⟩ := C50_adjusted t.batchSize N hbs hN
  have ow₁ : Owned w₁ := by
    obtain ⟨o1, -⟩ := setNet_inv hb ho (h.layers.allValid fun _ _ hp => hp.1.valid) (by rw [hbe]; intro a ha; cases ha) hi hg s1
    exact (o1.stage.frame ho).owned
  have tnb : t₁.nbLayers ≠ 0 := by rw [s2.nb]; omega
  have f1 : t₁.train = t.train := by rw [← s5]
  have f2 : t₁.valid = t.valid := by rw [← s5]
  have f3 : t₁.valBatch = t.valBatch := by rw [← s5]
  have f4 : t₁.batchSize = t.batchSize := by rw [← s5]
  have f5 : t₁.balancing = false := by rw [← s5]; exact hbal
  have f6 : t₁.patience = t.patience := by rw [← s5]
  have f7 : t₁.loss = t.loss := by rw [← s5]
  have f8 : t₁.keepBest = t.keepBest := by rw [← s5]
  have f9 : t₁.epochs = t.epochs := by rw [← s5]
  obtain ⟨s, u1, u3⟩ := start_fits (eps := eps) he s2 ow₁ hb x (hotRows c) (N := N) (D := (form d).width) (by rw [f7, ht]; exact hot_fits c) (by rw [f2, f7, ht]; exact fun a ha => hv.evalData ha) (by rw [f3]; exact hvb) f5
    (by rw [f7, ht]; decide) (B := B) (by rw [f4]; exact q1)
  have u4 := start_coded (T := T) (V := V) he s2 (f7.trans ht) hK1 hK (by rw [f2]; exact hv) (by rw [f3]; exact hvb) f5 hc u1
  have u2 : FitInv t n b d form kinds B 0 s := ⟨u3.runs, u3.owned, fun hk => u3.best (f8.trans hk), u3.loss.trans f7, u3.weight, u3.batch, u3.valid.trans f2, u3.valBatch.trans f3,
    ⟨u3.patience.1.trans f6, u3.patience.2⟩, u3.keep.trans f8, u3.epochs.trans f9, u3.seen⟩
  have hl : t.loss ∈ listLoss := by rw [ht]; decide
  obtain ⟨r, r', v0, v0', rfl, v1⟩ := forN_twin (n := t.epochs.toNat) (s := s) (t := s.coded T V) (fun k (s s' : FitSt) => s' = s.coded T V ∧ FitInv t n b d form kinds B k s) ⟨rfl, u2⟩
    (f := epochStep (fun x => |x|) eps e n b (Mat.ofFn N (form 0).width x) (Mat.ofFn N (form d).width (hotRows c)))
    (g := epochStep (fun x => |x|) eps e n b (Mat.ofFn N (form 0).width x) (Mat.ofFn N 1 (classRows c))) (by
      rintro i hi s₁ _ ⟨rfl, v1⟩
      obtain ⟨s₂, x1, x2⟩ := epochStep_fits he hb q2 hl hlo (fun a ha => by rw [ht]; exact hv.evalData ha) hvb x (hotRows c) hX (by rw [ht]; exact hot_fits c) v1
        (hpat.imp_right fun h => by omega)
      exact ⟨s₂, s₂.coded T V, x1, epochStep_coded he q2 ht hK1 hK hv hvb hX hc v1 x1, rfl, x2⟩)
  unfold fit at hr ⊢
  rw [s1, bind_ok'] at hr
  rw [setNet_coded s1, bind_ok']
  dsimp only at hr ⊢
  rw [if_neg tnb, f1, htr] at hr
  rw [if_neg (show ¬ (t₁.coded T V).nbLayers = 0 from tnb), show (t₁.coded T V).train = T from rfl, hT]
  rw [hT] at u4 v0'
  dsimp only at hr ⊢
  rw [u1, bind_ok', f9, v0, bind_ok'] at hr
  rw [u4, bind_ok', show (t₁.coded (some (Mat.ofFn N (form 0).width x, Mat.ofFn N 1 (classRows c))) V).epochs = t.epochs from f9, v0', bind_ok']
  obtain ⟨z, z1, hr⟩ := ok_bind hr
  injection hr with hr
  injection hr with y1 hr
  injection hr with y2 y3
  subst y1 y2 y3
  unfold finish at z1 ⊢
  obtain ⟨w₃, z2, z1⟩ := ok_bind z1
  obtain ⟨w₄, z3, z1⟩ := ok_bind z1
  injection z1 with z1
  subst z1
  erw [z2]
  rw [bind_ok', z3]
  rfl

end Trainer

end BeeDNN
