import Verif.Lemmas.TwinEval

/-! # Two runs: `fit` -/

namespace BeeDNN
open Finset HasWF

namespace Trainer

theorem FitEnv.Twin.exact {e f : FitEnv} (h : e.Twin f) (he : ExactEnv e) : ExactEnv f :=
  ⟨fun i j k l => (h.batch i j k l).exact (he.batch i j k l), fun i j k => (h.eval i j k).exact (he.eval i j k)⟩

theorem optsInit_twin {g g' : Nat → ℝ} {os : List (Opt ℝ)} (h : ∀ o ∈ os, o.WF) : os.map (Opt.init g) = os.map (Opt.init g') :=
  List.map_congr_left fun o ho => Opt.init_twin (h o ho)

/-- The training part of an epoch in two runs. -/
theorem epochTrain_twin {eps : ℝ} {e f : FitEnv} (he : ExactEnv e) (hef : e.Twin f) {w v : World} (hcore : v.core = w.core) {t : Trainer} {n d : Nat} {form : Nat → Form}
    {kinds : Nat → LayerKind} (h : t.Runs w n d form kinds) (h' : t.Runs v n d form kinds) {D : Nat} {Γ : Row → Row → Row} (hls : t.loss ∈ listLoss)
    (hl : LossOk (fun x => |x|) eps t.loss (form d).width D Γ) (hw : t.lossWeight.size = 0) {N B : Nat} (hB : 0 < B) (hb : t.batchAdj = B) (x y : Nat → Row)
    (hX : (form 0).Holds N (Mat.ofFn N (form 0).width x)) (hT : TruthFits t.loss (form d).width D N y) (k : Nat) :
    ∃ (w' v' : World) (t' : Trainer), epochTrain (fun x => |x|) eps e n (Mat.ofFn N (form 0).width x) (Mat.ofFn N D y) k w t = .ok (w', t') ∧
      epochTrain (fun x => |x|) eps f n (Mat.ofFn N (form 0).width x) (Mat.ofFn N D y) k v t = .ok (v', t') ∧ v'.core = w'.core := by
  obtain ⟨σ, p1, p2⟩ := C50_data e.g (e.perm k) (decide (t.batchAdj < (N : Int))) N (form 0).width D x y
  have p3 := p2
  rw [epochData_twin e.g f.g, ← hef.perm] at p3
  obtain ⟨w₁, a1, a2⟩ := h.layers.setTrain true
  obtain ⟨v₁, b1, b2⟩ := h'.layers.setTrain true
  obtain ⟨v₁', b3, b4⟩ := World.setTrain_twin hcore a1
  obtain rfl : v₁ = v₁' := by rw [b1] at b3; injection b3
  have s1 := World.setTrain_inv a1
  have s1' := World.setTrain_inv b1
  have pl : ∀ (b : Bool) i (l' : Layer), (∃ l, Layer.Placed form kinds i l ∧ l' = l.setTrain b) → Layer.Placed form kinds i l' := by
    rintro b i l' ⟨l, hl, rfl⟩
    exact ⟨hl.1.setTrain b, hl.2.1, hl.2.2⟩
  have g1 : { t with onlineLoss := 0, onlineGood := 0 }.Runs w₁ n d form kinds := (h.world (a2.mono fun i a l _ _ hp => pl true i l hp) s1.layers).congr rfl
  have g1' : { t with onlineLoss := 0, onlineGood := 0 }.Runs v₁ n d form kinds := (h'.world (b2.mono fun i a l _ _ hp => pl true i l hp) s1'.layers).congr rfl
  have htr : Training w₁ n := a2.mono fun i a l' _ _ => by
    rintro ⟨l, -, rfl⟩
    rfl
  have htr' : Training v₁ n := b2.mono fun i a l' _ _ => by
    rintro ⟨l, -, rfl⟩
    rfl
  have eX : (form 0).Holds N (Mat.ofFn N (form 0).width fun i => x (σ i)) := hX.sub fun i hi => perm_lt p1 hi
  have eT : TruthFits t.loss (form d).width D N fun i => y (σ i) := hT.sub fun i hi => ⟨σ i, perm_lt p1 hi, rfl⟩
  obtain ⟨w₂, v₂, t₂, c1, c1', c2⟩ := trainEpoch_twin (eps := eps) (e := e.batch k) (f := f.batch k) (he.batch k) (hef.batch k) b4 g1 htr g1' htr' (D := D) (Γ := Γ) hls hl hw hB hb
    (X := fun i => x (σ i)) (fun i => y (σ i)) eX eT
  obtain ⟨w₂', t₂', d1, d2, -⟩ := trainEpoch_fits (ab := fun x => |x|) (eps := eps) (e := e.batch k) (he.batch k) g1 htr (D := D) (Γ := Γ) hl hw hB hb
    (X := fun i => x (σ i)) (fun i => y (σ i)) eX eT
  obtain ⟨rfl, rfl⟩ : w₂ = w₂' ∧ t₂ = t₂' := by rw [c1] at d1; injection d1 with d1; injection d1 with x y; exact ⟨x, y⟩
  obtain ⟨w₃, x1, -⟩ := d2.layers.setTrain false
  obtain ⟨v₃, y1, y2⟩ := World.setTrain_twin c2 x1
  have run : ∀ {e : FitEnv} {w w₁ w₂ w₃ : World} (_ : epochData e.g (e.perm k) (decide (t.batchAdj < (N : Int))) (Mat.ofFn N (form 0).width x) (Mat.ofFn N D y) =
      .ok (Mat.ofFn N (form 0).width (fun i => x (σ i)), Mat.ofFn N D (fun i => y (σ i)))) (_ : w.setTrain n true = .ok w₁)
      (_ : trainEpoch (fun x => |x|) eps (e.batch k) (Mat.ofFn N (form 0).width (fun i => x (σ i))) (Mat.ofFn N D (fun i => y (σ i))) w₁ { t with onlineLoss := 0, onlineGood := 0 } = .ok (w₂, t₂))
      (_ : w₂.setTrain n false = .ok w₃),
      epochTrain (fun x => |x|) eps e n (Mat.ofFn N (form 0).width x) (Mat.ofFn N D y) k w t =
      .ok (w₃, if (w₃.nets n).classif then
        { t₂ with curTrainLoss := fdiv e.div0 t₂.onlineLoss N, trainLoss := t₂.trainLoss ++ [fdiv e.div0 t₂.onlineLoss N]
                  curTrainAcc := fdiv e.div0 (100 * t₂.onlineGood) N, trainAcc := t₂.trainAcc ++ [fdiv e.div0 (100 * t₂.onlineGood) N] }
        else { t₂ with curTrainLoss := fdiv e.div0 t₂.onlineLoss N, trainLoss := t₂.trainLoss ++ [fdiv e.div0 t₂.onlineLoss N] }) := by
    intro e w w₁ w₂ w₃ p2 a1 b1 c1
    unfold epochTrain
    dsimp only
    rw [show (Mat.ofFn N (form 0).width x).rows = N from rfl, p2, bind_ok', a1, bind_ok']
    dsimp only
    erw [b1]
    rw [bind_ok']
    dsimp only
    rw [c1, bind_ok']
    cases (w₃.nets n).classif <;> rfl
  refine ⟨w₃, v₃, _, run p2 a1 c1 x1, ?_, y2⟩
  rw [run p3 b1 c1' y1, World.core_nets y2, hef.div0]

/-- What two runs of `fit` have in common between epochs. -/
structure SameSt (s s' : FitSt) : Prop where
  w : s'.w.core = s.w.core
  t : s'.t = s.t
  minLoss : s'.minLoss = s.minLoss
  maxAcc : s'.maxAcc = s.maxAcc
  iReboost : s'.iReboost = s.iReboost
  seen : s'.seen.map (List.map (Option.map Layer.core)) = s.seen.map (List.map (Option.map Layer.core))

theorem layersOf_core {w v : World} (h : v.core = w.core) (n : Nat) : (layersOf v n).map (Option.map Layer.core) = (layersOf w n).map (Option.map Layer.core) := by
  unfold layersOf
  rw [World.core_nets h, List.map_map, List.map_map]
  refine List.map_congr_left fun a _ => ?_
  have := World.core_heap h a
  simp only [Function.comp]
  cases hw : w.heap[a]? <;> cases hv : v.heap[a]? <;> rw [hw, hv] at this <;> first
    | rfl
    | exact Option.some.inj this
    | cases this

theorem keepStep_twin {e f : Nat → Env} {n b d : Nat} (hb : b ≠ n) {form : Nat → Form} {kinds : Nat → LayerKind} {s s' s₂ : FitSt} (hs : SameSt s s') (h : Ready s.w n d form kinds)
    (h' : Ready s'.w n d form kinds) (ho : Owned s.w) {l a : ℝ} (hk : keepStep e n b s l a = .ok s₂) : ∃ s₂', keepStep f n b s' l a = .ok s₂' ∧ SameSt s₂ s₂' := by
  obtain ⟨w, t, mi, ma, ir, seen⟩ := s
  obtain ⟨v, t', mi', ma', ir', seen'⟩ := s'
  obtain ⟨h1, h2, h3, h4, h5, h6⟩ := hs
  dsimp only at h1 h2 h3 h4 h5 h6 h h' ho
  subst h2 h3 h4 h5
  unfold keepStep at hk ⊢
  dsimp only at hk ⊢
  rw [World.core_nets h1]
  split at hk
  · rename_i hc
    rw [if_pos hc]
    split at hk
    · rename_i hc'
      rw [if_pos hc']
      obtain ⟨w₂, a1, a2⟩ := ok_bind hk
      injection a2 with a2
      obtain ⟨v₂, b1, b2⟩ := Ready.assign_twin (f := f) h1 h h' ho hb a1
      subst a2
      rw [b1, bind_ok']
      exact ⟨_, rfl, b2, rfl, rfl, rfl, rfl, h6⟩
    · rename_i hc'
      rw [if_neg hc']
      injection hk with hk
      subst hk
      exact ⟨_, rfl, h1, rfl, rfl, rfl, rfl, h6⟩
  · rename_i hc
    rw [if_neg hc]
    split at hk
    · rename_i hc'
      rw [if_pos hc']
      obtain ⟨w₂, a1, a2⟩ := ok_bind hk
      injection a2 with a2
      obtain ⟨v₂, b1, b2⟩ := Ready.assign_twin (f := f) h1 h h' ho hb a1
      subst a2
      rw [b1, bind_ok']
      exact ⟨_, rfl, b2, rfl, rfl, rfl, rfl, h6⟩
    · rename_i hc'
      rw [if_neg hc']
      injection hk with hk
      subst hk
      exact ⟨_, rfl, h1, rfl, rfl, rfl, rfl, h6⟩

theorem keepStep_patience {e : Nat → Env} {n b : Nat} {s s₂ : FitSt} {l a : ℝ} {k : Nat} (h : s.t.curPatience ≤ k) (hk : keepStep e n b s l a = .ok s₂) :
    s₂.t.curPatience ≤ k + 1 ∧ s₂.t.patience = s.t.patience ∧ s₂.t.opts = s.t.opts := by
  unfold keepStep at hk
  split at hk <;> split at hk <;> first
    | (obtain ⟨w₂, -, a2⟩ := ok_bind hk
       injection a2 with a2
       subst a2
       exact ⟨by show (0 : Int) ≤ _; omega, rfl, rfl⟩)
    | (injection hk with hk
       subst hk
       exact ⟨by show s.t.curPatience + 1 ≤ _; omega, rfl, rfl⟩)

theorem bestStep_twin {e f : FitEnv} {k n b d : Nat} (hb : b ≠ n) {form : Nat → Form} {kinds : Nat → LayerKind} {s s' s₂ : FitSt} (hs : SameSt s s') (h : Ready s.w n d form kinds)
    (h' : Ready s'.w n d form kinds) (ho : Owned s.w) {l a : ℝ} (hc : s.t.curPatience ≤ k) (hp : s.t.patience = -1 ∨ (k : Int) < s.t.patience)
    (hk : bestStep e k n b s l a = .ok s₂) : ∃ s₂', bestStep f k n b s' l a = .ok s₂' ∧ SameSt s₂ s₂' ∧ s₂.t.opts = s.t.opts := by
  unfold bestStep at hk ⊢
  rw [hs.t]
  split at hk
  · rename_i hc'
    rw [if_pos hc']
    obtain ⟨s₃, a1, a2⟩ := ok_bind hk
    obtain ⟨s₃', b1, b2⟩ := keepStep_twin (f := f.copy (2 * k + 1)) hb hs h h' ho a1
    obtain ⟨c1, c2, c3⟩ := keepStep_patience hc a1
    have hn : ¬ (s₃.t.curPatience > s₃.t.patience ∧ s₃.t.patience ≠ -1) := by
      rintro ⟨d1, d2⟩
      rw [c2] at d1 d2
      rcases hp with hp | hp
      · exact d2 hp
      · omega
    rw [patienceStep, if_neg hn] at a2
    injection a2 with a2
    subst a2
    refine ⟨s₃', ?_, b2, c3⟩
    rw [b1, bind_ok', patienceStep, if_neg]
    rw [b2.t]
    exact hn
  · rename_i hc'
    rw [if_neg hc']
    injection hk with hk
    subst hk
    exact ⟨s', rfl, hs, rfl⟩

theorem reboostStep_twin {g g' : Nat → ℝ} {s s' : FitSt} (hs : SameSt s s') (ho : ∀ o ∈ s.t.opts, o.WF) : SameSt (reboostStep g s) (reboostStep g' s') := by
  unfold reboostStep
  rw [hs.t, hs.iReboost]
  split
  · split
    · exact ⟨hs.w, rfl, hs.minLoss, hs.maxAcc, rfl, hs.seen⟩
    · refine ⟨hs.w, ?_, hs.minLoss, hs.maxAcc, rfl, hs.seen⟩
      dsimp only
      rw [optsInit_twin (g := g) (g' := g') ho]
  · exact hs

theorem evalValid_twin {eps : ℝ} {e f : FitEnv} (he : ExactEnv e) (hef : e.Twin f) {w v : World} (hcore : v.core = w.core) {t : Trainer} {n d : Nat} {form : Nat → Form}
    {kinds : Nat → LayerKind} (h : t.Runs w n d form kinds) (h' : t.Runs v n d form kinds) (hl : t.loss ∈ listLoss) (hw : t.lossWeight.size = 0) (hval : 0 < t.valBatch)
    (hv : ∀ data, t.valid = some data → EvalData t.loss form d data) (k : Nat) :
    ∃ w' v' t' l a, evalValid (fun x => |x|) eps e k w t = .ok (w', t', l, a) ∧ evalValid (fun x => |x|) eps f k v t = .ok (v', t', l, a) ∧ v'.core = w'.core ∧
      t'.Runs w' n d form kinds ∧ t'.Runs v' n d form kinds ∧ Stage n w w' ∧ t'.curPatience = t.curPatience ∧ t'.patience = t.patience := by
  obtain hval' | ⟨data, hval'⟩ : t.valid = none ∨ ∃ data, t.valid = some data := by cases t.valid <;> simp
  · exact ⟨w, v, t, t.curTrainLoss, t.curTrainAcc, by unfold evalValid; rw [hval'], by unfold evalValid; rw [hval'], hcore, h, h', .refl n w, rfl, rfl⟩
  · obtain ⟨w₂, v₂, l, a, h1, h1', h2, h3, h4, h5⟩ := eval_twin (eps := eps) (e := e.eval (k + 1)) (f := f.eval (k + 1)) (he.eval (k + 1)) (hef.eval (k + 1)) hcore h h' hl hw hval (hv data hval')
    refine ⟨w₂, v₂, { t with curValLoss := l, curValAcc := a, valLoss := t.valLoss ++ [l], valAcc := t.valAcc ++ [a] }, l, a, ?_, ?_, h2, h3.congr rfl, h4.congr rfl, h5, rfl, rfl⟩
    · unfold evalValid
      rw [hval']
      obtain ⟨x, y⟩ := data
      dsimp only at h1 ⊢
      rw [h1, bind_ok', pure_ok]
    · unfold evalValid
      rw [hval']
      obtain ⟨x, y⟩ := data
      dsimp only at h1' ⊢
      rw [h1', bind_ok', pure_ok]

/-- One epoch in two runs. -/
theorem epochStep_twin {eps : ℝ} {e f : FitEnv} (he : ExactEnv e) (hef : e.Twin f) {t₀ : Trainer} {n b d : Nat} {form : Nat → Form} {kinds : Nat → LayerKind} (hb : b ≠ n) {B N : Nat}
    (hB : 0 < B) {D : Nat} {Γ : Row → Row → Row} (hl : t₀.loss ∈ listLoss) (hlo : LossOk (fun x => |x|) eps t₀.loss (form d).width D Γ)
    (hv : ∀ data, t₀.valid = some data → EvalData t₀.loss form d data) (hvb : 0 < t₀.valBatch) (x y : Nat → Row)
    (hX : (form 0).Holds N (Mat.ofFn N (form 0).width x)) (hT : TruthFits t₀.loss (form d).width D N y) {k : Nat} {s s' s₂ : FitSt} (hs : SameSt s s')
    (h : FitInv t₀ n b d form kinds B k s) (h' : FitInv t₀ n b d form kinds B k s') (hp : t₀.patience = -1 ∨ (k : Int) < t₀.patience)
    (hk : epochStep (fun x => |x|) eps e n b (Mat.ofFn N (form 0).width x) (Mat.ofFn N D y) k s = .ok s₂) :
    ∃ s₂', epochStep (fun x => |x|) eps f n b (Mat.ofFn N (form 0).width x) (Mat.ofFn N D y) k s' = .ok s₂' ∧ SameSt s₂ s₂' := by
  have htt : s'.t = s.t := hs.t
  have hruns' : s.t.Runs s'.w n d form kinds := by rw [← htt]; exact h'.runs
  obtain ⟨w₁, t₁, a1, a3, a5, a6⟩ := epochTrain_fits (ab := fun x => |x|) (eps := eps) he.batch h.runs (D := D) (Γ := Γ) (by rw [h.loss]; exact hlo) h.weight hB h.batch x y hX
    (by rw [h.loss]; exact hT) k
  obtain ⟨v₁, t₁', b1, b3, -⟩ := epochTrain_fits (ab := fun x => |x|) (eps := eps) (hef.exact he).batch hruns' (D := D) (Γ := Γ) (by rw [h.loss]; exact hlo) h.weight hB h.batch x y hX
    (by rw [h.loss]; exact hT) k
  obtain ⟨w₁', v₁', t₁'', c1, c1', c2⟩ := epochTrain_twin (eps := eps) he hef hs.w h.runs hruns' (D := D) (Γ := Γ) (by rw [h.loss]; exact hl) (by rw [h.loss]; exact hlo) h.weight hB
    h.batch x y hX (by rw [h.loss]; exact hT) k
  obtain ⟨rfl, rfl⟩ : w₁ = w₁' ∧ t₁ = t₁'' := by rw [a1] at c1; injection c1 with c1; injection c1 with x y; exact ⟨x, y⟩
  obtain ⟨rfl, rfl⟩ : v₁ = v₁' ∧ t₁' = t₁ := by rw [b1] at c1'; injection c1' with c1'; injection c1' with x y; exact ⟨x, y⟩
  have fr := a5.frame h.owned
  have tloss : t₁'.loss = t₀.loss := by rw [← a6]; exact h.loss
  have tweight : t₁'.lossWeight.size = 0 := by rw [← a6]; exact h.weight
  have tvalid : t₁'.valid = t₀.valid := by rw [← a6]; exact h.valid
  have tvb : t₁'.valBatch = t₀.valBatch := by rw [← a6]; exact h.valBatch
  have tpat : t₁'.patience = t₀.patience ∧ t₁'.curPatience ≤ k := by rw [← a6]; exact h.patience
  obtain ⟨w₂, v₂, t₂, l, a, d1, d1', d2, d3, d4, d5, d6, d7⟩ := evalValid_twin (eps := eps) he hef c2 a3 b3 (by rw [tloss]; exact hl) tweight (by rw [tvb]; exact hvb)
    (by rw [tloss, tvalid]; exact hv) k
  have fr2 := d5.frame fr.owned
  unfold epochStep at hk ⊢
  rw [a1, bind_ok'] at hk
  dsimp only at hk
  rw [d1, bind_ok'] at hk
  dsimp only at hk
  obtain ⟨s₃, k1, k2⟩ := ok_bind hk
  injection k2 with k2
  have same1 : SameSt { s with w := w₂, t := t₂, seen := s.seen ++ [layersOf w₂ n] } { s' with w := v₂, t := t₂, seen := s'.seen ++ [layersOf v₂ n] } := by
    refine ⟨d2, rfl, hs.minLoss, hs.maxAcc, hs.iReboost, ?_⟩
    simp only [List.map_append, hs.seen, List.map_cons, List.map_nil, layersOf_core d2 n]
  obtain ⟨s₃', m1, m2, m3⟩ := bestStep_twin (f := f) hb same1 d3.ready d4.ready fr2.owned (by show t₂.curPatience ≤ _; rw [d6]; exact tpat.2)
    (by show t₂.patience = -1 ∨ _ < t₂.patience; rw [d7, tpat.1]; exact hp) k1
  subst k2
  rw [htt, c1', bind_ok']
  dsimp only
  rw [d1', bind_ok']
  dsimp only
  rw [m1, bind_ok']
  refine ⟨_, rfl, reboostStep_twin m2 ?_⟩
  rw [m3]
  exact d3.ok.opts

/-- Everything before the first epoch in two runs. -/
theorem start_twin {eps : ℝ} {e f : FitEnv} (he : ExactEnv e) (hef : e.Twin f) {w v : World} (hcore : v.core = w.core) {t : Trainer} {n b d : Nat} {form : Nat → Form}
    {kinds : Nat → LayerKind} (h : t.Runs w n d form kinds) (h' : t.Runs v n d form kinds) (ho : Owned w) (hb : b ≠ n) (hbal : t.balancing = false) (hl : t.loss ∈ listLoss)
    (hval : 0 < t.valBatch) {x y : Mat ℝ} (hxy : EvalData t.loss form d (x, y)) (hv : ∀ data, t.valid = some data → EvalData t.loss form d data) {s : FitSt}
    (hs : start (fun x => |x|) eps e n b x y w t = .ok s) : ∃ s', start (fun x => |x|) eps f n b x y v t = .ok s' ∧ SameSt s s' := by
  have cw : ∀ (g : Nat → ℝ) (z : ℝ) (c : Bool), classWeights g z c t.balancing t.train = .ok ⟨0, 0, []⟩ := by
    intro g z c
    unfold classWeights
    rw [if_pos (.inr (by simp [hbal]))]
  unfold start at hs ⊢
  rw [cw, bind_ok'] at hs ⊢
  dsimp only at hs ⊢
  rw [optsInit_twin (g := f.g) (g' := e.g) h.ok.opts]
  have g2 := (h.init e.g)
  have g2' := (h'.init e.g)
  obtain ⟨t₂, ht₂⟩ : ∃ t₂ : Trainer, t₂ = { t with
      lossWeight := ⟨0, 0, []⟩, trainLoss := [], valLoss := [], trainAcc := [], valAcc := [], curTrainLoss := 1e10, curTrainAcc := 0
      curValLoss := 1e10, curValAcc := 0, curPatience := 0, batchAdj := adjustBatch t.batchSize x.rows
      opts := t.opts.map (Opt.init e.g) } := ⟨_, rfl⟩
  rw [← ht₂] at hs ⊢
  have r1 : t₂.Runs w n d form kinds := by rw [ht₂]; exact g2.congr rfl
  have r2 : t₂.Runs v n d form kinds := by rw [ht₂]; exact g2'.congr rfl
  have k1 : t₂.loss = t.loss := by rw [ht₂]
  have k2 : t₂.lossWeight.size = 0 := by rw [ht₂]; rfl
  have k4 : t₂.valid = t.valid := by rw [ht₂]
  have k5 : t₂.valBatch = t.valBatch := by rw [ht₂]
  clear ht₂
  obtain ⟨⟨w₁, l, a⟩, c1, c2⟩ := ok_bind hs
  injection c2 with c2
  unfold initialBest at c1 ⊢
  split at c1
  · rename_i hkb
    rw [if_pos hkb]
    obtain ⟨w₂, v₂, l₂, a₂, d1, d1', d2, d3, d4, d5⟩ := eval_twin (eps := eps) (e := e.eval 0) (f := f.eval 0) (he.eval 0) (hef.eval 0) hcore r1 r2 (by rw [k1]; exact hl) k2
      (by rw [k5]; exact hval) (data := t₂.valid.getD (x, y)) (by
        rw [k4, k1]
        cases hv' : t.valid with
        | none => exact hxy
        | some data => exact hv data hv')
    rw [d1, bind_ok'] at c1
    dsimp only at c1
    obtain ⟨w₃, m1, m2⟩ := ok_bind c1
    injection m2 with m2
    injection m2 with m2 m3
    injection m3 with m3 m4
    subst m2 m3 m4
    obtain ⟨v₃, n1, n2⟩ := Ready.assign_twin (f := f.copy 0) d2 d3.ready d4.ready (d5.frame ho).owned hb m1
    subst c2
    refine ⟨⟨v₃, t₂, l₂, a₂, 0, []⟩, ?_, n2, rfl, rfl, rfl, rfl, rfl⟩
    rw [d1', bind_ok']
    dsimp only
    rw [n1, bind_ok']
    rfl
  · rename_i hkb
    rw [if_neg hkb]
    injection c1 with c1
    injection c1 with m2 m3
    injection m3 with m3 m4
    subst m2 m3 m4 c2
    exact ⟨⟨v, t₂, 1e10, 0, 0, []⟩, rfl, hcore, rfl, rfl, rfl, rfl, rfl⟩

/-- `fit` in two runs. -/
theorem fit_twin {eps : ℝ} {e f : FitEnv} (he : ExactEnv e) (hef : e.Twin f) {w v : World} (hcore : v.core = w.core) {t : Trainer} {n b d : Nat} {form : Nat → Form}
    {kinds : Nat → LayerKind} (h : Ready w n d form kinds) (h' : Ready v n d form kinds)
    (hd : 0 < d) (ho : Owned w) (hb : b ≠ n) (hbe : (w.nets b).layers = []) (hi : ∀ m ∈ t.inOut, m.WF) (hg : ∀ m ∈ t.gradient, m.WF)
    {o : OptKind} (hk : createOptimizer t.optName = some o) {N D : Nat} (hN : 0 < N) (x y : Nat → Row) (htr : t.train = some (Mat.ofFn N (form 0).width x, Mat.ofFn N D y))
    (hX : (form 0).Holds N (Mat.ofFn N (form 0).width x)) (hT : TruthFits t.loss (form d).width D N y)
    (hv : ∀ data, t.valid = some data → EvalData t.loss form d data) (hvb : 0 < t.valBatch) (hbs : 0 ≤ t.batchSize) (hbal : t.balancing = false)
    (hl : t.loss ∈ listLoss) {Γ : Row → Row → Row} (hlo : LossOk (fun x => |x|) eps t.loss (form d).width D Γ) (hpat : t.patience = -1 ∨ t.epochs ≤ t.patience) :
    ∃ w' v' t' seen seen', fit (fun x => |x|) eps e w t n b = .ok (w', t', seen) ∧ fit (fun x => |x|) eps f v t n b = .ok (v', t', seen') ∧ v'.core = w'.core ∧
      seen'.map (List.map (Option.map Layer.core)) = seen.map (List.map (Option.map Layer.core)) := by
  have ho' := World.core_owned hcore ho
  have hbe' : (v.nets b).layers = [] := by rw [World.core_nets hcore]; exact hbe
  obtain ⟨w₁, t₁, s1, s2, s3, s5⟩ := setNet_fits (g := e.g) h hd hi hg hk
  obtain ⟨v₁, t₁', z1, z2, z3, -⟩ := setNet_fits (g := f.g) h' hd hi hg hk
  obtain ⟨v₁', y1, y2⟩ := setNet_twin (g' := f.g) hcore s1
  obtain ⟨rfl, rfl⟩ : v₁ = v₁' ∧ t₁' = t₁ := by rw [z1] at y1; injection y1 with y1; injection y1 with x y; exact ⟨x, y⟩
  obtain ⟨B, q1, q2, q3, -⟩ := C50_adjusted t.batchSize N hbs hN
  have ow : Owned w₁ := by
    obtain ⟨o1, -⟩ := setNet_inv hb ho (h.layers.allValid fun _ _ hp => hp.1.valid) (by rw [hbe]; intro a ha; cases ha) hi hg s1
    exact (o1.stage.frame ho).owned
  have ow' : Owned v₁ := World.core_owned y2 ow
  have tnb : t₁'.nbLayers ≠ 0 := by rw [s2.nb]; omega
  have f1 : t₁'.train = t.train := by rw [← s5]
  have f2 : t₁'.valid = t.valid := by rw [← s5]
  have f3 : t₁'.valBatch = t.valBatch := by rw [← s5]
  have f4 : t₁'.batchSize = t.batchSize := by rw [← s5]
  have f5 : t₁'.balancing = false := by rw [← s5]; exact hbal
  have f6 : t₁'.patience = t.patience := by rw [← s5]
  have f7 : t₁'.loss = t.loss := by rw [← s5]
  have f8 : t₁'.keepBest = t.keepBest := by rw [← s5]
  have f9 : t₁'.epochs = t.epochs := by rw [← s5]
  have eT : TruthFits t₁'.loss (form d).width D N y := by rw [f7]; exact hT
  have eV : ∀ data, t₁'.valid = some data → EvalData t₁'.loss form d data := by rw [f2, f7]; exact hv
  have evb : 0 < t₁'.valBatch := by rw [f3]; exact hvb
  have el : t₁'.loss ∈ listLoss := by rw [f7]; exact hl
  have eo : LossOk (fun x => |x|) eps t₁'.loss (form d).width D Γ := by rw [f7]; exact hlo
  have hf := hef.exact he
  obtain ⟨s, u1, u2⟩ := start_fits (eps := eps) he s2 ow hb x y eT eV evb f5 el (B := B) (by rw [f4]; exact q1)
  obtain ⟨s', u1', u2'⟩ := start_fits (eps := eps) hf z2 ow' hb x y eT eV evb f5 el (B := B) (by rw [f4]; exact q1)
  obtain ⟨s'', u3, u4⟩ := start_twin (eps := eps) he hef y2 s2 z2 ow hb f5 el evb (x := Mat.ofFn N (form 0).width x) (y := Mat.ofFn N D y) ⟨N, D, x, y, eT, rfl⟩ eV u1
  obtain rfl : s' = s'' := by rw [u1'] at u3; injection u3
  have hfit : ∀ {e : FitEnv} {w w₁ : World} {s : FitSt}, setNet e.g w t n = .ok (w₁, t₁') →
      start (fun x => |x|) eps e n b (Mat.ofFn N (form 0).width x) (Mat.ofFn N D y) w₁ t₁' = .ok s → fit (fun x => |x|) eps e w t n b = (do
        let s ← forN t.epochs.toNat (epochStep (fun x => |x|) eps e n b (Mat.ofFn N (form 0).width x) (Mat.ofFn N D y)) s
        let s ← finish e n b s
        return (s.w, s.t, s.seen)) := by
    intro e w w₁ s s1 u1
    unfold fit
    rw [s1, bind_ok']
    dsimp only
    rw [if_neg tnb, f1, htr]
    dsimp only
    rw [u1, bind_ok', f9]
  obtain ⟨s₁, s₁', v1, v1', v2, v3, v4⟩ := forN_twin (n := t.epochs.toNat) (fun k s s' => FitInv t₁' n b d form kinds B k s ∧ FitInv t₁' n b d form kinds B k s' ∧ SameSt s s')
    (f := epochStep (fun x => |x|) eps e n b (Mat.ofFn N (form 0).width x) (Mat.ofFn N D y))
    (g := epochStep (fun x => |x|) eps f n b (Mat.ofFn N (form 0).width x) (Mat.ofFn N D y)) (s := s) (t := s') ⟨u2, u2', u4⟩ (by
      rintro i hi s s' ⟨i1, i2, i3⟩
      have ep : t₁'.patience = -1 ∨ (i : Int) < t₁'.patience := by rw [f6]; exact hpat.imp_right fun h => by omega
      obtain ⟨s₂, j1, j2⟩ := epochStep_fits (eps := eps) he hb q2 el eo eV evb x y hX eT i1 ep
      obtain ⟨s₂', j1', j2'⟩ := epochStep_fits (eps := eps) hf hb q2 el eo eV evb x y hX eT i2 ep
      obtain ⟨s₃, j3, j4⟩ := epochStep_twin (eps := eps) he hef hb q2 el eo eV evb x y hX eT i3 i1 i2 ep j1
      obtain rfl : s₂' = s₃ := by rw [j1'] at j3; injection j3
      exact ⟨s₂, s₂', j1, j1', j2, j2', j4⟩)
  obtain ⟨w₃, v₃, x1, x1', x2, x3⟩ : ∃ w₃ v₃ : World, restoreBest e n b s₁ = .ok w₃ ∧ restoreBest f n b s₁' = .ok v₃ ∧ v₃.core = w₃.core ∧ Owned w₃ := by
    unfold restoreBest
    rw [v4.t]
    by_cases hkb : t₁'.keepBest = true
    · obtain ⟨w₃, d1, d2, d4⟩ := (v2.best hkb).assign (e := e.copy (2 * s₁.t.epochs.toNat + 1)) v2.owned hb.symm
      obtain ⟨v₃, d1', d5⟩ := Ready.assign_twin (f := f.copy (2 * s₁.t.epochs.toNat + 1)) v4.w (v2.best hkb) (v3.best hkb) v2.owned hb.symm d1
      exact ⟨w₃, v₃, by rw [if_pos (v2.keep.trans hkb)]; exact d1, by rw [if_pos (v2.keep.trans hkb)]; exact d1', d5, d4.owned⟩
    · exact ⟨s₁.w, s₁'.w, by rw [if_neg (by rw [v2.keep]; exact hkb)], by rw [if_neg (by rw [v2.keep]; exact hkb)], v4.w, v2.owned⟩
  obtain ⟨w₄, k1, -⟩ := World.clear_ok x3 b
  obtain ⟨v₄, k2, k3⟩ := World.clear_twin x2 k1
  refine ⟨w₄, v₄, s₁.t, s₁.seen, s₁'.seen, ?_, ?_, k3, v4.seen⟩
  · rw [hfit s1 u1, v1, bind_ok', finish, x1, bind_ok', k1, bind_ok', pure_ok]
    rfl
  · rw [hfit z1 u1', v1', bind_ok', finish, x1', bind_ok', k2, bind_ok', pure_ok, ← v4.t]
    rfl

end Trainer

end BeeDNN
