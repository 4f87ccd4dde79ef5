import Verif.Spec.KMeansTwin
import Verif.Lemmas.KMeansBox

/-! # Lemmas: KMeans training and uninitialised memory -/

namespace BeeDNN
open Finset

theorem forN_congr_inv {σ : Type} (P : σ → Prop) {n : Nat} {f g : Nat → σ → Out σ} {s : σ} (h0 : P s)
    (h : ∀ i, i < n → ∀ s, P s → f i s = g i s ∧ ∀ s', f i s = .ok s' → P s') :
    forN n f s = forN n g s ∧ ∀ s', forN n f s = .ok s' → P s' := by
  induction n with
  | zero => exact ⟨rfl, fun s' hs => by cases hs; exact h0⟩
  | succ n ih =>
    obtain ⟨a, b⟩ := ih (fun i hi => h i (by omega))
    rw [forN_succ, forN_succ, ← a]
    cases hx : forN n f s with
    | error e => exact ⟨rfl, fun s' hs => by cases hs⟩
    | ok t =>
      change f n t = g n t ∧ ∀ s', f n t = .ok s' → P s'
      exact h n (by omega) t (b t hx)

theorem KMeans.assign_any (g g' : Nat → ℝ) {k k' o : KMeans} (h1 : k.refs.WF) (h2 : k.cls.WF) (h1' : k'.refs.WF) (h2' : k'.cls.WF)
    (h3 : o.refs.WF) (h4 : o.cls.WF) : k.assign g o = k'.assign g' o := by
  unfold KMeans.assign
  rw [Mat.assign_eq g h1 h3, bind_ok', Mat.assign_eq g h2 h4, bind_ok', Mat.assign_eq g' h1' h3, bind_ok', Mat.assign_eq g' h2' h4, bind_ok']

namespace KMeansTrain

variable {e f : KmEnv}

theorem nearest_twin (hef : e.Twin f) (hab : e.ab = fun x => |x|) {k : KMeans} {n C : Nat} {V : Nat → Row} {cls : Nat → ℝ}
    {loss : String} (h : HasRefs k n C V cls loss) (hl : DistLoss loss C) (hC : 0 < C) {N : Nat} (x : Nat → Row) {i : Nat} (hi : i < N)
    (c : Int) : nearest e k (Mat.ofFn N C x) i c = nearest f k (Mat.ofFn N C x) i c := by
  have hd := h.dist hl hC e.g e.eps
  have hd' := h.dist hl hC f.g e.eps
  unfold nearest
  rw [h.refs, Mat.ofFn_rows, h.cls]
  refine (forN_congr_inv (fun _ => True) trivial fun q hq b _ => ⟨?_, fun _ _ => trivial⟩).1
  rw [Mat.getI_ofFn_col hq, bind_ok', bind_ok', Mat.row_ofFn hi, bind_ok', bind_ok', Mat.row_ofFn hq, bind_ok', bind_ok', hef.ab, hef.eps, hab,
    hd (x i) q hq, hd' (x i) q hq]

theorem computeAccuracy_twin (hef : e.Twin f) (hab : e.ab = fun x => |x|) {t t' : KMeansTrain} (hv : 0 < t.valBatch) (htt : t'.valBatch = t.valBatch)
    {k : KMeans} {n C : Nat} {V : Nat → Row} {cls : Nat → ℝ} {loss : String}
    (h : HasRefs k n C V cls loss) (hl : DistLoss loss C) (hn : 0 < n) (hC : 0 < C) {N : Nat} (hN : 0 < N) (x : Nat → Row) (lab : Nat → ℝ) :
    t.computeAccuracy e k (Mat.ofFn N C x) (Mat.ofFn N 1 (fun i _ => lab i)) =
      t'.computeAccuracy f k (Mat.ofFn N C x) (Mat.ofFn N 1 (fun i _ => lab i)) := by
  rcases computeAccuracy_either hab hv h hl hn hC hN x lab with ⟨a, b⟩ | ⟨a, b⟩ <;>
    rcases computeAccuracy_either (e := f) (hef.ab.trans hab) (t := t') (by omega) h hl hn hC hN x lab with ⟨c, d⟩ | ⟨c, d⟩ <;>
    rw [hef.eps] at c
  · rw [b, d, hef.eps]
  · exact absurd a c
  · exact absurd c a
  · rw [b, d]

/-- The matrices of an epoch have their sizes. -/
def EpShape (n C : Nat) (cls : Nat → ℝ) (loss : String) (s : EpSt) : Prop :=
  (∃ V, HasRefs s.km n C V cls loss) ∧ (∃ c : Nat → Nat → ℝ, s.cen = Mat.ofFn n C c) ∧ ∃ c : Nat → Nat → ℝ, s.cnt = Mat.ofFn n 1 c

theorem addSample_shape {s : EpSt} {n C : Nat} {cls : Nat → ℝ} {loss : String} (h : EpShape n C cls loss s) {N : Nat} (x : Nat → Row) {p : Nat}
    (hp : p < N) {pos : Int} (hpos : pos = -1 ∨ ∃ r : Nat, pos = r ∧ r < n) :
    ∃ s', addSample (Mat.ofFn N C x) p pos s = .ok s' ∧ EpShape n C cls loss s' := by
  obtain ⟨h1, ⟨c, h2⟩, c', h3⟩ := h
  unfold addSample
  rcases hpos with rfl | ⟨r, rfl, hr⟩
  · exact ⟨s, if_pos rfl, h1, ⟨c, h2⟩, c', h3⟩
  · rw [if_neg (by omega), Int.toNat_natCast, Mat.row_ofFn hp, bind_ok', h2, Mat.rowVecAssign_ofFn _ hr, bind_ok', h3,
      Mat.getI_ofFn_col hr, bind_ok', Mat.setI_col hr, bind_ok']
    exact ⟨_, rfl, h1, ⟨fun i j => if i = r then c i j + x p j else c i j, rfl⟩, ⟨fun i j => if i = r then c' r 0 + 1 else c' i j, rfl⟩⟩

theorem update_shape {s : EpSt} {n C : Nat} {cls : Nat → ℝ} {loss : String} (h : EpShape n C cls loss s) (b : Int) :
    ∃ s', update b s = .ok s' ∧ EpShape n C cls loss s' := by
  obtain ⟨⟨V, h1⟩, ⟨c, h2⟩, c', h3⟩ := h
  obtain ⟨V', hV'⟩ : ∃ V' : Nat → Row, V' = fun r j => if c' r 0 ≠ 0 then c r j / c' r 0 else V r j := ⟨_, rfl⟩
  unfold update
  rw [h1.refs, h2, h3, Mat.ofFn_rows]
  rw [Mat.forN_eachRow (e := V')
    (fun r hr f' hf' => by
      rw [Mat.getI_ofFn_col hr, bind_ok']
      by_cases hc : c' r 0 ≠ 0
      · rw [if_pos hc, Mat.row_ofFn hr, bind_ok', Mat.divScalar_ofFn, bind_ok', Mat.rowAssign_ofFn hr]
        simp only [hV', if_pos hc]
      · rw [if_neg hc]
        refine congrArg Except.ok (Mat.ofFn_congr fun i j _ hj => ?_)
        by_cases hir : i = r
        · subst hir
          simp only [if_true, hV', if_neg hc]
          exact hf' j hj
        · simp only [if_neg hir]), bind_ok', Mat.setConstant_ofFn, bind_ok', Mat.setConstant_ofFn, bind_ok']
  exact ⟨_, rfl, ⟨V', rfl, h1.cls, h1.loss⟩, ⟨fun _ _ => 0, rfl⟩, ⟨fun _ _ => 0, rfl⟩⟩

theorem epoch_twin (hef : e.Twin f) (hab : e.ab = fun x => |x|) {n C : Nat} {cls : Nat → ℝ} {loss : String} (hl : DistLoss loss C) (hC : 0 < C)
    {N : Nat} (b : Int) (x : Nat → Row) (lab : Nat → Int) (hlab : ∀ i, i < N → -2147483649 < lab i ∧ lab i < 2147483648) {p : List Nat}
    (hp : p.Perm (List.range N)) {s : EpSt} (h : EpShape n C cls loss s) :
    epoch e b (Mat.ofFn N C x) (Mat.ofFn N 1 (fun i _ => (lab i : ℝ))) p s =
      epoch f b (Mat.ofFn N C x) (Mat.ofFn N 1 (fun i _ => (lab i : ℝ))) p s := by
  unfold epoch
  rw [Mat.ofFn_rows]
  refine (forN_congr_inv (EpShape n C cls loss) (s := { s with next := b }) h fun i hi s hs => ?_).1
  have hi' : i < p.length := by rw [hp.length_eq, List.length_range]; exact hi
  have hq : p[i] < N := List.mem_range.1 (hp.mem_iff.1 (List.getElem_mem hi'))
  rw [rd_of_lt hi', bind_ok', bind_ok', Mat.getI_ofFn_col hq, bind_ok', bind_ok', toInt_int (hlab _ hq).1 (hlab _ hq).2, bind_ok', bind_ok']
  obtain ⟨V, hV⟩ := hs.1
  rw [← nearest_twin hef hab hV hl hC x hq]
  refine ⟨rfl, fun s' hs' => ?_⟩
  obtain ⟨r, h1, h2⟩ := nearest_ok hab hV hl hC x hq (lab p[i])
  obtain ⟨s₁, h3, h4⟩ := addSample_shape hs x hq (pos := r.2) (by
    rcases h2 with ⟨h2, -⟩ | ⟨q, h2, h5⟩
    · exact .inl h2
    · exact .inr ⟨q, h2, h5.1⟩)
  rw [h1, bind_ok', h3, bind_ok'] at hs'
  split at hs'
  · obtain ⟨s₂, h5, h6⟩ := update_shape h4 b
    rw [h5] at hs'
    cases hs'
    exact h6
  · cases hs'
    exact h4

/-- The state of `fit` between epochs. -/
structure FitShape (t : KMeansTrain) (n C : Nat) (cls : Nat → ℝ) (loss : String) (s : FitSt) : Prop where
  ep : ∃ V, HasRefs s.ep.km n C V cls loss
  cen : s.ep.cen = Mat.ofFn n C (fun _ _ => 0)
  cnt : s.ep.cnt = Mat.ofFn n 1 (fun _ _ => 0)
  best : s.best.refs.WF ∧ s.best.cls.WF
  valid : s.t.valid = t.valid
  valBatch : s.t.valBatch = t.valBatch
  keepBest : s.t.keepBest = t.keepBest

theorem scoreEpoch_twin (hef : e.Twin f) (hab : e.ab = fun x => |x|) {t : KMeansTrain} (hv : 0 < t.valBatch) {k : KMeans} {n C : Nat} {V : Nat → Row}
    {cls : Nat → ℝ} {loss : String} (h : HasRefs k n C V cls loss) (hl : DistLoss loss C) (hn : 0 < n) (hC : 0 < C) {N : Nat} {x : Nat → Row} {y : Nat → ℝ}
    {M : Nat} (hM : 0 < M) {xv : Nat → Row} {yv : Nat → ℝ} (hE : KmEval t C N x y M xv yv) (a : ℝ) : scoreEpoch e t k a = scoreEpoch f t k a := by
  unfold scoreEpoch
  rcases hE with ⟨h1, -⟩ | h1
  · rw [h1]
  · rw [h1]
    dsimp only
    rw [computeAccuracy_twin hef hab hv rfl h hl hn hC hM xv yv]

theorem scoreEpoch_keeps {t t' : KMeansTrain} {k : KMeans} {a b : ℝ} (h : scoreEpoch e t k a = .ok (t', b)) :
    t'.valid = t.valid ∧ t'.valBatch = t.valBatch ∧ t'.keepBest = t.keepBest := by
  unfold scoreEpoch at h
  split at h
  · cases h
    exact ⟨rfl, rfl, rfl⟩
  · obtain ⟨v, -, h⟩ := ok_bind h
    cases h
    exact ⟨rfl, rfl, rfl⟩

theorem epochStep_twin (hef : e.Twin f) (hab : e.ab = fun x => |x|) {t : KMeansTrain} (hv : 0 < t.valBatch) {n C : Nat}
    {cls : Nat → ℝ} {loss : String} (hl : DistLoss loss C) (hn : 0 < n) (hC : 0 < C) {N : Nat} (hN : 0 < N) {b : Int} (hb : b ≠ 0) (x : Nat → Row)
    (lab : Nat → Int) (hlab : ∀ i, i < N → -2147483649 < lab i ∧ lab i < 2147483648)
    {M : Nat} (hM : 0 < M) {xv : Nat → Row} {yv : Nat → ℝ} (hE : KmEval t C N x (fun i => (lab i : ℝ)) M xv yv) (i : Nat) {s : FitSt}
    (h : FitShape t n C cls loss s) :
    epochStep e b (Mat.ofFn N C x) (Mat.ofFn N 1 (fun i _ => (lab i : ℝ))) i s =
        epochStep f b (Mat.ofFn N C x) (Mat.ofFn N 1 (fun i _ => (lab i : ℝ))) i s ∧
      ∀ s', epochStep e b (Mat.ofFn N C x) (Mat.ofFn N 1 (fun i _ => (lab i : ℝ))) i s = .ok s' → FitShape t n C cls loss s' := by
  obtain ⟨V, hV⟩ := h.ep
  unfold epochStep
  rw [Mat.ofFn_rows, hef.shuffle]
  obtain ⟨p, h1, h2⟩ := randPerm_perm (e.shuffle i) N
  rw [h1, bind_ok', bind_ok']
  rw [← epoch_twin hef hab hl hC b x lab hlab h2 (s := s.ep) ⟨h.ep, ⟨_, h.cen⟩, _, h.cnt⟩]
  obtain ⟨s₁, V', h3, -, h4, h5, h6⟩ := epoch_ok hab hl hC hN hb x lab hlab h2 hV h.cen h.cnt
  rw [h3, bind_ok', bind_ok']
  rw [← computeAccuracy_twin (t' := s.t) hef hab (t := s.t) (by rw [h.valBatch]; exact hv) rfl h4 hl hn hC hN x (fun i => (lab i : ℝ))]
  cases hacc : s.t.computeAccuracy e s₁.km (Mat.ofFn N C x) (Mat.ofFn N 1 (fun i _ => (lab i : ℝ))) with
  | error er => exact ⟨rfl, fun s' hs => by cases hs⟩
  | ok a =>
    rw [bind_ok', bind_ok']
    dsimp only
    have hE' : KmEval { s.t with trainAcc := a } C N x (fun i => (lab i : ℝ)) M xv yv := by
      rcases hE with hE | hE
      · exact .inl ⟨h.valid.trans hE.1, hE.2⟩
      · exact .inr (h.valid.trans hE)
    rw [← scoreEpoch_twin hef hab (t := { s.t with trainAcc := a }) (by change 0 < s.t.valBatch; rw [h.valBatch]; exact hv) h4 hl hn hC hM hE' a]
    cases hsc : scoreEpoch e { s.t with trainAcc := a } s₁.km a with
    | error er => exact ⟨rfl, fun s' hs => by cases hs⟩
    | ok r =>
      rw [bind_ok', bind_ok']
      obtain ⟨t', sel⟩ := r
      obtain ⟨k1, k2, k3⟩ := scoreEpoch_keeps hsc
      dsimp only
      obtain ⟨w1, w2⟩ := h4.wf
      rw [KMeans.assign_any f.g e.g h.best.1 h.best.2 h.best.1 h.best.2 w1 w2]
      refine ⟨rfl, fun s' hs => ?_⟩
      split at hs
      · unfold KMeans.assign at hs
        rw [Mat.assign_eq _ h.best.1 w1, bind_ok', Mat.assign_eq _ h.best.2 w2, bind_ok', pure_ok, bind_ok'] at hs
        cases hs
        exact ⟨⟨V', h4⟩, h5, h6, ⟨w1, w2⟩, k1.trans h.valid, k2.trans h.valBatch, k3.trans h.keepBest⟩
      · cases hs
        exact ⟨⟨V', h4⟩, h5, h6, h.best, k1.trans h.valid, k2.trans h.valBatch, k3.trans h.keepBest⟩

theorem initRefs_sizes {x y : Mat ℝ} {k k' : KMeans} (h : initRefs e x y k = .ok k') : k'.nbRef = k.nbRef ∧ k'.inputSize = k.inputSize := by
  unfold initRefs at h
  have := (forN_congr_inv (fun k' : KMeans => k'.nbRef = k.nbRef ∧ k'.inputSize = k.inputSize) (n := k.refs.rows) (s := k)
    (f := fun i (km : KMeans) => do
      if x.rows = 0 then .error .divByZero
      else do
        let p := e.pick i % x.rows
        let r ← x.row p
        let refs ← km.refs.rowAssign i r
        let c ← y.row p
        let cls ← km.cls.rowAssign i c
        return { km with refs := refs, cls := cls }) ⟨rfl, rfl⟩ (fun i _ s hs => ⟨rfl, fun s' hs' => by
      split at hs'
      · cases hs'
      · obtain ⟨_, -, hs'⟩ := ok_bind hs'
        obtain ⟨_, -, hs'⟩ := ok_bind hs'
        obtain ⟨_, -, hs'⟩ := ok_bind hs'
        obtain ⟨_, -, hs'⟩ := ok_bind hs'
        cases hs'
        exact hs⟩)).2
  exact this k' h

theorem firstBest_twin (hef : e.Twin f) (hab : e.ab = fun x => |x|) {t : KMeansTrain} (hv : 0 < t.valBatch) {k : KMeans} {n C : Nat} {V : Nat → Row}
    {cls : Nat → ℝ} {loss : String} (h : HasRefs k n C V cls loss) (hl : DistLoss loss C) (hn : 0 < n) (hC : 0 < C) {N : Nat} (hN : 0 < N) {x : Nat → Row} {y : Nat → ℝ}
    {M : Nat} (hM : 0 < M) {xv : Nat → Row} {yv : Nat → ℝ} (hE : KmEval t C N x y M xv yv) :
    firstBest e t k (Mat.ofFn N C x) (Mat.ofFn N 1 (fun i _ => y i)) = firstBest f t k (Mat.ofFn N C x) (Mat.ofFn N 1 (fun i _ => y i)) := by
  unfold firstBest
  obtain ⟨w1, w2⟩ := h.wf
  rw [KMeans.assign_any e.g f.g (k := {}) (k' := {}) rfl rfl rfl rfl w1 w2]
  split
  · rcases hE with ⟨h1, -⟩ | h1
    · rw [h1]
      dsimp only
      rw [computeAccuracy_twin hef hab hv rfl h hl hn hC hN x y]
    · rw [h1]
      dsimp only
      rw [computeAccuracy_twin hef hab hv rfl h hl hn hC hM xv yv]
  · rfl

theorem firstBest_wf {t : KMeansTrain} {k : KMeans} {x y : Mat ℝ} (h1 : k.refs.WF) (h2 : k.cls.WF) {a : ℝ} {best : KMeans}
    (h : firstBest e t k x y = .ok (a, best)) : best.refs.WF ∧ best.cls.WF := by
  unfold firstBest at h
  split at h
  · obtain ⟨a', -, h⟩ := ok_bind h
    obtain ⟨b, hb, h⟩ := ok_bind h
    cases h
    unfold KMeans.assign at hb
    rw [Mat.assign_eq _ (show ({} : KMeans).refs.WF by rfl) h1, bind_ok', Mat.assign_eq _ (show ({} : KMeans).cls.WF by rfl) h2, bind_ok'] at hb
    cases hb
    exact ⟨h1, h2⟩
  · cases h
    exact ⟨rfl, rfl⟩

theorem fit_eq {t t₁ : KMeansTrain} {k : KMeans} {n C : Nat} {V : Nat → Row} {cls : Nat → ℝ} {loss : String} (h : HasRefs k n C V cls loss) {N : Nat}
    {x : Nat → Row} {y : Mat ℝ} (ht : t.train = some (Mat.ofFn N C x, y)) (ht₁ : t₁ = { t with trainAcc := 0, valAcc := 0 }) {b : Int}
    (hb : b = if t.batchSize > (N : Int) ∨ t.batchSize = 0 then (N : Int) else t.batchSize) :
    t.fit e (some k) = (do
      let r ← firstBest e t₁ k (Mat.ofFn N C x) y
      let km ← initRefs e (Mat.ofFn N C x) y k
      let s ← forN t.epochs.toNat (epochStep e b (Mat.ofFn N C x) y) ⟨t₁, ⟨km, Mat.ofFn n C (fun _ _ => 0), Mat.ofFn n 1 (fun _ _ => 0), b⟩, r.1, r.2⟩
      if t.keepBest then do
        let km ← s.ep.km.assign e.g s.best
        return (s.t, some km)
      else return (s.t, some s.ep.km)) := by
  have ht₂ : ({ t with train := some (Mat.ofFn N C x, y), trainAcc := 0, valAcc := 0 } : KMeansTrain) = t₁ := by rw [ht₁, ← ht]
  unfold fit
  dsimp only
  rw [ht]
  dsimp only
  rw [h.refs, Mat.ofFn_rows, Mat.ofFn_cols, Mat.setConstantRC_ofFn _ (by rfl), bind_ok', Mat.setConstantRC_ofFn _ (by rfl), bind_ok', ← ht₂, hb]
  rfl

theorem fit_twin (hef : e.Twin f) (hab : e.ab = fun x => |x|) {t : KMeansTrain} (hv : 0 < t.valBatch) {k k' : KMeans} {n C : Nat} {loss : String}
    (h : KmSized k n C loss) (h' : KmSized k' n C loss) (hl : DistLoss loss C) (hn : 0 < n) (hC : 0 < C) {N : Nat} (hN : 0 < N) (x : Nat → Row) (lab : Nat → Int)
    (hlab : ∀ i, i < N → -2147483649 < lab i ∧ lab i < 2147483648) (ht : t.train = some (Mat.ofFn N C x, Mat.ofFn N 1 (fun i _ => (lab i : ℝ))))
    {M : Nat} (hM : 0 < M) {xv : Nat → Row} {yv : Nat → ℝ} (hE : KmEval t C N x (fun i => (lab i : ℝ)) M xv yv)
    (hk : t.keepBest = true → k' = k) : t.fit e (some k) = t.fit f (some k') := by
  obtain ⟨V, hV⟩ := h.refs
  obtain ⟨c, hc⟩ := h.cls
  obtain ⟨V', hV'⟩ := h'.refs
  obtain ⟨c', hc'⟩ := h'.cls
  have hr : HasRefs k n C V c loss := ⟨hV, hc, h.loss⟩
  have hr' : HasRefs k' n C V' c' loss := ⟨hV', hc', h'.loss⟩
  obtain ⟨k₁, i1, i2⟩ := initRefs_ok e hr hN x (fun i => (lab i : ℝ))
  obtain ⟨k₂, j1, j2⟩ := initRefs_ok f hr' hN x (fun i => (lab i : ℝ))
  have hkk : k₂ = k₁ := by
    obtain ⟨a1, a2⟩ := initRefs_sizes i1
    obtain ⟨b1, b2⟩ := initRefs_sizes j1
    have e1 := i2.refs; have e2 := i2.cls; have e3 := i2.loss
    have f1 := j2.refs; have f2 := j2.cls; have f3 := j2.loss
    rw [hef.pick] at f1 f2
    rw [h.nbRef] at a1; rw [h.inputSize] at a2; rw [h'.nbRef] at b1; rw [h'.inputSize] at b2
    cases k₁; cases k₂
    simp_all
  rw [hkk] at j1
  obtain ⟨t₁, ht₁⟩ : ∃ t₁ : KMeansTrain, t₁ = { t with trainAcc := 0, valAcc := 0 } := ⟨_, rfl⟩
  have hE₁ : KmEval t₁ C N x (fun i => (lab i : ℝ)) M xv yv := by rw [ht₁]; exact hE
  have hfb : firstBest e t₁ k (Mat.ofFn N C x) (Mat.ofFn N 1 (fun i _ => (lab i : ℝ))) = firstBest f t₁ k' (Mat.ofFn N C x) (Mat.ofFn N 1 (fun i _ => (lab i : ℝ))) := by
    by_cases hb : t.keepBest = true
    · rw [hk hb]
      exact firstBest_twin hef hab (by rw [ht₁]; exact hv) hr hl hn hC hN hM hE₁
    · unfold firstBest
      rw [if_neg (by rw [ht₁]; exact hb), if_neg (by rw [ht₁]; exact hb)]
  obtain ⟨b, hb⟩ : ∃ b : Int, b = if t.batchSize > (N : Int) ∨ t.batchSize = 0 then (N : Int) else t.batchSize := ⟨_, rfl⟩
  have hb0 : b ≠ 0 := by
    rw [hb]
    split <;> omega
  rw [fit_eq hr ht ht₁ hb, fit_eq hr' ht ht₁ hb, ← hfb, i1, j1]
  cases hx : firstBest e t₁ k (Mat.ofFn N C x) (Mat.ofFn N 1 (fun i _ => (lab i : ℝ))) with
  | error er => rfl
  | ok r =>
    obtain ⟨a, best⟩ := r
    rw [bind_ok', bind_ok']
    dsimp only
    rw [bind_ok', bind_ok']
    obtain ⟨w1, w2⟩ := firstBest_wf hr.wf.1 hr.wf.2 hx
    obtain ⟨p1, p2⟩ := forN_congr_inv (FitShape t n C (fun r => (lab (e.pick r % N) : ℝ)) loss) (n := t.epochs.toNat)
      (f := epochStep e b (Mat.ofFn N C x) (Mat.ofFn N 1 (fun i _ => (lab i : ℝ))))
      (g := epochStep f b (Mat.ofFn N C x) (Mat.ofFn N 1 (fun i _ => (lab i : ℝ))))
      (s := ⟨t₁, ⟨k₁, Mat.ofFn n C (fun _ _ => 0), Mat.ofFn n 1 (fun _ _ => 0), b⟩, a, best⟩)
      ⟨⟨_, i2⟩, rfl, rfl, ⟨w1, w2⟩, by rw [ht₁], by rw [ht₁], by rw [ht₁]⟩
      (fun i _ s hs => epochStep_twin hef hab hv hl hn hC hN hb0 x lab hlab hM hE i hs)
    rw [← p1]
    cases hs : forN t.epochs.toNat (epochStep e b (Mat.ofFn N C x)
        (Mat.ofFn N 1 (fun i _ => (lab i : ℝ)))) ⟨t₁, ⟨k₁, Mat.ofFn n C (fun _ _ => 0), Mat.ofFn n 1 (fun _ _ => 0), b⟩, a, best⟩ with
    | error er => rfl
    | ok s =>
      have q := p2 s hs
      obtain ⟨W, hW⟩ := q.ep
      rw [bind_ok', bind_ok', KMeans.assign_any e.g f.g hW.wf.1 hW.wf.2 hW.wf.1 hW.wf.2 q.best.1 q.best.2]

end KMeansTrain

theorem KMeans.setSizes_sized (g : Nat → ℝ) {n C : Nat} (hn : 0 < n) (hC : 0 < C) :
    HasRefs (KMeans.setSizes g {} C n) n C (fun r j => g (r * C + j)) (fun r => g r) "MeanSquaredError" := by
  have h1 : n * C ≠ 0 := Nat.mul_ne_zero (by omega) (by omega)
  refine ⟨?_, ?_, rfl⟩
  · change (⟨0, 0, []⟩ : Mat ℝ).resize g n C = _
    unfold Mat.resize
    rw [if_neg (by dsimp only; omega), if_neg (by simpa [Mat.size] using h1), Mat.alloc, Mat.flat_eq_ofFn]
  · change (⟨0, 0, []⟩ : Mat ℝ).resize g n 1 = _
    unfold Mat.resize
    rw [if_neg (by dsimp only; omega), if_neg (by simp [Mat.size]; omega), Mat.alloc, Mat.flat_eq_ofFn]
    exact Mat.ofFn_congr fun i j _ hj => by
      obtain rfl : j = 0 := by omega
      rw [Nat.mul_one, Nat.add_zero]

theorem KMeans.setSizes_kmSized (g : Nat → ℝ) {n C : Nat} (hn : 0 < n) (hC : 0 < C) : KmSized (KMeans.setSizes g {} C n) n C "MeanSquaredError" :=
  ⟨⟨_, (setSizes_sized g hn hC).refs⟩, ⟨_, (setSizes_sized g hn hC).cls⟩, rfl, rfl, rfl⟩

theorem MeansOf.const {n C : Nat} {D : Row → Row → ℝ} {cls : Nat → ℝ} {x : Nat → Row} {lab : Nat → ℝ} {S : Finset Nat} {V V' : Nat → Row} {v : ℝ}
    (h : MeansOf n C D cls x lab S V V') (hx : ∀ i, i ∈ S → ∀ j, j < C → x i j = v) (hV : ∀ r, r < n → ∀ j, j < C → V r j = v) :
    ∀ r, r < n → ∀ j, j < C → V' r j = v := by
  intro r hr j hj
  obtain ⟨h1, h2⟩ := h r hr j hj
  rcases (wonBy n D cls x lab V S r).eq_empty_or_nonempty with he | he
  · rw [h1 he]
    exact hV r hr j hj
  · rw [h2 he, sum_congr rfl fun i hi => hx i (KMeansTrain.wonBy_subset hi) j hj, sum_const, nsmul_eq_mul]
    exact mul_div_cancel_left₀ _ (Nat.cast_ne_zero.2 (card_pos.2 he).ne')

theorem KmEpoch.const {n C N : Nat} {D : Row → Row → ℝ} {cls : Nat → ℝ} {b : Int} {x : Nat → Row} {lab : Nat → ℝ} {V V' : Nat → Row} {v : ℝ}
    (h : KmEpoch n C D cls N b x lab V V') (hx : ∀ i, i < N → ∀ j, j < C → x i j = v) (hV : ∀ r, r < n → ∀ j, j < C → V r j = v) :
    ∀ r, r < n → ∀ j, j < C → V' r j = v := by
  obtain ⟨σ, W, h1, h2, h3, h4⟩ := h
  have hσ : ∀ s, s < N → σ s < N := fun s hs =>
    List.mem_range.1 (h1.mem_iff.1 (List.mem_map.2 ⟨s, List.mem_range.2 hs, rfl⟩))
  have : ∀ k, k ≤ kmBatches N b → ∀ r, r < n → ∀ j, j < C → W k r j = v := by
    intro k
    induction k with
    | zero => rw [h2]; exact fun _ => hV
    | succ k ih =>
      intro hk
      refine (h4 k hk).const (fun i hi => hx _ (hσ i ?_)) (ih (by omega))
      unfold kmBatch at hi
      exact mem_range.1 (mem_filter.1 hi).1
  rw [← h3]
  exact this _ (le_refl _)

theorem MeansOf.within {n C : Nat} {D : Row → Row → ℝ} {cls : Nat → ℝ} {x : Nat → Row} {lab : Nat → ℝ} {S : Finset Nat} {V V' : Nat → Row} {v : ℝ}
    (h : MeansOf n C D cls x lab S V V') (hx : ∀ i, i ∈ S → ∀ j, j < C → |x i j| ≤ v) (hV : ∀ r, r < n → ∀ j, j < C → |V r j| ≤ v) :
    ∀ r, r < n → ∀ j, j < C → |V' r j| ≤ v := by
  intro r hr j hj
  obtain ⟨h1, h2⟩ := h r hr j hj
  rcases (wonBy n D cls x lab V S r).eq_empty_or_nonempty with he | he
  · rw [h1 he]
    exact hV r hr j hj
  · rw [h2 he, abs_div, Nat.abs_cast, div_le_iff₀ (Nat.cast_pos.2 (card_pos.2 he))]
    refine (abs_sum_le_sum_abs _ _).trans ?_
    refine (sum_le_sum fun i hi => hx i (KMeansTrain.wonBy_subset hi) j hj).trans ?_
    rw [sum_const, nsmul_eq_mul, mul_comm]

theorem KmEpoch.within {n C N : Nat} {D : Row → Row → ℝ} {cls : Nat → ℝ} {b : Int} {x : Nat → Row} {lab : Nat → ℝ} {V V' : Nat → Row} {v : ℝ}
    (h : KmEpoch n C D cls N b x lab V V') (hx : ∀ i, i < N → ∀ j, j < C → |x i j| ≤ v) (hV : ∀ r, r < n → ∀ j, j < C → |V r j| ≤ v) :
    ∀ r, r < n → ∀ j, j < C → |V' r j| ≤ v := by
  obtain ⟨σ, W, h1, h2, h3, h4⟩ := h
  have hσ : ∀ s, s < N → σ s < N := fun s hs =>
    List.mem_range.1 (h1.mem_iff.1 (List.mem_map.2 ⟨s, List.mem_range.2 hs, rfl⟩))
  have : ∀ k, k ≤ kmBatches N b → ∀ r, r < n → ∀ j, j < C → |W k r j| ≤ v := by
    intro k
    induction k with
    | zero => rw [h2]; exact fun _ => hV
    | succ k ih =>
      intro hk
      refine (h4 k hk).within (fun i hi => hx _ (hσ i ?_)) (ih (by omega))
      unfold kmBatch at hi
      exact mem_range.1 (mem_filter.1 hi).1
  rw [← h3]
  exact this _ (le_refl _)

end BeeDNN
