import Verif.Lemmas.MlpStart
import Verif.Lemmas.TrainLoss
import Verif.Lemmas.TrainEval
import Verif.Props.TrainFit

/-! # Training a perceptron: epochs and `fit` -/

namespace BeeDNN
open Finset HasWF

theorem Ply.is_train {p : Ply} {C C' : Nat} {l : Layer} (h : p.Is C C' l) (b : Bool) : p.Is C C' (l.setTrain b) :=
  ⟨h.kind, h.weight, h.bias⟩

theorem Ply.is_same {p : Ply} {C C' : Nat} {l l' : Layer} (h : p.Is C C' l) (hs : l.SameParams l') : p.Is C C' l' :=
  ⟨by rw [hs.kind]; exact h.kind, by rw [hs.weight]; exact h.weight, by rw [hs.bias]; exact h.bias⟩

theorem Mlp.Like.refl (m : Mlp) : Mlp.Like m m := ⟨rfl, rfl, fun _ => rfl⟩

theorem Mlp.Like.trans {m m' m'' : Mlp} (h : Mlp.Like m m') (h' : Mlp.Like m' m'') : Mlp.Like m m'' :=
  ⟨h'.depth.trans h.depth, h'.width.trans h.width, fun i => (h'.kind i).trans (h.kind i)⟩

namespace World

theorem setTrainAll_ok (b : Bool) : ∀ (as : List Nat) (w : World) (_ : ∀ a ∈ as, ∃ l, w.heap[a]? = some (some l)),
    ∃ w', setTrainAll b as w = .ok w' ∧ w'.nets = w.nets ∧
      ∀ (a : Nat) (l : Layer), w.heap[a]? = some (some l) → ∃ l' : Layer, w'.heap[a]? = some (some l') ∧ (l' = l ∨ l' = l.setTrain b)
  | [], w, _ => ⟨w, rfl, rfl, fun a l h => ⟨l, h, .inl rfl⟩⟩
  | a :: as, w, hl => by
    obtain ⟨l, h0⟩ := hl a List.mem_cons_self
    have hst : ∀ (c : Nat) (k : Layer), w.heap[c]? = some (some k) → ∃ k' : Layer, (w.store a (l.setTrain b)).heap[c]? = some (some k') ∧ (k' = k ∨ k' = k.setTrain b) := by
      intro c k hc
      by_cases hca : c = a
      · subst hca
        rw [h0] at hc
        obtain rfl : l = k := by injection hc with hc; injection hc
        exact ⟨_, World.store_same h0, .inr rfl⟩
      · exact ⟨k, (World.store_other _ hca).trans hc, .inl rfl⟩
    obtain ⟨w', h1, h2, h3⟩ := setTrainAll_ok b as (w.store a (l.setTrain b)) (fun c hc => by
      obtain ⟨k, hk⟩ := hl c (List.mem_cons_of_mem _ hc)
      obtain ⟨k', hk', -⟩ := hst c k hk
      exact ⟨k', hk'⟩)
    refine ⟨w', by rw [setTrainAll, World.deref_eq h0, bind_ok']; exact h1, h2, fun c k hc => ?_⟩
    obtain ⟨k', hk', e1⟩ := hst c k hc
    obtain ⟨k'', hk'', e2⟩ := h3 c k' hk'
    refine ⟨k'', hk'', ?_⟩
    rcases e1 with rfl | rfl <;> rcases e2 with rfl | rfl
    · exact .inl rfl
    · exact .inr rfl
    · exact .inr rfl
    · exact .inr rfl

theorem assign_ok {e : Nat → Env} {w : World} (ho : Owned w) {n m : Nat} (hnm : n ≠ m) (hv : AllValid w (w.nets m).layers) :
    ∃ w', w.assign e n m = .ok w' := by
  obtain ⟨w₁, h1, h2, h3, h4, h5, h6⟩ := clear_ok ho n
  have hm1 : (w₁.nets m).layers = (w.nets m).layers := by rw [h3 m hnm.symm]
  obtain ⟨w₂, d0, -⟩ := cloneAll_ok e n (w₁.nets m).layers 0 w₁ (fun a ha => by
    rw [hm1] at ha
    obtain ⟨l, hl⟩ := ho.live m a ha
    exact ⟨l, (h5 a fun h => hnm (ho.disjoint n m a h ha)).trans hl, hv a ha l hl⟩)
  exact ⟨_, by rw [assign, h1, bind_ok', d0, bind_ok', pure_ok]⟩

end World

theorem Represents.setTrain {w : World} {n : Nat} {m : Mlp} (h : Represents w n m) (b : Bool) :
    ∃ w', w.setTrain n b = .ok w' ∧ Represents w' n m := by
  have hl : ((w.setNet n { w.nets n with train := b }).nets n).layers = (w.nets n).layers := by simp
  obtain ⟨w', h1, h2, h3⟩ := World.setTrainAll_ok b (w.nets n).layers (w.setNet n { w.nets n with train := b }) (fun a ha => by
    obtain ⟨i, hi⟩ := List.getElem?_of_mem ha
    obtain ⟨l, k, -⟩ := h.layer i a hi
    exact ⟨l, k⟩)
  refine ⟨w', h1, h.ok, ?_, ?_, fun i a hi => ?_⟩
  · rw [h2, hl]; exact h.nodup
  · rw [h2, hl]; exact h.count
  · rw [h2, hl] at hi
    obtain ⟨l, k1, k2, k3, k4⟩ := h.layer i a hi
    obtain ⟨l', k5, rfl | rfl⟩ := h3 a l k1
    · exact ⟨_, k5, k2, k3, k4⟩
    · exact ⟨_, k5, World.setTrain_valid b k2, Ply.is_train k3 b, k4⟩

theorem Represents.frame {w w' : World} {n b : Nat} {m : Mlp} (h : Represents w n m) (hf : Frame b w w') (hb : n ≠ b) : Represents w' n m := by
  refine ⟨h.ok, ?_, ?_, fun i a hi => ?_⟩
  · rw [hf.nets n hb]; exact h.nodup
  · rw [hf.nets n hb]; exact h.count
  · rw [hf.nets n hb] at hi
    rw [hf.layers n hb a (List.mem_of_getElem? hi)]
    exact h.layer i a hi

/-- Assignment of a perceptron. -/
theorem Represents.assign {e : Nat → Env} {w : World} {n b : Nat} {m : Mlp} (h : Represents w n m) (ho : Owned w) (hb : b ≠ n) :
    ∃ w', w.assign e b n = .ok w' ∧ Represents w' b m ∧ Represents w' n m ∧ Frame b w w' ∧ (w'.nets b).classif = (w.nets n).classif := by
  obtain ⟨w', hw⟩ := World.assign_ok (e := e) ho hb h.allValid
  obtain ⟨f, hc, -, -, -, h2⟩ := World.assign_inv ho hb h.allValid hw
  refine ⟨w', hw, ⟨h.ok, f.owned.nodup b, by rw [← h2.length_eq]; exact h.count, fun i a hi => ?_⟩, h.frame f hb.symm, f, hc⟩
  have hlen := h2.length_eq
  have hi' : i < (w'.nets b).layers.length := by
    by_contra hh
    rw [List.getElem?_eq_none (by omega)] at hi
    cases hi
  have hil : i < (w.nets n).layers.length := by omega
  obtain ⟨l, p, k1, k2, k3⟩ := (List.forall₂_iff_get.1 h2).2 i hil hi'
  rw [List.getElem?_eq_getElem hi'] at hi
  injection hi with hi
  rw [List.get_eq_getElem] at k1 k2
  rw [hi] at k2
  obtain ⟨l', j1, j2, j3, j4⟩ := h.layer i _ (List.getElem?_eq_getElem hil)
  rw [k1] at j1
  obtain rfl : l = l' := by injection j1 with j1; injection j1
  exact ⟨p, k2, k3.valid, Ply.is_same j3 k3.same, fun _ => k3.first⟩

theorem Owned.scratch {w w' : World} (h : Owned w) (hs : w.Scratch w') : Owned w' := by
  refine ⟨fun n a ha => ?_, fun n => by rw [hs.nets]; exact h.nodup n, fun n k a hn hk => by rw [hs.nets] at hn hk; exact h.disjoint n k a hn hk⟩
  rw [hs.nets] at ha
  obtain ⟨l, hl⟩ := h.live n a ha
  obtain ⟨l', hl', -⟩ := hs.get hl
  exact ⟨l', hl'⟩

namespace Trainer

theorem Going.world {t : Trainer} {w w' : World} {n : Nat} {m : Mlp} (h : t.Going w n m) (h' : Represents w' n m)
    (hl : (w'.nets n).layers = (w.nets n).layers) : t.Going w' n m :=
  ⟨h', h.net, h.layers, h.inOut, h.gradient, h.ok, h.gradW, h.gradB, by rw [hl]; exact h.ptr, h.count, by rw [hl]; exact h.ready⟩

/-- A change of the trainer that leaves alone what training needs. -/
theorem Going.congr {t t' : Trainer} {w : World} {n : Nat} {m : Mlp} (h : t.Going w n m)
    (e : { t' with net := t.net, nbLayers := t.nbLayers, inOut := t.inOut, gradient := t.gradient, pWeights := t.pWeights,
                   pGradWeights := t.pGradWeights, pBiases := t.pBiases, pGradBiases := t.pGradBiases, opts := t.opts } = t') :
    t'.Going w n m := by
  rw [← e]
  exact ⟨h.rep, h.net, h.layers, h.inOut, h.gradient, ⟨h.ok.inOut, h.ok.gradient, h.ok.opts⟩, h.gradW, h.gradB, h.ptr, h.count, h.ready⟩

theorem Going.init {t : Trainer} {w : World} {n : Nat} {m : Mlp} (h : t.Going w n m) (g : Nat → ℝ) :
    { t with opts := t.opts.map (Opt.init g) }.Going w n m := by
  refine ⟨h.rep, h.net, h.layers, h.inOut, h.gradient, ⟨h.ok.inOut, h.ok.gradient, ?_⟩, h.gradW, h.gradB, h.ptr, ?_, ?_⟩
  · intro o ho
    obtain ⟨o', h1, rfl⟩ := List.mem_map.1 ho
    exact Opt.init_WF g (h.ok.opts o' h1)
  · rw [List.length_map]; exact h.count
  · intro b j a i hj hi
    obtain ⟨o, o1, o2⟩ := h.ready b j a i hj hi
    refine ⟨o.init g, ?_, Opt.init_WF g o2.1, .inl (Opt.init_fresh g o2.1)⟩
    show (t.opts.map (Opt.init g))[j + t.off b]? = _
    rw [List.getElem?_map, o1]; rfl

/-- The update of one batch, in terms of what back-propagation computes. -/
def GradStep (Γ : Row → Row → Row) (lr : ℝ) (N : Nat) (X Y : Nat → Row) (m m' : Mlp) : Prop :=
  ∀ b i, i < m.depth → (m.ply i).has b = true → (m'.ply i).par b = fun k j => (m.ply i).par b k j -
    lr * m.codeGrad N X (fun s => Γ (m.out (X s)) (Y s)) b i k j

/-- One epoch of a perceptron: `ms k` is the network before batch `k`. -/
theorem trainEpoch_mlp {ab : ℝ → ℝ} {eps : ℝ} {e : Nat → Nat → Nat → Env} {w : World} {t : Trainer} {n : Nat} {m : Mlp} (h : t.Going w n m)
    {D : Nat} {ω : Weighing} {Γ : Row → Row → Row} (hl : LossOkW ω ab eps t.loss (m.width m.depth) D Γ) (hw : ω.weights t.lossWeight) (N B : Nat) (hB : 0 < B) (hb : t.batchAdj = B)
    (X Y : Nat → Row) (hT : ω.truth t.loss (m.width m.depth) D N Y) (S : Prop) (lr : ℝ) (hSr : S → t.reg = none) (hS : S → ∀ o ∈ t.opts, o.kind = .sgd ∧ o.lr = lr) :
    ∃ (w' : World) (t' : Trainer) (ms : Nat → Mlp), trainEpoch ab eps e (Mat.ofFn N (m.width 0) X) (Mat.ofFn N D Y) w t = .ok (w', t') ∧ ms 0 = m ∧
      t'.Going w' n (ms (nbBatches N B)) ∧ Mlp.Like m (ms (nbBatches N B)) ∧ BatchKeep t t' ∧ Evolve (w.nets n).layers w w' ∧
      (S → ∀ o ∈ t'.opts, o.kind = .sgd ∧ o.lr = lr) ∧
      ((t'.onlineGood = t.onlineGood + if (w.nets n).classif then ∑ k ∈ range (nbBatches N B),
        nbRight (batchEnd N B k - batchStart B k) (m.width m.depth) D (fun s => (ms k).out (X (batchStart B k + s)))
          (fun s => Y (batchStart B k + s)) else 0) ∧
        ∃ xs : Nat → ℝ, t'.onlineLoss = t.onlineLoss + ∑ k ∈ range (nbBatches N B), xs k ∧ ∀ k, k < (nbBatches N B) →
          BatchLossW ω ab eps t.loss (m.width m.depth) D (batchEnd N B k - batchStart B k) (fun s => (ms k).out (X (batchStart B k + s)))
            (fun s => Y (batchStart B k + s)) (xs k)) ∧
      (∀ k, k < nbBatches N B → Mlp.Like (ms k) (ms (k + 1)) ∧ Mlp.Like m (ms k) ∧
        (S → GradStep Γ lr (batchEnd N B k - batchStart B k) (fun s => X (batchStart B k + s)) (fun s => Y (batchStart B k + s)) (ms k) (ms (k + 1)))) ∧
      ∀ mem, t.Mem w n mem → ∃ mems : Nat → Bool → Nat → Opt ℝ, mems 0 = mem ∧ t'.Mem w' n (mems (nbBatches N B)) ∧ ∀ k, k < nbBatches N B →
        RuleStep t.reg ab Γ (batchEnd N B k - batchStart B k) (fun s => X (batchStart B k + s)) (fun s => Y (batchStart B k + s)) (ms k) (ms (k + 1)) (mems k) (mems (k + 1)) := by
  have key : ∀ K, K ≤ nbBatches N B → ∃ (w' : World) (t' : Trainer) (ms : Nat → Mlp), forN K (fun k (s : World × Trainer) => trainBatch ab eps (e k) s.1 s.2
        (rowsOf (m.width 0) (batchStart B k) (batchEnd N B k) X) (rowsOf D (batchStart B k) (batchEnd N B k) Y)) (w, t) =
        .ok (w', t') ∧ ms 0 = m ∧
      t'.Going w' n (ms K) ∧ Mlp.Like m (ms K) ∧ BatchKeep t t' ∧ Evolve (w.nets n).layers w w' ∧
      (S → ∀ o ∈ t'.opts, o.kind = .sgd ∧ o.lr = lr) ∧
      ((t'.onlineGood = t.onlineGood + if (w.nets n).classif then ∑ k ∈ range K,
        nbRight (batchEnd N B k - batchStart B k) (m.width m.depth) D (fun s => (ms k).out (X (batchStart B k + s)))
          (fun s => Y (batchStart B k + s)) else 0) ∧
        ∃ xs : Nat → ℝ, t'.onlineLoss = t.onlineLoss + ∑ k ∈ range K, xs k ∧ ∀ k, k < K →
          BatchLossW ω ab eps t.loss (m.width m.depth) D (batchEnd N B k - batchStart B k) (fun s => (ms k).out (X (batchStart B k + s)))
            (fun s => Y (batchStart B k + s)) (xs k)) ∧
      (∀ k, k < K → Mlp.Like (ms k) (ms (k + 1)) ∧ Mlp.Like m (ms k) ∧
        (S → GradStep Γ lr (batchEnd N B k - batchStart B k) (fun s => X (batchStart B k + s)) (fun s => Y (batchStart B k + s)) (ms k) (ms (k + 1)))) ∧
      ∀ mem, t.Mem w n mem → ∃ mems : Nat → Bool → Nat → Opt ℝ, mems 0 = mem ∧ t'.Mem w' n (mems K) ∧ ∀ k, k < K →
        RuleStep t.reg ab Γ (batchEnd N B k - batchStart B k) (fun s => X (batchStart B k + s)) (fun s => Y (batchStart B k + s)) (ms k) (ms (k + 1)) (mems k) (mems (k + 1)) := by
    intro K
    induction K with
    | zero =>
      intro _
      exact ⟨w, t, fun _ => m, rfl, rfl, h, Mlp.Like.refl m, BatchKeep.refl t, Evolve.refl _ _, hS, ⟨by simp, fun _ => 0, by simp, fun k hk => absurd hk (Nat.not_lt_zero k)⟩, fun k hk => absurd hk (Nat.not_lt_zero k),
        fun mem hm => ⟨fun _ => mem, rfl, hm, fun k hk => absurd hk (Nat.not_lt_zero k)⟩⟩
    | succ K ih =>
      intro hK
      obtain ⟨w₂, t₂, ms, i1, i2, i3, i4, i5, i6, i7, ⟨i8, xs, i10, i11⟩, i9, i12⟩ := ih (by omega)
      obtain ⟨w₃, t₃, m', b1, b2, b3, b4, b5, ⟨b6, x, b9, b10⟩, b7, b8, b12⟩ := trainBatch_mlp (ab := ab) (eps := eps) (e := e K) i3
        (D := D) (ω := ω) (Γ := Γ)
        (by rw [← i5.same, i4.depth, i4.width]; exact hl) (by rw [← i5.same]; exact hw) (batchEnd N B K - batchStart B K) (fun s => X (batchStart B K + s))
        (fun s => Y (batchStart B K + s)) (by
          rw [← i5.same, i4.depth, i4.width]
          have hlt := (nbBatches_lt hB).1 (show K < nbBatches N B by omega)
          refine ω.sub hT ?_ fun i hi => ⟨batchStart B K + i, ?_, rfl⟩
          · unfold batchEnd batchStart
            rw [Nat.add_mul]
            omega
          · unfold batchEnd batchStart at *
            omega) S lr (fun hs => by rw [← i5.same]; exact hSr hs) i7
      have hd : (ms K).depth = m.depth := i4.depth
      have hwd : (ms K).width = m.width := i4.width
      refine ⟨w₃, t₃, fun k => if k ≤ K then ms k else m', ?_, by simp [i2], by simpa using b2, ?_, i5.trans b4, ?_, b7, ⟨?_, fun k => if k < K then xs k else x, ?_, ?_⟩, ?_, ?_⟩
      · rw [forN_succ, i1]
        rw [hwd] at b1
        exact b1
      · simp only [show ¬ K + 1 ≤ K by omega, if_false]
        exact i4.trans b3
      · refine i6.trans ?_
        rw [← i6.nets]; exact b5
      · rw [b6, i8, i6.nets, hd, hwd]
        by_cases hc : (w.nets n).classif = true
        · simp only [hc, if_true]
          rw [sum_range_succ, Nat.add_assoc]
          congr 2
          · exact sum_congr rfl fun k hk => by
              rw [if_pos (by have := mem_range.1 hk; omega)]
          · rw [if_pos (Nat.le_refl _)]
        · simp only [hc, Bool.false_eq_true, if_false]
      · rw [b9, i10, sum_range_succ, if_neg (lt_irrefl K), ← add_assoc]
        congr 2
        exact sum_congr rfl fun k hk => by rw [if_pos (mem_range.1 hk)]
      · intro k hk
        by_cases hkK : k < K
        · simp only [show k ≤ K by omega, hkK, if_true]
          exact i11 k hkK
        · obtain rfl : k = K := by omega
          simp only [le_refl, lt_irrefl, if_true, if_false]
          rw [← i5.same, hd, hwd] at b10
          exact b10
      · intro k hk
        by_cases hkK : k < K
        · simp only [show k ≤ K by omega, show k + 1 ≤ K by omega, if_true]
          exact i9 k hkK
        · obtain rfl : k = K := by omega
          simp only [le_refl, show ¬ k + 1 ≤ k by omega, if_true, if_false]
          exact ⟨b3, i4, b8⟩
      · intro mem hm
        obtain ⟨mems, n1, n2, n3⟩ := i12 mem hm
        obtain ⟨mem', n4, n5⟩ := b12 _ n2
        rw [← i5.same] at n5
        refine ⟨fun k => if k ≤ K then mems k else mem', by simp [n1], by simpa using n4, fun k hk => ?_⟩
        by_cases hkK : k < K
        · simp only [show k ≤ K by omega, show k + 1 ≤ K by omega, if_true]
          exact n3 k hkK
        · obtain rfl : k = K := by omega
          simp only [le_refl, show ¬ k + 1 ≤ k by omega, if_true, if_false]
          exact n5
  obtain ⟨w', t', ms, k1, k2⟩ := key _ le_rfl
  refine ⟨w', t', ms, ?_, k2⟩
  unfold trainEpoch
  rw [hb, Mat.ofFn_rows, batchLoop_eq N _ _ B hB]
  exact k1

/-- For truths that fit, the mean of the named loss is computed without fault. -/
def EvalOkW (ω : Weighing) (eps : ℝ) (s : String) (K D : Nat) : Prop :=
  ∃ V : Nat → (Nat → Row) → (Nat → Row) → ℝ, ∀ (t : Trainer) (g : Nat → ℝ) (N : Nat) (P Y : Nat → Row), t.loss = s → ω.weights t.lossWeight →
    ω.truth s K D N Y → ∀ o : Mat ℝ, o.WF →
      ∃ M, t.lossCompute g (fun x => |x|) eps (Mat.ofFn N K P) (Mat.ofFn N D Y) o = .ok M ∧ M.WF ∧ M.mean = .ok (V N P Y)

/-- Evaluation of a perceptron. -/
theorem computeLossAccuracy_w {eps : ℝ} {e : Nat → Nat → Env} {w : World} {t : Trainer} {n : Nat} {m : Mlp} (hnet : t.net = some n)
    (h : Represents w n m) {ω : Weighing} {D : Nat} (hl : EvalOkW ω eps t.loss (m.width m.depth) D) (hw : ω.weights t.lossWeight) (B : Nat) (hB : 0 < B)
    (hval : t.valBatch = B) (N : Nat) (hN : 0 < N) (X Y : Nat → Row) (hY : ω.truth t.loss (m.width m.depth) D N Y) :
    ∃ w' l, t.computeLossAccuracy (fun x => |x|) eps e w (Mat.ofFn N (m.width 0) X) (Mat.ofFn N D Y) true = .ok (w', l,
      100 * nbRight N (m.width m.depth) D (fun i => m.out (X i)) Y / N) ∧ w.Scratch w' := by
  have hD := (ω.fits hY).cols
  have hne : (w.nets n).layers ≠ [] := fun h0 => by
    have := h.count
    rw [h0] at this
    exact absurd h.ok.depth (by simp at this; omega)
  have hK := h.ok.pos _ (Nat.le_refl _)
  obtain ⟨V, hV⟩ := hl
  obtain ⟨w', h1, h2⟩ := computeLossAccuracy_ok (ab := fun x => |x|) (eps := eps) (e := e) hnet hne (w.Scratch ·) (.refl w) (m.width 0) (m.width m.depth) D hK hD m.out
    (fun w₁ e N X o hw ho => by
      obtain ⟨w₂, z1, z2⟩ := (h.scratch hw).predict (e := e) N X o ho
      exact ⟨w₂, z1, hw.trans z2⟩) B hB hval N hN X Y
    (fun a N' => V N' (fun i => m.out (X (a + i))) (fun i => Y (a + i)))
    (fun g a N' o ho hN' ha => hV t g N' _ _ rfl hw (ω.sub hY hN' fun i hi => ⟨a + i, by omega, rfl⟩) o ho)
  exact ⟨w', _, h1, h2⟩

theorem EvalOkW.none {eps : ℝ} {s : String} (hs : s ∈ listLoss) {K : Nat} (hK : 0 < K) (D : Nat) : EvalOkW .none eps s K D :=
  ⟨fun N P Y => (∑ i ∈ range N, sampleLoss eps s K (P i) (Y i)) / (if s ∈ sumLosses then 1 else (N : ℝ)),
    fun t g N P Y h1 h2 h3 o ho => by subst h1; exact lossCompute_fits hs h2 hK h3 g ho⟩

theorem computeLossAccuracy_mlp {eps : ℝ} {e : Nat → Nat → Env} {w : World} {t : Trainer} {n : Nat} {m : Mlp} (hnet : t.net = some n)
    (h : Represents w n m) (hl : t.loss ∈ listLoss) (hw : t.lossWeight.size = 0) (B : Nat) (hB : 0 < B) (hval : t.valBatch = B)
    (D N : Nat) (hN : 0 < N) (X Y : Nat → Row) (hY : TruthFits t.loss (m.width m.depth) D N Y) :
    ∃ w', t.computeLossAccuracy (fun x => |x|) eps e w (Mat.ofFn N (m.width 0) X) (Mat.ofFn N D Y) true = .ok (w',
      ∑ k ∈ range (nbBatches N B),
        (∑ i ∈ range (batchEnd N B k - batchStart B k), sampleLoss eps t.loss (m.width m.depth) (m.out (X (batchStart B k + i))) (Y (batchStart B k + i))) /
          (if t.loss ∈ sumLosses then 1 else ((batchEnd N B k - batchStart B k : Nat) : ℝ)),
      100 * nbRight N (m.width m.depth) D (fun i => m.out (X i)) Y / N) ∧ w.Scratch w' := by
  have hD := hY.cols
  have hne : (w.nets n).layers ≠ [] := fun h0 => by
    have := h.count
    rw [h0] at this
    exact absurd h.ok.depth (by simp at this; omega)
  have hK := h.ok.pos _ (Nat.le_refl _)
  obtain ⟨w', h1, h2⟩ := computeLossAccuracy_ok (ab := fun x => |x|) (eps := eps) (e := e) hnet hne (w.Scratch ·) (.refl w) (m.width 0) (m.width m.depth) D hK hD m.out
    (fun w₁ e N X o hw ho => by
      obtain ⟨w₂, z1, z2⟩ := (h.scratch hw).predict (e := e) N X o ho
      exact ⟨w₂, z1, hw.trans z2⟩) B hB hval N hN X Y
    (fun a N' => (∑ i ∈ range N', sampleLoss eps t.loss (m.width m.depth) (m.out (X (a + i))) (Y (a + i))) /
          (if t.loss ∈ sumLosses then 1 else (N' : ℝ)))
    (fun g a N' o ho hN' ha => lossCompute_fits hl hw hK (hY.sub fun i hi => ⟨a + i, by omega, rfl⟩) g ho)
  exact ⟨w', h1, h2⟩

end Trainer

end BeeDNN
