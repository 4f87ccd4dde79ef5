import Verif.Lemmas.MlpFit
import Verif.Lemmas.TrainLive

/-! # Training a perceptron: `fit` -/

namespace BeeDNN
open Finset HasWF

namespace Trainer

/-- What happens in an epoch: the samples are taken in some order `σ`, `ms k` is the network before batch `k`, and
`right` counts the samples that are classified right by the network as it is when they are presented; `v` is the loss
reported: the sum of the losses of the batches, divided by the number of samples. -/
def EpochFactW (ω : Weighing) (ab : ℝ → ℝ) (eps : ℝ) (loss : String) (S : Prop) (Γ : Row → Row → Row) (lr : ℝ) (N B D : Nat) (x y : Nat → Row) (m m' : Mlp) (right : Nat) (v : ℝ) : Prop :=
  ∃ (σ : Nat → Nat) (ms : Nat → Mlp), ((List.range N).map σ).Perm (List.range N) ∧ ms 0 = m ∧ ms (nbBatches N B) = m' ∧
    (∀ k, k < nbBatches N B → Mlp.Like m (ms k) ∧ Mlp.Like (ms k) (ms (k + 1)) ∧
      (S → GradStep Γ lr (batchEnd N B k - batchStart B k) (fun s => x (σ (batchStart B k + s))) (fun s => y (σ (batchStart B k + s))) (ms k) (ms (k + 1)))) ∧
    right = ∑ k ∈ range (nbBatches N B), nbRight (batchEnd N B k - batchStart B k) (m.width m.depth) D
      (fun s => (ms k).out (x (σ (batchStart B k + s)))) (fun s => y (σ (batchStart B k + s))) ∧
    ∃ xs : Nat → ℝ, v = (∑ k ∈ range (nbBatches N B), xs k) / N ∧ ∀ k, k < nbBatches N B →
      BatchLossW ω ab eps loss (m.width m.depth) D (batchEnd N B k - batchStart B k)
        (fun s => (ms k).out (x (σ (batchStart B k + s)))) (fun s => y (σ (batchStart B k + s))) (xs k)

/-- The same without class weights. -/
abbrev EpochFact (ab : ℝ → ℝ) (eps : ℝ) (loss : String) (S : Prop) (Γ : Row → Row → Row) (lr : ℝ) (N B D : Nat) (x y : Nat → Row) (m m' : Mlp) (right : Nat) (v : ℝ) : Prop :=
  EpochFactW .none ab eps loss S Γ lr N B D x y m m' right v

/-- What happens in an epoch, with any optimizer: `mem` and `mem'` are the optimizers before and after. -/
def EpochRule (r : Option Reg) (ab : ℝ → ℝ) (Γ : Row → Row → Row) (N B : Nat) (x y : Nat → Row) (m m' : Mlp) (mem mem' : Bool → Nat → Opt ℝ) : Prop :=
  ∃ (σ : Nat → Nat) (ms : Nat → Mlp) (mems : Nat → Bool → Nat → Opt ℝ), ((List.range N).map σ).Perm (List.range N) ∧ ms 0 = m ∧
    ms (nbBatches N B) = m' ∧ mems 0 = mem ∧ mems (nbBatches N B) = mem' ∧
    ∀ k, k < nbBatches N B → Mlp.Like m (ms k) ∧ Mlp.Like (ms k) (ms (k + 1)) ∧
      RuleStep r ab Γ (batchEnd N B k - batchStart B k) (fun s => x (σ (batchStart B k + s))) (fun s => y (σ (batchStart B k + s)))
        (ms k) (ms (k + 1)) (mems k) (mems (k + 1))

/-- A change of the trainer and the world that leaves alone the optimizers. -/
theorem Mem.congr {t t' : Trainer} {w w' : World} {n : Nat} {mem : Bool → Nat → Opt ℝ} (h : t.Mem w n mem)
    (e : { t' with pWeights := t.pWeights, pBiases := t.pBiases, opts := t.opts } = t') (hl : (w'.nets n).layers = (w.nets n).layers) :
    t'.Mem w' n mem := by
  intro b j a i hj hi
  rw [← e] at hj ⊢
  exact h b j a i hj (by rw [← hl]; exact hi)

/-- Re-initialising all optimizers. -/
theorem Mem.init {t : Trainer} {w : World} {n : Nat} {mem : Bool → Nat → Opt ℝ} (h : t.Mem w n mem) (g : Nat → ℝ) :
    ({ t with opts := t.opts.map (Opt.init g) } : Trainer).Mem w n fun b i => (mem b i).init g := by
  intro b j a i hj hi
  show (t.opts.map (Opt.init g))[j + t.off b]? = _
  rw [List.getElem?_map, h b j a i hj hi]
  rfl

/-- Whether the optimizers are re-initialised after an epoch. -/
def boosts (R i : Int) : Prop := R ≠ -1 ∧ ¬ i < R

instance (R i : Int) : Decidable (boosts R i) := inferInstanceAs (Decidable (_ ∧ _))

/-- The counter afterwards. -/
def boostNext (R i : Int) : Int := if R = -1 then i else if i < R then i + 1 else 0

theorem perm_lt {σ : Nat → Nat} {N i : Nat} (h : ((List.range N).map σ).Perm (List.range N)) (hi : i < N) : σ i < N :=
  List.mem_range.1 (h.mem_iff.1 (List.mem_map.2 ⟨i, List.mem_range.2 hi, rfl⟩))

theorem epochTrain_mlp {ab : ℝ → ℝ} {eps : ℝ} {e : FitEnv} {w : World} {t : Trainer} {n : Nat} {m : Mlp} (h : t.Going w n m)
    {D : Nat} {ω : Weighing} {Γ : Row → Row → Row} (hl : LossOkW ω ab eps t.loss (m.width m.depth) D Γ) (hw : ω.weights t.lossWeight) (N B : Nat) (hN : 0 < N) (hB : 0 < B)
    (hb : t.batchAdj = B) (x y : Nat → Row) (hT : ω.truth t.loss (m.width m.depth) D N y) (k : Nat) (S : Prop) (lr : ℝ) (hSr : S → t.reg = none) (hS : S → ∀ o ∈ t.opts, o.kind = .sgd ∧ o.lr = lr) :
    ∃ (w' : World) (t' : Trainer) (m' : Mlp) (right : Nat) (v : ℝ),
      epochTrain ab eps e n (Mat.ofFn N (m.width 0) x) (Mat.ofFn N D y) k w t = .ok (w', t') ∧
      EpochFactW ω ab eps t.loss S Γ lr N B D x y m m' right v ∧ t'.Going w' n m' ∧ Mlp.Like m m' ∧ Stage n w w' ∧
      { t with inOut := t'.inOut, gradient := t'.gradient, opts := t'.opts, onlineLoss := t'.onlineLoss
               onlineGood := t'.onlineGood, curTrainLoss := t'.curTrainLoss, trainLoss := t'.trainLoss
               curTrainAcc := t'.curTrainAcc, trainAcc := t'.trainAcc } = t' ∧
      (S → ∀ o ∈ t'.opts, o.kind = .sgd ∧ o.lr = lr) ∧
      ((w.nets n).classif = true → t'.trainAcc = t.trainAcc ++ [100 * (right : ℝ) / N]) ∧ t'.trainLoss = t.trainLoss ++ [v] ∧
      ∀ mem, t.Mem w n mem → ∃ mem', t'.Mem w' n mem' ∧ EpochRule t.reg ab Γ N B x y m m' mem mem' := by
  obtain ⟨σ, p1, p2⟩ := C50_data e.g (e.perm k) (decide (t.batchAdj < (N : Int))) N (m.width 0) D x y
  obtain ⟨w₁, a1, a2⟩ := h.rep.setTrain true
  have s1 := World.setTrain_inv a1
  have g1 : { t with onlineLoss := 0, onlineGood := 0 }.Going w₁ n m := (h.world a2 s1.layers).congr rfl
  obtain ⟨w₂, t₂, ms, b1, b2, b3, b4, b5, b6, b7, ⟨b8, xs, b10, b11⟩, b9, b12⟩ := trainEpoch_mlp (ab := ab) (eps := eps) (e := e.batch k) g1 hl hw N B hB hb
    (fun i => x (σ i)) (fun i => y (σ i)) (ω.sub hT hN fun i hi => ⟨σ i, perm_lt p1 hi, rfl⟩) S lr hSr hS
  obtain ⟨w₃, c1, c2⟩ := b3.rep.setTrain false
  have s2 := b6.stage
  have s3 := World.setTrain_inv c1
  have g3 : t₂.Going w₃ n (ms (nbBatches N B)) := b3.world c2 s3.layers
  have st := (s1.trans s2).trans s3
  have hN' : N ≠ 0 := by omega
  have same := b5.same
  have hright : (w.nets n).classif = true → (t₂.onlineGood : Nat) = ∑ k ∈ range (nbBatches N B), nbRight (batchEnd N B k - batchStart B k) (m.width m.depth) D
      (fun s => (ms k).out (x (σ (batchStart B k + s)))) (fun s => y (σ (batchStart B k + s))) := by
    intro hc
    rw [b8, s1.classif, if_pos hc]
    exact Nat.zero_add _
  have hrun : epochTrain ab eps e n (Mat.ofFn N (m.width 0) x) (Mat.ofFn N D y) k w t =
      .ok (w₃, if (w₃.nets n).classif then
        { t₂ with curTrainLoss := fdiv e.div0 t₂.onlineLoss N, trainLoss := t₂.trainLoss ++ [fdiv e.div0 t₂.onlineLoss N]
                  curTrainAcc := fdiv e.div0 (100 * t₂.onlineGood) N, trainAcc := t₂.trainAcc ++ [fdiv e.div0 (100 * t₂.onlineGood) N] }
        else { t₂ with curTrainLoss := fdiv e.div0 t₂.onlineLoss N, trainLoss := t₂.trainLoss ++ [fdiv e.div0 t₂.onlineLoss N] }) := by
    unfold epochTrain
    dsimp only
    rw [show (Mat.ofFn N (m.width 0) x).rows = N from rfl, p2, bind_ok', a1, bind_ok']
    dsimp only
    erw [b1]
    rw [bind_ok']
    dsimp only
    rw [c1, bind_ok']
    cases (w₃.nets n).classif <;> rfl
  refine ⟨w₃, _, _, ∑ k ∈ range (nbBatches N B), nbRight (batchEnd N B k - batchStart B k) (m.width m.depth) D
      (fun s => (ms k).out (x (σ (batchStart B k + s)))) (fun s => y (σ (batchStart B k + s))), (∑ k ∈ range (nbBatches N B), xs k) / N, hrun,
    ⟨σ, ms, p1, b2, rfl, fun k hk => ⟨(b9 k hk).2.1, (b9 k hk).1, (b9 k hk).2.2⟩, rfl, xs, rfl, b11⟩, ?_, b4, st, ?_, ?_, ?_, ?_, ?_⟩
  · split <;> exact g3.congr rfl
  · split <;> rw [← same]
  · split <;> exact b7
  · intro hc
    rw [st.classif, if_pos hc]
    dsimp only
    rw [hright hc, fdiv, if_neg hN', ← same]
  · have hv : fdiv e.div0 t₂.onlineLoss N = (∑ k ∈ range (nbBatches N B), xs k) / N := by
      rw [b10, fdiv, if_neg hN']
      exact congrArg (· / (N : ℝ)) (zero_add _)
    split <;> dsimp only <;> rw [hv, ← same]
  · intro mem hm
    obtain ⟨mems, n1, n2, n3⟩ := b12 mem (hm.congr rfl s1.layers)
    refine ⟨mems (nbBatches N B), ?_, σ, ms, mems, p1, b2, rfl, n1, rfl, fun k hk => ⟨(b9 k hk).2.1, (b9 k hk).1, n3 k hk⟩⟩
    split <;> exact n2.congr rfl s3.layers

/-- What `fit` needs to know about the data: shapes, at least one sample, and truths that fit the loss. -/
def DataOkW (ω : Weighing) (loss : String) (m : Mlp) (d : Mat ℝ × Mat ℝ) : Prop :=
  ∃ (N D : Nat) (x y : Nat → Row), 0 < N ∧ ω.truth loss (m.width m.depth) D N y ∧ d = (Mat.ofFn N (m.width 0) x, Mat.ofFn N D y)

/-- The same without class weights. -/
abbrev DataOk (loss : String) (m : Mlp) (d : Mat ℝ × Mat ℝ) : Prop := DataOkW .none loss m d

/-- `l` and `a` are loss and accuracy of `m` on the data `d`, evaluated with the loss and the validation batches of `t₀`. -/
def EvalFactW (ω : Weighing) (eps : ℝ) (t₀ : Trainer) (m : Mlp) (d : Mat ℝ × Mat ℝ) (l a : ℝ) : Prop :=
  ∃ (t : Trainer) (n : Nat) (e : Nat → Nat → Env) (w w' : World), t.loss = t₀.loss ∧ t.valBatch = t₀.valBatch ∧ ω.weights t.lossWeight ∧
    t.net = some n ∧ Represents w n m ∧ t.computeLossAccuracy (fun x => |x|) eps e w d.1 d.2 true = .ok (w', l, a)

/-- The same without class weights. -/
abbrev EvalFact (eps : ℝ) (t₀ : Trainer) (m : Mlp) (d : Mat ℝ × Mat ℝ) (l a : ℝ) : Prop := EvalFactW .none eps t₀ m d l a

theorem eval_mlp {eps : ℝ} {e : Nat → Nat → Env} {w : World} {t : Trainer} {n : Nat} {m : Mlp} (hnet : t.net = some n)
    (h : Represents w n m) {ω : Weighing} (hl : ∀ D, EvalOkW ω eps t.loss (m.width m.depth) D) (hw : ω.weights t.lossWeight) (hval : 0 < t.valBatch) {d : Mat ℝ × Mat ℝ} (hd : DataOkW ω t.loss m d) :
    ∃ w' l a, t.computeLossAccuracy (fun x => |x|) eps e w d.1 d.2 true = .ok (w', l, a) ∧ w.Scratch w' ∧ EvalFactW ω eps t m d l a := by
  obtain ⟨N, D, x, y, hN, hT, rfl⟩ := hd
  obtain ⟨w', l, h1, h2⟩ := computeLossAccuracy_w (eps := eps) (e := e) hnet h (hl D) hw t.valBatch.toNat (by omega) (by omega) N hN x y hT
  exact ⟨w', _, _, h1, h2, t, n, e, w, w', rfl, rfl, hw, hnet, h, h1⟩

theorem DataOkW.like {ω : Weighing} {s : String} {m m' : Mlp} (h : Mlp.Like m m') {d : Mat ℝ × Mat ℝ} (hd : DataOkW ω s m d) : DataOkW ω s m' d := by
  unfold DataOkW at *
  rw [h.depth, h.width]
  exact hd

/-- The layers listed are those of `m`. -/
def Shows (m : Mlp) (L : List (Option Layer)) : Prop :=
  ∀ i, i < m.depth → ∃ l : Layer, L[i]? = some (some l) ∧ (m.ply i).Is (m.width i) (m.width (i + 1)) l

theorem shows_layersOf {w : World} {n : Nat} {m : Mlp} (h : Represents w n m) : Shows m (layersOf w n) := by
  intro i hi
  have hlt : i < (w.nets n).layers.length := by rw [h.count]; exact hi
  obtain ⟨l, h1, -, h2, -⟩ := h.layer i _ (List.getElem?_eq_getElem hlt)
  exact ⟨l, by rw [layersOf, List.getElem?_map, List.getElem?_eq_getElem hlt, Option.map_some, h1]; rfl, h2⟩

/-- The state between epochs; `ms j` is the network after `j` epochs. -/
structure RunInv (ω : Weighing) (eps : ℝ) (t₀ : Trainer) (n b : Nat) (m : Mlp) (B : Nat) (c : Bool) (S : Prop) (lr : ℝ) (N : Nat) (ms : Nat → Mlp) (r : Nat → Nat) (v : Nat → ℝ) (k : Nat)
    (s : FitSt) : Prop where
  going : s.t.Going s.w n (ms k)
  like : ∀ j, j ≤ k → Mlp.Like m (ms j)
  owned : Owned s.w
  best : t₀.keepBest = true → ∃ j, j ≤ k ∧ Represents s.w b (ms j)
  loss : s.t.loss = t₀.loss
  weight : ω.weights s.t.lossWeight
  batch : s.t.batchAdj = B
  valid : s.t.valid = t₀.valid
  valBatch : s.t.valBatch = t₀.valBatch
  patience : s.t.patience = t₀.patience ∧ s.t.curPatience ≤ k
  keep : s.t.keepBest = t₀.keepBest
  epochs : s.t.epochs = t₀.epochs
  classif : (s.w.nets n).classif = c
  reg : s.t.reg = t₀.reg
  noReg : S → t₀.reg = none
  opts : S → ∀ o ∈ s.t.opts, o.kind = .sgd ∧ o.lr = lr
  acc : c = true → s.t.trainAcc = (List.range k).map (fun j => 100 * (r j : ℝ) / N)
  seen : s.seen.length = k
  losses : s.t.trainLoss = (List.range k).map v
  shown : ∀ i, i < k → Shows (ms (i + 1)) (s.seen.getD i [])
  evals : ∀ d, t₀.valid = some d → ∃ ls as : Nat → ℝ, s.t.valLoss = (List.range k).map ls ∧ s.t.valAcc = (List.range k).map as ∧
    ∀ i, i < k → EvalFactW ω eps t₀ (ms (i + 1)) d (ls i) (as i)

/-- The state after the network has been replaced by the best one: the pointers of the trainer are to deleted layers. -/
structure Stale (ω : Weighing) (t₀ : Trainer) (n b : Nat) (m : Mlp) (B : Nat) (s : FitSt) : Prop where
  rep : ∃ m', Mlp.Like m m' ∧ Represents s.w n m'
  best : ∃ m', Mlp.Like m m' ∧ Represents s.w b m'
  owned : Owned s.w
  net : s.t.net = some n
  layers : s.t.nbLayers = m.depth
  inOut : s.t.inOut.length = m.depth + 1
  gradient : s.t.gradient.length = m.depth + 1
  ok : s.t.Ok
  gradW : s.t.pGradWeights = s.t.pWeights
  gradB : s.t.pGradBiases = s.t.pBiases
  count : s.t.opts.length = s.t.pWeights.length + s.t.pBiases.length
  dead : s.t.Dead s.w
  loss : s.t.loss = t₀.loss
  weight : ω.weights s.t.lossWeight
  batch : s.t.batchAdj = B
  keep : s.t.keepBest = true

theorem RunInv.inv {ω : Weighing} {eps : ℝ} {t₀ : Trainer} {n b : Nat} {m : Mlp} {B : Nat} {c : Bool} {S : Prop} {lr : ℝ} {N : Nat} {ms : Nat → Mlp} {r : Nat → Nat} {v : Nat → ℝ} {k : Nat}
    {s : FitSt} (h : RunInv ω eps t₀ n b m B c S lr N ms r v k s) (hk : t₀.keepBest = true) : Inv n b s.w s.t := by
  obtain ⟨j, -, j2⟩ := h.best hk
  exact ⟨h.owned, h.going.rep.allValid, j2.allValid, h.going.ok, h.going.ptrs', h.going.net⟩

theorem epochStep_mlp {eps : ℝ} {e : FitEnv} {t₀ : Trainer} {n b : Nat} {m : Mlp} (hb : b ≠ n) {B N : Nat} (hN : 0 < N) (hB : 0 < B) {c : Bool}
    {S : Prop} {lr : ℝ} (hlr : lr ≠ -1) {D : Nat} {ω : Weighing} {Γ : Row → Row → Row} (hl : ∀ D, EvalOkW ω eps t₀.loss (m.width m.depth) D) (hlo : LossOkW ω (fun x => |x|) eps t₀.loss (m.width m.depth) D Γ)
    (hv : ∀ d, t₀.valid = some d → DataOkW ω t₀.loss m d) (hvb : 0 < t₀.valBatch) (x y : Nat → Row) (hT : ω.truth t₀.loss (m.width m.depth) D N y) {ms : Nat → Mlp} {r : Nat → Nat} {v : Nat → ℝ} {k : Nat} {s : FitSt}
    (h : RunInv ω eps t₀ n b m B c S lr N ms r v k s) (hke : (t₀.patience = -1 ∨ (k : Int) < t₀.patience) ∨ t₀.keepBest = true) :
    ∃ (s' : FitSt) (m' : Mlp) (right : Nat) (vl : ℝ),
      epochStep (fun x => |x|) eps e n b (Mat.ofFn N (m.width 0) x) (Mat.ofFn N D y) k s = .ok s' ∧
      EpochFactW ω (fun x => |x|) eps t₀.loss S Γ lr N B D x y (ms k) m' right vl ∧
      (RunInv ω eps t₀ n b m B c S lr N (fun j => if j ≤ k then ms j else m') (fun j => if j < k then r j else right) (fun j => if j < k then v j else vl) (k + 1) s' ∨
        ¬ (t₀.patience = -1 ∨ (k : Int) < t₀.patience) ∧ Stale ω t₀ n b m B s') ∧ s'.t.reboostEvery = s.t.reboostEvery ∧
      s'.iReboost = boostNext s.t.reboostEvery s.iReboost ∧
      ∀ mem, s.t.Mem s.w n mem → ∃ mem', EpochRule t₀.reg (fun x => |x|) Γ N B x y (ms k) m' mem mem' ∧
        ((t₀.patience = -1 ∨ (k : Int) < t₀.patience) →
          s'.t.Mem s'.w n (if boosts s.t.reboostEvery s.iReboost then fun b i => (mem' b i).init e.g else mem')) := by
  obtain ⟨w, t, minLoss, maxAcc, iReboost, seen⟩ := s
  have hlk := h.like k le_rfl
  obtain ⟨w₁, t₁, m', right, vl, a1, a2, a3, a4, a5, a6, a7, a8, a9, a10⟩ := epochTrain_mlp (ab := fun x => |x|) (eps := eps) (e := e) h.going
    (D := D) (ω := ω) (Γ := Γ) (by rw [h.loss, hlk.depth, hlk.width]; exact hlo) h.weight N B hN hB h.batch x y
    (by rw [h.loss, hlk.depth, hlk.width]; exact hT) k S lr (fun hs => h.reg.trans (h.noReg hs)) h.opts
  rw [hlk.width] at a1
  rw [show t.loss = t₀.loss from h.loss] at a2
  have ow : Owned w₁ := (a5.frame h.owned).owned
  have hlike : ∀ j, j ≤ k + 1 → Mlp.Like m ((fun j => if j ≤ k then ms j else m') j) := by
    intro j hj
    dsimp only
    split
    · exact h.like j (by assumption)
    · exact hlk.trans a4
  have hacc : c = true → ∀ l : List ℝ, l = t.trainAcc ++ [100 * (right : ℝ) / N] →
      l = (List.range (k + 1)).map (fun j => 100 * ((if j < k then r j else right : Nat) : ℝ) / N) := by
    intro hc l hl
    rw [hl, show t.trainAcc = _ from h.acc hc, List.range_succ, List.map_append]
    congr 1
    · exact List.map_congr_left fun j hj => by rw [if_pos (List.mem_range.1 hj)]
    · simp
  have tloss : t₁.loss = t₀.loss := by rw [← a6]; exact h.loss
  have tweight : ω.weights t₁.lossWeight := by rw [← a6]; exact h.weight
  have tvalid : t₁.valid = t₀.valid := by rw [← a6]; exact h.valid
  have tvb : t₁.valBatch = t₀.valBatch := by rw [← a6]; exact h.valBatch
  have tpat : t₁.patience = t₀.patience ∧ t₁.curPatience ≤ k := by rw [← a6]; exact h.patience
  have tkeep : t₁.keepBest = t₀.keepBest := by rw [← a6]; exact h.keep
  have tbatch : t₁.batchAdj = B := by rw [← a6]; exact h.batch
  have tep : t₁.epochs = t₀.epochs := by rw [← a6]; exact h.epochs
  have hcl : (w₁.nets n).classif = c := a5.classif.trans h.classif
  -- evaluation
  obtain ⟨w₂, t₂, l, a, b1, b0, b2, b3⟩ : ∃ w₂ t₂ l a, evalValid (fun x => |x|) eps e k w₁ t₁ = .ok (w₂, t₂, l, a) ∧ w₁.Scratch w₂ ∧
      { t₁ with curValLoss := t₂.curValLoss, curValAcc := t₂.curValAcc, valLoss := t₂.valLoss, valAcc := t₂.valAcc } = t₂ ∧
      ∀ d, t₁.valid = some d → t₂.valLoss = t₁.valLoss ++ [l] ∧ t₂.valAcc = t₁.valAcc ++ [a] ∧ EvalFactW ω eps t₁ m' d l a := by
    obtain hval | ⟨d, hval⟩ : t₁.valid = none ∨ ∃ d, t₁.valid = some d := by cases t₁.valid <;> simp
    · exact ⟨w₁, t₁, t₁.curTrainLoss, t₁.curTrainAcc, by unfold evalValid; rw [hval], .refl w₁, rfl, fun d hd => by rw [hval] at hd; cases hd⟩
    · obtain ⟨w₂, l, a, h1, h2, h3⟩ := eval_mlp (eps := eps) (e := e.eval (k + 1)) a3.net a3.rep (ω := ω) (by rw [tloss, (hlk.trans a4).depth, (hlk.trans a4).width]; exact hl) tweight (by rw [tvb]; exact hvb)
        (by rw [tloss]; exact DataOkW.like (hlk.trans a4) (hv d (tvalid ▸ hval)))
      refine ⟨w₂, { t₁ with curValLoss := l, curValAcc := a, valLoss := t₁.valLoss ++ [l], valAcc := t₁.valAcc ++ [a] }, l, a, ?_, h2, rfl,
        fun d' hd' => ⟨rfl, rfl, by rw [hval] at hd'; injection hd' with hd'; rw [← hd']; exact h3⟩⟩
      unfold evalValid
      rw [hval]
      obtain ⟨x, y⟩ := d
      dsimp only at h1 ⊢
      rw [h1, bind_ok', pure_ok]
  have g2 : t₂.Going w₂ n m' := (a3.world (a3.rep.scratch b0) (by rw [b0.nets])).congr (by rw [← b2])
  -- the state before keeping the best
  obtain ⟨s₁, hs₁⟩ : ∃ s₁ : FitSt, s₁ = ⟨w₂, t₂, minLoss, maxAcc, iReboost, seen ++ [layersOf w₂ n]⟩ := ⟨_, rfl⟩
  have r1 : RunInv ω eps t₀ n b m B c S lr N (fun j => if j ≤ k then ms j else m') (fun j => if j < k then r j else right) (fun j => if j < k then v j else vl) (k + 1) s₁ := by
    subst hs₁
    refine ⟨by rw [if_neg (by omega)]; exact g2, hlike, ow.scratch b0, fun hk => ?_, ?_, ?_, ?_, ?_, ?_, ?_, ?_, ?_, by rw [b0.nets]; exact hcl, ?_, h.noReg, ?_, fun hc => ?_, ?_, ?_, ?_, fun d hd => ?_⟩
    · obtain ⟨j, j1, j2⟩ := h.best hk
      exact ⟨j, by omega, by simp only [j1, if_true]; exact (j2.frame (a5.frame h.owned) hb).scratch b0⟩
    · show t₂.loss = _; rw [← b2]; exact tloss
    · show ω.weights t₂.lossWeight; rw [← b2]; exact tweight
    · show t₂.batchAdj = _; rw [← b2]; exact tbatch
    · show t₂.valid = _; rw [← b2]; exact tvalid
    · show t₂.valBatch = _; rw [← b2]; exact tvb
    · show t₂.patience = _ ∧ t₂.curPatience ≤ _
      rw [← b2]
      exact ⟨tpat.1, tpat.2.trans (by push_cast; omega)⟩
    · show t₂.keepBest = _; rw [← b2]; exact tkeep
    · show t₂.epochs = _; rw [← b2]; exact tep
    · show t₂.reg = _; rw [← b2]; show t₁.reg = _; rw [← a6]; exact h.reg
    · show S → ∀ o ∈ t₂.opts, _; rw [← b2]; exact a7
    · refine hacc hc t₂.trainAcc ?_
      rw [← b2]
      exact a8 (h.classif.trans hc)
    · simp only [List.length_append, List.length_singleton]
      rw [show seen.length = k from h.seen]
    · show t₂.trainLoss = _
      rw [← b2]
      dsimp only
      rw [a9, show t.trainLoss = _ from h.losses, List.range_succ, List.map_append]
      congr 1
      · exact List.map_congr_left fun j hj => by rw [if_pos (List.mem_range.1 hj)]
      · simp
    · intro i hi
      have hsl : seen.length = k := h.seen
      show Shows _ ((seen ++ [layersOf w₂ n]).getD i [])
      by_cases hik : i < k
      · rw [if_pos (show i + 1 ≤ k by omega), List.getD_eq_getElem?_getD, List.getElem?_append_left (by omega),
          ← List.getD_eq_getElem?_getD]
        exact h.shown i hik
      · obtain rfl : i = k := by omega
        rw [if_neg (show ¬ i + 1 ≤ i by omega), List.getD_eq_getElem?_getD,
          List.getElem?_append_right (by omega), hsl, Nat.sub_self]
        exact shows_layersOf g2.rep
    · obtain ⟨ls, as, v1, v2, v3⟩ := h.evals d hd
      obtain ⟨u1, u2, u3⟩ := b3 d (tvalid.trans hd)
      refine ⟨fun i => if i < k then ls i else l, fun i => if i < k then as i else a, ?_, ?_, fun i hi => ?_⟩
      · show t₂.valLoss = _
        rw [u1, ← a6, show t.valLoss = _ from v1, List.range_succ, List.map_append]
        congr 1
        · exact List.map_congr_left fun j hj => by rw [if_pos (List.mem_range.1 hj)]
        · simp
      · show t₂.valAcc = _
        rw [u2, ← a6, show t.valAcc = _ from v2, List.range_succ, List.map_append]
        congr 1
        · exact List.map_congr_left fun j hj => by rw [if_pos (List.mem_range.1 hj)]
        · simp
      · by_cases hik : i < k
        · simp only [show i + 1 ≤ k by omega, hik, if_true]
          exact v3 i hik
        · obtain rfl : i = k := by omega
          simp only [show ¬ i + 1 ≤ i by omega, lt_irrefl, if_false]
          obtain ⟨t', n', e', w', w'', q1, q2, q3⟩ := u3
          exact ⟨t', n', e', w', w'', q1.trans tloss, q2.trans tvb, q3⟩
  have cur1 : s₁.t.curPatience ≤ k := by
    subst hs₁
    show t₂.curPatience ≤ _
    rw [← b2]
    exact tpat.2
  -- keeping the best
  obtain ⟨s₂, c1, r2⟩ : ∃ s₂, bestStep e k n b s₁ l a = .ok s₂ ∧
      (RunInv ω eps t₀ n b m B c S lr N (fun j => if j ≤ k then ms j else m') (fun j => if j < k then r j else right) (fun j => if j < k then v j else vl) (k + 1) s₂ ∧
          (s₂.t.reboostEvery = s₁.t.reboostEvery ∧ s₂.iReboost = s₁.iReboost) ∧ (∀ mem, s₁.t.Mem s₁.w n mem → s₂.t.Mem s₂.w n mem) ∨
        ¬ (t₀.patience = -1 ∨ (k : Int) < t₀.patience) ∧ Stale ω t₀ n b m B s₂ ∧ (s₂.t.reboostEvery = s₁.t.reboostEvery ∧ s₂.iReboost = s₁.iReboost)) := by
    unfold bestStep
    split
    · obtain ⟨w₂, d1, d2, d3, d4, -⟩ := r1.going.rep.assign (e := e.copy (2 * k + 1)) r1.owned hb
      have hcase : ∀ mi ma, RunInv ω eps t₀ n b m B c S lr N (fun j => if j ≤ k then ms j else m') (fun j => if j < k then r j else right) (fun j => if j < k then v j else vl) (k + 1)
          { s₁ with w := w₂, minLoss := mi, maxAcc := ma, t := { s₁.t with curPatience := 0 } } := fun mi ma =>
        ⟨(r1.going.world d3 (by rw [d4.nets n hb.symm])).congr rfl, r1.like, d4.owned, fun _ => ⟨k + 1, le_rfl, d2⟩, r1.loss, r1.weight, r1.batch, r1.valid,
          r1.valBatch, ⟨r1.patience.1, by show (0 : Int) ≤ _; omega⟩, r1.keep, r1.epochs, by rw [← r1.classif]; show (w₂.nets n).classif = _; rw [d4.nets n hb.symm], r1.reg, r1.noReg, r1.opts, r1.acc, r1.seen, r1.losses, r1.shown, r1.evals⟩
      have hcase' : RunInv ω eps t₀ n b m B c S lr N (fun j => if j ≤ k then ms j else m') (fun j => if j < k then r j else right) (fun j => if j < k then v j else vl) (k + 1)
          { s₁ with t := { s₁.t with curPatience := s₁.t.curPatience + 1 } } :=
        ⟨r1.going.congr rfl, r1.like, r1.owned, r1.best, r1.loss, r1.weight, r1.batch, r1.valid,
          r1.valBatch, ⟨r1.patience.1, by show s₁.t.curPatience + 1 ≤ _; push_cast; omega⟩, r1.keep, r1.epochs, r1.classif, r1.reg, r1.noReg, r1.opts, r1.acc, r1.seen, r1.losses, r1.shown, r1.evals⟩
      obtain ⟨s₂, e1, e2, e3, e4⟩ : ∃ s₂, keepStep (e.copy (2 * k + 1)) n b s₁ l a = .ok s₂ ∧
          RunInv ω eps t₀ n b m B c S lr N (fun j => if j ≤ k then ms j else m') (fun j => if j < k then r j else right) (fun j => if j < k then v j else vl) (k + 1) s₂ ∧
          (s₂.t.reboostEvery = s₁.t.reboostEvery ∧ s₂.iReboost = s₁.iReboost) ∧ ∀ mem, s₁.t.Mem s₁.w n mem → s₂.t.Mem s₂.w n mem := by
        unfold keepStep
        split
        · split
          · exact ⟨_, by rw [d1, bind_ok']; rfl, hcase _ _, ⟨rfl, rfl⟩, fun mem hm => hm.congr rfl (by rw [d4.nets n hb.symm])⟩
          · exact ⟨_, rfl, hcase', ⟨rfl, rfl⟩, fun mem hm => hm.congr rfl rfl⟩
        · split
          · exact ⟨_, by rw [d1, bind_ok']; rfl, hcase _ _, ⟨rfl, rfl⟩, fun mem hm => hm.congr rfl (by rw [d4.nets n hb.symm])⟩
          · exact ⟨_, rfl, hcase', ⟨rfl, rfl⟩, fun mem hm => hm.congr rfl rfl⟩
      obtain ⟨p1, p2⟩ := e2.patience
      by_cases hfire : s₂.t.curPatience > s₂.t.patience ∧ s₂.t.patience ≠ -1
      · have hno : ¬ (t₀.patience = -1 ∨ (k : Int) < t₀.patience) := by
          rw [p1] at hfire
          rintro (hp | hp)
          · exact hfire.2 hp
          · push_cast at p2; omega
        have hkb := hke.resolve_left hno
        obtain ⟨j, j1, j2⟩ := e2.best hkb
        obtain ⟨w₃, f1, f2, f3, f4, -⟩ := j2.assign (e := e.copy (2 * k + 2)) e2.owned hb.symm
        have hd := Dead.assign hb (e2.inv hkb) f1
        have hg := e2.going
        have hlk' := e2.like (k + 1) le_rfl
        refine ⟨{ s₂ with w := w₃, t := ({ s₂.t with curPatience := 0 } : Trainer).setLearningRate e.g (s₂.t.getLearningRate / 2) }, ?_, .inr ⟨hno, ?_, e3⟩⟩
        · rw [e1, bind_ok', patienceStep, if_pos hfire]
          dsimp only
          rw [f1, bind_ok']
          rfl
        · refine ⟨⟨_, e2.like j j1, f2⟩, ⟨_, e2.like j j1, f3⟩, f4.owned, hg.net, hg.layers.trans hlk'.depth, ?_, ?_, ⟨hg.ok.inOut, hg.ok.gradient, ?_⟩, hg.gradW, hg.gradB, ?_, hd,
            e2.loss, e2.weight, e2.batch, e2.keep.trans hkb⟩
          · rw [← hlk'.depth]; exact hg.inOut
          · rw [← hlk'.depth]; exact hg.gradient
          · intro o ho
            obtain ⟨o', ho', rfl⟩ := List.mem_map.1 ho
            exact Opt.init_WF _ (o := { o' with lr := s₂.t.getLearningRate / 2 }) (hg.ok.opts o' ho')
          · show (List.map _ s₂.t.opts).length = _
            rw [List.length_map]
            exact hg.count
      · exact ⟨s₂, by rw [e1, bind_ok', patienceStep, if_neg hfire], .inl ⟨e2, e3, e4⟩⟩
    · exact ⟨s₁, rfl, .inl ⟨r1, ⟨rfl, rfl⟩, fun _ hm => hm⟩⟩
  have hre₁ : s₁.t.reboostEvery = t.reboostEvery := by
    rw [hs₁]; show t₂.reboostEvery = _; rw [← b2]; show t₁.reboostEvery = _; rw [← a6]
  have hre₂ : s₂.t.reboostEvery = t.reboostEvery := by
    rcases r2 with r2 | r2
    · exact r2.2.1.1.trans hre₁
    · exact r2.2.2.1.trans hre₁
  have hib₂ : s₂.iReboost = iReboost := by
    have : s₁.iReboost = iReboost := by rw [hs₁]
    rcases r2 with r2 | r2
    · exact r2.2.1.2.trans this
    · exact r2.2.2.2.trans this
  have hmem : ∀ mem, t.Mem w n mem → ∃ mem', EpochRule t₀.reg (fun x => |x|) Γ N B x y (ms k) m' mem mem' ∧
      ((t₀.patience = -1 ∨ (k : Int) < t₀.patience) → s₂.t.Mem s₂.w n mem') := by
    intro mem hm
    obtain ⟨mem', n1, n2⟩ := a10 mem hm
    rw [h.reg] at n2
    refine ⟨mem', n2, fun hp => ?_⟩
    rcases r2 with r2 | r2
    · refine r2.2.2 _ ?_
      rw [hs₁]
      exact n1.congr (by rw [← b2]) (by rw [b0.nets])
    · exact absurd hp r2.1
  replace r2 := r2.imp And.left fun h => And.intro h.1 h.2.1
  refine ⟨reboostStep e.g s₂, m', right, vl, ?_, a2, ?_, ?_, ?_, fun mem hm => ?_⟩
  · unfold epochStep
    dsimp only
    rw [a1, bind_ok']
    dsimp only
    rw [b1, bind_ok']
    dsimp only
    rw [← hs₁, c1, bind_ok']
    rfl
  · rcases r2 with r2 | ⟨hno, r2⟩
    · left
      unfold reboostStep
      split
      · split
        · exact ⟨r2.going, r2.like, r2.owned, r2.best, r2.loss, r2.weight, r2.batch, r2.valid, r2.valBatch, r2.patience, r2.keep, r2.epochs, r2.classif, r2.reg, r2.noReg, r2.opts,
            r2.acc, r2.seen, r2.losses, r2.shown, r2.evals⟩
        · refine ⟨r2.going.init e.g, r2.like, r2.owned, r2.best, r2.loss, r2.weight, r2.batch, r2.valid, r2.valBatch, r2.patience, r2.keep, r2.epochs, r2.classif, r2.reg, r2.noReg,
            fun hS o ho => ?_, r2.acc, r2.seen, r2.losses, r2.shown, r2.evals⟩
          obtain ⟨o', h1, rfl⟩ := List.mem_map.1 ho
          obtain ⟨k1, k2⟩ := r2.opts hS o' h1
          refine ⟨(Opt.init_kind _ _).trans k1, ?_⟩
          rw [Opt.init_lr, k2]
          unfold orDefault
          split
          · rw [if_neg hlr]
          · rfl
      · exact r2
    · refine .inr ⟨hno, ?_⟩
      unfold reboostStep
      split
      · split
        · exact ⟨r2.rep, r2.best, r2.owned, r2.net, r2.layers, r2.inOut, r2.gradient, r2.ok, r2.gradW, r2.gradB, r2.count, r2.dead, r2.loss, r2.weight,
            r2.batch, r2.keep⟩
        · refine ⟨r2.rep, r2.best, r2.owned, r2.net, r2.layers, r2.inOut, r2.gradient, ⟨r2.ok.inOut, r2.ok.gradient, fun o ho => ?_⟩, r2.gradW, r2.gradB, ?_,
            r2.dead, r2.loss, r2.weight, r2.batch, r2.keep⟩
          · obtain ⟨o', h1, rfl⟩ := List.mem_map.1 ho
            exact Opt.init_WF _ (r2.ok.opts o' h1)
          · show (List.map _ s₂.t.opts).length = _
            rw [List.length_map]
            exact r2.count
      · exact r2
  · rw [← hre₂]
    unfold reboostStep
    split
    · split <;> rfl
    · rfl
  · show _ = boostNext t.reboostEvery iReboost
    unfold boostNext reboostStep
    rw [hre₂, hib₂, ite_not]
    split
    · exact hib₂
    · split <;> rfl
  · obtain ⟨mem', n1, n2⟩ := hmem mem hm
    refine ⟨mem', n1, fun hp => ?_⟩
    show Mem _ _ n (if boosts t.reboostEvery iReboost then _ else _)
    unfold reboostStep
    rw [hre₂, hib₂]
    by_cases h1 : t.reboostEvery = -1
    · rw [if_neg (fun h => h h1), if_neg (fun h : boosts _ _ => h.1 h1)]
      exact n2 hp
    · rw [if_pos h1]
      by_cases h2 : iReboost < t.reboostEvery
      · rw [if_pos h2, if_neg (fun h : boosts _ _ => h.2 h2)]
        exact n2 hp
      · rw [if_neg h2, if_pos (show boosts _ _ from ⟨h1, h2⟩)]
        exact (n2 hp).init e.g

/-- Everything before the first epoch. -/
theorem start_mlp {eps : ℝ} {e : FitEnv} {w : World} {t : Trainer} {n b : Nat} {m : Mlp} (h : Represents w n m) (ho : Owned w) (hb : b ≠ n) (hbe : (w.nets b).layers = [])
    (hi : ∀ m ∈ t.inOut, m.WF) (hg : ∀ m ∈ t.gradient, m.WF) {k : OptKind} (hk : createOptimizer t.optName = some k)
    {N D : Nat} (hN : 0 < N) (x y : Nat → Row) (hd : t.train = some (Mat.ofFn N (m.width 0) x, Mat.ofFn N D y))
    {ω : Weighing} (hT : ω.truth t.loss (m.width m.depth) D N y) (hv : ∀ d, t.valid = some d → DataOkW ω t.loss m d) (hvb : 0 < t.valBatch) (hbs : 0 ≤ t.batchSize)
    (hcw : ∃ cw, classWeights e.g e.div0 (w.nets n).classif t.balancing t.train = .ok cw ∧ ω.weights cw) (hl : ∀ D, EvalOkW ω eps t.loss (m.width m.depth) D) :
    ∃ (lr : ℝ) (B : Nat) (s : FitSt), (if t.lr = -1 then (0.01 : ℝ) else t.lr) = lr ∧ lr ≠ -1 ∧ (adjustBatch t.batchSize N).toNat = B ∧ 0 < B ∧
      RunInv ω eps t n b m B (w.nets n).classif (k = .sgd ∧ t.reg = none) lr N (fun _ => m) (fun _ => 0) (fun _ => 0) 0 s ∧
      ((s.t.reboostEvery = t.reboostEvery ∧ s.iReboost = 0) ∧ s.t.Mem s.w n fun _ _ => ((Opt.new k).setParams e.g t.lr t.decay t.mom).init e.g) ∧
      fit (fun x => |x|) eps e w t n b = (do
        let s ← forN t.epochs.toNat (epochStep (fun x => |x|) eps e n b (Mat.ofFn N (m.width 0) x) (Mat.ofFn N D y)) s
        let s ← finish e n b s
        return (s.w, s.t, s.seen)) := by
  obtain ⟨w₁, t₁, s1, s2, s3, s4, s5⟩ := setNet_mlp (g := e.g) h hi hg hk
  obtain ⟨B, q1, q2, q3, -⟩ := C50_adjusted t.batchSize N hbs hN
  have ow₁ : Owned w₁ := by
    obtain ⟨o1, -⟩ := setNet_inv hb ho h.allValid (by rw [hbe]; intro a ha; cases ha) hi hg s1
    exact (o1.stage.frame ho).owned
  have hlr : (if t.lr = -1 then (0.01 : ℝ) else t.lr) ≠ -1 := by
    split
    · norm_num
    · assumption
  have hopt : k = .sgd → ∀ o ∈ t₁.opts.map (Opt.init e.g), o.kind = .sgd ∧ o.lr = if t.lr = -1 then 0.01 else t.lr := by
    rw [s4]
    rintro rfl o ho
    obtain ⟨o', h1, rfl⟩ := List.mem_map.1 ho
    rw [List.eq_of_mem_replicate h1]
    refine ⟨rfl, ?_⟩
    rw [Opt.init_lr]
    show (if (if t.lr = -1 then (0.01 : ℝ) else t.lr) = -1 then (0.01 : ℝ) else (if t.lr = -1 then 0.01 else t.lr)) = _
    rw [if_neg hlr]
  obtain ⟨lr, hlrv⟩ : ∃ lr, (if t.lr = -1 then (0.01 : ℝ) else t.lr) = lr := ⟨_, rfl⟩
  rw [hlrv] at hlr hopt
  have hB : (adjustBatch t.batchSize N).toNat = B := by rw [q1]; rfl
  have tnb : t₁.nbLayers ≠ 0 := by rw [s2.layers]; exact h.ok.depth.ne'
  have f1 : t₁.train = t.train := by rw [← s5]
  have f2 : t₁.valid = t.valid := by rw [← s5]
  have f3 : t₁.valBatch = t.valBatch := by rw [← s5]
  have f4 : t₁.batchSize = t.batchSize := by rw [← s5]
  have f5 : t₁.balancing = t.balancing := by rw [← s5]
  obtain ⟨cw, hcw1, hcw2⟩ := hcw
  have f6 : t₁.patience = t.patience := by rw [← s5]
  have f7 : t₁.loss = t.loss := by rw [← s5]
  have f8 : t₁.keepBest = t.keepBest := by rw [← s5]
  have f9 : t₁.epochs = t.epochs := by rw [← s5]
  have hcl : (w₁.nets n).classif = (w.nets n).classif := by rw [s3]
  -- before the first epoch
  obtain ⟨s, u1, u2, u3⟩ : ∃ s, start (fun x => |x|) eps e n b (Mat.ofFn N (m.width 0) x) (Mat.ofFn N D y) w₁ t₁ = .ok s ∧
      RunInv ω eps t n b m B (w.nets n).classif (k = .sgd ∧ t.reg = none) lr N (fun _ => m) (fun _ => 0) (fun _ => 0) 0 s ∧
      ((s.t.reboostEvery = t.reboostEvery ∧ s.iReboost = 0) ∧ s.t.Mem s.w n fun _ _ => ((Opt.new k).setParams e.g t.lr t.decay t.mom).init e.g) := by
    unfold start
    rw [show classWeights e.g e.div0 (w₁.nets n).classif t₁.balancing t₁.train = .ok cw by
      rw [hcl, f5, f1]; exact hcw1, bind_ok']
    dsimp only
    obtain ⟨t₂, ht₂⟩ : ∃ t₂ : Trainer, t₂ = { t₁ with
      lossWeight := cw, trainLoss := [], valLoss := [], trainAcc := [], valAcc := [], curTrainLoss := 1e10, curTrainAcc := 0
      curValLoss := 1e10, curValAcc := 0, curPatience := 0, batchAdj := adjustBatch t₁.batchSize (Mat.ofFn N (m.width 0) x).rows
      opts := t₁.opts.map (Opt.init e.g) } := ⟨_, rfl⟩
    rw [← ht₂]
    have g2 : t₂.Going w₁ n m := by rw [ht₂]; exact (s2.init e.g).congr rfl
    have k1 : t₂.loss = t.loss := by rw [ht₂]; exact f7
    have k2 : ω.weights t₂.lossWeight := by rw [ht₂]; exact hcw2
    have k3 : t₂.batchAdj = B := by
      rw [ht₂]; dsimp only; rw [f4]; exact q1
    have k4 : t₂.valid = t.valid := by rw [ht₂]; exact f2
    have k5 : t₂.valBatch = t.valBatch := by rw [ht₂]; exact f3
    have k6 : t₂.patience = t.patience ∧ t₂.curPatience ≤ ((0 : Nat) : Int) := by
      rw [ht₂]
      exact ⟨f6, le_rfl⟩
    have k7 : t₂.keepBest = t.keepBest := by rw [ht₂]; exact f8
    have k8 : k = .sgd → ∀ o ∈ t₂.opts, o.kind = .sgd ∧ o.lr = lr := by rw [ht₂]; exact hopt
    have k9 : t₂.trainAcc = [] := by rw [ht₂]
    have k11 : t₂.trainLoss = [] := by rw [ht₂]
    have k12 : ∀ d, t.valid = some d → ∃ ls as : Nat → ℝ, t₂.valLoss = (List.range 0).map ls ∧ t₂.valAcc = (List.range 0).map as ∧
        ∀ i, i < 0 → EvalFactW ω eps t m d (ls i) (as i) :=
      fun d _ => ⟨fun _ => 0, fun _ => 0, by rw [ht₂]; rfl, by rw [ht₂]; rfl, fun i hi => absurd hi (Nat.not_lt_zero i)⟩
    have k10 : t₂.epochs = t.epochs := by rw [ht₂]; exact f9
    have k13 : t₂.reboostEvery = t.reboostEvery := by rw [ht₂]; show t₁.reboostEvery = _; rw [← s5]
    have k15 : t₂.reg = t.reg := by rw [ht₂]; show t₁.reg = _; rw [← s5]
    have k14 : t₂.Mem w₁ n fun _ _ => ((Opt.new k).setParams e.g t.lr t.decay t.mom).init e.g := by
      rw [ht₂]
      intro b j a i hj hi
      obtain ⟨o, o1, -⟩ := s2.ready b j a i hj hi
      show (t₁.opts.map (Opt.init e.g))[j + t₁.off b]? = _
      have hm := List.mem_of_getElem? o1
      rw [s4] at hm
      rw [List.getElem?_map, o1, List.eq_of_mem_replicate hm]
      rfl
    clear ht₂
    unfold initialBest
    split
    · rename_i hkb
      obtain ⟨w₂, l, a, c1, c0, -⟩ := eval_mlp (eps := eps) (e := e.eval 0) g2.net g2.rep (ω := ω) (by rw [k1]; exact hl) k2 (by rw [k5]; exact hvb)
        (d := t₂.valid.getD (Mat.ofFn N (m.width 0) x, Mat.ofFn N D y)) (by
          rw [k4, k1]
          cases hv' : t.valid with
          | none => exact ⟨N, D, x, y, hN, hT, rfl⟩
          | some d => exact hv d hv')
      obtain ⟨w₃, d1, d2, d3, d4, -⟩ := (g2.rep.scratch c0).assign (e := e.copy 0) (ow₁.scratch c0) hb
      refine ⟨⟨w₃, t₂, l, a, 0, []⟩, ?_, ?_⟩
      · rw [c1, bind_ok']
        dsimp only
        rw [d1, bind_ok']
        rfl
      · exact ⟨⟨g2.world d3 (by rw [d4.nets n hb.symm, c0.nets]), fun _ _ => Mlp.Like.refl m, d4.owned, fun _ => ⟨0, le_rfl, d2⟩, k1, k2, k3, k4, k5, k6, k7, k10,
          by show (w₃.nets n).classif = _; rw [d4.nets n hb.symm, c0.nets, hcl], k15, And.right, fun hs => k8 hs.1, fun _ => k9, rfl, k11, fun i hi => absurd hi (Nat.not_lt_zero i), k12⟩,
          ⟨k13, rfl⟩, k14.congr rfl (by rw [d4.nets n hb.symm, c0.nets])⟩
    · rename_i hkb
      refine ⟨⟨w₁, t₂, 1e10, 0, 0, []⟩, rfl, ?_⟩
      exact ⟨⟨g2, fun _ _ => Mlp.Like.refl m, ow₁, fun hk => absurd (k7.trans hk) hkb, k1, k2, k3, k4, k5, k6, k7, k10, hcl, k15, And.right, fun hs => k8 hs.1, fun _ => k9, rfl, k11, fun i hi => absurd hi (Nat.not_lt_zero i), k12⟩, ⟨k13, rfl⟩, k14⟩
  refine ⟨lr, B, s, hlrv, hlr, hB, q2, u2, u3, ?_⟩
  unfold fit
  rw [s1, bind_ok']
  dsimp only
  rw [if_neg tnb, f1, hd]
  dsimp only
  rw [u1, bind_ok', f9]

theorem classWeights_off {g : Nat → ℝ} {div0 : ℝ} {c : Bool} {b : Bool} {d : Option (Mat ℝ × Mat ℝ)} (h : b = false) :
    ∃ cw, classWeights g div0 c b d = .ok cw ∧ Weighing.none.weights cw :=
  ⟨⟨0, 0, []⟩, by unfold classWeights; rw [if_pos (.inr (by simp [h]))], rfl⟩

/-- `fit` of a perceptron: no fault; the network afterwards is the one after some number of epochs – all of them, unless
the best one is to be kept. -/
theorem fit_mlp_reg {eps : ℝ} {e : FitEnv} {w : World} {t : Trainer} {n b : Nat} {m : Mlp} (h : Represents w n m) (ho : Owned w) (hb : b ≠ n) (hbe : (w.nets b).layers = [])
    (hi : ∀ m ∈ t.inOut, m.WF) (hg : ∀ m ∈ t.gradient, m.WF) {k : OptKind} (hk : createOptimizer t.optName = some k)
    {N D : Nat} (hN : 0 < N) (x y : Nat → Row) (hd : t.train = some (Mat.ofFn N (m.width 0) x, Mat.ofFn N D y))
    (hT : TruthFits t.loss (m.width m.depth) D N y) (hv : ∀ d, t.valid = some d → DataOk t.loss m d) (hvb : 0 < t.valBatch) (hbs : 0 ≤ t.batchSize) (hbal : t.balancing = false) (hpat : t.patience = -1 ∨ t.epochs ≤ t.patience)
    {Γ : Row → Row → Row} (hl : t.loss ∈ listLoss) (hlo : LossOk (fun x => |x|) eps t.loss (m.width m.depth) D Γ) :
    ∃ (w' : World) (t' : Trainer) (seen : List (List (Option Layer))) (ms : Nat → Mlp) (r : Nat → Nat) (v : Nat → ℝ) (j : Nat),
      fit (fun x => |x|) eps e w t n b = .ok (w', t', seen) ∧ ms 0 = m ∧ (∀ j, j ≤ t.epochs.toNat → Mlp.Like m (ms j)) ∧ j ≤ t.epochs.toNat ∧
      (t.keepBest = false → j = t.epochs.toNat) ∧ Represents w' n (ms j) ∧ Owned w' ∧ seen.length = t.epochs.toNat ∧
      (∀ i, i < t.epochs.toNat → EpochFact (fun x => |x|) eps t.loss (k = .sgd ∧ t.reg = none) Γ (if t.lr = -1 then 0.01 else t.lr) N (adjustBatch t.batchSize N).toNat D x y (ms i) (ms (i + 1)) (r i) (v i)) ∧
      ((w.nets n).classif = true → t'.trainAcc = (List.range t.epochs.toNat).map (fun j => 100 * (r j : ℝ) / N)) ∧ t'.trainLoss = (List.range t.epochs.toNat).map v ∧
      (∀ i, i < t.epochs.toNat → Shows (ms (i + 1)) (seen.getD i [])) ∧
      (∀ d, t.valid = some d → ∃ ls as : Nat → ℝ, t'.valLoss = (List.range t.epochs.toNat).map ls ∧ t'.valAcc = (List.range t.epochs.toNat).map as ∧
        ∀ i, i < t.epochs.toNat → EvalFact eps t (ms (i + 1)) d (ls i) (as i)) ∧
      t'.net = some n ∧ t'.loss = t.loss ∧ t'.valBatch = t.valBatch ∧ t'.lossWeight.size = 0 := by
  obtain ⟨lr, B, s, hlrv, hlr, hB, q2, u2, -, hfit⟩ := start_mlp (eps := eps) (e := e) (ω := .none) h ho hb hbe hi hg hk hN x y hd hT hv hvb hbs (classWeights_off hbal)
    (EvalOkW.none hl (h.ok.pos _ (Nat.le_refl _)))
  rw [hlrv, hB]
  -- the epochs
  refine (forN_inv (n := t.epochs.toNat) (fun i s => ∃ (ms : Nat → Mlp) (r : Nat → Nat) (v : Nat → ℝ), ms 0 = m ∧
    RunInv .none eps t n b m B (w.nets n).classif (k = .sgd ∧ t.reg = none) lr N ms r v i s ∧
    ∀ j, j < i → EpochFact (fun x => |x|) eps t.loss (k = .sgd ∧ t.reg = none) Γ lr N B D x y (ms j) (ms (j + 1)) (r j) (v j))
    (f := epochStep (fun x => |x|) eps e n b (Mat.ofFn N (m.width 0) x) (Mat.ofFn N D y)) (s := s)
    ⟨fun _ => m, fun _ => 0, fun _ => 0, rfl, u2, fun j hj => absurd hj (Nat.not_lt_zero j)⟩ ?_).elim ?_
  · rintro i hi s₁ ⟨ms, r, v, m0, v1, v2⟩
    have hpi : t.patience = -1 ∨ (i : Int) < t.patience := hpat.imp_right fun h => by omega
    obtain ⟨s₂, m', right, vl, z1, z2, z3, -⟩ := epochStep_mlp (e := e) hb hN q2 hlr (EvalOkW.none hl (h.ok.pos _ (Nat.le_refl _))) hlo hv hvb x y hT v1 (.inl hpi)
    replace z3 := z3.resolve_right fun h => h.1 hpi
    refine ⟨s₂, z1, _, _, _, by simp [m0], z3, fun j hj => ?_⟩
    by_cases hji : j < i
    · simp only [show j ≤ i by omega, show j + 1 ≤ i by omega, hji, if_true]
      exact v2 j hji
    · obtain rfl : j = i := by omega
      simp only [le_refl, show ¬ j + 1 ≤ j by omega, lt_irrefl, if_true, if_false]
      exact z2
  · rintro s₁ ⟨v0, ms, r, v, m0, v1, v2⟩
    -- the end
    obtain ⟨w₃, j, x1, x2, x3, x4, x5⟩ : ∃ (w₃ : World) (j : Nat), restoreBest e n b s₁ = .ok w₃ ∧ j ≤ t.epochs.toNat ∧
        (t.keepBest = false → j = t.epochs.toNat) ∧ Represents w₃ n (ms j) ∧ Owned w₃ := by
      unfold restoreBest
      by_cases hkb : t.keepBest = true
      · obtain ⟨j, j1, j2⟩ := v1.best hkb
        obtain ⟨w₃, d1, d2, d3, d4, -⟩ := j2.assign (e := e.copy (2 * s₁.t.epochs.toNat + 1)) v1.owned hb.symm
        exact ⟨w₃, j, by rw [if_pos (v1.keep.trans hkb)]; exact d1, j1, fun h => absurd (h.symm.trans hkb) (by decide), d2, d4.owned⟩
      · exact ⟨s₁.w, t.epochs.toNat, by rw [if_neg (by rw [v1.keep]; exact hkb)], le_rfl, fun _ => rfl, v1.going.rep, v1.owned⟩
    obtain ⟨w₄, y1, -⟩ := World.clear_ok x5 b
    have yf := frame_clear x5 y1
    refine ⟨w₄, s₁.t, s₁.seen, ms, r, v, j, ?_, m0, v1.like, x2, x3, x4.frame yf hb.symm, yf.owned, v1.seen, v2, v1.acc, v1.losses, v1.shown, v1.evals, v1.going.net, v1.loss, v1.valBatch, v1.weight⟩
    rw [hfit, v0, bind_ok', finish, x1, bind_ok', y1, bind_ok', pure_ok]
    rfl

/-- Without regularizer. -/
theorem fit_mlp {eps : ℝ} {e : FitEnv} {w : World} {t : Trainer} {n b : Nat} {m : Mlp} (h : Represents w n m) (ho : Owned w) (hb : b ≠ n) (hbe : (w.nets b).layers = [])
    (hi : ∀ m ∈ t.inOut, m.WF) (hg : ∀ m ∈ t.gradient, m.WF) (hr : t.reg = none) {k : OptKind} (hk : createOptimizer t.optName = some k)
    {N D : Nat} (hN : 0 < N) (x y : Nat → Row) (hd : t.train = some (Mat.ofFn N (m.width 0) x, Mat.ofFn N D y))
    (hT : TruthFits t.loss (m.width m.depth) D N y) (hv : ∀ d, t.valid = some d → DataOk t.loss m d) (hvb : 0 < t.valBatch) (hbs : 0 ≤ t.batchSize) (hbal : t.balancing = false) (hpat : t.patience = -1 ∨ t.epochs ≤ t.patience)
    {Γ : Row → Row → Row} (hl : t.loss ∈ listLoss) (hlo : LossOk (fun x => |x|) eps t.loss (m.width m.depth) D Γ) :
    ∃ (w' : World) (t' : Trainer) (seen : List (List (Option Layer))) (ms : Nat → Mlp) (r : Nat → Nat) (v : Nat → ℝ) (j : Nat),
      fit (fun x => |x|) eps e w t n b = .ok (w', t', seen) ∧ ms 0 = m ∧ (∀ j, j ≤ t.epochs.toNat → Mlp.Like m (ms j)) ∧ j ≤ t.epochs.toNat ∧
      (t.keepBest = false → j = t.epochs.toNat) ∧ Represents w' n (ms j) ∧ Owned w' ∧ seen.length = t.epochs.toNat ∧
      (∀ i, i < t.epochs.toNat → EpochFact (fun x => |x|) eps t.loss (k = .sgd) Γ (if t.lr = -1 then 0.01 else t.lr) N (adjustBatch t.batchSize N).toNat D x y (ms i) (ms (i + 1)) (r i) (v i)) ∧
      ((w.nets n).classif = true → t'.trainAcc = (List.range t.epochs.toNat).map (fun j => 100 * (r j : ℝ) / N)) ∧ t'.trainLoss = (List.range t.epochs.toNat).map v ∧
      (∀ i, i < t.epochs.toNat → Shows (ms (i + 1)) (seen.getD i [])) ∧
      (∀ d, t.valid = some d → ∃ ls as : Nat → ℝ, t'.valLoss = (List.range t.epochs.toNat).map ls ∧ t'.valAcc = (List.range t.epochs.toNat).map as ∧
        ∀ i, i < t.epochs.toNat → EvalFact eps t (ms (i + 1)) d (ls i) (as i)) ∧
      t'.net = some n ∧ t'.loss = t.loss ∧ t'.valBatch = t.valBatch ∧ t'.lossWeight.size = 0 := by
  have hs : (k = .sgd ∧ t.reg = none) = (k = .sgd) := by rw [hr]; simp
  have := fit_mlp_reg (e := e) h ho hb hbe hi hg hk hN x y hd hT hv hvb hbs hbal hpat hl hlo
  rwa [hs] at this

end Trainer

end BeeDNN
