import Verif.Model.Net
import Verif.Model.Optimizer
import Verif.Model.Regularizer

/-!
# Model of `src/NetTrain.cpp`

The trainer keeps raw pointers: to the network (`_pNet`), to the data matrices, and to the parameters and gradients
inside the layers (`_pWeights`, …).  A pointer to a parameter is the address of its layer, so that using it after the
layer was deleted is the outcome `useAfterFree`.  Pointers to the data matrices are modelled by the matrices
themselves: the caller must keep them alive and unchanged, as the code demands.

The epoch callback is assumed not to change the trainer or the network; what it can see of the network is logged.
Scalars are real numbers.  `ab` is what `::abs` denotes, `eps` the constant of the cross entropies.  A floating point
division by zero gives an infinity or NaN; here it gives an arbitrary number `div0`.
-/

namespace BeeDNN

/-- `while (c) b`, with `fuel` iterations at most; running out of fuel is the outcome `diverges`. -/
def whileF {σ : Type} : Nat → (σ → Bool) → (σ → Out σ) → σ → Out σ
  | 0, c, _, s => if c s then .error .diverges else .ok s
  | k + 1, c, b, s => if c s then b s >>= whileF k c b else .ok s

/-- `viewRow` (Matrix.cpp:442-448) with a signed end. -/
def Mat.viewRowInt {α : Type} (m : Mat α) (a : Nat) (b : Int) : Out (Mat α) := do
  check ((a : Int) < b)
  m.viewRow a b.toNat

/-- `x/n` for a `float` and an integer. -/
noncomputable def fdiv (div0 x : ℝ) (n : Nat) : ℝ := if n = 0 then div0 else x / n

/-- NetTrain.h:101-155. -/
structure Trainer where
  /-- `_iBatchSize` -/
  batchSize : Int := 32
  /-- `_iBatchSizeAdjusted` -/
  batchAdj : Int := -1
  /-- `_iValidationBatchSize` -/
  valBatch : Int := 128
  /-- `_bKeepBest` -/
  keepBest : Bool := true
  /-- `_iEpochs` -/
  epochs : Int := 100
  /-- `_iReboostEveryEpochs` -/
  reboostEvery : Int := -1
  /-- class of `*_pLoss` -/
  loss : String := "MeanSquaredError"
  /-- `_pLoss->_mWeightBalancing` -/
  lossWeight : Mat ℝ := ⟨0, 0, []⟩
  /-- `_pRegularizer` -/
  reg : Option Reg := none
  /-- `_sOptimizer` -/
  optName : String := "Adam"
  /-- `_optimizers` -/
  opts : List (Opt ℝ) := []
  /-- `_fLearningRate` -/
  lr : ℝ := -1
  /-- `_fDecay` -/
  decay : ℝ := -1
  /-- `_fMomentum` -/
  mom : ℝ := -1
  /-- `_iPatience` -/
  patience : Int := -1
  /-- `_iCurrentPatience` -/
  curPatience : Int := 0
  /-- `_bClassBalancingWeightLoss` -/
  balancing : Bool := false
  /-- `_iNbLayers` -/
  nbLayers : Nat := 0
  /-- `_fOnlineLoss` -/
  onlineLoss : ℝ := 0
  /-- `_iOnlineAccuracyGood` -/
  onlineGood : Nat := 0
  /-- `_pNet` -/
  net : Option Nat := none
  /-- `_inOut` -/
  inOut : List (Mat ℝ) := []
  /-- `_gradient` -/
  gradient : List (Mat ℝ) := []
  /-- `_trainLoss` -/
  trainLoss : List ℝ := []
  /-- `_trainAccuracy` -/
  trainAcc : List ℝ := []
  /-- `_validationLoss` -/
  valLoss : List ℝ := []
  /-- `_validationAccuracy` -/
  valAcc : List ℝ := []
  /-- `_fTrainLoss` -/
  curTrainLoss : ℝ := 0
  /-- `_fTrainAccuracy` -/
  curTrainAcc : ℝ := 0
  /-- `_fValidationLoss` -/
  curValLoss : ℝ := 0
  /-- `_fValidationAccuracy` -/
  curValAcc : ℝ := 0
  /-- `_pmSamplesTrain`, `_pmTruthTrain` (`set_train_data` sets both) -/
  train : Option (Mat ℝ × Mat ℝ) := none
  /-- `_pmSamplesValidation`, `_pmTruthValidation` -/
  valid : Option (Mat ℝ × Mat ℝ) := none
  /-- `_pWeights`: addresses of the layers whose `_weight` is meant -/
  pWeights : List Nat := []
  /-- `_pGradWeights` -/
  pGradWeights : List Nat := []
  /-- `_pBiases` -/
  pBiases : List Nat := []
  /-- `_pGradBiases` -/
  pGradBiases : List Nat := []

/-- The parameter a pointer means: `_bias` or `_weight`. -/
def Layer.par (l : Layer) (b : Bool) : Mat ℝ := if b then l.bias else l.weight
/-- Its gradient: `_gradientBias` or `_gradientWeight`. -/
def Layer.grad (l : Layer) (b : Bool) : Mat ℝ := if b then l.gradBias else l.gradWeight
/-- Write through a pointer of `_pWeights` or `_pBiases`. -/
def Layer.setPar (l : Layer) (b : Bool) (m : Mat ℝ) : Layer := if b then { l with bias := m } else { l with weight := m }
/-- Write through a pointer of `_pGradWeights` or `_pGradBiases`. -/
def Layer.setGrad (l : Layer) (b : Bool) (m : Mat ℝ) : Layer := if b then { l with gradBias := m } else { l with gradWeight := m }

namespace Trainer

/-- NetTrain.cpp:167-171 `set_optimizer`. -/
def setOptimizer (t : Trainer) (s : String) : Trainer := { t with optName := s, opts := [] }

/-- NetTrain.cpp:177-187 `set_regularizer`; an unknown name gives a null pointer, which is used at once. -/
noncomputable def setRegularizer (t : Trainer) (s : String) (p : ℝ) : Out Trainer :=
  if s ≠ "" then
    match createRegularizer s with
    | some k => .ok { t with reg := some ((Reg.new k).setParameter p) }
    | none => .error .nullDeref
  else .ok { t with reg := none }

/-- NetTrain.cpp:188-194 `get_regularizer`. -/
def getRegularizer (t : Trainer) : String := match t.reg with
  | some r => r.kind.name
  | none => ""

/-- NetTrain.cpp:195-200 `get_regularizer_parameter`. -/
def getRegularizerParameter (t : Trainer) : ℝ := match t.reg with
  | some r => r.param
  | none => -1

/-- NetTrain.cpp:202-208 `set_learningrate`. -/
noncomputable def setLearningRate (g : Nat → ℝ) (t : Trainer) (lr : ℝ) : Trainer :=
  { t with lr := lr, opts := t.opts.map (fun o => o.setLearningRate g lr) }

/-- NetTrain.cpp:209-215 `get_learningrate`. -/
def getLearningRate (t : Trainer) : ℝ := match t.opts with
  | o :: _ => o.lr
  | [] => t.lr

/-- NetTrain.cpp:270-275 `set_loss(string)`; the new loss has no class weights. -/
noncomputable def setLoss (g : Nat → ℝ) (ab : ℝ → ℝ) (eps : ℝ) (t : Trainer) (s : String) : Out Trainer :=
  match createLoss g ab eps s with
  | some ℓ => .ok { t with loss := ℓ.name, lossWeight := ⟨0, 0, []⟩ }
  | none => .error .assertFail

/-- NetTrain.cpp:217-221 `set_patience`. -/
def setPatience (t : Trainer) (p : Int) : Trainer := { t with patience := p, curPatience := 0 }

/-- NetTrain.cpp:85-138 `*this = other` (line 95 passes the trainer's own validation batch size). -/
noncomputable def assign (g : Nat → ℝ) (ab : ℝ → ℝ) (eps : ℝ) (t other : Trainer) : Out Trainer := do
  let t := { t with net := none, opts := [], batchAdj := -1, keepBest := other.keepBest, balancing := other.balancing
                    batchSize := other.batchSize, valBatch := t.valBatch, epochs := other.epochs
                    reboostEvery := other.reboostEvery }
  let t ← t.setLoss g ab eps other.loss
  let t ← t.setRegularizer other.getRegularizer other.getRegularizerParameter
  return { t with
    onlineGood := other.onlineGood, onlineLoss := other.onlineLoss, curTrainLoss := other.curTrainLoss
    curTrainAcc := other.curTrainAcc, curValLoss := other.curValLoss, curValAcc := other.curValAcc
    nbLayers := other.nbLayers, optName := other.optName, opts := other.opts.map Opt.clone, lr := other.lr
    decay := other.decay, mom := other.mom, patience := other.patience, curPatience := other.curPatience
    inOut := other.inOut, gradient := other.gradient, trainLoss := other.trainLoss, trainAcc := other.trainAcc
    valLoss := other.valLoss, valAcc := other.valAcc, train := other.train, valid := other.valid }

/-! ## set_net -/

/-- `std::vector::resize` on a vector of matrices. -/
def resizeVec (l : List (Mat ℝ)) (k : Nat) : List (Mat ℝ) := (l ++ List.replicate k (⟨0, 0, []⟩ : Mat ℝ)).take k

/-- NetTrain.cpp:594-621 `collect_all_weights_biases`; the loop over the layers `as`. -/
def collect : List Nat → World → Trainer → Out Trainer
  | [], _, t => .ok t
  | a :: as, w, t => do
    let l ← w.deref a
    let t := if l.hasWeights then { t with pWeights := t.pWeights ++ [a], pGradWeights := t.pGradWeights ++ [a] } else t
    let t := if l.hasBiases then { t with pBiases := t.pBiases ++ [a], pGradBiases := t.pGradBiases ++ [a] } else t
    collect as w t

/-- NetTrain.cpp:155-159: create the optimizers. -/
noncomputable def makeOpts (g : Nat → ℝ) (t : Trainer) : Nat → Out (List (Opt ℝ))
  | 0 => .ok []
  | k + 1 => do
    let os ← makeOpts g t k
    match createOptimizer t.optName with
    | some o => return os ++ [(Opt.new o).setParams g t.lr t.decay t.mom]
    | none => .error .nullDeref

/-- NetTrain.cpp:145-146. -/
def markFirst (w : World) : List Nat → Out World
  | [] => .ok w
  | a :: _ => do
    let l ← w.deref a
    return w.store a (l.setFirst true)

/-- NetTrain.cpp:140-160 `set_net`. -/
noncomputable def setNet (g : Nat → ℝ) (w : World) (t : Trainer) (n : Nat) : Out (World × Trainer) := do
  let as := (w.nets n).layers
  let w ← markFirst w as
  let t := { t with net := some n, nbLayers := as.length, gradient := resizeVec t.gradient (as.length + 1)
                    inOut := resizeVec t.inOut (as.length + 1), opts := [], pWeights := [], pGradWeights := []
                    pBiases := [], pGradBiases := [] }
  let t ← collect as w t
  let os ← makeOpts g t (t.pWeights.length + t.pBiases.length)
  return (w, { t with opts := os })

/-! ## One batch -/

/-- NetTrain.cpp:562-563. -/
noncomputable def fwdLoop (e : Nat → Env) (n : Nat) (L : Nat) (s : World × List (Mat ℝ)) : Out (World × List (Mat ℝ)) :=
  forN L (fun i s => do
    let a ← s.1.layerAt n i
    let l ← s.1.deref a
    let x ← rd s.2 i
    let o ← rd s.2 (i + 1)
    let (l, o) ← l.forward (e i) x o
    let io ← wr s.2 (i + 1) o
    return (s.1.store a l, io)) s

/-- NetTrain.cpp:569-570; the loop counts down, the counter here is `L-1-i`. -/
noncomputable def bwdLoop (e : Nat → Env) (n : Nat) (L : Nat) (io : List (Mat ℝ)) (s : World × List (Mat ℝ)) :
    Out (World × List (Mat ℝ)) :=
  forN L (fun k s => do
    let i := L - 1 - k
    let a ← s.1.layerAt n i
    let l ← s.1.deref a
    let x ← rd io i
    let go ← rd s.2 (i + 1)
    let gi ← rd s.2 i
    let (l, gi) ← l.backprop (e i) x go gi
    let gs ← wr s.2 i gi
    return (s.1.store a l, gs)) s

/-- NetTrain.cpp:577-578 and 584-585. -/
noncomputable def regStep (g : Nat → ℝ) (r : Option Reg) (b : Bool) (a a' : Nat) (w : World) : Out World :=
  match r with
  | none => .ok w
  | some r => do
    let l ← w.deref a
    let l' ← w.deref a'
    let (m, d) ← r.apply g (l.par b) (l'.grad b)
    let w := w.store a (l.setPar b m)
    let l' ← w.deref a'
    return w.store a' (l'.setGrad b d)

/-- NetTrain.cpp:577-580 and 584-587: regularize and optimize one parameter. -/
noncomputable def optStep (g : Nat → ℝ) (ab : ℝ → ℝ) (r : Option Reg) (b : Bool) (a a' : Nat) (o : Opt ℝ) (w : World) :
    Out (World × Opt ℝ) := do
  let w ← regStep g r b a a' w
  let l ← w.deref a
  let l' ← w.deref a'
  let (o, m) ← o.optimize g Real.sqrt ab (l.par b) (l'.grad b)
  return (w.store a (l.setPar b m), o)

/-- NetTrain.cpp:575-581 (`off = 0`) and 582-588 (`off = iNbWeights`). -/
noncomputable def optLoop (e : Nat → Env) (ab : ℝ → ℝ) (r : Option Reg) (b : Bool) (ps gs : List Nat) (off : Nat)
    (s : World × List (Opt ℝ)) : Out (World × List (Opt ℝ)) :=
  forN ps.length (fun i s => do
    let a ← rd ps i
    let a' ← rd gs i
    let o ← rd s.2 (i + off)
    let (w, o) ← optStep (e i).g ab r b a a' o s.1
    let os ← wr s.2 (i + off) o
    return (w, os)) s

/-- NetTrain.cpp:633-657: how many rows are classified correctly. -/
noncomputable def goodOnline (p t : Mat ℝ) : Out Nat :=
  if p.cols = 1 then do
    check (t.cols = 1)
    forN p.rows (fun i k => do
      let x ← p.getI i
      let y ← t.getI i
      return k + if World.roundf x = y then 1 else 0) 0
  else if t.cols = 1 then
    forN p.rows (fun i k => do
      let r ← p.row i
      let x ← r.argmax
      let y ← t.getI i
      return k + if (x : ℝ) = y then 1 else 0) 0
  else do
    check (t.cols = p.cols)
    forN p.rows (fun i k => do
      let r ← p.row i
      let x ← r.argmax
      let r' ← t.row i
      let y ← r'.argmax
      return k + if x = y then 1 else 0) 0

/-- `_pLoss->compute`. -/
noncomputable def lossCompute (g : Nat → ℝ) (ab : ℝ → ℝ) (eps : ℝ) (t : Trainer) (p y o : Mat ℝ) : Out (Mat ℝ) :=
  match createLoss g ab eps t.loss with
  | some ℓ => ℓ.compute t.lossWeight p y o
  | none => .error .nullDeref

/-- `_pLoss->compute_gradient`. -/
noncomputable def lossGradient (g : Nat → ℝ) (ab : ℝ → ℝ) (eps : ℝ) (t : Trainer) (p y o : Mat ℝ) : Out (Mat ℝ) :=
  match createLoss g ab eps t.loss with
  | some ℓ => ℓ.gradient t.lossWeight p y o
  | none => .error .nullDeref

/-- NetTrain.cpp:623-658 `add_online_statistics`. -/
noncomputable def addOnline (g : Nat → ℝ) (ab : ℝ → ℝ) (eps : ℝ) (classif : Bool) (t : Trainer) (p y : Mat ℝ) : Out Trainer := do
  let m ← t.lossCompute g ab eps p y ⟨0, 0, []⟩
  let x ← m.mean
  let t := { t with onlineLoss := t.onlineLoss + x }
  if classif then do
    let k ← goodOnline p y
    return { t with onlineGood := t.onlineGood + k }
  else return t

/-- NetTrain.cpp:556-592 `train_batch`.  `e p i` are the undetermined values of layer or parameter `i` in phase `p`. -/
noncomputable def trainBatch (ab : ℝ → ℝ) (eps : ℝ) (e : Nat → Nat → Env) (w : World) (t : Trainer) (mSample mTruth : Mat ℝ) :
    Out (World × Trainer) :=
  match t.net with
  | none => .error .assertFail
  | some n => do
    let x0 ← rd t.inOut 0
    let x0 ← x0.assign (e 4 0).g mSample
    let io ← wr t.inOut 0 x0
    let (w, io) ← fwdLoop (e 0) n t.nbLayers (w, io)
    let p ← rd io t.nbLayers
    let gL ← rd t.gradient t.nbLayers
    let gL ← t.lossGradient (e 4 1).g ab eps p mTruth gL
    let gs ← wr t.gradient t.nbLayers gL
    let (w, gs) ← bwdLoop (e 1) n t.nbLayers io (w, gs)
    let (w, os) ← optLoop (e 2) ab t.reg false t.pWeights t.pGradWeights 0 (w, t.opts)
    let (w, os) ← optLoop (e 3) ab t.reg true t.pBiases t.pGradBiases t.pWeights.length (w, os)
    let t := { t with inOut := io, gradient := gs, opts := os }
    let p ← rd t.inOut t.nbLayers
    let t ← t.addOnline (e 4 2).g ab eps (w.nets n).classif p mTruth
    return (w, t)

/-! ## One epoch -/

/-- The loop of NetTrain.cpp:744-758 around an arbitrary `train_batch`; `f k x y` is the `k`-th call. -/
def batchLoop {σ : Type} (n : Nat) (size : Int) (mSamples mTruth : Mat ℝ) (f : Nat → Mat ℝ → Mat ℝ → σ → Out σ) (s : σ) :
    Out σ := do
  let r ← whileF n (fun (s : Nat × Nat × σ) => decide (s.2.1 < n)) (fun s => do
    let iEnd : Int := if (s.2.1 : Int) + size > n then n else s.2.1 + size
    let x ← mSamples.viewRowInt s.2.1 iEnd
    let y ← mTruth.viewRowInt s.2.1 iEnd
    let st ← f s.1 x y s.2.2
    return (s.1 + 1, iEnd.toNat, st)) (0, 0, s)
  return r.2.2

/-- NetTrain.cpp:742-759 `train_one_epoch`. -/
noncomputable def trainEpoch (ab : ℝ → ℝ) (eps : ℝ) (e : Nat → Nat → Nat → Env) (mSamples mTruth : Mat ℝ) (w : World) (t : Trainer) :
    Out (World × Trainer) :=
  batchLoop mSamples.rows t.batchAdj mSamples mTruth (fun k x y s => trainBatch ab eps (e k) s.1 s.2 x y) (w, t)

/-! ## Evaluation -/

/-- NetTrain.cpp:354-373: how many of the `k` rows are classified correctly. -/
noncomputable def goodEval (k : Nat) (p t : Mat ℝ) : Out Nat :=
  if t.cols ≠ 1 then do
    check (p.cols = t.cols)
    forN k (fun i s => do
      let r ← p.row i
      let x ← r.argmax
      let r' ← t.row i
      let y ← r'.argmax
      return s + if x = y then 1 else 0) 0
  else if p.cols ≠ 1 then
    forN k (fun i s => do
      let r ← p.row i
      let x ← r.argmax
      let y ← t.getI i
      return s + if (x : ℝ) = y then 1 else 0) 0
  else
    forN k (fun i s => do
      let x ← p.getI i
      let y ← t.getI i
      return s + if World.roundf x = y then 1 else 0) 0

/-- NetTrain.cpp:352-374. -/
noncomputable def goodIf (acc : Bool) (k : Nat) (p t : Mat ℝ) : Out Nat := if acc then goodEval k p t else .ok 0

/-- State of the loop NetTrain.cpp:338-375. -/
structure EvalSt where
  /-- number of iterations done -/
  k : Nat
  iStart : Nat
  w : World
  mOut : Mat ℝ
  mSamples : Mat ℝ
  mTruth : Mat ℝ
  mLoss : Mat ℝ
  loss : ℝ
  good : Nat

/-- NetTrain.cpp:322-381 `compute_loss_accuracy`; `acc`: an accuracy is asked for.  `predict` may change members of the
layers, therefore the world is returned too. -/
noncomputable def computeLossAccuracy (ab : ℝ → ℝ) (eps : ℝ) (e : Nat → Nat → Env) (w : World) (t : Trainer)
    (mSamples mTruth : Mat ℝ) (acc : Bool) : Out (World × ℝ × ℝ) :=
  match t.net with
  | none => .error .nullDeref
  | some n =>
    if (w.nets n).layers.length = 0 ∨ mSamples.rows = 0 then .ok (w, 0, 0)
    else do
      let r ← whileF mSamples.rows (fun (s : EvalSt) => decide (s.iStart < mSamples.rows)) (fun s => do
        let iEnd : Int := if (s.iStart : Int) + t.valBatch > mSamples.rows then mSamples.rows else s.iStart + t.valBatch
        let x ← mSamples.viewRowInt s.iStart iEnd
        let x ← s.mSamples.assign (e s.k 0).g x
        let y ← mTruth.viewRowInt s.iStart iEnd
        let y ← s.mTruth.assign (e s.k 1).g y
        let (w, o) ← s.w.predict (fun i => e s.k (i + 3)) n x s.mOut
        let m ← t.lossCompute (e s.k 2).g ab eps o y s.mLoss
        let v ← m.mean
        let good ← goodIf acc (iEnd - s.iStart).toNat o y
        return { k := s.k + 1, iStart := (s.iStart + t.valBatch).toNat, w := w, mOut := o, mSamples := x, mTruth := y
                 mLoss := m, loss := s.loss + v, good := s.good + good })
        ⟨0, 0, w, ⟨0, 0, []⟩, ⟨0, 0, []⟩, ⟨0, 0, []⟩, ⟨0, 0, []⟩, 0, 0⟩
      return (r.w, r.loss, 100 * r.good / mSamples.rows)

/-! ## Class weights -/

/-- `m((int)x,0)++` (NetTrain.cpp:722 and 730). -/
noncomputable def countClass (m : Mat ℝ) (x : ℝ) : Out (Mat ℝ) := do
  let k ← toInt x
  check (k < m.rows)
  if k < 0 then .error .outOfBounds
  else do
    let v ← m.get k.toNat 0
    m.set k.toNat 0 (v + 1)

/-- NetTrain.cpp:712-731: the number of samples of each class. -/
noncomputable def classCounts (g : Nat → ℝ) (truth : Mat ℝ) : Out (Mat ℝ) :=
  if truth.cols ≠ 1 then do
    let m ← (⟨0, 0, []⟩ : Mat ℝ).setConstantRC g truth.cols 1 0
    let c ← truth.rowsArgmax g ⟨0, 0, []⟩
    forN truth.rows (fun i m => do
      let x ← c.getI i
      countClass m x) m
  else do
    let x ← truth.maxCoeff
    let k ← toInt x
    if k + 1 < 0 then .error .exception
    else do
      let m ← (⟨0, 0, []⟩ : Mat ℝ).setConstantRC g (k + 1).toNat 1 0
      forN truth.rows (fun i m => do
        let x ← truth.getI i
        countClass m x) m

/-- NetTrain.cpp:700-740 `update_class_weight`; the new weights of the loss. -/
noncomputable def classWeights (g : Nat → ℝ) (div0 : ℝ) (classif balancing : Bool) (truth : Option (Mat ℝ × Mat ℝ)) : Out (Mat ℝ) :=
  if ¬ classif ∨ ¬ balancing then .ok ⟨0, 0, []⟩
  else match truth with
  | none => .error .nullDeref
  | some (_, truth) => do
    let m ← classCounts g truth
    let s ← m.sum
    let m ← m.scale (if s = 0 then div0 else m.rows / s)
    forN m.size (fun i m => do
      let x ← m.getI i
      m.setI i (if x = 0 then div0 else 1 / x)) m

/-! ## fit -/

/-- Undetermined values during `fit`. -/
structure FitEnv where
  /-- draws for `randPerm` in an epoch -/
  perm : Nat → Nat → Nat
  /-- batches: epoch, batch, phase, layer or parameter -/
  batch : Nat → Nat → Nat → Nat → Env
  /-- evaluations: number (0 is the one before training), batch, layer -/
  eval : Nat → Nat → Nat → Env
  /-- network assignments: number, layer -/
  copy : Nat → Nat → Env
  /-- fresh memory -/
  g : Nat → ℝ
  /-- a number for infinities and NaN -/
  div0 : ℝ

/-- Local variables of `fit`, with the program state. -/
structure FitSt where
  w : World
  t : Trainer
  /-- `fMinLoss` -/
  minLoss : ℝ
  /-- `fMaxAccuracy` -/
  maxAcc : ℝ
  /-- `iReboost` -/
  iReboost : Int
  /-- the layers of the network as seen by the calls of the epoch callback -/
  seen : List (List (Option Layer))

/-- The layers of network `n`. -/
def layersOf (w : World) (n : Nat) : List (Option Layer) := (w.nets n).layers.map (fun a => (w.heap[a]?).join)

/-- NetTrain.cpp:459-470: the data of an epoch. -/
noncomputable def epochData (g : Nat → ℝ) (perm : Nat → Nat) (shuffle : Bool) (x y : Mat ℝ) : Out (Mat ℝ × Mat ℝ) :=
  if shuffle then do
    let p ← randPerm perm x.rows
    let x' ← x.applyRowPermutation g p ⟨0, 0, []⟩
    let y' ← y.applyRowPermutation g p ⟨0, 0, []⟩
    return (x', y')
  else do
    let x' ← (⟨0, 0, []⟩ : Mat ℝ).assign g x
    let y' ← (⟨0, 0, []⟩ : Mat ℝ).assign g y
    return (x', y')

/-- NetTrain.cpp:490-499. -/
noncomputable def evalValid (ab : ℝ → ℝ) (eps : ℝ) (e : FitEnv) (k : Nat) (w : World) (t : Trainer) : Out (World × Trainer × ℝ × ℝ) :=
  match t.valid with
  | none => .ok (w, t, t.curTrainLoss, t.curTrainAcc)
  | some (x, y) => do
    let (w, l, a) ← t.computeLossAccuracy ab eps (e.eval (k + 1)) w x y true
    return (w, { t with curValLoss := l, curValAcc := a, valLoss := t.valLoss ++ [l], valAcc := t.valAcc ++ [a] }, l, a)

/-- NetTrain.cpp:507-528; `b` is the slot of `bestNet`. -/
noncomputable def keepStep (e : Nat → Env) (n b : Nat) (s : FitSt) (loss acc : ℝ) : Out FitSt :=
  if (s.w.nets n).classif then
    if s.maxAcc < acc then do
      let w ← s.w.assign e b n
      return { s with w := w, maxAcc := acc, t := { s.t with curPatience := 0 } }
    else .ok { s with t := { s.t with curPatience := s.t.curPatience + 1 } }
  else
    if s.minLoss > loss then do
      let w ← s.w.assign e b n
      return { s with w := w, minLoss := loss, t := { s.t with curPatience := 0 } }
    else .ok { s with t := { s.t with curPatience := s.t.curPatience + 1 } }

/-- NetTrain.cpp:530-535. -/
noncomputable def patienceStep (e : Nat → Env) (g : Nat → ℝ) (n b : Nat) (s : FitSt) : Out FitSt :=
  if s.t.curPatience > s.t.patience ∧ s.t.patience ≠ -1 then do
    let t := { s.t with curPatience := 0 }
    let t := t.setLearningRate g (t.getLearningRate / 2)
    let w ← s.w.assign e n b
    return { s with w := w, t := t }
  else .ok s

/-- NetTrain.cpp:505-536. -/
noncomputable def bestStep (e : FitEnv) (k n b : Nat) (s : FitSt) (loss acc : ℝ) : Out FitSt :=
  if s.t.keepBest ∨ s.t.patience ≠ -1 then do
    let s ← keepStep (e.copy (2 * k + 1)) n b s loss acc
    patienceStep (e.copy (2 * k + 2)) e.g n b s
  else .ok s

/-- NetTrain.cpp:539-549. -/
noncomputable def reboostStep (g : Nat → ℝ) (s : FitSt) : FitSt :=
  if s.t.reboostEvery ≠ -1 then
    if s.iReboost < s.t.reboostEvery then { s with iReboost := s.iReboost + 1 }
    else { s with iReboost := 0, t := { s.t with opts := s.t.opts.map (Opt.init g) } }
  else s

/-- NetTrain.cpp:453-484: train for one epoch. -/
noncomputable def epochTrain (ab : ℝ → ℝ) (eps : ℝ) (e : FitEnv) (n : Nat) (x y : Mat ℝ) (k : Nat) (w : World) (t : Trainer) :
    Out (World × Trainer) := do
  let t := { t with onlineLoss := 0, onlineGood := 0 }
  let (x', y') ← epochData e.g (e.perm k) (decide (t.batchAdj < (x.rows : Int))) x y
  let w ← w.setTrain n true
  let (w, t) ← t.trainEpoch ab eps (e.batch k) x' y' w
  let w ← w.setTrain n false
  let t := { t with curTrainLoss := fdiv e.div0 t.onlineLoss x.rows }
  let t := { t with trainLoss := t.trainLoss ++ [t.curTrainLoss] }
  if (w.nets n).classif then
    let t := { t with curTrainAcc := fdiv e.div0 (100 * t.onlineGood) x.rows }
    return (w, { t with trainAcc := t.trainAcc ++ [t.curTrainAcc] })
  else return (w, t)

/-- NetTrain.cpp:451-550: the body of the loop, epoch `k`. -/
noncomputable def epochStep (ab : ℝ → ℝ) (eps : ℝ) (e : FitEnv) (n b : Nat) (x y : Mat ℝ) (k : Nat) (s : FitSt) : Out FitSt := do
  let (w, t) ← epochTrain ab eps e n x y k s.w s.t
  let (w, t, l, a) ← evalValid ab eps e k w t
  let s := { s with w := w, t := t, seen := s.seen ++ [layersOf w n] }
  let s ← bestStep e k n b s l a
  return reboostStep e.g s

/-- NetTrain.cpp:436-449: score of the network before training. -/
noncomputable def initialBest (ab : ℝ → ℝ) (eps : ℝ) (e : FitEnv) (n b : Nat) (x y : Mat ℝ) (w : World) (t : Trainer) :
    Out (World × ℝ × ℝ) :=
  if t.keepBest then do
    let (w, l, a) ← t.computeLossAccuracy ab eps (e.eval 0) w (t.valid.getD (x, y)).1 (t.valid.getD (x, y)).2 true
    let w ← w.assign (e.copy 0) b n
    return (w, l, a)
  else .ok (w, 1e10, 0)

/-- NetTrain.cpp:427-429. -/
def adjustBatch (size : Int) (n : Nat) : Int := if size > n ∨ size = 0 then n else size

/-- NetTrain.cpp:552-553. -/
noncomputable def restoreBest (e : FitEnv) (n b : Nat) (s : FitSt) : Out World :=
  if s.t.keepBest then s.w.assign (e.copy (2 * s.t.epochs.toNat + 1)) n b else .ok s.w

/-- NetTrain.cpp:552-554, with the destructor of `bestNet`. -/
noncomputable def finish (e : FitEnv) (n b : Nat) (s : FitSt) : Out FitSt := do
  let w ← restoreBest e n b s
  let w ← w.clear b
  return { s with w := w }

/-- NetTrain.cpp:406-449: everything before the first epoch. -/
noncomputable def start (ab : ℝ → ℝ) (eps : ℝ) (e : FitEnv) (n b : Nat) (x y : Mat ℝ) (w : World) (t : Trainer) : Out FitSt := do
  let cw ← classWeights e.g e.div0 (w.nets n).classif t.balancing t.train
  let t := { t with
    lossWeight := cw, trainLoss := [], valLoss := [], trainAcc := [], valAcc := [], curTrainLoss := 1e10, curTrainAcc := 0
    curValLoss := 1e10, curValAcc := 0, curPatience := 0, batchAdj := adjustBatch t.batchSize x.rows
    opts := t.opts.map (Opt.init e.g) }
  let (w, l, a) ← initialBest ab eps e n b x y w t
  return ⟨w, t, l, a, 0, []⟩

/-- NetTrain.cpp:395-554 `fit` of network `n`; `b` is the slot of the local variable `bestNet`, an unused network
object.  Returns the program state and the log of the callback. -/
noncomputable def fit (ab : ℝ → ℝ) (eps : ℝ) (e : FitEnv) (w : World) (t : Trainer) (n b : Nat) :
    Out (World × Trainer × List (List (Option Layer))) := do
  let (w, t) ← t.setNet e.g w n
  if t.nbLayers = 0 then return (w, t, [])
  else match t.train with
  | none => .error .nullDeref
  | some (x, y) => do
    let s ← start ab eps e n b x y w t
    let s ← forN t.epochs.toNat (epochStep ab eps e n b x y) s
    let s ← finish e n b s
    return (s.w, s.t, s.seen)

end Trainer

end BeeDNN
