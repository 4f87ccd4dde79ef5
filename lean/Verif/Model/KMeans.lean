import Verif.Model.Loss
import Verif.Model.Train

/-!
# Model of `src/KMeans.cpp` and `src/KMeansTrain.cpp`

Scalars are real numbers; `g` is the content of fresh memory, `ab` what `::abs` denotes and `eps` the constant of the cross entropies
(see Model/Loss.lean).  `1.e38f`, the start value of the search for the nearest reference, is `kmFar`; the rounding of that constant to
`float` is not modelled.  A loss object has no state here, so the pointer `_pLoss` is the name it was created with; the leak of the old object
in `operator=` is not modelled.
-/

namespace BeeDNN

/-- `1.e38f` (KMeans.cpp:85, KMeansTrain.cpp:182). -/
noncomputable def kmFar : ℝ := 10 ^ 38

/-- KMeans.h:32-39. -/
structure KMeans where
  /-- `_mRefVectors` -/
  refs : Mat ℝ := ⟨0, 0, []⟩
  /-- `_mRefClasses` -/
  cls : Mat ℝ := ⟨0, 0, []⟩
  /-- `_pLoss->name()` -/
  loss : String := "MeanSquaredError"
  /-- `_iNbRef` -/
  nbRef : Nat := 0
  /-- `_iInputSize` -/
  inputSize : Nat := 0

namespace KMeans

/-- KMeans.cpp:45-52; negative sizes are not modelled. -/
def setSizes (g : Nat → ℝ) (k : KMeans) (iInputSize iNbRef : Nat) : KMeans :=
  { k with inputSize := iInputSize, nbRef := iNbRef, refs := k.refs.resize g iNbRef iInputSize, cls := k.cls.resize g iNbRef 1 }

/-- KMeans.cpp:54-59. -/
noncomputable def setLoss (g : Nat → ℝ) (ab : ℝ → ℝ) (eps : ℝ) (k : KMeans) (s : String) : Out KMeans := do
  check ((createLoss g ab eps s).isSome)
  return { k with loss := s }

/-- KMeans.cpp:32-43 `operator=`; fails when `create_loss` does not know the name that the loss reports (it always does). -/
noncomputable def assign (g : Nat → ℝ) (k other : KMeans) : Out KMeans := do
  let r ← k.refs.assign g other.refs
  let c ← k.cls.assign g other.cls
  return ⟨r, c, other.loss, other.nbRef, other.inputSize⟩

/-- KMeans.cpp:104-113. -/
noncomputable def computeDist (g : Nat → ℝ) (ab : ℝ → ℝ) (eps : ℝ) (k : KMeans) (m1 m2 : Mat ℝ) : Out ℝ := do
  check (m1.rows = 1)
  check (m2.rows = 1)
  check (m1.cols = m2.cols)
  match createLoss g ab eps k.loss with
  | none => .error .nullDeref
  | some ℓ => do
    let m ← ℓ.compute ⟨0, 0, []⟩ m1 m2 ⟨0, 0, []⟩
    m.mean

/-- KMeans.cpp:71-102.  The state of the inner loop is `(fDistBest, indexBest)`. -/
noncomputable def predictClasses (g : Nat → ℝ) (ab : ℝ → ℝ) (eps : ℝ) (k : KMeans) (mIn mClass : Mat ℝ) : Out (Mat ℝ) := do
  let mClass := mClass.resize g mIn.rows 1
  if k.refs.size = 0 then mClass.setConstant 0
  else
    forN mIn.rows (fun iS mClass => do
      let mS ← mIn.row iS
      let b ← forN k.refs.rows (fun iR (b : ℝ × Int) => do
        let r ← k.refs.row iR
        let d ← k.computeDist g ab eps mS r
        return if d < b.1 then (d, (iR : Int)) else b) (kmFar, -1)
      check (b.2 ≠ -1)
      let c ← k.cls.getInt b.2
      mClass.setI iS c) mClass

end KMeans

/-- KMeansTrain.h:48-67; the pointers to the data are the data themselves, `_pKm` is an argument of the functions. -/
structure KMeansTrain where
  /-- `_iBatchSize` -/
  batchSize : Int := 0
  /-- `_iEpochs` -/
  epochs : Int := 100
  /-- `_iValidationBatchSize`; no function changes it -/
  valBatch : Nat := 1024
  /-- `_bKeepBest` -/
  keepBest : Bool := true
  /-- `_pmSamplesTrain`, `_pmTruthTrain` -/
  train : Option (Mat ℝ × Mat ℝ) := none
  /-- `_pmSamplesValidation`, `_pmTruthValidation` -/
  valid : Option (Mat ℝ × Mat ℝ) := none
  /-- `_fTrainAccuracy` -/
  trainAcc : ℝ := 0
  /-- `_fValidationAccuracy` -/
  valAcc : ℝ := 0

/-- What `fit` does not determine: fresh memory, the constants of the losses, the result of a division by zero, the samples drawn
as first references and the random numbers of the shuffles. -/
structure KmEnv where
  g : Nat → ℝ
  ab : ℝ → ℝ
  eps : ℝ
  div0 : ℝ
  pick : Nat → Nat
  shuffle : Nat → Nat → Nat

namespace KMeansTrain

/-- The loop `for (i<iBatchSize) iGood += mOut(i) == mTruthBatch(i)` (KMeansTrain.cpp:107-108). -/
noncomputable def goodClasses (n : Nat) (o y : Mat ℝ) : Out Nat :=
  forN n (fun i s => do
    let a ← o.getI i
    let b ← y.getI i
    return s + if a = b then 1 else 0) 0

/-- State of the loop of `compute_accuracy`. -/
structure AccSt where
  iStart : Nat
  mSamples : Mat ℝ
  mTruth : Mat ℝ
  mOut : Mat ℝ
  good : Nat

/-- KMeansTrain.cpp:87-112. -/
noncomputable def computeAccuracy (e : KmEnv) (t : KMeansTrain) (km : KMeans) (mSamples mTruth : Mat ℝ) : Out ℝ := do
  let r ← whileF mSamples.rows (fun (s : AccSt) => decide (s.iStart < mSamples.rows)) (fun s => do
    let iEnd := if s.iStart + t.valBatch > mSamples.rows then mSamples.rows else s.iStart + t.valBatch
    let x ← mSamples.viewRow s.iStart iEnd
    let x ← s.mSamples.assign e.g x
    let y ← mTruth.viewRow s.iStart iEnd
    let y ← s.mTruth.assign e.g y
    let o ← km.predictClasses e.g e.ab e.eps x s.mOut
    let n ← goodClasses (iEnd - s.iStart) o y
    return ⟨s.iStart + t.valBatch, x, y, o, s.good + n⟩) ⟨0, ⟨0, 0, []⟩, ⟨0, 0, []⟩, ⟨0, 0, []⟩, 0⟩
  return fdiv e.div0 (100 * r.good) mSamples.rows

/-- KMeansTrain.cpp:164-171: first references. -/
noncomputable def initRefs (e : KmEnv) (x y : Mat ℝ) (km : KMeans) : Out KMeans :=
  forN km.refs.rows (fun i (km : KMeans) => do
    if x.rows = 0 then .error .divByZero
    else do
      let p := e.pick i % x.rows
      let r ← x.row p
      let refs ← km.refs.rowAssign i r
      let c ← y.row p
      let cls ← km.cls.rowAssign i c
      return { km with refs := refs, cls := cls }) km

/-- KMeansTrain.cpp:181-195: the nearest reference of class `iClass`; the state is `(fDistBest, iPosBest)`. -/
noncomputable def nearest (e : KmEnv) (km : KMeans) (x : Mat ℝ) (iSample : Nat) (iClass : Int) : Out (ℝ × Int) :=
  forN km.refs.rows (fun iR (b : ℝ × Int) => do
    let c ← km.cls.getI iR
    if c = (iClass : ℝ) then do
      let a ← x.row iSample
      let r ← km.refs.row iR
      let d ← km.computeDist e.g e.ab e.eps a r
      return if d < b.1 then (d, (iR : Int)) else b
    else return b) (kmFar, -1)

/-- State of the loop over the samples. -/
structure EpSt where
  km : KMeans
  /-- `mRefCentroid` -/
  cen : Mat ℝ
  /-- `mRefCentroidCount` -/
  cnt : Mat ℝ
  /-- `iNextUpdate` -/
  next : Int

/-- KMeansTrain.cpp:197-202. -/
noncomputable def addSample (x : Mat ℝ) (iSample : Nat) (pos : Int) (s : EpSt) : Out EpSt :=
  if pos = -1 then .ok s
  else do
    let r ← x.row iSample
    let cen ← s.cen.rowVecAssign (· + ·) pos.toNat r
    let c ← s.cnt.getI pos.toNat
    let cnt ← s.cnt.setI pos.toNat (c + 1)
    return { s with cen := cen, cnt := cnt }

/-- KMeansTrain.cpp:206-216; `b` is `iBatchSizeAdjusted`. -/
noncomputable def update (b : Int) (s : EpSt) : Out EpSt := do
  let refs ← forN s.km.refs.rows (fun iR (refs : Mat ℝ) => do
    let c ← s.cnt.getI iR
    if c ≠ 0 then do
      let r ← s.cen.row iR
      let r ← r.divScalar c
      refs.rowAssign iR r
    else return refs) s.km.refs
  let cen ← s.cen.setConstant 0
  let cnt ← s.cnt.setConstant 0
  return ⟨{ s.km with refs := refs }, cen, cnt, s.next + b⟩

/-- KMeansTrain.cpp:176-218: one epoch; `p` is `viPermute`. -/
noncomputable def epoch (e : KmEnv) (b : Int) (x y : Mat ℝ) (p : List Nat) (s : EpSt) : Out EpSt :=
  forN x.rows (fun iS s => do
    let iSample ← rd p iS
    let c ← y.getI iSample
    let iClass ← toInt c
    let n ← nearest e s.km x iSample iClass
    let s ← addSample x iSample n.2 s
    if s.next ≤ (iS : Int) ∨ iS = x.rows - 1 then update b s else return s) { s with next := b }

/-- State of the loop of `fit`. -/
structure FitSt where
  t : KMeansTrain
  ep : EpSt
  /-- `fMaxAccuracy` -/
  maxAcc : ℝ
  /-- `bestKM` -/
  best : KMeans

/-- KMeansTrain.cpp:221-227: the accuracy that decides, `fSelectedAccuracy`; `a` is the one on the training data. -/
noncomputable def scoreEpoch (e : KmEnv) (t : KMeansTrain) (km : KMeans) (a : ℝ) : Out (KMeansTrain × ℝ) :=
  match t.valid with
  | none => .ok (t, a)
  | some (xv, yv) => do
    let v ← t.computeAccuracy e km xv yv
    return ({ t with valAcc := v }, v)

/-- KMeansTrain.cpp:173-240: the body of the loop over the epochs; the callback is assumed to change nothing. -/
noncomputable def epochStep (e : KmEnv) (b : Int) (x y : Mat ℝ) (k : Nat) (s : FitSt) : Out FitSt := do
  let p ← randPerm (e.shuffle k) x.rows
  let ep ← epoch e b x y p s.ep
  let a ← s.t.computeAccuracy e ep.km x y
  let t := { s.t with trainAcc := a }
  let (t, sel) ← scoreEpoch e t ep.km a
  if t.keepBest ∧ s.maxAcc < sel then
    let best ← s.best.assign e.g ep.km
    return ⟨t, ep, sel, best⟩
  else return ⟨t, ep, s.maxAcc, s.best⟩

/-- KMeansTrain.cpp:151-162: `fMaxAccuracy` and `bestKM` before the first epoch. -/
noncomputable def firstBest (e : KmEnv) (t : KMeansTrain) (km : KMeans) (x y : Mat ℝ) : Out (ℝ × KMeans) :=
  if t.keepBest then do
    let a ← (match t.valid with
      | none => t.computeAccuracy e km x y
      | some (xv, yv) => t.computeAccuracy e km xv yv)
    let best ← ({} : KMeans).assign e.g km
    return (a, best)
  else .ok (0, {})

/-- KMeansTrain.cpp:126-244 `fit`.  Returns the trainer and the network. -/
noncomputable def fit (e : KmEnv) (t : KMeansTrain) (km : Option KMeans) : Out (KMeansTrain × Option KMeans) :=
  match km with
  | none => .ok (t, none)
  | some km =>
    let t := { t with trainAcc := 0, valAcc := 0 }
    match t.train with
    | none => .error .nullDeref
    | some (x, y) => do
      let cen ← (⟨0, 0, []⟩ : Mat ℝ).setConstantRC e.g km.refs.rows km.refs.cols 0
      let cnt ← (⟨0, 0, []⟩ : Mat ℝ).setConstantRC e.g km.refs.rows 1 0
      let b : Int := if t.batchSize > x.rows ∨ t.batchSize = 0 then x.rows else t.batchSize
      let (maxAcc, best) ← firstBest e t km x y
      let km ← initRefs e x y km
      let s ← forN t.epochs.toNat (epochStep e b x y) ⟨t, ⟨km, cen, cnt, b⟩, maxAcc, best⟩
      if t.keepBest then do
        let km ← s.ep.km.assign e.g s.best
        return (s.t, some km)
      else return (s.t, some s.ep.km)

end KMeansTrain

end BeeDNN
