import Verif.Model.LayersBasic
import Mathlib.Data.Real.Archimedean
import Mathlib.Analysis.SpecialFunctions.Trigonometric.DerivHyp
import Mathlib.Analysis.SpecialFunctions.Log.Basic
import Mathlib.Analysis.SpecialFunctions.Sqrt

/-!
# Loss functions (Loss.cpp)

`float` is modelled by `ℝ`.  Parameters shared by the definitions:

* `g` content of fresh memory;
* `w` the member `_mWeightBalancing`; `_bClassBalancing` is `w.size ≠ 0` (Loss.cpp:18-30);
* `ab` the function `::abs` called by `cwiseAbs` (Matrix.h:416-424).  Which overload the qualified name
  `::abs` denotes for a `float` argument depends on the standard library: the C++ overload (`|x|`), or the C
  function `int abs(int)` when only that one is declared in the global namespace (`<cmath>` does not have to
  declare the others there).  See `intAbs`;
* `eps` the constant `1.e-8f`.
-/

namespace BeeDNN

/-- `(int)x` for a `float`: truncation towards zero, undefined when the result does not fit. -/
noncomputable def toInt (x : ℝ) : Out Int :=
  if -2147483649 < x ∧ x < 2147483648 then .ok (if 0 ≤ x then ⌊x⌋ else ⌈x⌉) else .error .badCast

/-- `(float)abs((int)x)`: what `::abs(x)` computes when it denotes the C function. -/
noncomputable def intAbs (x : ℝ) : ℝ := |((if 0 ≤ x then ⌊x⌋ else ⌈x⌉ : Int) : ℝ)|

/-- `std::copysign(1.f,x)` (Matrix.h:426-434); the sign of `-0.f` is not modelled. -/
noncomputable def signR (x : ℝ) : ℝ := if 0 ≤ x then 1 else -1

/-- `operator()(Index)` with a signed index (Matrix.h:256-260): only the upper bound is asserted, a negative
index is a read before the buffer. -/
def Mat.getInt {α : Type} (m : Mat α) (i : Int) : Out α := do
  check (i < (m.size : Int))
  if i < 0 then .error .outOfBounds else rd m.data i.toNat

/-- `operator()(Index,Index)` with a signed column (Matrix.h:243-248): a negative column passes the assertions
and denotes a cell of an earlier row, or a read before the buffer. -/
def Mat.getColInt {α : Type} (m : Mat α) (r : Nat) (c : Int) : Out α := do
  check (r < m.rows)
  check (c < (m.cols : Int))
  if (r * m.cols : Nat) + c < 0 then .error .outOfBounds else rd m.data ((r * m.cols : Nat) + c).toNat

/-- Loss.cpp:32-43.  `mGradient.row(i) *= x` acts through the view (Matrix.h:321-327, 629-634). -/
noncomputable def balanceWithWeight (w mTruth mGradient : Mat ℝ) : Out (Mat ℝ) := do
  check (w.size ≠ 0)
  forN mGradient.rows (fun i m => do
    let t ← mTruth.getI i
    check (0 ≤ t)
    check (t < (w.size : ℝ))
    let k ← toInt t
    let x ← w.getInt k
    m.rowScalarAssign (· * ·) i x) mGradient

/-- The loops `for(i<m.size()) m(i)=f(m(i))` of Loss.cpp (94-100, 113-119, 146-147, 161-165, 198-202, 330-334). -/
def Mat.mapI {α : Type} (f : α → α) (m : Mat α) : Out (Mat α) :=
  forN m.size (fun i m => do
    let x ← m.getI i
    m.setI i (f x)) m

/-- The common text of the nine `compute` functions on differences (Loss.cpp:53-62, 87-105, 139-152, 180-188,
217-225, 249-257, 281-289, 312-320, 349-357): shape assertions, `mLoss = red(pre(mPredicted - mTruth))`,
optional balancing. -/
noncomputable def diffCompute (g : Nat → ℝ) (pre red : Mat ℝ → Out (Mat ℝ)) (w p t mLoss : Mat ℝ) :
    Out (Mat ℝ) := do
  check (t.cols = p.cols)
  check (t.rows = p.rows)
  let d ← p.sub t
  let m ← pre d
  let m ← red m
  let mLoss ← mLoss.assign g m
  if w.size ≠ 0 then balanceWithWeight w t mLoss else return mLoss

/-- The common text of the nine `compute_gradient` functions (Loss.cpp:64-73, 107-123, 154-169, 190-206, 227-236,
259-268, 291-300, 322-338, 359-368). -/
noncomputable def diffGradient (g : Nat → ℝ) (post : Mat ℝ → Out (Mat ℝ)) (w p t mGrad : Mat ℝ) :
    Out (Mat ℝ) := do
  check (t.cols = p.cols)
  check (t.rows = p.rows)
  let d ← p.sub t
  let m ← post d
  let mGrad ← mGrad.assign g m
  if w.size ≠ 0 then balanceWithWeight w t mGrad else return mGrad

/-- A loss: its name, `compute(mPredicted,mTruth,mLoss)` and `compute_gradient(mPredicted,mTruth,mGrad)`;
the first argument is the weight matrix. -/
structure LossFn where
  name : String
  compute : Mat ℝ → Mat ℝ → Mat ℝ → Mat ℝ → Out (Mat ℝ)
  gradient : Mat ℝ → Mat ℝ → Mat ℝ → Mat ℝ → Out (Mat ℝ)

/-- Loss.cpp:45-74. -/
noncomputable def lossMSE (g : Nat → ℝ) : LossFn where
  name := "MeanSquaredError"
  compute := diffCompute g (Mat.cwise (fun x => x * x)) (Mat.colWiseMean g)
  gradient w p t o := diffGradient g (fun d => d.divScalar (p.cols : ℝ)) w p t o

/-- Loss.cpp:78-124, HUBER_SIGMA = 1. -/
noncomputable def lossHuber (g : Nat → ℝ) (ab : ℝ → ℝ) : LossFn where
  name := "Huber"
  compute := diffCompute g (fun d => do
    let m ← d.cwise ab
    m.mapI (fun x => if x < 1 then 0.5 * (x * x) else 1 * x - 0.5 * 1 * 1)) (Mat.colWiseMean g)
  gradient := diffGradient g (Mat.mapI (fun x => if x > 1 then 1 else if x < -1 then -1 else x))

/-- Loss.cpp:128-170, PSEUDOHUBER_SIGMA = 1. -/
noncomputable def lossPseudoHuber (g : Nat → ℝ) : LossFn where
  name := "PseudoHuber"
  compute := diffCompute g (fun d => do
    let m ← d.cwise (fun x => x * x)
    m.mapI (fun x => 1 * (Real.sqrt (x * 1 + 1) - 1))) (Mat.colWiseMean g)
  gradient := diffGradient g (Mat.mapI (fun x => x / Real.sqrt (x * x * 1 + 1)))

/-- Loss.cpp:172-207. -/
noncomputable def lossMCE (g : Nat → ℝ) (ab : ℝ → ℝ) : LossFn where
  name := "MeanCubicError"
  compute := diffCompute g (fun d => do
    let m ← d.cwise (fun x => x * x * x)
    m.cwise ab) (Mat.colWiseMean g)
  gradient := diffGradient g (Mat.mapI (fun x => 3 * x * x * (if x > 0 then 1 else -1)))

/-- Loss.cpp:209-237. -/
noncomputable def lossMAE (g : Nat → ℝ) (ab : ℝ → ℝ) : LossFn where
  name := "MeanAbsoluteError"
  compute := diffCompute g (Mat.cwise ab) (Mat.colWiseMean g)
  gradient := diffGradient g (Mat.cwise signR)

/-- Loss.cpp:241-269. -/
noncomputable def lossL2 (g : Nat → ℝ) : LossFn where
  name := "L2"
  compute := diffCompute g (Mat.cwise (fun x => x * x)) (Mat.colWiseSum g)
  gradient := diffGradient g (fun d => .ok d)

/-- Loss.cpp:273-301. -/
noncomputable def lossL1 (g : Nat → ℝ) (ab : ℝ → ℝ) : LossFn where
  name := "L1"
  compute := diffCompute g (Mat.cwise ab) (Mat.colWiseSum g)
  gradient w p t o := diffGradient g (fun d => do
    let m ← d.cwise signR
    m.divScalar (p.cols : ℝ)) w p t o

/-- Loss.cpp:304-339. -/
noncomputable def lossL3 (g : Nat → ℝ) (ab : ℝ → ℝ) : LossFn where
  name := "L3"
  compute := diffCompute g (fun d => do
    let m ← d.cwise (fun x => x * x * x)
    m.cwise ab) (Mat.colWiseSum g)
  gradient := diffGradient g (Mat.mapI (fun x => 3 * x * x * (if x > 0 then 1 else -1)))

/-- Loss.cpp:341-369. -/
noncomputable def lossLogCosh (g : Nat → ℝ) : LossFn where
  name := "LogCosh"
  compute := diffCompute g (fun d => do
    let m ← d.cwise Real.cosh
    m.cwise Real.log) (Mat.colWiseMean g)
  gradient := diffGradient g (Mat.cwise Real.tanh)

/-- Loss.cpp:375-419. -/
noncomputable def lossCCE (g : Nat → ℝ) (eps : ℝ) : LossFn where
  name := "CategoricalCrossEntropy"
  compute _ p t mLoss := do
    check (t.cols = p.cols)
    check (t.rows = p.rows)
    forN p.rows (fun j mLoss => do
      let fLoss ← forN p.cols (fun i s => do
        let t ← t.get j i
        let p ← p.get j i
        return s + -(t * Real.log (max p eps))) 0
      mLoss.set j 0 fLoss) (mLoss.resize g p.rows 1)
  gradient _ p t mGrad := do
    check (t.cols = p.cols)
    check (t.rows = p.rows)
    forN t.size (fun i mGrad => do
      let p ← p.getI i
      let t ← t.getI i
      mGrad.setI i (-(t / max p eps) + (1 - t) / max (1 - p) eps)) (mGrad.resize g t.rows t.cols)

/-- Loss.cpp:423-463. -/
noncomputable def lossSparseCCE (g : Nat → ℝ) (eps : ℝ) : LossFn where
  name := "SparseCategoricalCrossEntropy"
  compute _ p t mLoss := do
    check (t.cols = 1)
    check (t.rows = p.rows)
    forN p.rows (fun i mLoss => do
      let k ← t.getI i
      let k ← toInt k
      let x ← p.getColInt i k
      mLoss.setI i (-Real.log (max x eps))) (mLoss.resize g p.rows 1)
  gradient _ p t mGrad := do
    check (t.cols = 1)
    check (t.rows = p.rows)
    let mGrad ← mGrad.assign g p
    forN mGrad.rows (fun r mGrad => do
      let k ← t.getI r
      let k ← toInt k
      forN mGrad.cols (fun c mGrad => do
        let p ← mGrad.get r c
        mGrad.set r c (if k = (c : Int) then -(1 / max p eps) else 1 / max (1 - p) eps)) mGrad) mGrad

/-- Loss.cpp:468-506. -/
noncomputable def lossBCE (g : Nat → ℝ) (eps : ℝ) : LossFn where
  name := "BinaryCrossEntropy"
  compute _ p t mLoss := do
    check (t.cols = 1)
    check (t.cols = p.cols)
    check (t.rows = p.rows)
    forN p.rows (fun i mLoss => do
      let p ← p.getI i
      let t ← t.getI i
      mLoss.setI i (-(t * Real.log (max p eps) + (1 - t) * Real.log (max (1 - p) eps))))
      (mLoss.resize g p.rows 1)
  gradient _ p t mGrad := do
    check (t.cols = p.cols)
    check (t.rows = p.rows)
    forN t.size (fun i mGrad => do
      let p ← p.getI i
      let t ← t.getI i
      mGrad.setI i (-(t / max p eps - (1 - t) / max (1 - p) eps))) (mGrad.resize g t.rows t.cols)

/-- Loss.cpp:508-547 `create_loss`; `none` is the null pointer. -/
noncomputable def createLoss (g : Nat → ℝ) (ab : ℝ → ℝ) (eps : ℝ) (s : String) : Option LossFn :=
  if s = "MeanSquaredError" then some (lossMSE g)
  else if s = "MeanAbsoluteError" then some (lossMAE g ab)
  else if s = "MeanCubicError" then some (lossMCE g ab)
  else if s = "L2" then some (lossL2 g)
  else if s = "L1" then some (lossL1 g ab)
  else if s = "L3" then some (lossL3 g ab)
  else if s = "LogCosh" then some (lossLogCosh g)
  else if s = "Huber" then some (lossHuber g ab)
  else if s = "PseudoHuber" then some (lossPseudoHuber g)
  else if s = "CategoricalCrossEntropy" then some (lossCCE g eps)
  else if s = "SparseCategoricalCrossEntropy" then some (lossSparseCCE g eps)
  else if s = "BinaryCrossEntropy" then some (lossBCE g eps)
  else none

/-- Loss.cpp:549-565 `list_loss_available`. -/
def listLoss : List String :=
  ["MeanSquaredError", "MeanAbsoluteError", "MeanCubicError", "L2", "L1", "L3", "Huber", "PseudoHuber",
   "LogCosh", "CategoricalCrossEntropy", "SparseCategoricalCrossEntropy", "BinaryCrossEntropy"]

end BeeDNN
