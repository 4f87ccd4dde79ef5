import Verif.Model.Layer
import Mathlib.Algebra.Order.Floor.Defs
import Mathlib.Algebra.Order.Archimedean.Real.Basic

/-!
# Model of `src/Net.cpp`

A network owns its layers through raw pointers, so the layers live in a heap: `none` is a freed object.  Several
network objects exist at the same time (`nets`), because `operator=` and the destructor matter only with more
than one.
-/

namespace BeeDNN

/-- Net.h:44-46 -/
structure Net where
  /-- `_layers`: addresses -/
  layers : List Nat := []
  /-- `_bTrainMode` -/
  train : Bool := false
  /-- `_bClassificationMode` -/
  classif : Bool := true

/-- The layer objects and the network objects of a program. -/
structure World where
  heap : List (Option Layer)
  nets : Nat → Net

namespace World

/-- Access through a `Layer*`. -/
def deref (w : World) (a : Nat) : Out Layer :=
  match w.heap[a]? with
  | some (some l) => .ok l
  | some none => .error .useAfterFree
  | none => .error .outOfBounds

/-- A member function changes the object. -/
def store (w : World) (a : Nat) (l : Layer) : World := { w with heap := w.heap.set a (some l) }

/-- `new` -/
def alloc (w : World) (l : Layer) : World := { w with heap := w.heap ++ [some l] }

/-- `delete` -/
def free (w : World) (a : Nat) : Out World :=
  match w.heap[a]? with
  | some (some _) => .ok { w with heap := w.heap.set a none }
  | some none => .error .doubleFree
  | none => .error .outOfBounds

/-- Change network object `n`. -/
def setNet (w : World) (n : Nat) (x : Net) : World := { w with nets := fun k => if k = n then x else w.nets k }

/-- `for (i…) delete _layers[i]` -/
def freeAll : List Nat → World → Out World
  | [], w => .ok w
  | a :: as, w => do
    let w ← w.free a
    freeAll as w

/-- Net.cpp:29-36 `clear`; also the destructor (lines 24-27). -/
def clear (w : World) (n : Nat) : Out World := do
  let w ← freeAll (w.nets n).layers w
  return w.setNet n { w.nets n with layers := [], train := false }

/-- Net.cpp:51-54 `add`. -/
def add (w : World) (n a : Nat) : World := w.setNet n { w.nets n with layers := (w.nets n).layers ++ [a] }

/-- Net.cpp:42-43: clone the layers `as` and append them to net `n`.  `e` gives the values each clone draws. -/
noncomputable def cloneAll (e : Nat → Env) (n : Nat) : Nat → List Nat → World → Out World
  | _, [], w => .ok w
  | i, a :: as, w => do
    let l ← w.deref a
    let l' ← l.clone (e i)
    cloneAll e n (i + 1) as ((w.alloc l').add n w.heap.length)

/-- Net.cpp:38-48 `nets n = nets m`.  The loop reads `other._layers` after `clear()`; the list does not change
during the loop, because either `n ≠ m` or it is empty. -/
noncomputable def assign (e : Nat → Env) (w : World) (n m : Nat) : Out World := do
  let w ← w.clear n
  let w ← cloneAll e n 0 (w.nets m).layers w
  return w.setNet n { w.nets n with classif := (w.nets m).classif }

/-- The implicit copy constructor `Net n = nets m` (Net.h declares none): a member-wise copy. -/
def copyConstruct (w : World) (n m : Nat) : World := w.setNet n (w.nets m)

/-- Net.cpp:57-63 `replace`. -/
def replace (w : World) (n i a : Nat) : Out World :=
  match (w.nets n).layers[i]? with
  | none => .error .assertFail
  | some b => do
    let w ← w.free b
    return w.setNet n { w.nets n with layers := (w.nets n).layers.set i a }

/-- Net.cpp:69-73: the loop of `predict` over the layers `as`; returns the layers' heap, `mTemp` and `mOut`. -/
noncomputable def predictLoop (e : Nat → Env) : Nat → List Nat → World → Mat ℝ → Mat ℝ → Out (World × Mat ℝ × Mat ℝ)
  | _, [], w, mTemp, mOut => .ok (w, mTemp, mOut)
  | i, a :: as, w, mTemp, mOut => do
    let l ← w.deref a
    let (l', mOut) ← l.forward (e i) mTemp mOut
    let mTemp ← mTemp.assign (e i).g mOut
    predictLoop e (i + 1) as (w.store a l') mTemp mOut

/-- Net.cpp:65-74 `predict`; `mTemp` is a copy, so `mIn` and `mOut` may be the same matrix. -/
noncomputable def predict (e : Nat → Env) (w : World) (n : Nat) (mIn mOut : Mat ℝ) : Out (World × Mat ℝ) := do
  let (w, _, mOut) ← predictLoop e 0 (w.nets n).layers w mIn mOut
  return (w, mOut)

/-- `std::roundf`: to the nearest integer, halfway cases away from zero. -/
noncomputable def roundf (x : ℝ) : ℝ := if 0 ≤ x then (⌊x + 1 / 2⌋ : ℤ) else -((⌊-x + 1 / 2⌋ : ℤ) : ℝ)

/-- Net.cpp:91-98 (also MetaOptimizer and NetTrain use it through `predict_classes`). -/
noncomputable def toClasses (g : Nat → ℝ) (mOut mClass : Mat ℝ) : Out (Mat ℝ) :=
  if mOut.cols ≠ 1 then Mat.rowsArgmax g mOut mClass
  else forN mOut.rows (fun i m => do
    let x ← mOut.get i 0
    m.set i 0 (roundf x)) (mClass.resize g mOut.rows 1)

/-- Net.cpp:86-99 `predict_classes`. -/
noncomputable def predictClasses (e : Nat → Env) (g : Nat → ℝ) (w : World) (n : Nat) (mIn mClass : Mat ℝ) : Out (World × Mat ℝ) := do
  let (w, mOut) ← w.predict e n mIn ⟨0, 0, []⟩
  let c ← toClasses g mOut mClass
  return (w, c)

/-- Net.cpp:105-106. -/
def setTrainAll (b : Bool) : List Nat → World → Out World
  | [], w => .ok w
  | a :: as, w => do
    let l ← w.deref a
    setTrainAll b as (w.store a (l.setTrain b))

/-- Net.cpp:101-107 `set_train_mode`. -/
def setTrain (w : World) (n : Nat) (b : Bool) : Out World :=
  setTrainAll b (w.nets n).layers (w.setNet n { w.nets n with train := b })

/-- Net.cpp:131-132. -/
noncomputable def initAll (e : Nat → Env) : Nat → List Nat → World → Out World
  | _, [], w => .ok w
  | i, a :: as, w => do
    let l ← w.deref a
    let l ← l.init (e i)
    initAll e (i + 1) as (w.store a l)

/-- Net.cpp:129-133 `init`. -/
noncomputable def init (e : Nat → Env) (w : World) (n : Nat) : Out World := initAll e 0 (w.nets n).layers w

/-- Net.cpp:114-122 `layer(i)`: an index outside of the vector is undefined behaviour. -/
def layerAt (w : World) (n i : Nat) : Out Nat :=
  match (w.nets n).layers[i]? with
  | some a => .ok a
  | none => .error .outOfBounds

end World

end BeeDNN
