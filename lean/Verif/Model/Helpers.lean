import Verif.Model.Optimizer
import Verif.Model.Regularizer
import Verif.Model.Loss

/-!
# Helper objects of trainers and KMeans models

A trainer (`NetTrain`) and a KMeans model keep a loss, a regularizer and optimizers that they create with `new` and release
with `delete`.  Model/Train and Model/KMeans keep the values of these objects; this model keeps only who points to what, for
any number of trainers and KMeans models that live side by side.  The other members (settings, matrices, the data and the network,
which belong to the caller) are left out.
-/

namespace BeeDNN

/-- An object made by `create_loss`, `create_regularizer`, `create_optimizer` or `clone`. -/
inductive Helper
  | loss (s : String)
  | reg (k : RegKind)
  | opt (k : OptKind)
  deriving DecidableEq

/-- The pointers of a `NetTrain` (NetTrain.h:102-104: `_pLoss`, `_pRegularizer`, `_optimizers`) and `_sOptimizer`. -/
structure TrainPtrs where
  loss : Option Nat
  reg : Option Nat := none
  opts : List Nat := []
  optName : String := "Adam"

/-- What is at a place of the program where a trainer or a KMeans model can be. -/
inductive Holder
  | gone
  | trainer (p : TrainPtrs)
  | kmeans (loss : Option Nat)

/-- All objects; a deleted helper is `none`. -/
structure Helpers where
  heap : List (Option Helper) := []
  objs : Nat → Holder := fun _ => .gone

namespace Helpers

/-- `new`. -/
def alloc (s : Helpers) (h : Helper) : Helpers × Nat := ({ s with heap := s.heap ++ [some h] }, s.heap.length)

/-- Use of an object through a pointer. -/
def deref (s : Helpers) : Option Nat → Out Helper
  | none => .error .nullDeref
  | some a => match s.heap[a]? with
    | some (some h) => .ok h
    | _ => .error .useAfterFree

/-- `delete p`; nothing happens for a null pointer. -/
def free (s : Helpers) : Option Nat → Out Helpers
  | none => .ok s
  | some a => match s.heap[a]? with
    | some (some _) => .ok { s with heap := s.heap.set a none }
    | _ => .error .doubleFree

def put (s : Helpers) (i : Nat) (o : Holder) : Helpers := { s with objs := fun j => if j = i then o else s.objs j }

/-- A member function of a trainer is called. -/
def trainer (s : Helpers) (i : Nat) : Out TrainPtrs := match s.objs i with
  | .trainer p => .ok p
  | _ => .error .useAfterFree

/-- A member function of a KMeans model is called. -/
def kmeans (s : Helpers) (i : Nat) : Out (Option Nat) := match s.objs i with
  | .kmeans p => .ok p
  | _ => .error .useAfterFree

/-- Loss.cpp:508-547 `create_loss`, with the names that C62_loss gives. -/
def createLoss (s : Helpers) (n : String) : Helpers × Option Nat :=
  if n ∈ listLoss then
    let r := s.alloc (.loss n)
    (r.1, some r.2)
  else (s, none)

/-- `_pLoss->name()`. -/
def lossName (s : Helpers) (p : Option Nat) : Out String := do
  match ← s.deref p with
  | .loss n => return n
  | _ => .error .useAfterFree

/-- NetTrain.cpp:27-63. -/
def newTrainer (s : Helpers) (i : Nat) : Out Helpers :=
  let r := s.createLoss "MeanSquaredError"
  .ok (r.1.put i (.trainer { loss := r.2 }))

/-- NetTrain.cpp:77-83 `clear_optimizers`. -/
def clearOpts (s : Helpers) (i : Nat) : Out Helpers := do
  let p ← s.trainer i
  let s ← forN p.opts.length (fun k s => s.free p.opts[k]?) s
  return s.put i (.trainer { p with opts := [] })

/-- NetTrain.cpp:66-70: the destructor; `_pRegularizer` is not deleted. -/
def delTrainer (s : Helpers) (i : Nat) : Out Helpers := do
  let s ← s.clearOpts i
  let p ← s.trainer i
  let s ← s.free p.loss
  return s.put i .gone

/-- NetTrain.cpp:270-275 `set_loss`. -/
def setLoss (s : Helpers) (i : Nat) (n : String) : Out Helpers := do
  let p ← s.trainer i
  let s ← s.free p.loss
  let r := s.createLoss n
  check r.2.isSome
  return r.1.put i (.trainer { p with loss := r.2 })

/-- NetTrain.cpp:177-187 `set_regularizer`; a null pointer from an unknown name is used at once. -/
def setReg (s : Helpers) (i : Nat) (n : String) : Out Helpers := do
  let p ← s.trainer i
  let s ← s.free p.reg
  if n ≠ "" then
    match createRegularizer n with
    | some k =>
      let r := s.alloc (.reg k)
      return r.1.put i (.trainer { p with reg := some r.2 })
    | none => .error .nullDeref
  else return s.put i (.trainer { p with reg := none })

/-- NetTrain.cpp:188-194 `get_regularizer`. -/
def regName (s : Helpers) (p : Option Nat) : Out String :=
  match p with
  | none => .ok ""
  | some a => do
    match ← s.deref (some a) with
    | .reg k => return k.name
    | _ => .error .useAfterFree

/-- NetTrain.cpp:167-171 `set_optimizer`. -/
def setOptimizer (s : Helpers) (i : Nat) (n : String) : Out Helpers := do
  let p ← s.trainer i
  let s ← s.put i (.trainer { p with optName := n }) |>.clearOpts i
  return s

/-- `_optimizers.push_back(...)`. -/
def pushOpt (s : Helpers) (i : Nat) (k : OptKind) : Out Helpers := do
  let p ← s.trainer i
  let r := s.alloc (.opt k)
  return r.1.put i (.trainer { p with opts := p.opts ++ [r.2] })

/-- NetTrain.cpp:149-160: the part of `set_net` that makes an optimizer for each of `k` parameter matrices; `fit` (line 397) calls
`set_net` and creates nothing else. -/
def setNet (s : Helpers) (i k : Nat) : Out Helpers := do
  let s ← s.clearOpts i
  forN k (fun _ s => do
    let p ← s.trainer i
    match createOptimizer p.optName with
    | some o => s.pushOpt i o
    | none => .error .nullDeref) s

/-- NetTrain.cpp:85-138 `*this = other`: line 88, lines 98-99, lines 112-114.  The names are taken before the objects are
deleted. -/
def assign (s : Helpers) (i j : Nat) : Out Helpers := do
  let s ← s.clearOpts i
  let q ← s.trainer j
  let s ← s.setLoss i (← s.lossName q.loss)
  let q ← s.trainer j
  let s ← s.setReg i (← s.regName q.reg)
  let q ← s.trainer j
  let p ← s.trainer i
  let s := s.put i (.trainer { p with optName := q.optName })
  forN q.opts.length (fun k s => do
    match ← s.deref q.opts[k]? with
    | .opt o => s.pushOpt i (if o = .irpropm then .rpropm else o)
    | _ => .error .useAfterFree) s

/-- The copy constructor that the compiler provides (NetTrain.h declares none): all pointers are copied. -/
def copyTrainer (s : Helpers) (i j : Nat) : Out Helpers := do
  let q ← s.trainer j
  return s.put i (.trainer q)

/-- KMeans.cpp:20-25. -/
def newKMeans (s : Helpers) (i : Nat) : Out Helpers :=
  let r := s.createLoss "MeanSquaredError"
  .ok (r.1.put i (.kmeans r.2))

/-- KMeans.cpp:27-30. -/
def delKMeans (s : Helpers) (i : Nat) : Out Helpers := do
  let p ← s.kmeans i
  let s ← s.free p
  return s.put i .gone

/-- KMeans.cpp:54-59 `set_loss`. -/
def kmLoss (s : Helpers) (i : Nat) (n : String) : Out Helpers := do
  let p ← s.kmeans i
  let s ← s.free p
  let r := s.createLoss n
  check r.2.isSome
  return r.1.put i (.kmeans r.2)

/-- KMeans.cpp:32-43 `*this = other`: the old loss is not deleted. -/
def kmAssign (s : Helpers) (i j : Nat) : Out Helpers := do
  let q ← s.kmeans j
  let _ ← s.kmeans i
  let n ← s.lossName q
  let r := s.createLoss n
  return r.1.put i (.kmeans r.2)

end Helpers

/-- What a program can do with trainers and KMeans models. -/
inductive HelperOp
  | newTrainer (i : Nat)
  | delTrainer (i : Nat)
  | setLoss (i : Nat) (n : String)
  | setReg (i : Nat) (n : String)
  | setOptimizer (i : Nat) (n : String)
  | setNet (i k : Nat)
  | assign (i j : Nat)
  | newKMeans (i : Nat)
  | delKMeans (i : Nat)
  | kmLoss (i : Nat) (n : String)
  | kmAssign (i j : Nat)

def HelperOp.run (s : Helpers) : HelperOp → Out Helpers
  | newTrainer i => s.newTrainer i
  | delTrainer i => s.delTrainer i
  | setLoss i n => s.setLoss i n
  | setReg i n => s.setReg i n
  | setOptimizer i n => s.setOptimizer i n
  | setNet i k => s.setNet i k
  | assign i j => s.assign i j
  | newKMeans i => s.newKMeans i
  | delKMeans i => s.delKMeans i
  | kmLoss i n => s.kmLoss i n
  | kmAssign i j => s.kmAssign i j

end BeeDNN
