import Verif.Model.Train
import Verif.Model.KMeans

/-!
# Model: who owns the data of trainers

`set_train_data` and `set_validation_data` keep the addresses of the matrices (NetTrain.cpp:383-393, KMeansTrain.cpp:114-124), `operator=` copies the addresses (NetTrain.cpp:131-135), and `fit`
reads through them (NetTrain.cpp:408-409, 440-446, 490-493; KMeansTrain.cpp:134-135, 156-159, 223-225).  Model/Train and Model/KMeans have the data themselves in place of the pointers; here is
what happens in a program where matrices are made, changed and destroyed.

Simplified: `fit` is one step (a callback neither changes nor destroys the data); a `fit` that gets to the line where it reads the samples is an error as soon as one of the four pointers
dangles, also where it would not read the validation data (no epochs and no keep-best).
-/

namespace BeeDNN

/-- What a trainer uses to train: samples and truths. -/
abbrev Pair (δ : Type) := δ × δ

/-- A class of trainers: objects `τ`, things that are trained `ω`, arguments of `fit` `κ`. -/
structure TrainerClass (ω τ κ : Type) where
  /-- `operator=`, without the data -/
  assign : τ → τ → Out τ
  /-- does `fit` get to the line where it reads the data? -/
  reads : κ → ω → τ → Bool
  /-- `fit`, with training and validation data -/
  fit : κ → ω → τ → Option (Pair (Mat ℝ)) → Option (Pair (Mat ℝ)) → Out (ω × τ)

/-- A trainer, with what it keeps of its data. -/
structure DataHolder (τ δ : Type) where
  obj : τ
  /-- `_pmSamplesTrain`, `_pmTruthTrain` -/
  train : Option (Pair δ) := none
  /-- `_pmSamplesValidation`, `_pmTruthValidation` -/
  valid : Option (Pair δ) := none

/-- The matrices of the program (address to contents; `none`: no matrix there), what is trained, and the trainers. -/
structure DataState (ω τ δ : Type) where
  mats : Nat → Option (Mat ℝ)
  world : ω
  trainers : Nat → Option (DataHolder τ δ)

/-- Steps of a program. -/
inductive DataOp (ω τ κ : Type) where
  /-- a matrix is made at an address, or the matrix there gets other contents -/
  | write (a : Nat) (m : Mat ℝ)
  /-- the matrix is destroyed -/
  | destroy (a : Nat)
  /-- a trainer is constructed -/
  | new (i : Nat) (t : τ)
  /-- a trainer is destroyed -/
  | del (i : Nat)
  /-- NetTrain.cpp:383-387, KMeansTrain.cpp:114-118 `set_train_data` -/
  | setTrain (i a b : Nat)
  /-- NetTrain.cpp:389-393, KMeansTrain.cpp:120-124 `set_validation_data` -/
  | setValid (i a b : Nat)
  /-- any other function of the trainer but `fit` -/
  | set (i : Nat) (f : τ → Out τ)
  /-- `operator=` -/
  | assign (i j : Nat)
  /-- anything done to what is trained -/
  | world (f : ω → Out ω)
  /-- `fit` -/
  | fit (i : Nat) (k : κ)

/-- How a trainer keeps a matrix given to it, and how it reads it later. -/
structure Keeping (δ : Type) where
  keep : (Nat → Option (Mat ℝ)) → Nat → Out δ
  read : (Nat → Option (Mat ℝ)) → δ → Out (Mat ℝ)

/-- The code: the address is kept.  A reference to a destroyed matrix, and a read of a destroyed matrix, are undefined behaviour. -/
def byAddress : Keeping Nat where
  keep mats a := match mats a with
    | some _ => .ok a
    | none => .error .useAfterFree
  read mats a := match mats a with
    | some m => .ok m
    | none => .error .useAfterFree

namespace DataState

variable {ω τ κ δ : Type} (K : Keeping δ) (C : TrainerClass ω τ κ)

/-- A trainer that exists. -/
def trainer (s : DataState ω τ δ) (i : Nat) : Out (DataHolder τ δ) := match s.trainers i with
  | some h => .ok h
  | none => .error .useAfterFree

/-- Change of one trainer. -/
def put (s : DataState ω τ δ) (i : Nat) (h : Option (DataHolder τ δ)) : DataState ω τ δ := { s with trainers := fun j => if j = i then h else s.trainers j }

/-- Read the data; `none` is the null pointer. -/
def readPair (mats : Nat → Option (Mat ℝ)) : Option (Pair δ) → Out (Option (Pair (Mat ℝ)))
  | none => .ok none
  | some (a, b) => do
    let x ← K.read mats a
    let y ← K.read mats b
    return some (x, y)

/-- One step. -/
def step (s : DataState ω τ δ) : DataOp ω τ κ → Out (DataState ω τ δ)
  | .write a m => .ok { s with mats := fun b => if b = a then some m else s.mats b }
  | .destroy a => match s.mats a with
    | some _ => .ok { s with mats := fun b => if b = a then none else s.mats b }
    | none => .error .doubleFree
  | .new i t => .ok (s.put i (some { obj := t }))
  | .del i => do
    let _ ← s.trainer i
    return s.put i none
  | .setTrain i a b => do
    let h ← s.trainer i
    let x ← K.keep s.mats a
    let y ← K.keep s.mats b
    return s.put i (some { h with train := some (x, y) })
  | .setValid i a b => do
    let h ← s.trainer i
    let x ← K.keep s.mats a
    let y ← K.keep s.mats b
    return s.put i (some { h with valid := some (x, y) })
  | .set i f => do
    let h ← s.trainer i
    let t ← f h.obj
    return s.put i (some { h with obj := t })
  | .assign i j => do
    let h ← s.trainer i
    let q ← s.trainer j
    let t ← C.assign h.obj q.obj
    return s.put i (some { obj := t, train := q.train, valid := q.valid })
  | .world f => do
    let w ← f s.world
    return { s with world := w }
  | .fit i k => do
    let h ← s.trainer i
    if C.reads k s.world h.obj then
      let tr ← readPair K s.mats h.train
      let va ← readPair K s.mats h.valid
      let r ← C.fit k s.world h.obj tr va
      return { s with world := r.1 }.put i (some { h with obj := r.2 })
    else
      let r ← C.fit k s.world h.obj none none
      return { s with world := r.1 }.put i (some { h with obj := r.2 })

/-- A program. -/
def run (s : DataState ω τ δ) : List (DataOp ω τ κ) → Out (DataState ω τ δ)
  | [] => .ok s
  | o :: os => do
    let s ← s.step K C o
    s.run os

end DataState

/-- `NetTrain`: `fit(n)` with place `b` for the best network (NetTrain.cpp:395-554); it returns before line 408 if the network has no layers.  A trainer object carries no data of its own here. -/
noncomputable def netTrainClass (g : Nat → ℝ) (ab : ℝ → ℝ) (eps : ℝ) : TrainerClass World Trainer (Trainer.FitEnv × Nat × Nat) where
  assign t o := Trainer.assign g ab eps t o
  reads k w _ := !(w.nets k.2.1).layers.isEmpty
  fit k w t tr va := do
    let r ← Trainer.fit ab eps k.1 w { t with train := tr, valid := va } k.2.1 k.2.2
    return (r.1, { r.2.1 with train := none, valid := none })

/-- `KMeansTrain` (KMeansTrain.cpp:126-244): `_pKm` is what is trained, null at first.  The class declares no `operator=`: the compiler's copies all members. -/
noncomputable def kmTrainClass : TrainerClass (Option KMeans) KMeansTrain KmEnv where
  assign _ o := .ok o
  reads _ w _ := w.isSome
  fit e w t tr va := do
    let r ← KMeansTrain.fit e { t with train := tr, valid := va } w
    return (r.2, { r.1 with train := none, valid := none })

end BeeDNN
