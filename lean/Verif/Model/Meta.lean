import Verif.Model.Factory
import Verif.Model.Train

/-!
# Model of `src/MetaOptimizer.cpp`

The first part is sequential: what one thread does before it trains.  The second part is the shared variable `_fBestAccuracy` under any
interleaving of the threads; each access is a step of its own.  In C++ these accesses are a data race, that is undefined behaviour
(`Conflict` in Spec/Meta describes it); the steps say what happens when the accesses are at least indivisible.
-/

namespace BeeDNN.Meta

/-- MetaOptimizer.h:8-29. -/
structure LayerVariation where
  iLayer : Int
  sType : String
  a1 : ℝ := 0
  a2 : ℝ := 0
  a3 : ℝ := 0
  a4 : ℝ := 0
  a5 : ℝ := 0

/-- MetaOptimizer.h:32-43. -/
structure OptVariation where
  name : String
  lr : ℝ := 0

/-- MetaOptimizer.cpp:139-157, the body of the loop: the draw `d` of the random engine selects among the original and the variations of layer `i`;
`e` gives the draws of the new layer. -/
noncomputable def varyLayer (e : Env) (d : Nat) (vs : List LayerVariation) (n i : Nat) (w : World) : Out World :=
  let vl := vs.filter (fun v => v.iLayer = (i : Int))
  let k := d % (vl.length + 1)
  if 0 < k then
    match vl[k - 1]? with
    | none => .error .outOfBounds
    | some v => do
      let l ← Factory.create e v.sType v.a1 v.a2 v.a3 v.a4 v.a5
      (w.alloc l).replace n i w.heap.length
  else .ok w

/-- MetaOptimizer.cpp:138-157. -/
noncomputable def varyLayers (e : Nat → Env) (d : Nat → Nat) (vs : List LayerVariation) (n : Nat) (w : World) : Out World :=
  forN (w.nets n).layers.length (fun i w => varyLayer (e i) (d i) vs n i w) w

/-- MetaOptimizer.cpp:159-165: the choice is written to the shared trainer `*_pTrain`. -/
noncomputable def varyOptimizer (g : Nat → ℝ) (d : Nat) (os : List OptVariation) (pTrain : Trainer) : Out Trainer :=
  if os.length ≠ 0 then
    match os[d % os.length]? with
    | none => .error .outOfBounds
    | some o => .ok ((pTrain.setOptimizer o.name).setLearningRate g o.lr)
  else .ok pTrain

/-- What a thread cannot determine. -/
structure RunEnv where
  /-- the copies of the layers -/
  copy : Nat → Env
  /-- the layers of the factory -/
  make : Nat → Env
  /-- the draws for the layers -/
  draw : Nat → Nat
  /-- the draw for the optimizer -/
  drawOpt : Nat
  /-- training -/
  fit : Trainer.FitEnv

/-- MetaOptimizer.cpp:88-94: the copies and the variations; `n` is the place of `netT`, a new network, and `src` that of `*_pNet`.
Returns `netT` (in the world), `trainT` and the shared trainer. -/
noncomputable def prepare (ab : ℝ → ℝ) (eps : ℝ) (e : RunEnv) (vs : List LayerVariation) (os : List OptVariation) (w : World) (pTrain : Trainer) (src n : Nat) :
    Out (World × Trainer × Trainer) := do
  let w ← w.assign e.copy n src
  let trainT ← Trainer.assign e.fit.g ab eps {} pTrain
  let w ← varyLayers e.make e.draw vs n w
  let pTrain ← varyOptimizer e.fit.g e.drawOpt os pTrain
  return (w, trainT, pTrain)

/-- What is left of a run: the networks, the shared trainer, the trainer of the run before and after `fit`, and what the epoch callback saw. -/
structure RunResult where
  w : World
  pTrain : Trainer
  before : Trainer
  after : Trainer
  seen : List (List (Option Layer))

/-- MetaOptimizer.cpp:81-106 `run_thread` running alone; `b` is the place of the local network of `fit`.
The destructor of `netT` is the last step.  The epoch callback, which only looks at the trainer and the network, comes afterwards (`newEpoch`). -/
noncomputable def runThread (ab : ℝ → ℝ) (eps : ℝ) (e : RunEnv) (vs : List LayerVariation) (os : List OptVariation) (w : World) (pTrain : Trainer) (src n b : Nat) :
    Out RunResult := do
  let (w, trainT, pTrain) ← prepare ab eps e vs os w pTrain src n
  let (w, t, seen) ← trainT.fit ab eps e.fit w n b
  let w ← w.clear n
  return ⟨w, pTrain, trainT, t, seen⟩

/-- What the epoch callback of a run reports: `get_current_validation_accuracy` (which stays 0 without validation data, NetTrain.cpp:437), and the network. -/
noncomputable def RunResult.reports (r : RunResult) : List (ℝ × List (Option Layer)) :=
  if r.after.valid.isSome then r.after.valAcc.zip r.seen else r.seen.map fun ls => (0, ls)

/-- A round of `fit` up to some run. -/
structure Round where
  w : World
  pTrain : Trainer
  /-- `_fBestAccuracy` -/
  best : ℝ
  /-- the calls of the user's function: the accuracy and the network that it gets -/
  found : List (ℝ × List (Option Layer))
  /-- the runs, for the statements -/
  runs : List RunResult

/-- MetaOptimizer.cpp:69-79 `new_epoch`, when no other thread is inside; a function was set. -/
noncomputable def newEpoch (s : Round) (a : ℝ × List (Option Layer)) : Round :=
  if a.1 > s.best then { s with best := a.1, found := s.found ++ [a] } else s

/-- A thread that runs while no other does. -/
noncomputable def runOne (ab : ℝ → ℝ) (eps : ℝ) (vs : List LayerVariation) (os : List OptVariation) (src n b : Nat) (e : RunEnv) (s : Round) : Out Round := do
  let r ← runThread ab eps e vs os s.w s.pTrain src n b
  let s := r.reports.foldl newEpoch s
  return { s with w := r.w, pTrain := r.pTrain, runs := s.runs ++ [r] }

/-- MetaOptimizer.cpp:52-66: a round with `k` threads that run one after the other, one of the interleavings of the program. -/
noncomputable def roundAlone (ab : ℝ → ℝ) (eps : ℝ) (vs : List LayerVariation) (os : List OptVariation) (src n b k : Nat) (e : Nat → RunEnv) (w : World) (pTrain : Trainer) : Out Round :=
  forN k (fun i s => runOne ab eps vs os src n b (e i) s) ⟨w, pTrain, -1, [], []⟩

/-- MetaOptimizer.cpp:41-67 `fit` with threads that run one after the other: the networks, the shared trainer and the rounds. -/
noncomputable def fitAlone (ab : ℝ → ℝ) (eps : ℝ) (vs : List LayerVariation) (os : List OptVariation) (src n b repeats k : Nat) (e : Nat → Nat → RunEnv) (w : World) (pTrain : Trainer) :
    Out (World × Trainer × List Round) :=
  forN repeats (fun i (s : World × Trainer × List Round) => do
    let r ← roundAlone ab eps vs os src n b k (e i) s.1 s.2.1
    return (r.w, r.pTrain, s.2.2 ++ [r])) (w, pTrain, [])

/-- Where a thread is in `new_epoch` (MetaOptimizer.cpp:69-79). -/
inductive Pc where
  /-- before the comparison of line 73 -/
  | idle
  /-- before the write of line 75 -/
  | write
  /-- before the call of line 77 -/
  | call

/-- A thread: the accuracies it is going to report, one for every epoch, and where it is with the first of them. -/
structure Thread where
  todo : List ℝ
  pc : Pc := .idle

/-- The shared state: `_fBestAccuracy` and the calls of the user's function, with the thread and the accuracy. -/
structure Shared where
  best : ℝ
  threads : List Thread
  log : List (Nat × ℝ) := []

/-- The next step of thread `i`; a thread that has finished does nothing.  `cb` tells whether a function was set
(the constructor stores none, and calling none throws an exception that ends the program). -/
noncomputable def step (cb : Bool) (i : Nat) (s : Shared) : Out Shared :=
  match s.threads[i]? with
  | none => .ok s
  | some t =>
    match t.todo with
    | [] => .ok s
    | a :: rest =>
      match t.pc with
      | .idle =>
        if a > s.best then .ok { s with threads := s.threads.set i ⟨a :: rest, .write⟩ }
        else .ok { s with threads := s.threads.set i ⟨rest, .idle⟩ }
      | .write => .ok { s with best := a, threads := s.threads.set i ⟨a :: rest, .call⟩ }
      | .call =>
        if cb then .ok { s with threads := s.threads.set i ⟨rest, .idle⟩, log := s.log ++ [(i, a)] }
        else .error .exception

/-- An interleaving: the threads that make the steps, in order. -/
noncomputable def run (cb : Bool) : List Nat → Shared → Out Shared
  | [], s => .ok s
  | i :: is, s => do
    let s ← step cb i s
    run cb is s

/-- MetaOptimizer.cpp:56-61: the start of a round: `_fBestAccuracy = -1` and threads that will report `reports`. -/
def startRound (reports : List (List ℝ)) (log : List (Nat × ℝ)) : Shared := ⟨-1, reports.map fun r => ⟨r, .idle⟩, log⟩

/-- MetaOptimizer.cpp:48-50: the number of threads; `hw` is what `hardware_concurrency` returns.  A vector of negative size throws. -/
def nbThreads (iNbThread : Int) (hw : Nat) : Out Nat :=
  if iNbThread = 0 then .ok hw else if iNbThread < 0 then .error .exception else .ok iNbThread.toNat

end BeeDNN.Meta
