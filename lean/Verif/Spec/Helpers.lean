import Verif.Model.Helpers

/-! # Ownership of helper objects -/

namespace BeeDNN

/-- The helper objects that a trainer or KMeans model points to. -/
def Holder.ptrs : Holder → List Nat
  | gone => []
  | trainer p => p.loss.toList ++ (p.reg.toList ++ p.opts)
  | kmeans p => p.toList

namespace Helpers

/-- The object at this address exists. -/
def Live (s : Helpers) (a : Nat) : Prop := ∃ h, s.heap[a]? = some (some h)

/-- The pointers of a trainer or KMeans model are of the right kind; there always is a loss. -/
def Typed (s : Helpers) : Holder → Prop
  | .gone => True
  | .trainer p => (∃ a n, p.loss = some a ∧ s.heap[a]? = some (some (.loss n)) ∧ n ∈ listLoss) ∧
      (∀ a, p.reg = some a → ∃ k, s.heap[a]? = some (some (.reg k))) ∧ ∀ a ∈ p.opts, ∃ k, s.heap[a]? = some (some (.opt k))
  | .kmeans p => ∃ a n, p = some a ∧ s.heap[a]? = some (some (.loss n)) ∧ n ∈ listLoss

/-- Every helper that is pointed to exists, is of the right kind, and is pointed to only once. -/
structure Safe (s : Helpers) : Prop where
  typed : ∀ i, s.Typed (s.objs i)
  nodup : ∀ i, (s.objs i).ptrs.Nodup
  disjoint : ∀ i j, ∀ a ∈ (s.objs i).ptrs, a ∈ (s.objs j).ptrs → i = j

/-- A leaked object: it exists, but nothing points to it any more. -/
def Lost (s : Helpers) (a : Nat) : Prop := s.Live a ∧ ∀ i, a ∉ (s.objs i).ptrs

end Helpers

namespace HelperOp

/-- The object that an operation leaks: the regularizer of a trainer that is destroyed, the loss of a KMeans model that is
assigned to. -/
def leaked (s : Helpers) : HelperOp → Option Nat
  | delTrainer i => match s.objs i with
    | .trainer p => p.reg
    | _ => none
  | kmAssign i _ => match s.objs i with
    | .kmeans p => p
    | _ => none
  | _ => none

end HelperOp

/-- A trainer or KMeans model as its user sees it: without pointers. -/
inductive HelperView
  | gone
  | trainer (loss : String) (reg : Option RegKind) (opts : List OptKind) (optName : String)
  | kmeans (loss : String)

/-- What the user sees of a trainer or KMeans model. -/
def Helpers.Shows (s : Helpers) : Holder → HelperView → Prop
  | .gone, .gone => True
  | .trainer p, .trainer l r o n => (∃ a, p.loss = some a ∧ s.heap[a]? = some (some (.loss l))) ∧
      (match r with
        | none => p.reg = none
        | some k => ∃ a, p.reg = some a ∧ s.heap[a]? = some (some (.reg k))) ∧
      p.opts.map (fun a => s.heap[a]?) = o.map (fun k => some (some (.opt k))) ∧ p.optName = n
  | .kmeans p, .kmeans l => ∃ a, p = some a ∧ s.heap[a]? = some (some (.loss l))
  | _, _ => False

/-- What an operation does for the user: it changes one trainer or model. -/
def HelperOp.effect (v : Nat → HelperView) : HelperOp → Nat × HelperView
  | newTrainer i => (i, .trainer "MeanSquaredError" none [] "Adam")
  | delTrainer i => (i, .gone)
  | setLoss i n => (i, match v i with
    | .trainer _ r o m => .trainer n r o m
    | x => x)
  | setReg i n => (i, match v i with
    | .trainer l _ o m => .trainer l (createRegularizer n) o m
    | x => x)
  | setOptimizer i n => (i, match v i with
    | .trainer l r _ _ => .trainer l r [] n
    | x => x)
  | setNet i k => (i, match v i with
    | .trainer l r _ m => .trainer l r (List.replicate k ((createOptimizer m).getD .sgd)) m
    | x => x)
  | assign i j => (i, match v j with
    | .trainer l r o m => .trainer l r (if i = j then [] else o.map fun k => if k = .irpropm then .rpropm else k) m
    | x => x)
  | newKMeans i => (i, .kmeans "MeanSquaredError")
  | delKMeans i => (i, .gone)
  | kmLoss i n => (i, .kmeans n)
  | kmAssign i j => (i, v j)

/-- What the user sees after an operation. -/
def HelperOp.apply (v : Nat → HelperView) (op : HelperOp) : Nat → HelperView :=
  fun i => if i = (op.effect v).1 then (op.effect v).2 else v i

def HelperView.IsTrainer : HelperView → Prop
  | trainer .. => True
  | _ => False

def HelperView.IsKMeans : HelperView → Prop
  | kmeans _ => True
  | _ => False

/-- What the caller has to see to: objects are used only between their construction and destruction, and names exist. -/
def HelperOp.Allowed (v : Nat → HelperView) : HelperOp → Prop
  | newTrainer i | newKMeans i => v i = .gone
  | delTrainer i | setOptimizer i _ => (v i).IsTrainer
  | setLoss i n => (v i).IsTrainer ∧ n ∈ listLoss
  | setReg i n => (v i).IsTrainer ∧ (n = "" ∨ n ∈ regularizerNames)
  | setNet i k => ∃ l r o n, v i = .trainer l r o n ∧ (k = 0 ∨ n ∈ optimizerNames)
  | assign i j => (v i).IsTrainer ∧ (v j).IsTrainer
  | delKMeans i => (v i).IsKMeans
  | kmLoss i n => (v i).IsKMeans ∧ n ∈ listLoss
  | kmAssign i j => (v i).IsKMeans ∧ (v j).IsKMeans

/-- A program all of whose operations are allowed when their turn comes. -/
def Legal (v : Nat → HelperView) : List HelperOp → Prop
  | [] => True
  | op :: ops => op.Allowed v ∧ Legal (op.apply v) ops

/-- Runs a program. -/
def runHelpers (s : Helpers) : List HelperOp → Out Helpers
  | [] => .ok s
  | op :: ops => do
    let s ← op.run s
    runHelpers s ops

end BeeDNN
