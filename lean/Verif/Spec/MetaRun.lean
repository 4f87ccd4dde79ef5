import Verif.Spec.Meta
import Verif.Spec.TrainAny
import Verif.Props.TrainSettings

/-! # Specification: what the runs of the meta-optimizer are expected to do -/

namespace BeeDNN.Meta

/-- Every variation was registered for a layer of the network, and the factory makes a layer of it that can take its place. -/
def VariationsFit (vs : List LayerVariation) (depth : Nat) (form : Nat → Form) : Prop :=
  ∀ v ∈ vs, ∃ i : Nat, i < depth ∧ v.iLayer = (i : Int) ∧
    ∀ e, ∃ l, Factory.create e v.sType v.a1 v.a2 v.a3 v.a4 v.a5 = .ok l ∧ l.Fits (decide (i = 0)) (form i) (form (i + 1))

/-- The network `ls` has at every place a layer of the class of the original, `ks`, or of that of a variation for this place. -/
def OneOf (ks : List (Option LayerKind)) (vs : List LayerVariation) (ls : List (Option Layer)) : Prop :=
  ls.length = ks.length ∧
    ∀ i k, ks[i]? = some (some k) → ∃ l, ls[i]? = some (some l) ∧ (l.kind = k ∨ ∃ l', Made vs i l' ∧ l.kind = l'.kind)

/-- The accuracy `a.1` is that of the network `a.2` on the validation data; without them it is 0. -/
def Measured (ab : ℝ → ℝ) (eps : ℝ) (p : Trainer) (n : Nat) (a : ℝ × List (Option Layer)) : Prop :=
  match p.valid with
  | none => a.1 = 0
  | some (x, y) => ∃ e w t w' l, Trainer.computeLossAccuracy ab eps e w t x y true = .ok (w', l, a.1) ∧ t.net = some n ∧ t.loss = p.loss ∧
      a.2 = Trainer.layersOf w' n

/-- The shared trainer as it was, or with the optimizer of one of the variations. -/
def Chosen (p : Trainer) (os : List OptVariation) (name : String) (lr : ℝ) : Prop :=
  (name = p.optName ∧ lr = p.lr) ∨ ∃ o ∈ os, name = o.name ∧ lr = o.lr

/-- A run with the trainer `p` and the network with the layers `ks`. -/
structure RunGood (ab : ℝ → ℝ) (eps : ℝ) (p : Trainer) (ks : List (Option LayerKind)) (vs : List LayerVariation) (os : List OptVariation) (n : Nat) (r : RunResult) : Prop where
  /-- it trains with the optimizer of the shared trainer or one of the variations -/
  optimizer : Chosen p os r.before.optName r.before.lr
  /-- it reports once per epoch -/
  epochs : r.reports.length = p.epochs.toNat
  /-- what it reports are trained networks and their accuracies -/
  networks : ∀ a ∈ r.reports, OneOf ks vs a.2 ∧ Measured ab eps p n a

/-- All reports of a round. -/
noncomputable def Round.told (q : Round) : List (ℝ × List (Option Layer)) := (q.runs.map RunResult.reports).flatten

/-- A round of `k` runs. -/
structure RoundGood (ab : ℝ → ℝ) (eps : ℝ) (p : Trainer) (ks : List (Option LayerKind)) (vs : List LayerVariation) (os : List OptVariation) (n k : Nat) (q : Round) : Prop where
  count : q.runs.length = k
  runs : ∀ r ∈ q.runs, RunGood ab eps p ks vs os n r
  /-- the user gets the reports that were better than all before in this round, in this order -/
  found : q.found.Sublist q.told ∧ q.found.map Prod.fst = recordsFrom (-1) (q.told.map Prod.fst)
  best : q.best = maxOf (q.told.map Prod.fst)

/-- What the caller of `MetaOptimizer::fit` has to provide: what `fit` of the trainer needs, a trainer set by its functions, two unused networks
and variations that fit. -/
structure MetaSetup (w : World) (p : Trainer) (vs : List LayerVariation) (os : List OptVariation) (src n b depth : Nat) (form : Nat → Form) (N D : Nat) (x y : Nat → Row) : Prop where
  train : TrainSetup w p src b depth form N D x y
  built : p.Built
  slot : n ≠ src ∧ n ≠ b
  fresh : (w.nets n).layers = []
  layers : VariationsFit vs depth form
  optimizer : ∃ k, createOptimizer p.optName = some k
  optimizers : ∀ o ∈ os, ∃ k, createOptimizer o.name = some k

end BeeDNN.Meta
