import Verif.Spec.TrainAny

/-! # Specification: what a run of the program can depend on

Two runs of the same program may find different values in memory that was allocated and never written, and therefore in
members that are computed before they are used.  Everything else is the same in both runs. -/

namespace BeeDNN

/-- A layer without its gradients and without the scratch memory of convolutions: what the layer has learned, its settings,
and what it remembers from random draws and maximum searches. -/
def Layer.core (l : Layer) : Layer :=
  { l with gradWeight := ⟨0, 0, []⟩, gradBias := ⟨0, 0, []⟩, samples := 0, im2colT := ⟨0, 0, []⟩, tempImg := ⟨0, 0, []⟩ }

/-- The same for all layers of a program. -/
def World.core (w : World) : World := { w with heap := w.heap.map (Option.map Layer.core) }

/-- The same random draws and the same arithmetic, but other values in fresh memory. -/
def Env.Twin (e f : Env) : Prop := ∃ g gi, f = { e with g := g, gi := gi }

/-- The same for a whole run of `fit`. -/
structure Trainer.FitEnv.Twin (e f : FitEnv) : Prop where
  perm : f.perm = e.perm
  batch : ∀ i j k l, (e.batch i j k l).Twin (f.batch i j k l)
  eval : ∀ i j k, (e.eval i j k).Twin (f.eval i j k)
  copy : ∀ i j, (e.copy i j).Twin (f.copy i j)
  div0 : f.div0 = e.div0

/-- A program that adds new layers to network `n`, trains it, and predicts for `X`. -/
noncomputable def World.program (e₀ : Nat → Env) (e : Trainer.FitEnv) (e₁ : Nat → Env) (eps : ℝ) (w : World) (wInit bInit : String) (ks : List LayerKind) (t : Trainer)
    (n b : Nat) (X out : Mat ℝ) : Out (Mat ℝ) := do
  let w₁ ← w.build e₀ wInit bInit n 0 ks
  let (w₂, _, _) ← Trainer.fit (fun x => |x|) eps e w₁ t n b
  let (_, Y) ← w₂.predict e₁ n X out
  pure Y

end BeeDNN
