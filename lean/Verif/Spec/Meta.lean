import Verif.Model.Meta

/-!
# Vocabulary for the meta-optimizer
-/

namespace BeeDNN.Meta

/-- Variation `v` was registered for layer `i`, and `l` is a layer that the factory makes of it. -/
def Made (vs : List LayerVariation) (i : Nat) (l : Layer) : Prop :=
  ∃ v ∈ vs, v.iLayer = (i : Int) ∧ ∃ e, Factory.create e v.sType v.a1 v.a2 v.a3 v.a4 v.a5 = .ok l

/-- The choice for layer `i` with the draw `d`: the original for a multiple of the number of variations of this layer plus one. -/
def choice (vs : List LayerVariation) (i d : Nat) : Option LayerVariation :=
  if d % ((vs.filter (fun v => v.iLayer = (i : Int))).length + 1) = 0 then none
  else (vs.filter (fun v => v.iLayer = (i : Int)))[d % ((vs.filter (fun v => v.iLayer = (i : Int))).length + 1) - 1]?

/-- Layer `i` of network `n` is the old object, unchanged, when the draw chooses the original, and a new one made from the chosen variation otherwise. -/
def Varied (e : Nat → Env) (d : Nat → Nat) (vs : List LayerVariation) (n : Nat) (w w' : World) (i : Nat) : Prop :=
  ∃ a a', (w.nets n).layers[i]? = some a ∧ (w'.nets n).layers[i]? = some a' ∧
    match choice vs i (d i) with
    | none => a' = a ∧ w'.heap[a]? = w.heap[a]?
    | some v => ∃ l, Factory.create (e i) v.sType v.a1 v.a2 v.a3 v.a4 v.a5 = .ok l ∧ w'.heap[a']? = some (some l)

/-- Every thread has reported everything. -/
def Done (s : Shared) : Prop := ∀ t ∈ s.threads, t.todo = []

/-- The next step of the thread writes the shared variable. -/
def Writes (t : Thread) : Prop := t.todo ≠ [] ∧ t.pc = .write

/-- The next step of the thread reads or writes the shared variable. -/
def Accesses (t : Thread) : Prop := t.todo ≠ [] ∧ (t.pc = .write ∨ t.pc = .idle)

/-- Two threads are about to access the shared variable at the same time and one of them writes: a data race, undefined in C++. -/
def Conflict (s : Shared) : Prop := ∃ (i j : Nat) (t u : Thread), i ≠ j ∧ s.threads[i]? = some t ∧ s.threads[j]? = some u ∧ Writes t ∧ Accesses u

/-- No thread steps while another one is inside of `new_epoch`, as under a lock. -/
def Locked (cb : Bool) : List Nat → Shared → Prop
  | [], _ => True
  | i :: is, s => (∀ (j : Nat) (t : Thread), j ≠ i → s.threads[j]? = some t → t.pc = .idle) ∧ ∀ s', step cb i s = .ok s' → Locked cb is s'

/-- The greatest of -1 and the numbers. -/
noncomputable def maxOf (l : List ℝ) : ℝ := l.foldl max (-1)

/-- The numbers that are greater than -1 and all numbers before. -/
noncomputable def recordsFrom (b : ℝ) : List ℝ → List ℝ
  | [] => []
  | a :: l => if a > b then a :: recordsFrom a l else recordsFrom b l

end BeeDNN.Meta
