import Verif.Spec.Layer
import Verif.Model.Net

/-! # Specification: networks -/

namespace BeeDNN

/-- `NetFn w as C C' φ`: the layers at the addresses `as`, applied to one sample in this order, turn `C` features
into `C'` features by `φ`. -/
inductive NetFn (w : World) : List Nat → Nat → Nat → (Row → Row) → Prop
  | nil (C : Nat) : NetFn w [] C C (fun v => v)
  | cons (a : Nat) (as : List Nat) (l : Layer) (C C₁ C₂ : Nat) (φ ψ : Row → Row) (hl : w.heap[a]? = some (some l))
      (hφ : LayerRow l C C₁ φ) (hψ : NetFn w as C₁ C₂ ψ) : NetFn w (a :: as) C C₂ (fun v => ψ (φ v))

/-- The layers at these addresses are in test mode. -/
def TestMode (w : World) (as : List Nat) : Prop := ∀ a ∈ as, ∀ l, w.heap[a]? = some (some l) → l.train = false

/-- Every network owns its layers: they exist, and no layer appears twice. -/
structure Owned (w : World) : Prop where
  live : ∀ n, ∀ a ∈ (w.nets n).layers, ∃ l, w.heap[a]? = some (some l)
  nodup : ∀ n, (w.nets n).layers.Nodup
  disjoint : ∀ n m, ∀ a ∈ (w.nets n).layers, a ∈ (w.nets m).layers → n = m

/-- The layers at these addresses are well formed. -/
def AllValid (w : World) (as : List Nat) : Prop := ∀ a ∈ as, ∀ l, w.heap[a]? = some (some l) → l.Valid

/-- The operations of the interface, applied to network `n`; `poke` is a change made through the reference that
`layer(i)` returns, for instance by a trainer. -/
inductive NetOp where
  | add (n : Nat) (l : Layer)
  | replace (n i : Nat) (l : Layer)
  | assign (n m : Nat)
  | clear (n : Nat)
  | predict (n : Nat) (mIn mOut : Mat ℝ)
  | setTrain (n : Nat) (b : Bool)
  | init (n : Nat)
  | poke (n i : Nat) (l : Layer)

/-- The network an operation works on. -/
def NetOp.target : NetOp → Nat
  | .add n _ | .replace n _ _ | .assign n _ | .clear n | .predict n _ _ | .setTrain n _ | .init n | .poke n _ _ => n

/-- One operation; a layer passed to `add` or `replace` is a new object. -/
noncomputable def NetOp.step (e : Nat → Env) (w : World) : NetOp → Out World
  | .add n l => .ok ((w.alloc l).add n w.heap.length)
  | .replace n i l => (w.alloc l).replace n i w.heap.length
  | .assign n m => w.assign e n m
  | .clear n => w.clear n
  | .predict n mIn mOut => do
    let r ← w.predict e n mIn mOut
    return r.1
  | .setTrain n b => w.setTrain n b
  | .init n => w.init e n
  | .poke n i l => do
    let a ← w.layerAt n i
    return w.store a l

/-- A program; operation `k` uses the random values and fresh memory `e k`. -/
noncomputable def NetOp.run (e : Nat → Nat → Env) : Nat → List NetOp → World → Out World
  | _, [], w => .ok w
  | k, op :: ops, w => do
    let w ← op.step (e k) w
    NetOp.run e (k + 1) ops w

end BeeDNN
