import Verif.Model.Heap

/-! Specification of sound memory states, independent of the operations. -/

namespace BeeDNN
namespace Store
variable {α : Type}

/-- What must hold between the objects and the heap at every point of a program. -/
structure Sound (s : Store α) : Prop where
  /-- every object, view or owner, stays inside its block while that block is allocated -/
  inside : ∀ k o, s.obj k = some o → match o.ptr with
    | none => o.size = 0
    | some (b, off) => b < s.heap.length ∧
        ∀ buf, s.heap[b]? = some (some buf) → off + o.size ≤ buf.length
  /-- an owner has no storage at all, or a whole allocated block of exactly its size -/
  owns : ∀ k o, s.obj k = some o → o.isView = false →
    o.ptr = none ∨ ∃ b buf, o.ptr = some (b, 0) ∧ s.heap[b]? = some (some buf) ∧ buf.length = o.size
  /-- no block has two owners -/
  exclusive : ∀ k l o o' b off off', s.obj k = some o → s.obj l = some o' →
    o.isView = false → o'.isView = false → o.ptr = some (b, off) → o'.ptr = some (b, off') → k = l
  /-- every allocated block has an owner (nothing leaks) -/
  owned : ∀ b buf, s.heap[b]? = some (some buf) →
    ∃ k o, s.obj k = some o ∧ o.isView = false ∧ o.ptr = some (b, 0)

/-- Object `o` refers to block `b`. -/
def _root_.BeeDNN.Obj.refers (o : Obj) (b : Nat) : Prop := ∃ off, o.ptr = some (b, off)

/-- The storage behind the object is still allocated (or the object is empty). -/
def Live (s : Store α) (o : Obj) : Prop :=
  o.size = 0 ∨ ∃ b off buf, o.ptr = some (b, off) ∧ s.heap[b]? = some (some buf)

/-- Object `j` is the only one that refers to its storage. -/
def Alone (s : Store α) (j : Nat) : Prop :=
  ∀ o b, s.obj j = some o → o.refers b → b < s.heap.length ∧
    ∀ i p, s.obj i = some p → p.refers b → i = j

/-- Object whose cells an operation may overwrite or whose storage it may release. -/
def Op.target : Op α → Option Nat
  | .resize k _ _ => some k
  | .assign k _ => some k
  | .write k _ _ => some k
  | .destroy k => some k
  | _ => none

/-- Object of which an operation creates a view. -/
def Op.viewed : Op α → Option Nat
  | .row k _ => some k
  | .topRows k _ => some k
  | .viewRow k _ _ => some k
  | .viewResize k _ _ => some k
  | _ => none

end Store
end BeeDNN

namespace BeeDNN
namespace Store
variable {α : Type}

/-- What the caller must guarantee for one operation: indices in range (the `assert`s of the source), and
no use of a view whose storage was released, including a release by the assignment itself. -/
def Op.pre (s : Store α) : Op α → Prop
  | .copy k => ∀ a, s.obj k = some a → s.Live a
  | .row k i => ∀ a, s.obj k = some a → i < a.rows
  | .topRows k n => ∀ a, s.obj k = some a → n < a.rows
  | .viewRow k i j => ∀ a, s.obj k = some a → i < j ∧ j ≤ a.rows
  | .viewResize k r c => ∀ a, s.obj k = some a → a.size = r * c
  | .assign k l => ∀ o b, s.obj k = some o → s.obj l = some b → s.Live b ∧
      (o.size = b.size → s.Live o) ∧
      (o.size ≠ b.size → b.size ≠ 0 → o.isView = false → ∀ blk, o.refers blk → ¬ b.refers blk)
  | .write k i _ => ∀ o, s.obj k = some o → i < o.size ∧ s.Live o
  | _ => True

end Store
end BeeDNN
