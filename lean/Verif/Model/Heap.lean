import Verif.Model.Core

/-!
# Matrices as objects in memory: ownership, views, aliasing

`Verif.Model.Matrix` treats a matrix as a value.  This file models the object representation of
src/Matrix.h (pointer, shape, `_bIsView`) in an explicit heap, for the claims about ownership
(C05-C08).
-/

namespace BeeDNN

/-- The heap: block number `b` is `some cells` while allocated and `none` after `delete[]`.
Simplification: block numbers are never reused, so a stale pointer is always recognised
(in C++ the access is undefined whether or not the address is reused). -/
abbrev Heap (α : Type) := List (Option (List α))

/-- A `T*`: null, or a position inside a block. -/
abbrev Ptr := Option (Nat × Nat)

namespace Heap
variable {α : Type}

/-- `new T[n]`; `g` is the unspecified content.  `new T[0]` is a block with no cell. -/
def alloc (h : Heap α) (n : Nat) (g : Nat → α) : Heap α × Ptr :=
  (h ++ [some (tab n g)], some (h.length, 0))

/-- `delete[] p`: no effect on null; undefined unless `p` points to the start of an allocated block. -/
def free (h : Heap α) : Ptr → Out (Heap α)
  | none => .ok h
  | some (b, off) =>
    match h[b]? with
    | some (some _) => if off = 0 then .ok (h.set b none) else .error .doubleFree
    | _ => .error .doubleFree

/-- Read of `p[i]`. -/
def load (h : Heap α) (p : Ptr) (i : Nat) : Out α :=
  match p with
  | none => .error .nullDeref
  | some (b, off) =>
    match h[b]? with
    | some (some buf) => rd buf (off + i)
    | _ => .error .useAfterFree

/-- `p[i]=x`. -/
def store (h : Heap α) (p : Ptr) (i : Nat) (x : α) : Out (Heap α) :=
  match p with
  | none => .error .nullDeref
  | some (b, off) =>
    match h[b]? with
    | some (some buf) => (wr buf (off + i) x).map (fun buf' => h.set b (some buf'))
    | _ => .error .useAfterFree

end Heap

/-- The members of `Matrix<T>` (Matrix.h:34-745).  `_iSize` always equals `_iRows*_iColumns` in the
source and is not stored.  Sizes are natural numbers: negative sizes are outside the model. -/
structure Obj where
  rows : Nat
  cols : Nat
  ptr : Ptr
  isView : Bool
  deriving DecidableEq, Repr

namespace Obj

/-- Matrix.h:142-145 `size()`. -/
def size (o : Obj) : Nat := o.rows * o.cols

end Obj

/-- The heap and the matrix objects of the program (`none`: destroyed). -/
structure Store (α : Type) where
  heap : Heap α
  objs : List (Option Obj)

namespace Store
variable {α : Type}

/-- The program before any matrix exists. -/
def init : Store α := ⟨[], []⟩

/-- The live object number `k`. -/
def obj (s : Store α) (k : Nat) : Option Obj := (s.objs[k]?).join

/-- Matrix.h:147-166 `resize`, on one object. -/
def resizeObj (g : Nat → α) (h : Heap α) (o : Obj) (r c : Nat) : Out (Heap α × Obj) :=
  if c = o.cols ∧ r = o.rows then .ok (h, o)
  else if r * c = o.size then .ok (h, { o with rows := r, cols := c })
  else do
    let h ← if o.isView then .ok h else h.free o.ptr
    let (h, p) := h.alloc (r * c) g
    return (h, { rows := r, cols := c, ptr := p, isView := false })

/-- The loop `for(i<size()) operator()(i)=b(i)` (Matrix.h:84-85, 108-109), with the asserts of
Matrix.h:252,258. -/
def copyCells (h : Heap α) (n : Nat) (dst : Obj) (src : Obj) : Out (Heap α) :=
  forN n (fun i h => do
    check (i < src.size)
    let x ← h.load src.ptr i
    check (i < dst.size)
    h.store dst.ptr i x) h

/-- The public operations that create, change or destroy matrices. -/
inductive Op (α : Type) where
  /-- `Matrix()` -/
  | mkEmpty
  /-- `Matrix(r,c)` -/
  | mk (r c : Nat)
  /-- `Matrix(const Matrix&)` from object `k` -/
  | copy (k : Nat)
  /-- `objects[k].row(i)` -/
  | row (k i : Nat)
  /-- `objects[k].topRows(n)` -/
  | topRows (k n : Nat)
  /-- `viewRow(objects[k],a,b)` -/
  | viewRow (k a b : Nat)
  /-- `viewResize(objects[k],r,c)`; with the own shape this is `createView` -/
  | viewResize (k r c : Nat)
  /-- `objects[k].resize(r,c)` -/
  | resize (k r c : Nat)
  /-- `objects[k] = objects[l]` -/
  | assign (k l : Nat)
  /-- `objects[k](i) = x` -/
  | write (k i : Nat) (x : α)
  /-- `~Matrix()` of object `k` -/
  | destroy (k : Nat)

/-- One operation; a new object gets the next free number.  An operation naming an object that does not
exist (which C++ scoping excludes) does nothing.  The view-returning functions rely on copy elision for
their by-value results (guaranteed since C++17). -/
def step (g : Nat → α) (s : Store α) : Op α → Out (Store α)
  | .mkEmpty => .ok ⟨s.heap, s.objs ++ [some ⟨0, 0, none, false⟩]⟩      -- Matrix.h:36-43
  | .mk r c =>                                                             -- Matrix.h:45-52
    let (h, p) := s.heap.alloc (r * c) g
    .ok ⟨h, s.objs ++ [some ⟨r, c, p, false⟩]⟩
  | .copy k =>                                                             -- Matrix.h:76-87
    match s.obj k with
    | none => .ok s
    | some a => do
      let (h, p) := s.heap.alloc (a.rows * a.cols) g
      let o : Obj := ⟨a.rows, a.cols, p, false⟩
      let h ← copyCells h o.size o a
      return ⟨h, s.objs ++ [some o]⟩
  | .row k i =>                                                            -- Matrix.h:629-641, 54-61
    match s.obj k with
    | none => .ok s
    | some a => do
      check (i < a.rows)
      return ⟨s.heap, s.objs ++ [some ⟨1, a.cols, a.ptr.map (fun (b, off) => (b, off + i * a.cols)), true⟩]⟩
  | .topRows k n =>                                                        -- Matrix.h:643-657
    match s.obj k with
    | none => .ok s
    | some a => do
      check (n < a.rows)
      return ⟨s.heap, s.objs ++ [some ⟨n, a.cols, a.ptr, true⟩]⟩
  | .viewRow k i j =>                                                      -- Matrix.cpp:442-448
    match s.obj k with
    | none => .ok s
    | some a => do
      check (i < j)
      check (j ≤ a.rows)
      return ⟨s.heap, s.objs ++
        [some ⟨j - i, a.cols, a.ptr.map (fun (b, off) => (b, off + i * a.cols)), true⟩]⟩
  | .viewResize k r c =>                                                   -- Matrix.cpp:33-38, 49-52
    match s.obj k with
    | none => .ok s
    | some a => do
      check (a.size = r * c)
      return ⟨s.heap, s.objs ++ [some ⟨r, c, a.ptr, true⟩]⟩
  | .resize k r c =>                                                       -- Matrix.h:147-166
    match s.obj k with
    | none => .ok s
    | some o => do
      let (h, o') ← resizeObj g s.heap o r c
      return ⟨h, s.objs.set k (some o')⟩
  | .assign k l =>                                                         -- Matrix.h:104-112
    match s.obj k, s.obj l with
    | some o, some b => do
      let (h, o') ← resizeObj g s.heap o b.rows b.cols
      let h ← copyCells h o'.size o' b
      return ⟨h, s.objs.set k (some o')⟩
    | _, _ => .ok s
  | .write k i x =>                                                        -- Matrix.h:250-254
    match s.obj k with
    | none => .ok s
    | some o => do
      check (i < o.size)
      let h ← s.heap.store o.ptr i x
      return ⟨h, s.objs⟩
  | .destroy k =>                                                          -- Matrix.h:89-93
    match s.obj k with
    | none => .ok s
    | some o => do
      let h ← if o.isView then .ok s.heap else s.heap.free o.ptr
      return ⟨h, s.objs.set k none⟩

/-- A whole program; the content of fresh memory may differ at every step. -/
def run (g : Nat → Nat → α) : List (Op α) → Store α → Out (Store α)
  | [], s => .ok s
  | op :: ops, s => (step (g ops.length) s op).bind (run g ops)

/-- Reading `objects[k](i)`, Matrix.h:256-260. -/
def read (s : Store α) (k i : Nat) : Out α :=
  match s.obj k with
  | none => .error .nullDeref
  | some o => do
    check (i < o.size)
    s.heap.load o.ptr i

end Store
end BeeDNN
