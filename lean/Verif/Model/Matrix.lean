import Verif.Model.Core

/-!
# Model of `src/Matrix.h` and of the free functions of `src/Matrix.cpp` (value level)

A matrix is its two sizes and its row-major buffer.  Ownership and aliasing of buffers are *not* in this
file; they are the subject of `Verif/Model/Heap.lean`.  Simplification common to the whole file: the
copy constructor (Matrix.h:76-87) is modelled once (`Mat.copy`); in the other functions a temporary
copy `Matrix<T>(*this)` is the value itself, which is justified by `Mat.copy_eq`
(`copy` of a well-formed matrix returns the same value for every content of fresh memory).
-/

namespace BeeDNN

/-- Matrix.h:680-681, members `_iRows`, `_iColumns`, `_data` (`_iSize` is always
`_iRows*_iColumns`: Matrix.h:40,49,58,80,154-158). -/
structure Mat (α : Type) where
  rows : Nat
  cols : Nat
  data : List α
  deriving DecidableEq, Repr

namespace Mat

variable {α : Type}

/-- The buffer has `_iRows*_iColumns` cells. -/
def WF (m : Mat α) : Prop := m.data.length = m.rows * m.cols

instance (m : Mat α) : Decidable m.WF := inferInstanceAs (Decidable (_ = _))

/-- Matrix.h:142-145 `size()`. -/
def size (m : Mat α) : Nat := m.rows * m.cols

/-- Matrix with given sizes and flat contents `d 0, d 1, …`. -/
def flat (r c : Nat) (d : Nat → α) : Mat α := ⟨r, c, tab (r * c) d⟩

/-- Matrix.h:45-52, constructor `Matrix(iRows,iColumns)`: fresh memory with contents `g`. -/
def alloc (g : Nat → α) (r c : Nat) : Mat α := flat r c g

/-- Matrix.h:236-248 `operator()(iR,iC)`, reading. -/
def get (m : Mat α) (r c : Nat) : Out α := do
  check (r < m.rows)
  check (c < m.cols)
  rd m.data (r * m.cols + c)

/-- Matrix.h:236-241 `operator()(iR,iC) = x`. -/
def set (m : Mat α) (r c : Nat) (x : α) : Out (Mat α) := do
  check (r < m.rows)
  check (c < m.cols)
  let d ← wr m.data (r * m.cols + c) x
  return { m with data := d }

/-- Matrix.h:250-260 `operator()(iX)`, reading. -/
def getI (m : Mat α) (i : Nat) : Out α := do
  check (i < m.size)
  rd m.data i

/-- Matrix.h:250-254 `operator()(iX) = x`. -/
def setI (m : Mat α) (i : Nat) (x : α) : Out (Mat α) := do
  check (i < m.size)
  let d ← wr m.data i x
  return { m with data := d }

/-- `_data[i]` (Matrix.h, e.g. 127, 268): raw read without assert. -/
def raw (m : Mat α) (i : Nat) : Out α := rd m.data i

/-- `_data[i] = x` (Matrix.h, e.g. 127, 268): raw write without assert. -/
def setRaw (m : Mat α) (i : Nat) (x : α) : Out (Mat α) := do
  let d ← wr m.data i x
  return { m with data := d }

/-- Matrix.h:76-87 copy constructor. -/
def copy (g : Nat → α) (a : Mat α) : Out (Mat α) :=
  forN a.size (fun i m => do
    let x ← a.getI i
    m.setRaw i x) (alloc g a.rows a.cols)

/-- Matrix.h:147-166 `resize`, value level (the object is not a view, or its storage is exclusive). -/
def resize (g : Nat → α) (m : Mat α) (r c : Nat) : Mat α :=
  if c = m.cols ∧ r = m.rows then m
  else if r * c = m.size then { m with rows := r, cols := c }
  else alloc g r c

/-- Matrix.h:104-112 `operator=` (no aliasing between the two operands). -/
def assign (g : Nat → α) (m b : Mat α) : Out (Mat α) :=
  let m := m.resize g b.rows b.cols
  forN m.size (fun i m => do
    let x ← b.getI i
    m.setI i x) m

/-- Matrix.h:183-186 `setConstant(b)` (`std::fill`). -/
def setConstant (m : Mat α) (b : α) : Out (Mat α) :=
  forN m.size (fun i m => m.setRaw i b) m

/-- Matrix.h:188-192 `setConstant(r,c,b)`; 194-212 `setZero(r,c)`, `setOnes(r,c)` are the instances
`b=0`, `b=1`. -/
def setConstantRC (g : Nat → α) (m : Mat α) (r c : Nat) (b : α) : Out (Mat α) :=
  (m.resize g r c).setConstant b

/-- Elementwise assignment loop `for(i<_iSize) _data[i] = f(_data[i])`, shared by Matrix.h:123-130
(negation), 280-285, 309-314 (`+=`, `-=` scalar), 321-335 (`*=`, `/=` scalar), 416-571 (`cwiseAbs`,
`cwiseSign`, `cwiseAbs2`, `cube`, `log`, `round`, `cosh`, `tanh`, `exp`, `cwiseSqrt`, `square`,
`cwiseMin(T)`, `cwiseMax(T)`); `f` is the scalar operation of the respective function. -/
def cwise (f : α → α) (m : Mat α) : Out (Mat α) :=
  forN m.size (fun i o => do
    let x ← m.raw i
    o.setI i (f x)) m

/-- Binary elementwise loop with the shape asserts, shared by Matrix.h:262-278 (`+=`, `+`),
291-307 (`-=`, `-`), 390-414 (`cwiseProduct`, `cwiseQuotient`), 536-547, 559-570 (`cwiseMin/Max`
of two matrices); `op` is the scalar operation. -/
def cwise2 (op : α → α → α) (m a : Mat α) : Out (Mat α) := do
  check (m.rows = a.rows)
  check (m.cols = a.cols)
  forN m.size (fun i o => do
    let x ← o.raw i
    let y ← a.getI i
    o.setI i (op x y)) m

/-- Matrix.h:262-278 `operator+=` / `operator+`. -/
def add [Add α] (m a : Mat α) : Out (Mat α) := cwise2 (· + ·) m a
/-- Matrix.h:291-307 `operator-=` / `operator-`. -/
def sub [Sub α] (m a : Mat α) : Out (Mat α) := cwise2 (· - ·) m a
/-- Matrix.h:390-401 `cwiseProduct`. -/
def cwiseProduct [Mul α] (m a : Mat α) : Out (Mat α) := cwise2 (· * ·) m a
/-- Matrix.h:321-327, 342-345 `operator*=(T)`, `operator*(T)`. -/
def scale [Mul α] (m : Mat α) (b : α) : Out (Mat α) := cwise (· * b) m
/-- Matrix.h:329-340 `operator/=(T)`, `operator/(T)`. -/
def divScalar [Div α] (m : Mat α) (b : α) : Out (Mat α) := cwise (· / b) m
/-- Matrix.h:123-130 unary minus. -/
def neg [Neg α] (m : Mat α) : Out (Mat α) := cwise (fun x => -x) m
/-- Matrix.h:280-289 `+=` scalar. -/
def addScalar [Add α] (m : Mat α) (b : α) : Out (Mat α) := cwise (· + b) m

/-- Matrix.h:353-388, 624-627 `operator*=`, `operator*` (RKC algorithm). -/
def mul [Zero α] [Add α] [Mul α] (g : Nat → α) (a b : Mat α) : Out (Mat α) := do
  check (a.cols = b.rows)
  let m := a.resize g a.rows b.cols
  let m ← m.setConstant 0
  forN a.rows (fun r m =>
    forN a.cols (fun k m => do
      let af ← a.get r k
      forN b.cols (fun c m => do
        let x ← m.get r c
        let y ← b.get k c
        m.set r c (x + af * y)) m) m) m

/-- Matrix.h:572-579 `sum`. -/
def sum [Zero α] [Add α] (m : Mat α) : Out α :=
  forN m.size (fun i s => do
    let x ← m.raw i
    return s + x) 0

/-- Matrix.h:581-588 `squaredNorm`. -/
def squaredNorm [Zero α] [Add α] [Mul α] (m : Mat α) : Out α :=
  forN m.size (fun i s => do
    let x ← m.raw i
    return s + x * x) 0

/-- Matrix.h:595-598 `mean`: `sum()/(T)_iSize`. -/
def mean [Zero α] [Add α] [Div α] [NatCast α] (m : Mat α) : Out α := do
  let s ← m.sum
  return s / (m.size : α)

/-- Matrix.h:600-611 `maxCoeff`; the loop `for(i=1;i<_iSize;i++)` is indexed here by `i-1`. -/
def maxCoeff [Zero α] [LT α] [DecidableRel (α := α) (· < ·)] (m : Mat α) : Out α :=
  if m.size = 0 then .ok 0
  else do
    let x0 ← m.raw 0
    forN (m.size - 1) (fun i dMax => do
      let x ← m.raw (i + 1)
      return if dMax < x then x else dMax) x0

/-- Matrix.h:613-622 `transpose`. -/
def transpose (g : Nat → α) (m : Mat α) : Out (Mat α) :=
  forN m.rows (fun r o =>
    forN m.cols (fun c o => do
      let x ← m.get r c
      o.set c r x) o) (alloc g m.cols m.rows)

/-- Matrix.h:629-641 `row(iRow)`: the view as a value (what is read through it). -/
def row (m : Mat α) (i : Nat) : Out (Mat α) := do
  check (i < m.rows)
  return ⟨1, m.cols, (m.data.drop (i * m.cols)).take m.cols⟩

/-- Matrix.h:225-234 `asDiagonal`. -/
def asDiagonal [Zero α] (g : Nat → α) (m : Mat α) : Out (Mat α) := do
  let o ← setConstantRC g ⟨0, 0, []⟩ m.size m.size 0
  forN m.size (fun i o => do
    let x ← m.raw i
    o.set i i x) o

/-- Matrix.h:659-667 `diagonal`. -/
def diagonal (g : Nat → α) (m : Mat α) : Out (Mat α) :=
  forN m.rows (fun i r => do
    let x ← m.get i i
    r.setI i x) (alloc g m.rows 1)

/-- Matrix.h:669-677 `trace`. -/
def trace [Zero α] [Add α] (m : Mat α) : Out α :=
  forN m.rows (fun i t => do
    let x ← m.get i i
    return t + x) 0

/-! ### `src/Matrix.cpp` -/

/-- Matrix.cpp:33-38 `viewResize`: the same cells seen with other sizes. -/
def viewResize (m : Mat α) (r c : Nat) : Out (Mat α) := do
  check (m.size = r * c)
  return ⟨r, c, m.data⟩

/-- Matrix.cpp:54-61 `copyInto` (`std::copy` of `mToCopy.size()` cells to row `iStartRow`). -/
def copyInto (t m : Mat α) (iStartRow : Nat) : Out (Mat α) :=
  forN t.size (fun i m => do
    let x ← t.raw i
    m.setRaw (iStartRow * m.cols + i) x) m

/-- Matrix.cpp:63-82 `rowWiseSum` (and 105-124 `rowWiseSumSq` with `f x = x*x`). -/
def rowWiseAcc [Zero α] [Add α] (f : α → α) (g : Nat → α) (m : Mat α) : Out (Mat α) :=
  forN m.rows (fun i o => do
    let s ← forN m.cols (fun j s => do
      let x ← m.get i j
      return s + f x) 0
    o.setI i s) (alloc g m.rows 1)

/-- Matrix.cpp:63-82 `rowWiseSum`. -/
def rowWiseSum [Zero α] [Add α] (g : Nat → α) (m : Mat α) : Out (Mat α) := rowWiseAcc (fun x => x) g m
/-- Matrix.cpp:105-124 `rowWiseSumSq`. -/
def rowWiseSumSq [Zero α] [Add α] [Mul α] (g : Nat → α) (m : Mat α) : Out (Mat α) :=
  rowWiseAcc (fun x => x * x) g m

/-- Matrix.cpp:84-103 `rowWiseMean`. -/
def rowWiseMean [Zero α] [Add α] [Div α] [NatCast α] (g : Nat → α) (m : Mat α) : Out (Mat α) :=
  forN m.rows (fun i o => do
    let s ← forN m.cols (fun j s => do
      let x ← m.get i j
      return s + x) 0
    o.setI i (s / (m.cols : α))) (alloc g m.rows 1)

/-- Matrix.cpp:126-187: common loop of `colWiseSum`, `colWiseSumSq`, `colWiseMean`;
`f` is the summand, `fin` what is stored from the sum. -/
def colWiseAcc [Zero α] [Add α] (f : α → α) (fin : α → α) (g : Nat → α) (m : Mat α) : Out (Mat α) :=
  forN m.cols (fun j o => do
    let s ← forN m.rows (fun i s => do
      let x ← m.get i j
      return s + f x) 0
    o.setI j (fin s)) (alloc g 1 m.cols)

/-- Matrix.cpp:126-145 `colWiseSum`. -/
def colWiseSum [Zero α] [Add α] (g : Nat → α) (m : Mat α) : Out (Mat α) :=
  colWiseAcc (fun x => x) (fun s => s) g m
/-- Matrix.cpp:147-166 `colWiseSumSq`. -/
def colWiseSumSq [Zero α] [Add α] [Mul α] (g : Nat → α) (m : Mat α) : Out (Mat α) :=
  colWiseAcc (fun x => x * x) (fun s => s) g m
/-- Matrix.cpp:168-187 `colWiseMean`. -/
def colWiseMean [Zero α] [Add α] [Div α] [NatCast α] (g : Nat → α) (m : Mat α) : Out (Mat α) :=
  colWiseAcc (fun x => x) (fun s => s / (m.rows : α)) g m

/-- Matrix.cpp:189-229: common loop of `colWiseMin` and `colWiseMax`; `op` is `std::min`/`std::max`. -/
def colWiseSel (op : α → α → α) (g : Nat → α) (m : Mat α) : Out (Mat α) :=
  forN m.cols (fun j o => do
    let x0 ← m.get 0 j
    let s ← forN m.rows (fun i s => do
      let x ← m.get i j
      return op s x) x0
    o.setI j s) (alloc g 1 m.cols)

/-- Matrix.cpp:189-208 `colWiseMin`; `std::min(a,b)` is `(b < a) ? b : a`. -/
def colWiseMin [LT α] [DecidableRel (α := α) (· < ·)] (g : Nat → α) (m : Mat α) : Out (Mat α) :=
  colWiseSel (fun a b => if b < a then b else a) g m
/-- Matrix.cpp:210-229 `colWiseMax`; `std::max(a,b)` is `(a < b) ? b : a`. -/
def colWiseMax [LT α] [DecidableRel (α := α) (· < ·)] (g : Nat → α) (m : Mat α) : Out (Mat α) :=
  colWiseSel (fun a b => if a < b then b else a) g m

/-- `m.row(l) op= s` for a scalar `s`: the row view (Matrix.h:629-634) shares storage with `m`, so the
elementwise loop (Matrix.h:321-335) writes through. -/
def rowScalarAssign (op : α → α → α) (m : Mat α) (l : Nat) (s : α) : Out (Mat α) := do
  check (l < m.rows)
  forN m.cols (fun i m => do
    let x ← m.raw (l * m.cols + i)
    m.setRaw (l * m.cols + i) (op x s)) m

/-- `m.row(l) op= d` for a row vector `d` (Matrix.h:262-270 on the row view of 629-634). -/
def rowVecAssign (op : α → α → α) (m : Mat α) (l : Nat) (d : Mat α) : Out (Mat α) := do
  check (l < m.rows)
  check (1 = d.rows)
  check (m.cols = d.cols)
  forN m.cols (fun i m => do
    let x ← m.raw (l * m.cols + i)
    let y ← d.getI i
    m.setRaw (l * m.cols + i) (op x y)) m

/-- Matrix.cpp:231-255 `rowWiseMult` (`op = *`), `rowWiseDivide` (`op = /`). -/
def rowWiseScalar (op : α → α → α) (m d : Mat α) : Out (Mat α) := do
  check (d.rows = m.rows)
  check (d.cols = 1)
  forN m.rows (fun l r => do
    let s ← d.getI l
    rowScalarAssign op r l s) m

/-- Matrix.cpp:257-271 `rowWiseAdd`. -/
def rowWiseAdd [Add α] (m d : Mat α) : Out (Mat α) := do
  check (d.rows = 1)
  check (d.cols = m.cols)
  forN m.rows (fun l r => rowVecAssign (· + ·) r l d) m

/-- Matrix.cpp:303-312 `clamp`. -/
def clamp [LT α] [DecidableRel (α := α) (· < ·)] (m : Mat α) (lo hi : α) : Out (Mat α) :=
  forN m.size (fun i m => do
    let x ← m.getI i
    if hi < x then m.setI i hi
    else if x < lo then m.setI i lo
    else return m) m

/-- Matrix.cpp:314-334 `argmax`; the loop `for(i=1;i<cols;i++)` is indexed here by `i-1`.
The state is `(d, iIndex)`. -/
def argmax [LT α] [DecidableRel (α := α) (· < ·)] (m : Mat α) : Out Nat := do
  check (m.rows = 1)
  if m.cols = 0 then return 0
  else
    let d0 ← m.getI 0
    let p ← forN (m.cols - 1) (fun i (s : α × Nat) => do
      let x ← m.getI (i + 1)
      return if s.1 < x then (x, i + 1) else s) (d0, 0)
    return p.2

/-- Matrix.cpp:336-343 `rowsArgmax`; the labels are stored as `(float)argmax`. -/
def rowsArgmax [LT α] [DecidableRel (α := α) (· < ·)] [NatCast α] (g : Nat → α) (m argM : Mat α) :
    Out (Mat α) :=
  forN m.rows (fun i o => do
    let r ← m.row i
    let k ← argmax r
    o.setI i (k : α)) (argM.resize g m.rows 1)

/-- `m.row(i) = b` with `b` a row vector of matching width: `resize` is a no-op, so the copy loop of
`operator=` (Matrix.h:104-112) writes through the view (Matrix.h:629-634). With a non-matching
size the temporary view detaches (Matrix.h:158-165) and `m` is unchanged. -/
def rowAssign (m : Mat α) (i : Nat) (b : Mat α) : Out (Mat α) := do
  check (i < m.rows)
  if b.rows * b.cols = m.cols then
    forN m.cols (fun j m => do
      let x ← b.getI j
      m.setRaw (i * m.cols + j) x) m
  else return m

/-- Matrix.cpp:345-355 `decimate`. `m.rows()/iRatio` divides by zero for `iRatio = 0`. -/
def decimate (g : Nat → α) (m : Mat α) (k : Nat) : Out (Mat α) :=
  if k = 0 then .error .divByZero
  else
    forN (m.rows / k) (fun i o => do
      let r ← m.row (i * k)
      rowAssign o i r) (alloc g (m.rows / k) m.cols)

/-- Matrix.cpp:442-448 `viewRow`: rows `a ≤ · < b` as a value. -/
def viewRow (m : Mat α) (a b : Nat) : Out (Mat α) := do
  check (a < b)
  check (b ≤ m.rows)
  return ⟨b - a, m.cols, (m.data.drop (a * m.cols)).take ((b - a) * m.cols)⟩

/-- Matrix.cpp:450-460 `colExtract` (for `a ≤ b`). -/
def colExtract (g : Nat → α) (m : Mat α) (a b : Nat) : Out (Mat α) :=
  forN m.rows (fun r o =>
    forN (b - a) (fun c o => do
      let x ← m.get r (c + a)
      o.set r c x) o) (alloc g m.rows (b - a))

/-- Matrix.cpp:284-301 `applyRowPermutation`; `memcpy` of `iCols` floats is a copy loop. -/
def applyRowPermutation (g : Nat → α) (p : List Nat) (m o : Mat α) : Out (Mat α) := do
  check (p.length = m.rows)
  forN p.length (fun i o => do
    let ip ← rd p i
    check (ip < m.rows)
    forN m.cols (fun j o => do
      let x ← m.raw (m.cols * ip + j)
      o.setRaw (m.cols * i + j) x) o) (o.resize g m.rows m.cols)

/-- Matrix.cpp:499-511 `channelWiseAdd`. -/
def channelWiseAdd [Add α] (m : Mat α) (S H R C : Nat) (w : Mat α) : Out (Mat α) := do
  check (w.size = H)
  check (m.rows = S)
  check (m.size = S * H * R * C)
  forN S (fun s m => forN H (fun h m => forN R (fun r m => forN C (fun c m => do
    let x ← m.get s (h * R * C + r * C + c)
    let y ← w.getI h
    m.set s (h * R * C + r * C + c) (x + y)) m) m) m) m

/-- Matrix.cpp:513-531 `channelWiseMean`.  The final factor is `1.f / iNbSamples * iNbRows*iNbCols`,
which C++ parses as `((1.f/iNbSamples)*iNbRows)*iNbCols`. -/
def channelWiseMean [Zero α] [One α] [Add α] [Mul α] [Div α] [NatCast α] (g : Nat → α)
    (m : Mat α) (S H R C : Nat) : Out (Mat α) := do
  check (m.rows = S)
  check (m.size = S * H * R * C)
  let o ← setConstantRC g ⟨0, 0, []⟩ 1 H 0
  let o ← forN S (fun s o => forN H (fun h o => forN R (fun r o => forN C (fun c o => do
    let x ← o.get 0 h
    let y ← m.get s (h * R * C + r * C + c)
    o.set 0 h (x + y)) o) o) o) o
  o.scale (1 / (S : α) * (R : α) * (C : α))

/-- Matrix.cpp:561-567 `reverseData(pData,iSize)` on the buffer `l` at offset `p`.  The loop runs
`iSize/2 + 1` times; the write pointer starts at `p`, the read pointer at `p+iSize-1` (computed in `Int`:
it may leave the buffer). -/
def reverseData (l : List α) (p n : Nat) : Out (List α) :=
  forN (n / 2 + 1) (fun i l =>
    if n + p < i + 1 then .error .outOfBounds
    else do
      let x ← rd l (p + n - 1 - i)
      wr l (p + i) x) l

/-- Matrix.cpp:484-491 `setQuickBernoulli`: `uiLimit = int(fProba*65536.)` is passed as `lim`;
`rng` is the stream of generator outputs. -/
def setQuickBernoulli [Zero α] [One α] (m : Mat α) (lim : Nat) (rng : Nat → Nat) : Out (Mat α) :=
  forN m.size (fun i m => m.setI i (if rng i % 65536 < lim then 1 else 0)) m

/-- Matrix.cpp:468-474 `setRandomUniform`: entry `i` is the `i`-th draw of the distribution. -/
def setDraws (m : Mat α) (draw : Nat → α) : Out (Mat α) :=
  forN m.size (fun i m => m.setI i (draw i)) m

/-- Matrix.cpp:552-559 `oneMinusSquare`. -/
def oneMinusSquare [One α] [Sub α] [Mul α] (m : Mat α) : Out (Mat α) := cwise (fun x => 1 - x * x) m

end Mat

/-- Matrix.cpp:273-282 `randPerm`: `v[i]=i`, then `std::shuffle`.  The shuffle is modelled as the
Fisher–Yates exchange loop mandated for it in every common standard library (for `i` from 1 to `n-1`
swap entry `i` with entry `draw i % (i+1)`), for an arbitrary stream `draw`; libstdc++ pairs two
draws in one generator call for small ranges, which only changes the stream. -/
def randPerm (draw : Nat → Nat) (n : Nat) : Out (List Nat) := do
  let v ← forN n (fun i v => wr v i i) (tab n (fun _ => 0))
  forN (n - 1) (fun i v => do
    let j := draw (i + 1) % (i + 2)
    let x ← rd v (i + 1)
    let y ← rd v j
    let v ← wr v (i + 1) y
    wr v j x) v

end BeeDNN
