import Verif.Model.Readers

/-!
# The Python library (python/beednn): arrays of any dimension, `LayerFlatten` and `MNIST_import`

Simplifications: the numbers of an array are kept in the order of rows (numpy's default order, which `reshape` keeps); the memory that arrays share does not matter here, since
nothing writes to them.  Rounding does not occur (the numbers are bytes).
-/

namespace BeeDNN
open Data

/-- A numpy array: the sizes of its dimensions, and its numbers, the last index running fastest. -/
structure NdArr where
  shape : List Nat
  data : List ℝ

/-- The shape that `reshape` finds for an array of `size` numbers; `none` stands for -1.  Without -1 the sizes have to match; one -1 is replaced by what is left, if the product of the
other sizes is not 0 and divides; two of them are refused. -/
def npShape (size : Nat) (dims : List (Option Nat)) : Out (List Nat) :=
  let known := (dims.map (·.getD 1)).prod
  match dims.count none with
  | 0 => if known = size then .ok (dims.map (·.getD 1)) else .error .exception
  | 1 => if known = 0 ∨ size % known ≠ 0 then .error .exception else .ok (dims.map (·.getD (size / known)))
  | _ => .error .exception

/-- `a.reshape(dims)`. -/
def NdArr.reshape (a : NdArr) (dims : List (Option Nat)) : Out NdArr := do
  let s ← npShape a.data.length dims
  .ok { a with shape := s }

/-! ## `LayerFlatten` -/

/-- python/beednn/Layer.py:39-45, the attribute `input_shape`, which exists after the first `forward`. -/
structure PyFlatten where
  inputShape : Option (List Nat) := none

/-- python/beednn/Layer.py:40-42, `forward`.  An array without dimensions has no `x.shape[0]`. -/
def PyFlatten.forward (_ : PyFlatten) (x : NdArr) : Out (PyFlatten × NdArr) :=
  match x.shape with
  | [] => .error .exception
  | n :: rest => do
    let y ← x.reshape [some n, none]
    .ok ({ inputShape := some rest }, y)

/-- python/beednn/Layer.py:44-45, `backpropagation`. -/
def PyFlatten.backward (l : PyFlatten) (g : NdArr) : Out NdArr :=
  match l.inputShape with
  | some (a :: b :: _) => g.reshape [none, some a, some b]
  | _ => .error .exception

/-! ## `MNIST_import` -/

/-- `f.read(n)`: the next `n` bytes, or as many as there are; and what is left. -/
def pyRead (f : List Byte) (n : Nat) : List Byte × List Byte := (f.take n, f.drop n)

/-- `np.frombuffer(buf, dtype=np.uint8).astype(…)`.  Simplified: old versions of numpy raise an exception if there are no bytes at all. -/
def npFromBuffer (buf : List Byte) : NdArr := { shape := [buf.length], data := buf.map fun b => (b.val : ℝ) }

/-- python/beednn/MNIST_import.py:7-12 and 20-25: the images of a file.  A file that does not exist raises an exception. -/
def pyImages (n : Nat) : Option (List Byte) → Out NdArr
  | none => .error .exception
  | some f =>
    let f := (pyRead f 16).2
    let buf := (pyRead f (28 * 28 * n)).1
    (npFromBuffer buf).reshape [some n, some 28, some 28]

/-- python/beednn/MNIST_import.py:14-18 and 27-31: the labels of a file. -/
def pyLabels (n : Nat) : Option (List Byte) → Out NdArr
  | none => .error .exception
  | some f =>
    let f := (pyRead f 8).2
    .ok (npFromBuffer (pyRead f n).1)

/-- What `load` returns. -/
structure PyMnist where
  trainData : NdArr
  trainLabel : NdArr
  testData : NdArr
  testLabel : NdArr

/-- python/beednn/MNIST_import.py:5-33, `load`; `fs` are the files of the current directory. -/
def pyMnist (fs : String → Option (List Byte)) : Out PyMnist := do
  let trainData ← pyImages 60000 (fs "train-images.idx3-ubyte")
  let trainLabel ← pyLabels 60000 (fs "train-labels.idx1-ubyte")
  let testData ← pyImages 10000 (fs "t10k-images.idx3-ubyte")
  let testLabel ← pyLabels 10000 (fs "t10k-labels.idx1-ubyte")
  .ok { trainData, trainLabel, testData, testLabel }

end BeeDNN
