import Verif.Model.Text
import Mathlib.Data.Real.Basic

/-!
# Model of `src/DataSource.cpp`, `src/MNISTReader.cpp`, `src/CIFAR10Reader.cpp` and `src/CsvFileReader.cpp`

Files are lists of bytes (or characters); a file that cannot be opened is `none`.
Variables and buffers that were not written hold arbitrary values: `u v i` is byte `i` of the uninitialised variable `v`.
Pixels are real numbers; the divisions by 256 are exact in `float`, those by 255 are rounded there.
Not modelled: failing allocations, big-endian machines.
-/

namespace BeeDNN.Data

/-- A byte. -/
abbrev Byte := Fin 256

/-! ## `std::ifstream` -/

/-- What is left to read, and whether a read failed. -/
structure IStream where
  rest : List Byte
  fail : Bool

/-- `ifs.read(p,n)` with `p` pointing to the buffer `buf`: a read beyond the end stores the bytes that are left and makes the stream fail;
a failed stream stores nothing. -/
def IStream.read (s : IStream) (n : Nat) (buf : List Byte) : Out (IStream × List Byte) :=
  if buf.length < n then .error .outOfBounds
  else if s.fail then .ok (s, buf)
  else if n ≤ s.rest.length then .ok (⟨s.rest.drop n, false⟩, s.rest.take n ++ buf.drop n)
  else .ok (⟨[], true⟩, s.rest ++ buf.drop s.rest.length)

/-- The unsigned number in memory (little-endian). -/
def le : List Byte → Nat
  | [] => 0
  | b :: bs => b.val + 256 * le bs

/-! ## `DataSource` -/

/-- DataSource.h, members. -/
structure DataSource where
  /-- `_mTrainData` -/
  trainData : Mat ℝ
  /-- `_mTrainTruth` -/
  trainTruth : Mat ℝ
  /-- `_mValData` -/
  valData : Mat ℝ
  /-- `_mValTruth` -/
  valTruth : Mat ℝ
  /-- `_bHasTrainData` -/
  hasTrain : Bool
  /-- `_bHasValidationData` -/
  hasVal : Bool

namespace DataSource

/-- DataSource.cpp:5-9, constructor. -/
def new : DataSource := ⟨⟨0, 0, []⟩, ⟨0, 0, []⟩, ⟨0, 0, []⟩, ⟨0, 0, []⟩, false, false⟩

/-- DataSource.cpp:34-37. -/
def hasData (d : DataSource) : Bool := d.hasTrain || d.hasVal

/-- DataSource.cpp:39-42. -/
def hasTrainData (d : DataSource) : Bool := d.hasTrain

/-- DataSource.cpp:44-47. -/
def hasValidationData (d : DataSource) : Bool := d.hasVal

/-- DataSource.cpp:49-52 (for less than 2^31 columns). -/
def dataSize (d : DataSource) : Nat := d.trainData.cols

/-- DataSource.cpp:54-57. -/
def annotationCols (d : DataSource) : Nat := d.trainTruth.cols

end DataSource

/-! ## `MNISTReader` -/

/-- `c1<<24` for an `unsigned char` promoted to `int` (32 bits, two's complement). -/
def shl24 (c : Nat) : Int := if (c : Int) * 2 ^ 24 < 2 ^ 31 then (c : Int) * 2 ^ 24 else (c : Int) * 2 ^ 24 - 2 ^ 32

/-- MNISTReader.cpp:116-124 `swap_int`; the sum is an `int` and converted to `unsigned int`. -/
def swapInt (i : Nat) : Nat :=
  let c1 : Nat := i % 256
  let c2 : Nat := i / 2 ^ 8 % 256
  let c3 : Nat := i / 2 ^ 16 % 256
  let c4 : Nat := i / 2 ^ 24 % 256
  ((shl24 c1 + c2 * 2 ^ 16 + c3 * 2 ^ 8 + c4) % 2 ^ 32).toNat

/-- MNISTReader.cpp:69, 89-91: an `unsigned int` (variable `v`). -/
def readSize (u : Nat → Nat → Byte) (v : Nat) (s : IStream) : Out (IStream × Nat) := do
  let (s, b) ← s.read 4 (tab 4 (u v))
  return (s, swapInt (le b))

/-- MNISTReader.cpp:44-114 `read_Matrix`; the product in line 93 is one of `unsigned int`. -/
def readMatrix (u : Nat → Nat → Byte) (g : Nat → ℝ) (file : Option (List Byte)) (m : Mat ℝ) : Out (Bool × Mat ℝ) :=
  match file with
  | none => .ok (false, m)
  | some bytes => do
    let (s, b) ← IStream.read ⟨bytes, false⟩ 2 (tab 2 (u 0))
    if le b ≠ 0 then return (false, m)
    let (s, b) ← s.read 1 (tab 1 (u 1))
    if le b ≠ 8 then return (false, m)
    let (s, b) ← s.read 1 (tab 1 (u 2))
    if le b = 1 then do
      let (s, uiSize) ← readSize u 3 s
      let m := m.resize g uiSize 1
      let (_, p) ← s.read uiSize (tab uiSize (u 4))
      let m ← forN uiSize (fun i m => do
        let x ← rd p i
        m.setRaw i (x.val : ℝ)) m
      return (true, m)
    else if le b = 3 then do
      let (s, uiNbImages) ← readSize u 5 s
      let (s, uiNbRows) ← readSize u 6 s
      let (s, uiNbColumns) ← readSize u 7 s
      let uiSize := uiNbRows * uiNbColumns % 2 ^ 32
      let m := m.resize g uiNbImages uiSize
      let (_, _, m) ← forN uiNbImages (fun iImage (s, p, m) => do
        let (s, p) ← IStream.read s uiSize p
        check (iImage < m.rows)
        let m ← forN uiSize (fun i m => do
          let x ← rd p i
          m.setRaw (iImage * m.cols + i) (x.val : ℝ)) m
        return (s, p, m)) (s, tab uiSize (u 8), m)
      return (true, m)
    else return (false, m)

/-- MNISTReader.cpp:16-42 `load`; `fs` is the content of the files.  Every call of `read_Matrix` has its own variables. -/
noncomputable def mnistLoad (u : Nat → Nat → Nat → Byte) (g : Nat → ℝ) (fs : String → Option (List Byte)) (sName : String) (d : DataSource) :
    Out (Bool × DataSource) := do
  let (ok, m) ← readMatrix (u 0) g (fs (sName ++ "/train-images.idx3-ubyte")) d.trainData
  let d := { d with trainData := m }
  if ¬ ok then return (false, d)
  let (ok, m) ← readMatrix (u 1) g (fs (sName ++ "/train-labels.idx1-ubyte")) d.trainTruth
  let d := { d with trainTruth := m }
  if ¬ ok then return (false, d)
  let (ok, m) ← readMatrix (u 2) g (fs (sName ++ "/t10k-images.idx3-ubyte")) d.valData
  let d := { d with valData := m }
  if ¬ ok then return (false, d)
  let (ok, m) ← readMatrix (u 3) g (fs (sName ++ "/t10k-labels.idx1-ubyte")) d.valTruth
  let d := { d with valTruth := m }
  if ¬ ok then return (false, d)
  let m ← d.trainData.divScalar 256
  let d := { d with trainData := m }
  let m ← d.valData.divScalar 256
  let d := { d with valData := m }
  return (true, { d with hasTrain := true, hasVal := true })

/-! ## `CIFAR10Reader` -/

/-- CIFAR10Reader.cpp:79-105 `read_batch`, with `n` for the 10000 samples and `sz` for the 32*32*3 pixels.
The class variable is declared in the loop, so it is uninitialised in every round. -/
def readBatch (n sz : Nat) (u : Nat → Nat → Byte) (g : Nat → ℝ) (file : Option (List Byte)) (mData mTruth : Mat ℝ) : Out (Bool × Mat ℝ × Mat ℝ) :=
  match file with
  | none => .ok (false, mData, mTruth)
  | some bytes => do
    let mData := mData.resize g n sz
    let mTruth := mTruth.resize g n 1
    let (_, _, mData, mTruth) ← forN n (fun i (s, tempLine, mData, mTruth) => do
      let (s, c) ← IStream.read s 1 (tab 1 (u (i + 1)))
      let x ← rd c 0
      let mTruth ← mTruth.setI i (x.val : ℝ)
      let (s, tempLine) ← s.read sz tempLine
      let mData ← forN sz (fun j mData => do
        let x ← rd tempLine j
        mData.set i j (x.val : ℝ)) mData
      return (s, tempLine, mData, mTruth)) (⟨bytes, false⟩, tab sz (u 0), mData, mTruth)
    return (true, mData, mTruth)

/-- CIFAR10Reader.cpp:39-67: the five batches; `k` batches were read, `mImage` and `mTruth` are the local matrices. -/
def readBatches (n sz : Nat) (u : Nat → Nat → Nat → Byte) (g : Nat → ℝ) : List (Option (List Byte)) → Nat → Mat ℝ → Mat ℝ → Mat ℝ → Mat ℝ →
    Out (Bool × Mat ℝ × Mat ℝ)
  | [], _, _, _, mRefImages, mRefLabels => .ok (true, mRefImages, mRefLabels)
  | f :: fs, k, mImage, mTruth, mRefImages, mRefLabels => do
    let (ok, mImage, mTruth) ← readBatch n sz (u k) g f mImage mTruth
    if ¬ ok then return (false, mRefImages, mRefLabels)
    let mRefImages ← Mat.copyInto mImage mRefImages (k * n)
    let mRefLabels ← Mat.copyInto mTruth mRefLabels (k * n)
    readBatches n sz u g fs (k + 1) mImage mTruth mRefImages mRefLabels

/-- CIFAR10Reader.cpp:23-77 `read_from_folder` called by `load` (18-21) with the members. -/
noncomputable def readFolder (n sz : Nat) (u : Nat → Nat → Nat → Byte) (g : Nat → ℝ) (fs : String → Option (List Byte)) (sFolder : String) (d : DataSource) :
    Out (Bool × DataSource) := do
  let d := { d with trainData := d.trainData.resize g (5 * n) sz, trainTruth := d.trainTruth.resize g (5 * n) 1 }
  let (ok, a, b) ← readBatches n sz u g [fs (sFolder ++ "/data_batch_1.bin"), fs (sFolder ++ "/data_batch_2.bin"), fs (sFolder ++ "/data_batch_3.bin"),
    fs (sFolder ++ "/data_batch_4.bin"), fs (sFolder ++ "/data_batch_5.bin")] 0 ⟨0, 0, []⟩ ⟨0, 0, []⟩ d.trainData d.trainTruth
  let d := { d with trainData := a, trainTruth := b }
  if ¬ ok then return (false, d)
  let (ok, a, b) ← readBatch n sz (u 5) g (fs (sFolder ++ "/test_batch.bin")) d.valData d.valTruth
  let d := { d with valData := a, valTruth := b }
  if ¬ ok then return (false, d)
  let a ← d.trainData.divScalar 255
  let d := { d with trainData := a }
  let a ← d.valData.divScalar 255
  let d := { d with valData := a }
  return (true, d)

/-- CIFAR10Reader.cpp:18-21 `load`: 10000 samples a batch, 50000 in all, with 32*32*3 pixels. -/
noncomputable def cifarLoad (u : Nat → Nat → Nat → Byte) (g : Nat → ℝ) (fs : String → Option (List Byte)) (sFolder : String) (d : DataSource) :
    Out (Bool × DataSource) := readFolder 10000 (32 * 32 * 3) u g fs sFolder d

/-! ## `CsvFileReader` -/

/-- `s.rfind(sOld)`. -/
def rfind (s old : List Char) : Option Nat := (List.range (s.length + 1)).reverse.find? fun i => old.isPrefixOf (s.drop i)

/-- CsvFileReader.cpp:16-21 `replace_last`. -/
def replaceLast (s old new : List Char) : List Char :=
  match rfind s old with
  | some i => s.take i ++ new ++ s.drop (i + old.length)
  | none => s

/-- CsvFileReader.cpp:26-45: the four file names (train data, train truth, test data, test truth). -/
def csvNames (s : List Char) : List Char × List Char × List Char × List Char :=
  (replaceLast (replaceLast s "test".toList "train".toList) "truth".toList "data".toList,
   replaceLast (replaceLast s "test".toList "train".toList) "data".toList "truth".toList,
   replaceLast (replaceLast s "train".toList "test".toList) "truth".toList "data".toList,
   replaceLast (replaceLast s "train".toList "test".toList) "data".toList "truth".toList)

/-- CsvFileReader.cpp:51-60, the validation data. -/
noncomputable def csvVal (ps : List Char → Option ℝ) (junk : ℝ) (g : Nat → ℝ) (fs : List Char → Option (List Char))
    (sTrainData sTrainTruth sTestData sTestTruth : List Char) (d : DataSource) : Out DataSource :=
  if sTrainData ≠ sTestData ∧ sTrainTruth ≠ sTestTruth then do
    let m ← fromFile ps junk g (fs sTestData)
    let a ← d.valData.assign g m
    let m ← fromFile ps junk g (fs sTestTruth)
    let b ← d.valTruth.assign g m
    return { d with valData := a, valTruth := b }
  else return { d with valData := d.valData.resize g 0 0, valTruth := d.valTruth.resize g 0 0 }

/-- CsvFileReader.cpp:23-66 `load`; `ps` parses a number, `junk` is the uninitialised number of `fromFile`. -/
noncomputable def csvLoad (ps : List Char → Option ℝ) (junk : ℝ) (g : Nat → ℝ) (fs : List Char → Option (List Char)) (sFile : List Char) (d : DataSource) :
    Out (Bool × DataSource) := do
  let (sTrainData, sTrainTruth, sTestData, sTestTruth) := csvNames sFile
  let m ← fromFile ps junk g (fs sTrainData)
  let m ← d.trainData.assign g m
  let d := { d with trainData := m }
  let m ← fromFile ps junk g (fs sTrainTruth)
  let m ← d.trainTruth.assign g m
  let d := { d with trainTruth := m }
  let d ← csvVal ps junk g fs sTrainData sTrainTruth sTestData sTestTruth d
  let d := { d with hasTrain := decide (d.trainData.size ≠ 0 ∧ d.trainTruth.size ≠ 0), hasVal := decide (d.valData.size ≠ 0 ∧ d.valTruth.size ≠ 0) }
  return (d.hasData, d)

end BeeDNN.Data
