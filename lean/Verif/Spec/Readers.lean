import Verif.Model.Readers

/-! # Specification: file formats -/

namespace BeeDNN.Data

/-- A number in four bytes, most significant first. -/
def be32 (n : Nat) : List Byte := [Fin.ofNat 256 (n / 2 ^ 24), Fin.ofNat 256 (n / 2 ^ 16), Fin.ofNat 256 (n / 2 ^ 8), Fin.ofNat 256 n]

/-- The IDX format for `n` labels. -/
def idxLabels (n : Nat) (body : List Byte) : List Byte := [0, 0, 8, 1] ++ be32 n ++ body

/-- The IDX format for `n` images with `r` rows and `c` columns. -/
def idxImages (n r c : Nat) (body : List Byte) : List Byte := [0, 0, 8, 3] ++ be32 n ++ be32 r ++ be32 c ++ body

/-- The value of byte `i`. -/
def byteAt (l : List Byte) (i : Nat) : ℝ := ((l.getD i 0).val : ℝ)

/-- What the image buffer (of `s` bytes, at first `b`) holds at place `j` after `k` images were read from `body`:
a byte beyond the end of the file leaves what was there. -/
def imageBuffer (body : List Byte) (s : Nat) (b : Nat → Byte) : Nat → Nat → Byte
  | 0, j => b j
  | k + 1, j => if k * s + j < body.length then body.getD (k * s + j) 0 else imageBuffer body s b k j

/-- What the line buffer holds at place `j` after `k` records (a label and `s` pixels) were read from `bytes`. -/
def lineBuffer (bytes : List Byte) (s : Nat) (b : Nat → Byte) : Nat → Nat → Byte
  | 0, j => b j
  | k + 1, j => if k * (s + 1) + 1 + j < bytes.length then bytes.getD (k * (s + 1) + 1 + j) 0 else lineBuffer bytes s b k j

/-- The places at which a word occurs. -/
def occ (w s : List Char) : List Nat := (List.range (s.length + 1)).filter fun i => w.isPrefixOf (s.drop i)

/-- In the name `p x q y r` the words `x` and `y` do not occur later than there, and their counterparts `x'` and `y'` nowhere. -/
def PlainName (p q r x x' y y' : List Char) : Prop :=
  let s := p ++ x ++ q ++ y ++ r
  (∀ i ∈ occ x s, i ≤ p.length) ∧ occ x' s = [] ∧ (∀ i ∈ occ y s, i ≤ (p ++ x ++ q).length) ∧ occ y' s = []

instance (p q r x x' y y' : List Char) : Decidable (PlainName p q r x x' y y') := by unfold PlainName; infer_instance

/-- All four names made from `p`, `q`, `r` are plain. -/
def PlainNames (p q r : List Char) : Prop :=
  PlainName p q r "train".toList "test".toList "data".toList "truth".toList ∧ PlainName p q r "train".toList "test".toList "truth".toList "data".toList ∧
  PlainName p q r "test".toList "train".toList "data".toList "truth".toList ∧ PlainName p q r "test".toList "train".toList "truth".toList "data".toList

instance (p q r : List Char) : Decidable (PlainNames p q r) := by unfold PlainNames; infer_instance

end BeeDNN.Data
