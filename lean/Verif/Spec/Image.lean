import Verif.Spec.Matrix
import Verif.Spec.Gradient

/-! # Specification vocabulary for batches of images -/

namespace BeeDNN

/-- Batch of `N` samples, each one row of the matrix: `K` planes (channels) of `R × C` pixels one after
the other, each plane row by row.  `v s k r c` is pixel `(r,c)` of channel `k` of sample `s`.  Every
well-formed matrix of that size is of this form (`exists_imgMat`). -/
def imgMat {α : Type} (N K R C : Nat) (v : Nat → Nat → Nat → Nat → α) : Mat α :=
  Mat.ofFn N (R * C * K) (fun s j => v s (j / (R * C)) (j % (R * C) / C) (j % (R * C) % C))

/-- Scalar product of two batches of images: the sum over all pixels of the products. -/
def dotI (N K R C : Nat) (a b : Nat → Nat → Nat → Nat → ℝ) : ℝ :=
  ∑ s ∈ Finset.range N, ∑ k ∈ Finset.range K, ∑ r ∈ Finset.range R, ∑ c ∈ Finset.range C,
    a s k r c * b s k r c

end BeeDNN
