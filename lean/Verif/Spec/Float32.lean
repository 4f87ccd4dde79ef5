import Verif.Model.Float32

/-! # Floating point numbers: what is expected of them -/

namespace BeeDNN

/-- The finite numbers of IEEE 754 binary32. -/
def IsFloat (x : ℝ) : Prop := ∃ n e : ℤ, |n| < 2 ^ 24 ∧ -149 ≤ e ∧ e ≤ 104 ∧ x = n * 2 ^ e

/-- What is needed of the library function `::expf`: it is exact at 0, does not leave `[0, 1]` on the left of 0 and
does not decrease there, and is 0 at minus infinity. -/
structure ExpFloat (ex : F32 → F32) (e : ℝ → ℝ) : Prop where
  fin : ∀ x, x ≤ 0 → ex (.fin x) = .fin (e x)
  float : ∀ x, x ≤ 0 → IsFloat (e x)
  nonneg : ∀ x, x ≤ 0 → 0 ≤ e x
  mono : ∀ x y, x ≤ y → y ≤ 0 → e x ≤ e y
  zero : e 0 = 1
  inf : ex (.inf true) = .fin 0

/-- What is needed of `::sqrtf`: the root of a finite number from 0 on is finite and not negative. -/
def SqrtFloat (sq : F32 → F32) : Prop := ∀ x, 0 ≤ x → ∃ y, sq (.fin x) = .fin y ∧ 0 ≤ y

end BeeDNN
