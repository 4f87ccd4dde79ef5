import Verif.Model.PyOptimizer
import Verif.Spec.Optimizer

/-! # Optimizers of the Python library: runs, and the class of the C++ library with the same name -/

namespace BeeDNN

/-- `n` calls `w = o.optimize(w, D[t])`. -/
noncomputable def PyOpt.run (o : PyOpt) (w : Nat) (D : Nat → NpArr) (n : Nat) (h : NpStore) : Out (PyOpt × Nat × NpStore) :=
  forN n (fun t (s : PyOpt × Nat × NpStore) => s.1.optimize s.2.1 (D t) s.2.2) (o, w, h)

/-- The class of the C++ library. -/
def PyOptKind.cpp : PyOptKind → OptKind
  | .step => .step
  | .sgd => .sgd
  | .momentum => .momentum
  | .momentumNg => .momentumNg
  | .nesterov => .nesterov
  | .rpropm => .rpropm
  | .adam => .adam
  | .adamW => .adamW
  | .adamax => .adamax
  | .nadam => .nadam
  | .amsgrad => .amsgrad

/-- The settings of the object. -/
def PyOpt.hyper (o : PyOpt) : Hyper ℝ := ⟨o.lr, o.momentum, 0, o.beta1, o.beta2, o.lambda⟩

/-- A parameter after `n` updates of the C++ rule with the settings of `o`. -/
noncomputable def PyOpt.cppWeight (o : PyOpt) (w : ℝ) (d : Nat → ℝ) (n : Nat) : ℝ :=
  (Coord.run Real.sqrt (|·|) o.hyper o.kind.cpp w d n).w

/-- After `n` calls of `optimize`, started with a matrix `w` in the array `r`, the array returned has the entries `W n (w i j) (D · i j)`.  It is the array
`r` if the class works in place; all other arrays are as before. -/
def PyOpt.Gives (o : PyOpt) (W : Nat → ℝ → (Nat → ℝ) → ℝ) : Prop :=
  ∀ (R C : Nat) (w : Nat → Nat → ℝ) (D : Nat → Nat → Nat → ℝ) (n r : Nat) (h : NpStore), h[r]? = some ⟨R, C, w⟩ →
    ∃ o' r' h', o.run r (fun t => ⟨R, C, D t⟩) n h = .ok (o', r', h') ∧
      h'[r']? = some ⟨R, C, fun i j => W n (w i j) (fun t => D t i j)⟩ ∧
      (o.kind.inPlace = true → r' = r) ∧ ∀ q, q < h.length → o.kind.inPlace = false ∨ q ≠ r → h'[q]? = h[q]?

end BeeDNN
