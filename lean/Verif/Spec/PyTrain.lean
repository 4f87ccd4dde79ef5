import Verif.Model.PyTrain
import Verif.Spec.PyLib
import Verif.Spec.Train

/-! # Specification: training with the Python library -/

namespace BeeDNN

/-- The factor between the gradient that the Python library computes for biases (`b = true`) or weights and the true one, for a batch of `N` samples. -/
noncomputable def PlyKind.pyRate (b : Bool) (N : Nat) : PlyKind → ℝ
  | tdBias T _ => 1 / (T : ℝ)
  | tdDot .. => (N : ℝ)
  | tdDense T _ _ => if b then 1 / (T : ℝ) else (N : ℝ)
  | _ => 1

/-- The name in the C++ library of the loss that a loss of the Python library descends. -/
def pyLossName (s : String) : String :=
  match s with
  | "MSE" => "L2"
  | "MAE" => "MeanAbsoluteError"
  | "CrossEntropy" => "CategoricalCrossEntropy"
  | s => s

/-- The losses of the Python library. -/
def pyLosses : List String := ["MSE", "MAE", "LogCosh", "SparseCategoricalCrossEntropy", "CrossEntropy", "BinaryCrossEntropy"]

/-- The layers that are trained as they should be: all but the layers with a single gain or bias, noise, dropout and Logit. -/
def PyLayer.Learns (l : PyLayer) : Prop :=
  match l.kind with
  | .act a => ∃ s, (s, a) ∈ PyAct.table ∧ s ≠ "Logit"
  | .identity => l.dydx = none
  | .globalBias | .globalGain | .noise | .dropout _ => False
  | _ => True

/-- What training relies on, of the model and its arrays: layers are in training mode, the batch is in an array of its own, and behind Exponential there is no
layer that keeps the array it is given. -/
structure PyReady (ls : List PyLayer) (x : Nat) : Prop where
  training : ∀ l ∈ ls, l.training = true
  learns : ∀ l ∈ ls, l.Learns
  apart : ∀ l ∈ ls, x ∉ l.params
  exp : ∀ i l l', ls[i]? = some l → l.kind = .exponential → ls[i + 1]? = some l' → l'.keeps = false

end BeeDNN
