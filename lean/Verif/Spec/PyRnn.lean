import Verif.Model.PyRnn

/-! # Specification: the recurrent layer of the Python library -/

namespace BeeDNN
open Finset

/-- State of a recurrent network with frames of `F` numbers and weights `W` after frame `n` of the sequence `x`: `h_n = tanh(x_n + h_{n-1} W)`, from `h_{-1} = 0`. -/
noncomputable def rnnState (F : Nat) (W : Nat → Nat → ℝ) (x : Nat → ℝ) : Nat → Nat → ℝ
  | 0, j => Real.tanh (x j)
  | n + 1, j => Real.tanh (x ((n + 1) * F + j) + ∑ k ∈ range F, rnnState F W x n k * W k j)

/-- `n` rounds of training: forward with `X t`, back-propagation of a gradient that depends on the output, and the optimizer. -/
noncomputable def PyRnn.train (X : Nat → NpArr) (G : Nat → NpArr → NpArr) (n : Nat) (l : PyRnn) (st : NpStore) : Out (PyRnn × NpStore) :=
  forN n (fun t s => do
    let (y, l) ← s.1.forward (X t) s.2
    let (_, l) ← l.backward (G t y) s.2
    l.optimize s.2) (l, st)

end BeeDNN
