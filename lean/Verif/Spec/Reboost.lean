import Verif.Spec.RegTrain

/-! # Specification: training in rounds -/

namespace BeeDNN

namespace Mlp

/-- A training of `E` epochs in rounds of `P` epochs: every round, the last one possibly cut short, is a training by itself, from
the network that the round before has left, and with an optimizer that remembers nothing of the rounds before. -/
structure Rounds (P : Nat) (r : Option Reg) (ok : Mlp → Row → Row → Prop) (loss : String) (kind : OptKind) (h : Hyper ℝ) (N B E : Nat) (x y : Nat → Row)
    (m : Mlp) (ms : Nat → Nat → Mlp) : Prop where
  first : ms 0 0 = m
  round : ∀ c, c * P ≤ E → RegTraining r ok loss kind h N B (min P (E - c * P)) x y (ms (c * P) 0) (fun i j => ms (c * P + i) j)

end Mlp

end BeeDNN
