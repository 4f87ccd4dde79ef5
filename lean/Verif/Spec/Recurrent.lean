import Verif.Model.Core

/-! # Specification vocabulary for the recurrent layers -/

namespace BeeDNN

/-- Hidden state after `t` frames, from the state `h0`: `h(t+1) = act (h(t) W + u(t))`, where `u t` is the
contribution of frame `t`; sums run over the `U` units, left to right. -/
def hidden {α : Type} [Zero α] [Add α] [Mul α] (act : α → α) (U : Nat) (W : Nat → Nat → α) (u : Nat → Nat → Nat → α)
    (h0 : Nat → Nat → α) : Nat → Nat → Nat → α
  | 0 => h0
  | t + 1 => fun s j => act (accN U (fun k => hidden act U W u h0 t s k * W k j) + u t s j)

end BeeDNN
