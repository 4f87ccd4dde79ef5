import Verif.Spec.Mlp

/-! # Specification: moved images -/

namespace BeeDNN

/-- The image `v'` shows what `v` shows, `a` pixels further down and `b` pixels further to the right, as far as it is still inside. -/
def Moved (R S K a b : Nat) (v v' : Row) : Prop :=
  ∀ k r c, k < K → r + a < R → c + b < S → px R S v' k (r + a) (c + b) = px R S v k r c

/-- Sizes of an image: rows, columns, channels. -/
structure ImageSize where
  rows : Nat
  cols : Nat
  channels : Nat

/-- A layer makes of images of one size images of another, where steps of `rs` rows and `cs` columns become steps of one. -/
def PlyKind.Images (i o : ImageSize) (rs cs : Nat) : PlyKind → Prop
  | conv R S K kR kC O rs' cs' => i = ⟨R, S, K⟩ ∧ o = ⟨convOutSize R kR rs, convOutSize S kC cs, O⟩ ∧ rs' = rs ∧ cs' = cs
  | avgPool R S K rf cf => i = ⟨R, S, K⟩ ∧ o = ⟨R / rf, S / cf, K⟩ ∧ rf = rs ∧ cf = cs
  | channelBias R S K => i = ⟨R, S, K⟩ ∧ o = i ∧ rs = 1 ∧ cs = 1
  | act _ => o = i ∧ rs = 1 ∧ cs = 1
  | _ => False

end BeeDNN
