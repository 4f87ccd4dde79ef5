import Verif.Spec.Mlp

/-! # Specification: networks with the same parameters -/

namespace BeeDNN

/-- The same layers with the same weights and biases. -/
structure Mlp.Same (m m' : Mlp) : Prop where
  like : Mlp.Like m m'
  par : ∀ i, i < m.depth → ∀ b, (m.ply i).has b = true → ∀ k j, k < (m.shape b i).1 → j < (m.shape b i).2 → (m'.ply i).par b k j = (m.ply i).par b k j

end BeeDNN
