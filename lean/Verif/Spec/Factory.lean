import Verif.Model.Layer

/-!
# What the layer factory makes
-/

namespace BeeDNN.Factory

/-- The 2 by 2 pooling of images. -/
def pool2 (r c ch : Nat) : Pool :=
  { inRows := r, inCols := c, channels := ch, rowFactor := 2, colFactor := 2, outRows := r / 2, outCols := c / 2, inPlane := r * c, outPlane := (r / 2) * (c / 2) }

/-- Name, number of arguments used, and the layer for these arguments. -/
def table : List (String × Nat × (Nat → Nat → Nat → Nat → LayerKind)) := [
  ("Dense", 2, fun i o _ _ => .dense i o),
  ("Dot", 2, fun i o _ _ => .dot i o),
  ("CRelu", 0, fun _ _ _ _ => .crelu),
  ("RRelu", 0, fun _ _ _ _ => .rrelu 8 3),
  ("PRelu", 0, fun _ _ _ _ => .prelu),
  ("Gain", 0, fun _ _ _ _ => .gain),
  ("Bias", 0, fun _ _ _ _ => .bias),
  ("TimeDistributedBias", 1, fun f _ _ _ => .tdBias f),
  ("TimeDistributedDot", 2, fun f o _ _ => .tdDot f o),
  ("Affine", 0, fun _ _ _ _ => .affine),
  ("GlobalGain", 0, fun _ _ _ _ => .globalGain),
  ("GlobalAffine", 0, fun _ _ _ _ => .globalAffine),
  ("GlobalBias", 0, fun _ _ _ _ => .globalBias),
  ("ChannelBias", 3, fun r c ch _ => .channelBias r c ch),
  ("MaxPool2D", 3, fun r c ch _ => .maxPool (pool2 r c ch)),
  ("GlobalMaxPool2D", 3, fun r c ch _ => .globalMaxPool r c ch),
  ("AveragePooling2D", 3, fun r c ch _ => .avgPool (pool2 r c ch)),
  ("GlobalAveragePooling2D", 3, fun r c ch _ => .globalAvgPool r c ch),
  ("Softmax", 0, fun _ _ _ _ => .softmax),
  ("Softmin", 0, fun _ _ _ _ => .softmin),
  ("ZeroPadding2D", 4, fun r c ch b => .zeroPad r c ch b),
  ("RandFlip", 3, fun r c ch _ => .randomFlip r c ch)]

/-- The names of the table. -/
def names : List String := table.map Prod.fst

/-- An argument that stands for the size `n`: anything from `n` up to, but not including, `n + 1`. -/
def Size (x : ℝ) (n : Nat) : Prop := (n : ℝ) ≤ x ∧ x < n + 1 ∧ n < 2 ^ 31

end BeeDNN.Factory
