import Verif.Model.Layer
import Mathlib.Algebra.Order.Floor.Semiring
import Mathlib.Algebra.Order.Archimedean.Real.Basic

/-!
# Model of `src/LayerFactory.cpp`
-/

namespace BeeDNN.Factory
open Layer

/-- `(Index)f`: truncation towards zero; undefined when the value does not fit into 64 bits.  A negative size is not represented in the
model of the layers and is an error too. -/
noncomputable def castIndex (x : ℝ) : Out Nat := if -1 < x ∧ x < 2 ^ 63 then .ok ⌊x⌋₊ else .error .badCast

/-- The conversion of such a value to an `int` parameter (LayerTimeDistributedBias.h:17, LayerTimeDistributedDot.h:16) keeps the lower 32 bits. -/
noncomputable def castInt (x : ℝ) : Out Nat := do
  let n ← castIndex x
  if n % 2 ^ 32 < 2 ^ 31 then return n % 2 ^ 32 else .error .badCast

/-- LayerFactory.cpp:42-115 `create` with the default arguments of the constructors. -/
noncomputable def create (e : Env) (s : String) (a1 a2 a3 a4 _a5 : ℝ) : Out Layer :=
  if s = "Dense" then do newDense e (← castIndex a1) (← castIndex a2) "GlorotUniform" "Zeros"
  else if s = "Dot" then do newDot e (← castIndex a1) (← castIndex a2) "GlorotUniform"
  else if s = "CRelu" then newCRelu e
  else if s = "RRelu" then newRRelu 8 3
  else if s = "PRelu" then newPRelu e
  else if s = "Gain" then newGain e
  else if s = "Bias" then newBias e "Zeros"
  else if s = "TimeDistributedBias" then do newTDBias e (← castInt a1) "Zeros"
  else if s = "TimeDistributedDot" then do newTDDot e (← castInt a1) (← castInt a2) "GlorotUniform"
  else if s = "Affine" then newAffine e
  else if s = "GlobalGain" then newGlobalGain e
  else if s = "GlobalAffine" then newGlobalAffine e
  else if s = "GlobalBias" then newGlobalBias e
  else if s = "ChannelBias" then do newChannelBias e (← castIndex a1) (← castIndex a2) (← castIndex a3) "Zeros"
  else if s = "MaxPool2D" then do newMaxPool (← castIndex a1) (← castIndex a2) (← castIndex a3) 2 2
  else if s = "GlobalMaxPool2D" then do newGlobalMaxPool (← castIndex a1) (← castIndex a2) (← castIndex a3)
  else if s = "AveragePooling2D" then do newAvgPool (← castIndex a1) (← castIndex a2) (← castIndex a3) 2 2
  else if s = "GlobalAveragePooling2D" then do newGlobalAvgPool (← castIndex a1) (← castIndex a2) (← castIndex a3)
  else if s = "Softmax" then newSoftmax
  else if s = "Softmin" then newSoftmin
  else if s = "ZeroPadding2D" then do newZeroPad (← castIndex a1) (← castIndex a2) (← castIndex a3) (← castIndex a4)
  else if s = "RandFlip" then do newRandomFlip (← castIndex a1) (← castIndex a2) (← castIndex a3)
  else newActivation s

end BeeDNN.Factory
