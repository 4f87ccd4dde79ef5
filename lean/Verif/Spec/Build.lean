import Verif.Spec.Mlp
import Verif.Spec.Trainable
import Verif.Model.Samples

/-! # Specification: networks that a program builds layer by layer -/

namespace BeeDNN

/-- How a program makes a layer of this kind with `C` inputs and `C'` outputs: `new` with the arguments, in the order of the header files. -/
noncomputable def PlyKind.construct (e : Env) (C C' : Nat) (wInit bInit : String) : PlyKind → Out Layer
  | dense => Layer.newDense e C C' wInit bInit
  | dot => Layer.newDot e C C' wInit
  | bias => Layer.newBias e bInit
  | act a => Layer.newActivation a.name
  | channelBias R S K => Layer.newChannelBias e R S K bInit
  | conv R S K kR kC O rs cs => Layer.newConv e R S K kR kC O rs cs
  | avgPool R S K rf cf => Layer.newAvgPool R S K rf cf
  | globalAvgPool R S K => Layer.newGlobalAvgPool R S K
  | zeroPad R S K b => Layer.newZeroPad R S K b
  | crelu => Layer.newCRelu e
  | gated a₁ a₂ => Layer.newGated a₁.name a₂.name
  | tdBias _ F => Layer.newTDBias e F bInit
  | tdDot _ F O => Layer.newTDDot e F O wInit
  | tdDense _ F O => Layer.newTDDense e F O wInit bInit
  | softmax => Layer.newSoftmax

/-- `model.add(new …)` for each of the layers. -/
def World.addAll (n : Nat) : List (Out Layer) → World → Out World
  | [], w => .ok w
  | l :: ls, w => do
    let w ← Samples.addNew n l w
    World.addAll n ls w

end BeeDNN
