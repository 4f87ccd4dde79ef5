import Verif.Model.Float32
import Verif.Model.LayersBasic

/-!
# Prediction in `float` arithmetic

`Net::predict` for networks of dense, dot, bias and activation layers, for any type of scalars; the other model of
prediction (Model/Net) has real numbers as scalars.  Left out are the heap that the layer objects live on and the
training mode, which none of these layers looks at in `forward`.
-/

namespace BeeDNN

variable {α : Type}

/-- A layer with its weights and biases, or with the function of its activation. -/
inductive NumLayer (α : Type) where
  | dense (w b : Mat α)
  | dot (w : Mat α)
  | bias (b : Mat α)
  | act (f : α → α)

/-- `forward`: LayerDense.cpp:53-59, LayerDot.cpp:52-56, LayerBias.cpp:40-46 (for a layer that has its biases already),
LayerActivation.cpp:34-41. -/
def NumLayer.forward [Zero α] [Add α] [Mul α] (g : Nat → α) (s : NumLayer α) (mIn mOut : Mat α) : Out (Mat α) :=
  match s with
  | dense w b => denseForward g w b mIn mOut
  | dot w => dotForward g w mIn mOut
  | bias b => do
    let r ← biasForward g (fun _ => b) b mIn mOut
    return r.2
  | act f => activationForward g f mIn mOut

/-- Net.cpp:69-73: the loop of `predict`; `g i` is what memory contains that is allocated in round `i`. -/
def predictNum [Zero α] [Add α] [Mul α] (g : Nat → Nat → α) : Nat → List (NumLayer α) → Mat α → Mat α → Out (Mat α)
  | _, [], _, mOut => .ok mOut
  | i, s :: ss, mTemp, mOut => do
    let mOut ← s.forward (g i) mTemp mOut
    let mTemp ← mTemp.assign (g i) mOut
    predictNum g (i + 1) ss mTemp mOut

/-- Activations.cpp:835-838 `ActivationRelu::apply`. -/
noncomputable def F32.relu (x : F32) : F32 := if 0 < x then x else 0

/-- Activations.cpp:30-33 `ActivationAbsolute::apply`: `fabs`. -/
noncomputable def F32.absolute (x : F32) : F32 := if x < 0 then -x else x

/-- Activations.cpp:619-628 `ActivationHardTanh::apply`. -/
noncomputable def F32.hardTanh (x : F32) : F32 := if 1 < x then 1 else if x < -1 then -1 else x

/-- Activations.cpp:649-652 `ActivationIdentity::apply`. -/
def F32.identity (x : F32) : F32 := x

/-- Activations.cpp:885-888 `ActivationLeakyRelu::apply`; the branches are exchanged (a NaN is a NaN after both). -/
noncomputable def F32.leakyRelu (x : F32) : F32 := if x < 0 then 0.01 * x else x

end BeeDNN
