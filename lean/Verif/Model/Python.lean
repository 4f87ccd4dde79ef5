import Verif.Model.Net
import Verif.Model.Factory

/-!
# Model of `python_binding/BeeDNNLib.cpp`

The functions that the shared library offers to Python.  Buffers passed by the caller are lists; sizes are not negative.  Saving (lines 57-60)
is `NetUtil::save`, which is modelled in `Model/NetSave.lean`.  The Python side (`BeeDNNLoader.py`) only converts arguments and is not modelled.
-/

namespace BeeDNN.Py

/-- BeeDNNLib.cpp:8-29: the network is number 0 of the world; the trainer is used for saving only and is left out. -/
structure Handle where
  w : World
  inputSize : Nat

/-- BeeDNNLib.cpp:31-34 `create`. -/
def create (inputSize : Nat) : Handle := { w := { heap := [], nets := fun _ => {} }, inputSize }

/-- BeeDNNLib.cpp:36-39 `set_classification_mode`. -/
def setClassif (h : Handle) (mode : Int) : Handle := { h with w := h.w.setNet 0 { h.w.nets 0 with classif := mode != 0 } }

/-- BeeDNNLib.cpp:41-45 `add_layer`: all arguments of the layer are 0, the default of LayerFactory.h. -/
noncomputable def addLayer (e : Env) (h : Handle) (name : String) : Out Handle := do
  let l ← Factory.create e name 0 0 0 0 0
  return { h with w := (h.w.alloc l).add 0 h.w.heap.length }

/-- BeeDNNLib.cpp:49, Matrix.cpp:24-31: a matrix on the memory of the caller.  It is copied in Net.cpp:67, so that all of it is read. -/
def fromBuffer (buf : List ℝ) (r c : Nat) : Out (Mat ℝ) :=
  if r * c ≤ buf.length then .ok ⟨r, c, buf.take (r * c)⟩ else .error .outOfBounds

/-- BeeDNNLib.cpp:47-55 `predict`; `pOut` is the output buffer, `g` the contents of fresh memory. -/
noncomputable def predict (e : Nat → Env) (g : Nat → ℝ) (h : Handle) (pIn pOut : List ℝ) (nbSamples : Nat) : Out (Handle × List ℝ) := do
  let mIn ← fromBuffer pIn nbSamples h.inputSize
  let (w, mOut) ← h.w.predict e 0 mIn (Mat.alloc g nbSamples 1)
  let out ← forN nbSamples (fun i b => do
    let x ← mOut.getI i
    wr b i x) pOut
  return ({ h with w := w }, out)

end BeeDNN.Py
