import Verif.Model.Python
import Verif.Spec.LayersMisc

/-! # Specification: what a user of the Python binding asks for -/

namespace BeeDNN.Py

/-- A network made by adding layers by their names, one after the other. -/
noncomputable def build (e : Nat → Env) : Nat → List String → Handle → Out Handle
  | _, [], h => .ok h
  | i, s :: ss, h => do
    let h ← addLayer (e i) h s
    build e (i + 1) ss h

/-- The names of layers that need no sizes, with the function which a new one applies to each entry; softmax only for a single column. -/
inductive NameFn (C : Nat) : String → (ℝ → ℝ) → Prop
  | activation (s : String) (a : Activation) (hs : s ∈ availableActivations) (ha : getActivation s = some a) : NameFn C s a.apply
  | gain : NameFn C "Gain" id
  | bias : NameFn C "Bias" id
  | affine : NameFn C "Affine" id
  | globalGain : NameFn C "GlobalGain" id
  | globalBias : NameFn C "GlobalBias" id
  | globalAffine : NameFn C "GlobalAffine" id
  | prelu : NameFn C "PRelu" (preluFn 0.25)
  | rrelu : NameFn C "RRelu" (preluFn ((1 / 8 + 1 / 3) * 0.5))
  | softmax (hC : C = 1) : NameFn C "Softmax" (fun _ => 1)

/-- One function after the other. -/
def chain : List (ℝ → ℝ) → ℝ → ℝ
  | [], x => x
  | f :: fs, x => chain fs (f x)

/-- A call of `predict`: input and output buffers, number of samples, random numbers, fresh memory. -/
structure Request where
  input : List ℝ
  output : List ℝ
  nb : Nat
  e : Nat → Env
  g : Nat → ℝ

/-- Calls of `predict` one after the other; gives the contents of the output buffers. -/
noncomputable def predictAll : List Request → Handle → Out (List (List ℝ))
  | [], _ => .ok []
  | r :: rs, h => do
    let (h, out) ← predict r.e r.g h r.input r.output r.nb
    let outs ← predictAll rs h
    return out :: outs

end BeeDNN.Py
