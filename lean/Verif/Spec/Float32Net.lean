import Verif.Model.Float32Net
import Verif.Spec.Float32
import Verif.Spec.Mlp

/-!
# Specification: how far prediction in `float` arithmetic may be from the exact network

The exact network is an `Mlp`, with real numbers.  All bounds are computed from bounds of the layers, before any
prediction is made.
-/

namespace BeeDNN
open Finset

/-- The float function `f` is the function `a` up to `δ` for arguments up to `t`. -/
def FloatAct (t : ℝ) (f : F32 → F32) (a : ℝ → ℝ) (δ : ℝ) : Prop :=
  ∀ x, IsFloat x → |x| ≤ t → ∃ y, f (.fin x) = .fin y ∧ IsFloat y ∧ |y - a x| ≤ δ

/-- Bounds of a layer: how much it can enlarge a difference of inputs (`gain`), how far from 0 it can take inputs that are 0
(`shift`), and how inexact the function of an activation is (`slack`). -/
structure PlyBound where
  gain : ℝ
  shift : ℝ
  slack : ℝ := 0

/-- The bounds hold for a layer with `C` inputs and `C'` outputs. -/
def Ply.Within (C C' : Nat) (p : Ply) (β : PlyBound) : Prop :=
  0 ≤ β.gain ∧ 0 ≤ β.shift ∧
  match p.kind with
  | .dense => (∀ j, j < C' → ∑ k ∈ range C, |p.weight k j| ≤ β.gain) ∧ ∀ j, j < C' → |p.bias 0 j| ≤ β.shift
  | .dot => ∀ j, j < C' → ∑ k ∈ range C, |p.weight k j| ≤ β.gain
  | .bias => 1 ≤ β.gain ∧ ∀ j, j < C' → |p.bias 0 j| ≤ β.shift
  | .act a => (∀ x y, |a.apply x - a.apply y| ≤ β.gain * |x - y|) ∧ |a.apply 0| ≤ β.shift
  | _ => False

/-- The error that a layer with `C` inputs adds, if its results are at most `t` in absolute value. -/
noncomputable def Ply.rounding (C : Nat) (p : Ply) (β : PlyBound) (t : ℝ) : ℝ :=
  match p.kind with
  | .dense => (C + 1) * 2 ^ (-23 : ℤ) * t + C * 2 ^ (-149 : ℤ)
  | .dot => C * 2 ^ (-23 : ℤ) * t + C * 2 ^ (-149 : ℤ)
  | .bias => 2 ^ (-24 : ℤ) * t
  | _ => β.slack

namespace Mlp

/-- Bounds of the inputs of layer `i`, if the network gets numbers up to `X`: of the exact values, and of the error of the
float values. -/
noncomputable def bounds (m : Mlp) (β : Nat → PlyBound) (X : ℝ) : Nat → ℝ × ℝ
  | 0 => (X, 0)
  | i + 1 =>
    let (v, e) := m.bounds β X i
    ((β i).gain * v + (β i).shift,
     (β i).gain * e + (m.ply i).rounding (m.width i) (β i) ((β i).gain * (v + e) + (β i).shift))

/-- The largest float value that layer `i` can get. -/
noncomputable def reach (m : Mlp) (β : Nat → PlyBound) (X : ℝ) (i : Nat) : ℝ := (m.bounds β X i).1 + (m.bounds β X i).2

/-- How far the float results can be from the exact ones. -/
noncomputable def slip (m : Mlp) (β : Nat → PlyBound) (X : ℝ) : ℝ := (m.bounds β X m.depth).2

/-- The bounds hold for all layers, and nothing comes near the largest float, `2^128`. -/
structure Within (m : Mlp) (β : Nat → PlyBound) (X : ℝ) : Prop where
  pos : 0 ≤ X
  ply : ∀ i, i < m.depth → (m.ply i).Within (m.width i) (m.width (i + 1)) (β i)
  width : ∀ i, i < m.depth → m.width i < 2 ^ 23
  fit : ∀ i, i < m.depth → (β i).gain * m.reach β X i + (β i).shift ≤ 2 ^ 126

end Mlp

/-- A matrix of finite floats. -/
def floatMat (R C : Nat) (v : Nat → Nat → ℝ) : Mat F32 := Mat.ofFn R C (fun i j => .fin (v i j))

/-- The layer has these weights and biases, all of them floats, or a float function for its activation, which gets numbers
up to `t`. -/
def Ply.FloatIs (C C' : Nat) (p : Ply) (δ t : ℝ) (s : NumLayer F32) : Prop :=
  match s with
  | .dense w b => p.kind = .dense ∧ w = floatMat C C' p.weight ∧ b = floatMat 1 C' p.bias ∧
      (∀ k j, k < C → j < C' → IsFloat (p.weight k j)) ∧ ∀ j, j < C' → IsFloat (p.bias 0 j)
  | .dot w => p.kind = .dot ∧ w = floatMat C C' p.weight ∧ ∀ k j, k < C → j < C' → IsFloat (p.weight k j)
  | .bias b => p.kind = .bias ∧ b = floatMat 1 C' p.bias ∧ ∀ j, j < C' → IsFloat (p.bias 0 j)
  | .act f => ∃ a, p.kind = .act a ∧ FloatAct t f a.apply δ

/-- The layers in float arithmetic are those of the network. -/
def Mlp.FloatIs (m : Mlp) (β : Nat → PlyBound) (X : ℝ) (ss : List (NumLayer F32)) : Prop :=
  ss.length = m.depth ∧
  ∀ i s, ss[i]? = some s → (m.ply i).FloatIs (m.width i) (m.width (i + 1)) (β i).slack (m.reach β X i) s

/-- The layer in exact arithmetic. -/
def Ply.RealIs (C C' : Nat) (p : Ply) (s : NumLayer ℝ) : Prop :=
  match s with
  | .dense w b => p.kind = .dense ∧ w = Mat.ofFn C C' p.weight ∧ b = Mat.ofFn 1 C' p.bias
  | .dot w => p.kind = .dot ∧ w = Mat.ofFn C C' p.weight
  | .bias b => p.kind = .bias ∧ b = Mat.ofFn 1 C' p.bias
  | .act f => ∃ a, p.kind = .act a ∧ f = a.apply

end BeeDNN
