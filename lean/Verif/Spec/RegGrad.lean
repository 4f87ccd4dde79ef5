import Verif.Props.Regularizer

/-! # The gradient that the optimizer gets when there is a regularizer -/

namespace BeeDNN

/-- What becomes of the gradient `D` of the parameter `W` (`R × C`): the derivative of a penalty is added, or the gradient
is clipped entry by entry, or the whole of it is shortened, or it is squashed. -/
noncomputable def regGrad (r : Option Reg) (R C : Nat) (W D : Nat → Nat → ℝ) : Nat → Nat → ℝ :=
  match r with
  | none => D
  | some r => match r.kind with
    | .none => D
    | .l1 => fun i j => D i j + (if W i j < 0 then -1 else 1) * r.param
    | .l2 => fun i j => D i j + W i j * r.param
    | .l1l2 => fun i j => D i j + W i j * r.param + (if W i j < 0 then -1 else 1) * r.param
    | .gradientClip => fun i j => if r.param < D i j then r.param else if D i j < -r.param then -r.param else D i j
    | .gradientNormClip => if r.param < frobenius R C D then fun i j => D i j / frobenius R C D * r.param else D
    | .gradientClipTanh => fun i j => Real.tanh (D i j * (1 / r.param)) * r.param

/-- No division by zero in the regularizer. -/
def RegFits : Option Reg → Prop
  | none => True
  | some r => match r.kind with
    | .gradientNormClip => 0 ≤ r.param
    | .gradientClipTanh => r.param ≠ 0
    | _ => True

end BeeDNN
