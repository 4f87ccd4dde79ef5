import Verif.Spec.RegGrad

/-! # Regularizers, all at once -/

namespace BeeDNN

theorem regGrad_none (R C : Nat) (W D : Nat → Nat → ℝ) : regGrad none R C W D = D := rfl

theorem Reg.apply_ofFn (g : Nat → ℝ) (r : Reg) (R C : Nat) (W D : Nat → Nat → ℝ) :
    r.apply g (Mat.ofFn R C W) (Mat.ofFn R C D) = .ok (Mat.ofFn R C W, Mat.ofFn R C (regGrad (some r) R C W D)) := by
  obtain ⟨k, p⟩ := r
  cases k
  · rfl
  · exact reg_l1 g p R C W D
  · exact reg_l2 g p R C W D
  · exact reg_l1l2 g p R C W D
  · simp only [Reg.apply, Mat.ofFn_eq_flat, Mat.clamp_flat, bind_ok', pure_ok]
    rfl
  · have hrun : Reg.apply g ⟨.gradientNormClip, p⟩ (Mat.ofFn R C W) (Mat.ofFn R C D) =
        (normClip g p (frobenius R C D) (Mat.ofFn R C D)).bind (fun dw => .ok (Mat.ofFn R C W, dw)) := by
      simp only [Reg.apply, Mat.squaredNorm_ofFn, bind_ok', pure_ok]
      rfl
    rw [hrun]
    unfold normClip regGrad
    dsimp only
    split
    · simp only [Mat.divScalar_ofFn', Mat.scale_ofFn, bind_ok', Mat.assign_ofFn g (Mat.ofFn_WF _ _ _), bind_ok]
    · rfl
  · simp only [Reg.apply, Mat.scale_ofFn, Mat.cwise_ofFn, bind_ok', Mat.assign_ofFn g (Mat.ofFn_WF _ _ _), pure_ok]
    rfl

end BeeDNN
