import Verif.Spec.Reproducible
import Verif.Lemmas.FitsLoop

/-! # Two runs: optimizers and regularizers do not read fresh memory -/

namespace BeeDNN
open Finset HasWF

theorem twin_bind {σ τ : Type} [HasWF σ] {x y : Out σ} {f f' : σ → Out τ} (h : x = y) (hx : Safe x) (hf : ∀ a, wf a → f a = f' a) :
    (x >>= f) = (y >>= f') := by
  subst h
  cases hxa : x with
  | error e => rfl
  | ok a => exact hf a (hx a hxa)

theorem Mat.assign_twin {g g' : Nat → ℝ} {m a : Mat ℝ} (hm : m.WF) (ha : a.WF) : m.assign g a = m.assign g' a := by
  rw [Mat.assign_eq g hm ha, Mat.assign_eq g' hm ha]

theorem Mat.resize_zero_twin {g g' : Nat → ℝ} {m : Mat ℝ} (hm : m.WF) : m.resize g 0 0 = m.resize g' 0 0 := by
  unfold Mat.resize
  have : m.size = 0 → m = m := fun _ => rfl
  split <;> rfl

theorem setConstantRC_twin {g g' : Nat → ℝ} {m : Mat ℝ} (hm : m.WF) (r c : Nat) (x : ℝ) : m.setConstantRC g r c x = m.setConstantRC g' r c x := by
  rw [Mat.setConstantRC_ofFn g hm, Mat.setConstantRC_ofFn g' hm]

theorem zeroIf_twin {g g' : Nat → ℝ} {c : Bool} {m dw : Mat ℝ} (hm : m.WF) : zeroIf g c m dw = zeroIf g' c m dw := by
  unfold zeroIf
  rw [setConstantRC_twin hm]

theorem copyIf_twin {g g' : Nat → ℝ} {c : Bool} {m dw : Mat ℝ} (hm : m.WF) (hd : dw.WF) : copyIf g c m dw = copyIf g' c m dw := by
  unfold copyIf
  rw [Mat.assign_twin hm hd]

theorem lerpM_twin {g g' : Nat → ℝ} {m x : Mat ℝ} {a b : ℝ} (hm : m.WF) (hx : x.WF) : lerpM g m x a b = lerpM g' m x a b := by
  unfold lerpM
  refine twin_bind rfl (by safe) fun s hs => twin_bind rfl (by safe) fun t ht => twin_bind rfl (by safe) fun u hu => ?_
  exact Mat.assign_twin hm hu

theorem rpropFirst_twin {g g' : Nat → ℝ} {o : Opt ℝ} {dw : Mat ℝ} (ho : o.WF) (hd : dw.WF) : rpropFirst g o dw = rpropFirst g' o dw := by
  unfold rpropFirst
  have : (o.v.resize g dw.rows dw.cols).setConstant 0.0125 = (o.v.resize g' dw.rows dw.cols).setConstant 0.0125 :=
    setConstantRC_twin (g := g) (g' := g') ho.1 dw.rows dw.cols 0.0125
  rw [this, Mat.assign_twin (g' := g') ho.2.1 hd]

theorem zeroIf_safe {g : Nat → ℝ} {c : Bool} {m dw : Mat ℝ} (hm : m.WF) : Safe (zeroIf g c m dw) := fun _ h => zeroIf_WF hm h
theorem copyIf_safe {g : Nat → ℝ} {c : Bool} {m dw : Mat ℝ} (hm : m.WF) : Safe (copyIf g c m dw) := fun _ h => copyIf_WF hm h
theorem lerpM_safe {g : Nat → ℝ} {m x : Mat ℝ} {a b : ℝ} (hm : m.WF) : Safe (lerpM g m x a b) := fun _ h => lerpM_WF hm h
theorem ratio_safe {sq : ℝ → ℝ} {m r : Mat ℝ} {f : ℝ} (hm : m.WF) : Safe (ratio sq m r f) := by
  unfold ratio Mat.cwiseQuotient
  refine Safe.bind_any fun s => Safe.bind_any fun s => Safe.bind (Mat.cwise2_safe hm) fun q hq => Mat.scale_safe hq
theorem cwiseSign_safe {m : Mat ℝ} (hm : m.WF) : Safe m.cwiseSign := Mat.cwise_safe hm
theorem cwiseAbs2_safe {m : Mat ℝ} (hm : m.WF) : Safe m.cwiseAbs2 := Mat.cwise_safe hm
theorem cwiseMaxS_safe {m : Mat ℝ} {b : ℝ} (hm : m.WF) : Safe (m.cwiseMaxS b) := Mat.cwise_safe hm
theorem cwiseMaxM_safe {m a : Mat ℝ} (hm : m.WF) : Safe (m.cwiseMaxM a) := Mat.cwise2_safe hm
theorem cwiseQuotient_safe {m a : Mat ℝ} (hm : m.WF) : Safe (m.cwiseQuotient a) := Mat.cwise2_safe hm
theorem rpropFirst_safe {g : Nat → ℝ} {o : Opt ℝ} {dw : Mat ℝ} (ho : o.WF) : Safe (rpropFirst g o dw) := fun _ h => rpropFirst_WF ho h

macro "twin_safe" : tactic => `(tactic| first
  | exact Safe.triv _
  | exact zeroIf_safe (by assumption) | exact copyIf_safe (by assumption) | exact lerpM_safe (by assumption) | exact ratio_safe (by assumption)
  | exact cwiseSign_safe (by assumption) | exact cwiseAbs2_safe (by assumption) | exact cwiseMaxS_safe (by assumption)
  | exact cwiseMaxM_safe (by assumption) | exact cwiseQuotient_safe (by assumption) | exact Mat.cwise_safe (by assumption)
  | exact Mat.scale_safe (by assumption) | exact Mat.sub_safe (by assumption) | exact Mat.add_safe (by assumption) | exact Mat.neg_safe (by assumption)
  | exact Mat.divScalar_safe (by assumption) | exact Mat.assign_safe (by assumption))

macro "twin_eq" : tactic => `(tactic| first
  | with_reducible rfl
  | exact zeroIf_twin (by assumption)
  | exact copyIf_twin (by assumption) (by assumption)
  | exact lerpM_twin (by assumption) (by assumption)
  | exact Mat.assign_twin (by assumption) (by assumption))

macro "twin_run" : tactic => `(tactic| repeat (first
  | with_reducible rfl
  | (refine twin_bind (by twin_eq) (by twin_safe) fun _ _ => ?_)))

/-- What an optimizer computes does not depend on fresh memory. -/
theorem Opt.optimize_twin {g g' : Nat → ℝ} {sq ab : ℝ → ℝ} {o : Opt ℝ} {w dw : Mat ℝ} (ho : o.WF) (hw : w.WF) (hd : dw.WF) :
    o.optimize g sq ab w dw = o.optimize g' sq ab w dw := by
  obtain ⟨kind, lr, mom, decay, beta1, beta2, lambda, p1, p2, v, m, vh⟩ := o
  have ho' := ho
  obtain ⟨wv, wm, wvh⟩ := ho'
  dsimp only at wv wm wvh
  cases kind
  case rpropm =>
    simp only [Opt.optimize]
    refine twin_bind rfl (Safe.triv _) fun _ _ => twin_bind rfl (Safe.triv _) fun _ _ =>
      twin_bind (rpropFirst_twin ho hd) (rpropFirst_safe ho) fun st hst => twin_bind rfl ?_ fun _ _ => ?_
    · safe
      all_goals first | exact hst.1 | exact hw | skip
    · rw [Mat.assign_twin (g' := g') hst.2 hd]
  case irpropm =>
    simp only [Opt.optimize]
    refine twin_bind rfl (Safe.triv _) fun _ _ => twin_bind rfl (Safe.triv _) fun _ _ =>
      twin_bind (rpropFirst_twin ho hd) (rpropFirst_safe ho) fun st hst => rfl
  all_goals
    simp only [Opt.optimize]
    twin_run

theorem normClip_twin {g g' : Nat → ℝ} {p n : ℝ} {dw : Mat ℝ} (hd : dw.WF) : normClip g p n dw = normClip g' p n dw := by
  unfold normClip
  split
  · twin_run
    exact Mat.assign_twin (by assumption) (by assumption)
  · rfl

/-- Nor does what a regularizer computes. -/
theorem Reg.apply_twin {g g' : Nat → ℝ} {r : Reg} {W D : Mat ℝ} {R C : Nat} (hW : W.Shape R C) (hD : D.Shape R C) :
    r.apply g W D = r.apply g' W D := by
  have hd := hD.1
  obtain ⟨w, rfl⟩ := hW.exists_ofFn
  obtain ⟨d, rfl⟩ := hD.exists_ofFn
  obtain ⟨k, p⟩ := r
  cases k
  case none => rfl
  case l1 => exact (reg_l1 ..).trans (reg_l1 ..).symm
  case l2 => exact (reg_l2 ..).trans (reg_l2 ..).symm
  case l1l2 => exact (reg_l1l2 ..).trans (reg_l1l2 ..).symm
  case gradientClip => rfl
  case gradientNormClip =>
    simp only [Reg.apply]
    refine twin_bind rfl (Safe.triv _) fun _ _ => ?_
    rw [normClip_twin (g' := g') hd]
  case gradientClipTanh =>
    simp only [Reg.apply, Mat.scale_ofFn, Mat.cwise_ofFn, bind_ok', Mat.assign_ofFn g (Mat.ofFn_WF _ _ _), Mat.assign_ofFn g' (Mat.ofFn_WF _ _ _), pure_ok]

theorem Opt.init_twin {g g' : Nat → ℝ} {o : Opt ℝ} (ho : o.WF) : o.init g = o.init g' := by
  obtain ⟨kind, lr, mom, decay, beta1, beta2, lambda, p1, p2, v, m, vh⟩ := o
  obtain ⟨wv, wm, wvh⟩ := ho
  unfold Opt.init
  dsimp only at wv wm ⊢
  rw [Mat.resize_zero_twin (g' := g') wv, Mat.resize_zero_twin (g' := g') wm]

end BeeDNN
