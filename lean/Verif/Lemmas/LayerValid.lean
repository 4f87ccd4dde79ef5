import Verif.Lemmas.SafeLayers

/-! # `forward` and `backpropagation` keep layer objects valid -/

namespace BeeDNN
open HasWF

/-- What the two functions leave unchanged. -/
structure Layer.Keep (l p : Layer) : Prop where
  valid : p.Valid
  kind : p.kind = l.kind
  train : p.train = l.train
  first : p.first = l.first
  bInit : p.bInit = l.bInit

theorem Layer.Keep.refl {l : Layer} (hv : l.Valid) : l.Keep l := ⟨hv, rfl, rfl, rfl, rfl⟩

/-- Result of `forward` and `backpropagation`. -/
def Layer.SafeTo (l : Layer) (x : Out (Layer × Mat ℝ)) : Prop := ∀ r, x = .ok r → l.Keep r.1 ∧ r.2.WF

theorem Layer.SafeTo.bind {l : Layer} {σ : Type} [HasWF σ] {x : Out σ} {f : σ → Out (Layer × Mat ℝ)} (hx : Safe x)
    (hf : ∀ a, wf a → l.SafeTo (f a)) : l.SafeTo (x >>= f) := by
  intro b hb
  obtain ⟨a, ha, hb⟩ := ok_bind hb
  exact hf a (hx a ha) b hb

theorem Layer.SafeTo.pure {l p : Layer} {o : Mat ℝ} (h : l.Keep p) (ho : o.WF) : l.SafeTo (pure (p, o)) := by
  intro b hb
  injection hb with hb
  subst hb
  exact ⟨h, ho⟩

theorem Layer.SafeTo.same {l : Layer} (hv : l.Valid) {x : Out (Mat ℝ)} (hx : Safe x) :
    l.SafeTo (x >>= fun o => Pure.pure (l, o)) := bind hx fun _ ho => pure (.refl hv) ho

/-- The layer is rebuilt with new members; `hk` is the class. -/
macro "valid_upd" hv:ident hk:ident : tactic => `(tactic| (
  refine ⟨?_, by first | rfl | exact $(hk).symm, rfl, rfl, rfl⟩
  constructor <;> first
    | exact ($hv).weight | exact ($hv).gradWeight | exact ($hv).bias | exact ($hv).gradBias | exact ($hv).maxIndex
    | exact ($hv).mask | exact ($hv).im2colT | exact ($hv).tempImg | exact ($hv).whh | exact ($hv).wxh | exact ($hv).bh
    | exact ($hv).h | exact ($hv).saved | exact ($hv).noWeight | exact ($hv).noBias | exact ($hv).noRec | exact ($hv).made
    | assumption
    | (intro h; simp [$hk:ident, LayerKind.usesWeight, LayerKind.usesBias, LayerKind.usesRec] at h)))

theorem Layer.gatedFwd_safe {e : Env} {a1 a2 : Option Activation} {mIn mOut : Mat ℝ} (hi : mIn.WF) (ho : mOut.WF) :
    Safe (gatedFwd e a1 a2 mIn mOut) := by
  unfold gatedFwd
  refine Safe.bind_any fun _ => ?_
  split
  · exact gatedForward_safe hi ho
  · exact Safe.bind_any fun _ => gatedForward_safe hi ho

theorem Layer.gatedBwd_safe {e : Env} {first : Bool} {a1 a2 : Option Activation} {mIn gOut gIn : Mat ℝ} (hi : mIn.WF)
    (ho : gOut.WF) (hg : gIn.WF) : Safe (gatedBwd e first a1 a2 mIn gOut gIn) := by
  unfold gatedBwd
  split
  · exact Safe.ok hg
  · split
    · exact gatedBackward_safe hi ho hg
    · exact Safe.bind_any fun _ => gatedBackward_safe hi ho hg

theorem Layer.lazyBias_safe {e : Env} {l : Layer} {c : Nat} (hv : l.Valid) : Safe (lazyBias e l c) := by
  unfold lazyBias
  split
  · obtain ⟨b, hb, wb⟩ := initCompute_WF e.g e.draw l.bInit hv.bias 1 c
    rw [hb]; exact Safe.ok wb
  · exact Safe.ok hv.bias

set_option maxHeartbeats 1000000 in
theorem Layer.forward_safe (e : Env) {l : Layer} (hv : l.Valid) {mIn mOut : Mat ℝ} (hi : mIn.WF) (ho : mOut.WF) :
    l.SafeTo (l.forward e mIn mOut) := by
  unfold Layer.forward
  split
  case h_1 => exact SafeTo.same hv (denseForward_safe hv.weight hv.bias hi ho)
  case h_2 => exact SafeTo.same hv (dotForward_safe hv.weight hi ho)
  case h_3 hk =>
    refine SafeTo.bind (lazyBias_safe hv) fun b hb => SafeTo.bind (biasForward_safe (fun _ => hb) hb hi ho) ?_
    rintro ⟨b, o⟩ ⟨k1, k2⟩
    change Mat.WF _ at k1
    exact SafeTo.pure (by valid_upd hv hk) k2
  case h_4 hk =>
    refine SafeTo.bind (gainForward_safe hv.weight hi ho) ?_
    rintro ⟨b, o⟩ ⟨k1, k2⟩
    change Mat.WF _ at k1
    exact SafeTo.pure (by valid_upd hv hk) k2
  case h_5 hk =>
    refine SafeTo.bind (affineForward_safe hv.weight hv.bias hi ho) ?_
    rintro ⟨w, b, o⟩ ⟨k1, k2, k3⟩
    change Mat.WF _ at k1
    change Mat.WF _ at k2
    exact SafeTo.pure (by valid_upd hv hk) k3
  case h_6 => exact SafeTo.same hv (globalBiasForward_safe hv.bias hi ho)
  case h_7 => exact SafeTo.same hv (globalGainForward_safe hv.weight hi ho)
  case h_8 => exact SafeTo.same hv (globalAffineForward_safe hv.weight hv.bias hi ho)
  case h_9 => exact SafeTo.same hv (channelBiasForward_safe hv.bias hi ho)
  case h_10 => exact SafeTo.same hv (activationForward_safe hi ho)
  case h_11 => exact SafeTo.same hv (softmaxForward_safe hi ho)
  case h_12 => exact SafeTo.same hv (softminForward_safe hi ho)
  case h_13 hk =>
    refine SafeTo.bind (maxPoolForward_safe hi ho hv.maxIndex) ?_
    rintro ⟨o, x⟩ ⟨k1, k2⟩
    change Mat.WF _ at k2
    exact SafeTo.pure (by valid_upd hv hk) k1
  case h_14 hk =>
    refine SafeTo.bind (globalMaxPoolForward_safe hi ho hv.maxIndex) ?_
    rintro ⟨o, x⟩ ⟨k1, k2⟩
    change Mat.WF _ at k2
    exact SafeTo.pure (by valid_upd hv hk) k1
  case h_15 => exact SafeTo.same hv (avgPoolForward_safe hi ho)
  case h_16 => exact SafeTo.same hv (globalAvgPoolForward_safe hi ho)
  case h_17 => exact SafeTo.same hv (zeroPadForward_safe hi ho)
  case h_18 hk =>
    refine SafeTo.bind (convForward_safe (st := ⟨_, _, _, _, _⟩) ⟨hv.im2colT, hv.tempImg, hv.weight, hv.gradWeight⟩ hi ho) ?_
    rintro ⟨st, o⟩ ⟨⟨k1, k2, k3, k4⟩, k5⟩
    exact SafeTo.pure (by valid_upd hv hk) k5
  case h_19 hk =>
    refine SafeTo.bind (dropoutForward_safe hv.mask hi ho) ?_
    rintro ⟨b, o⟩ ⟨k1, k2⟩
    change Mat.WF _ at k1
    exact SafeTo.pure (by valid_upd hv hk) k2
  case h_20 hk =>
    refine SafeTo.bind (gaussianDropoutForward_safe hv.mask hi ho) ?_
    rintro ⟨b, o⟩ ⟨k1, k2⟩
    change Mat.WF _ at k1
    exact SafeTo.pure (by valid_upd hv hk) k2
  case h_21 => exact SafeTo.same hv (noiseForward_safe hi ho)
  case h_22 => exact SafeTo.same hv (noiseForward_safe hi ho)
  case h_23 hk =>
    refine SafeTo.bind (flipForward_safe hv.mask hi ho) ?_
    rintro ⟨b, o⟩ ⟨k1, k2⟩
    change Mat.WF _ at k1
    exact SafeTo.pure (by valid_upd hv hk) k2
  case h_24 => exact SafeTo.same hv (creluForward_safe hi ho)
  case h_25 => exact SafeTo.same hv (gatedFwd_safe hi ho)
  case h_26 hk =>
    refine SafeTo.bind (preluForward_safe hv.weight hv.gradWeight hi ho) ?_
    rintro ⟨w, b, o⟩ ⟨k1, k2, k3⟩
    change Mat.WF _ at k1
    change Mat.WF _ at k2
    exact SafeTo.pure (by valid_upd hv hk) k3
  case h_27 hk =>
    refine SafeTo.bind (peluForward_safe hv.weight hv.gradWeight hi ho) ?_
    rintro ⟨w, b, o⟩ ⟨k1, k2, k3⟩
    change Mat.WF _ at k1
    change Mat.WF _ at k2
    exact SafeTo.pure (by valid_upd hv hk) k3
  case h_28 hk =>
    refine SafeTo.bind (tereluForward_safe hv.weight hv.gradWeight hi ho) ?_
    rintro ⟨w, b, o⟩ ⟨k1, k2, k3⟩
    change Mat.WF _ at k1
    change Mat.WF _ at k2
    exact SafeTo.pure (by valid_upd hv hk) k3
  case h_29 hk =>
    refine SafeTo.bind (rreluForward_safe hv.mask hi ho) ?_
    rintro ⟨b, o⟩ ⟨k1, k2⟩
    change Mat.WF _ at k1
    exact SafeTo.pure (by valid_upd hv hk) k2
  case h_30 => exact SafeTo.same hv (tdBiasForward_safe hv.bias hi ho)
  case h_31 => exact SafeTo.same hv (tdDotForward_safe hv.weight hi ho)
  case h_32 => exact SafeTo.same hv (tdDenseForward_safe hv.weight hv.bias hi ho)
  case h_33 hk =>
    refine SafeTo.bind (rnnForward_safe (st := ⟨⟨_, _, _⟩, _, _⟩) (fun st h => simpleInit_safe h)
      (fun st x o h1 h2 h3 => simpleFrame_safe h1 h2 h3) ⟨⟨hv.whh, hv.wxh, hv.bh⟩, hv.h, hv.saved⟩ ho) ?_
    rintro ⟨st, o⟩ ⟨⟨⟨k1, k2, k3⟩, k4, k5⟩, k6⟩
    exact SafeTo.pure (by valid_upd hv hk) k6
  case h_34 hk =>
    refine SafeTo.bind (rnnForward_safe (st := ⟨_, _, _⟩) (fun st h => simplestInit_safe h)
      (fun st x o h1 h2 h3 => simplestFrame_safe h1 h2 h3) ⟨hv.weight, hv.h, hv.saved⟩ ho) ?_
    rintro ⟨st, o⟩ ⟨⟨k1, k4, k5⟩, k6⟩
    change Mat.WF _ at k1
    exact SafeTo.pure (by valid_upd hv hk) k6

theorem Layer.SafeTo.grads {l : Layer} (hv : l.Valid) {x : Out (Grads ℝ)} (hx : Safe x) :
    l.SafeTo (x >>= fun r => Pure.pure (l.setGrads r)) := by
  refine bind hx ?_
  rintro ⟨a, b, c⟩ ⟨h1, h2, h3⟩
  refine pure ⟨?_, rfl, rfl, rfl, rfl⟩ h3
  exact ⟨hv.weight, h1, hv.bias, h2, hv.maxIndex, hv.mask, hv.im2colT, hv.tempImg, hv.whh, hv.wxh, hv.bh, hv.h, hv.saved,
    hv.noWeight, hv.noBias, hv.noRec, hv.made⟩

theorem Layer.grads_wf {l : Layer} (hv : l.Valid) {gIn : Mat ℝ} (hg : gIn.WF) : wf (l.grads gIn) := ⟨hv.gradWeight, hv.gradBias, hg⟩

set_option maxHeartbeats 1000000 in
theorem Layer.backprop_safe (e : Env) {l : Layer} (hv : l.Valid) {mIn gOut gIn : Mat ℝ} (hi : mIn.WF) (ho : gOut.WF)
    (hg : gIn.WF) : l.SafeTo (l.backprop e mIn gOut gIn) := by
  have hr := grads_wf hv hg
  unfold Layer.backprop
  split
  case h_1 => exact SafeTo.grads hv (denseBackward_safe hv.weight hi ho hr)
  case h_2 => exact SafeTo.grads hv (dotBackward_safe hv.weight hi ho hr)
  case h_3 => exact SafeTo.grads hv (biasBackward_safe ho hr)
  case h_4 => exact SafeTo.grads hv (gainBackward_safe hv.weight hi ho hr)
  case h_5 => exact SafeTo.grads hv (affineBackward_safe hv.weight hi ho hr)
  case h_6 => exact SafeTo.grads hv (globalBiasBackward_safe ho hr)
  case h_7 => exact SafeTo.grads hv (globalGainBackward_safe hv.weight hi ho hr)
  case h_8 => exact SafeTo.grads hv (globalAffineBackward_safe hv.weight hi ho hr)
  case h_9 => exact SafeTo.grads hv (channelBiasBackward_safe ho hr)
  case h_10 => exact SafeTo.same hv (activationBackward_safe hi ho hg)
  case h_11 => exact SafeTo.same hv (softmaxBackward_safe hi ho hg)
  case h_12 => exact SafeTo.same hv (softminBackward_safe hi ho hg)
  case h_13 => exact SafeTo.same hv (maxPoolBackward_safe hv.maxIndex ho hg)
  case h_14 => exact SafeTo.same hv (globalMaxPoolBackward_safe hv.maxIndex ho hg)
  case h_15 => exact SafeTo.same hv (avgPoolBackward_safe ho hg)
  case h_16 => exact SafeTo.same hv (globalAvgPoolBackward_safe ho hg)
  case h_17 => exact SafeTo.same hv (zeroPadBackward_safe ho hg)
  case h_18 hk =>
    refine SafeTo.bind (convBackward_safe (st := ⟨_, _, _, _, _⟩) ⟨hv.im2colT, hv.tempImg, hv.weight, hv.gradWeight⟩ hi ho hg) ?_
    rintro ⟨st, o⟩ ⟨⟨k1, k2, k3, k4⟩, k5⟩
    exact SafeTo.pure (by valid_upd hv hk) k5
  case h_19 => exact SafeTo.same hv (dropoutBackward_safe hv.mask ho hg)
  case h_20 => exact SafeTo.same hv (gaussianDropoutBackward_safe hv.mask ho hg)
  case h_21 => exact SafeTo.same hv (noiseBackward_safe ho hg)
  case h_22 => exact SafeTo.same hv (noiseBackward_safe ho hg)
  case h_23 => exact SafeTo.same hv (flipBackward_safe hv.mask hi ho hg)
  case h_24 => exact SafeTo.same hv (creluBackward_safe hi ho hg)
  case h_25 => exact SafeTo.same hv (gatedBwd_safe hi ho hg)
  case h_26 hk =>
    refine SafeTo.bind (preluBackward_safe hv.weight hv.gradWeight hi ho hg) ?_
    rintro ⟨w, o⟩ ⟨k1, k2⟩
    change Mat.WF _ at k1
    exact SafeTo.pure (by valid_upd hv hk) k2
  case h_27 hk =>
    refine SafeTo.bind (peluBackward_safe hv.weight hv.gradWeight hi ho hg) ?_
    rintro ⟨w, b, o⟩ ⟨k1, k2, k3⟩
    change Mat.WF _ at k1
    change Mat.WF _ at k2
    exact SafeTo.pure (by valid_upd hv hk) k3
  case h_28 hk =>
    refine SafeTo.bind (tereluBackward_safe hv.weight hv.gradWeight hi ho hg) ?_
    rintro ⟨w, o⟩ ⟨k1, k2⟩
    change Mat.WF _ at k1
    exact SafeTo.pure (by valid_upd hv hk) k2
  case h_29 => exact SafeTo.same hv (rreluBackward_safe hv.mask hi ho hg)
  case h_30 => exact SafeTo.grads hv (tdBiasBackward_safe ho hr)
  case h_31 => exact SafeTo.grads hv (tdDenseBackward_safe hv.weight hi ho hr)
  case h_32 => exact SafeTo.grads hv (tdDenseBackward_safe hv.weight hi ho hr)
  case h_33 hk =>
    refine SafeTo.bind (rnnBackward_safe (fun a b c d s _ _ _ _ hs => Safe.ok hs) hv.saved hv.gradWeight ho hg) ?_
    rintro ⟨w, o⟩ ⟨k1, k2⟩
    change Mat.WF _ at k1
    exact SafeTo.pure (by valid_upd hv hk) k2
  case h_34 hk =>
    refine SafeTo.bind (rnnBackward_safe (fun a b c d s _ _ _ _ hs => simplestBackFrame_safe hs) hv.saved hv.gradWeight ho hg) ?_
    rintro ⟨w, o⟩ ⟨k1, k2⟩
    change Mat.WF _ at k1
    exact SafeTo.pure (by valid_upd hv hk) k2

end BeeDNN
