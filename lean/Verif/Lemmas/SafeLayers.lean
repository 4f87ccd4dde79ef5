import Verif.Lemmas.Safe

/-! # Every layer keeps matrices well-formed -/

namespace BeeDNN
open HasWF

theorem reverseData_length {l l' : List ℝ} {p n : Nat} (h : Mat.reverseData l p n = .ok l') : l'.length = l.length := by
  refine forN_ok_inv (P := fun x : List ℝ => x.length = l.length) ?_ rfl h
  intro i s s' hs h
  split at h
  · cases h
  · obtain ⟨x, -, h⟩ := ok_bind h
    unfold wr at h
    split at h
    · injection h with h; subst h; rw [List.length_set]; exact hs
    · cases h

theorem denseForward_safe {g : Nat → ℝ} {w b mIn mOut : Mat ℝ} (h_w : w.WF) (h_b : b.WF) (h_mIn : mIn.WF) (h_mOut : mOut.WF) :
    Safe (denseForward g w b mIn mOut) := by
  unfold denseForward; safe
macro_rules | `(tactic| safe_lemma) => `(tactic| with_reducible_and_instances refine denseForward_safe ?_ ?_ ?_ ?_)

theorem denseBackward_safe {g : Nat → ℝ} {first : Bool} {w mIn gOut : Mat ℝ} {old : Grads ℝ} (h_w : w.WF) (h_mIn : mIn.WF) (h_gOut : gOut.WF) (h_old : wf old) :
    Safe (denseBackward g first w mIn gOut old) := by
  obtain ⟨h1, h2, h3⟩ := h_old
  unfold denseBackward; safe
macro_rules | `(tactic| safe_lemma) => `(tactic| with_reducible_and_instances refine denseBackward_safe ?_ ?_ ?_ ?_)

theorem dotForward_safe {g : Nat → ℝ} {w mIn mOut : Mat ℝ} (h_w : w.WF) (h_mIn : mIn.WF) (h_mOut : mOut.WF) :
    Safe (dotForward g w mIn mOut) := by
  unfold dotForward; safe
macro_rules | `(tactic| safe_lemma) => `(tactic| with_reducible_and_instances refine dotForward_safe ?_ ?_ ?_)

theorem dotBackward_safe {g : Nat → ℝ} {first : Bool} {w mIn gOut : Mat ℝ} {old : Grads ℝ} (h_w : w.WF) (h_mIn : mIn.WF) (h_gOut : gOut.WF) (h_old : wf old) :
    Safe (dotBackward g first w mIn gOut old) := by
  obtain ⟨h1, h2, h3⟩ := h_old
  unfold dotBackward; safe
macro_rules | `(tactic| safe_lemma) => `(tactic| with_reducible_and_instances refine dotBackward_safe ?_ ?_ ?_ ?_)

theorem biasForward_safe {g : Nat → ℝ} {fresh : Nat → Mat ℝ} {b mIn mOut : Mat ℝ} (h_fresh : ∀ i, (fresh i).WF) (h_b : b.WF) (h_mIn : mIn.WF) (h_mOut : mOut.WF) :
    Safe (biasForward g fresh b mIn mOut) := by
  unfold biasForward
  have hb : (if b.size = 0 then fresh mIn.cols else b).WF := by split <;> [exact h_fresh _; exact h_b]
  dsimp only
  generalize (if b.size = 0 then fresh mIn.cols else b) = b' at hb
  safe
macro_rules | `(tactic| safe_lemma) => `(tactic| with_reducible_and_instances refine biasForward_safe ?_ ?_ ?_ ?_)

theorem biasBackward_safe {g : Nat → ℝ} {first : Bool} {gOut : Mat ℝ} {old : Grads ℝ} (h_gOut : gOut.WF) (h_old : wf old) :
    Safe (biasBackward g first gOut old) := by
  obtain ⟨h1, h2, h3⟩ := h_old
  unfold biasBackward; safe
macro_rules | `(tactic| safe_lemma) => `(tactic| with_reducible_and_instances refine biasBackward_safe ?_ ?_)

theorem scaleCols_safe {w m : Mat ℝ} (h_w : w.WF) (h_m : m.WF) :
    Safe (scaleCols w m) := by
  unfold scaleCols; safe
macro_rules | `(tactic| safe_lemma) => `(tactic| with_reducible_and_instances refine scaleCols_safe ?_ ?_)

theorem gainForward_safe {g : Nat → ℝ} {w mIn mOut : Mat ℝ} (h_w : w.WF) (h_mIn : mIn.WF) (h_mOut : mOut.WF) :
    Safe (gainForward g w mIn mOut) := by
  unfold gainForward; safe
macro_rules | `(tactic| safe_lemma) => `(tactic| with_reducible_and_instances refine gainForward_safe ?_ ?_ ?_)

theorem gainBackward_safe {g : Nat → ℝ} {first : Bool} {w mIn gOut : Mat ℝ} {old : Grads ℝ} (h_w : w.WF) (h_mIn : mIn.WF) (h_gOut : gOut.WF) (h_old : wf old) :
    Safe (gainBackward g first w mIn gOut old) := by
  obtain ⟨h1, h2, h3⟩ := h_old
  unfold gainBackward; safe
macro_rules | `(tactic| safe_lemma) => `(tactic| with_reducible_and_instances refine gainBackward_safe ?_ ?_ ?_ ?_)

theorem affineForward_safe {g : Nat → ℝ} {w b mIn mOut : Mat ℝ} (h_w : w.WF) (h_b : b.WF) (h_mIn : mIn.WF) (h_mOut : mOut.WF) :
    Safe (affineForward g w b mIn mOut) := by
  unfold affineForward
  dsimp only
  safe
macro_rules | `(tactic| safe_lemma) => `(tactic| with_reducible_and_instances refine affineForward_safe ?_ ?_ ?_ ?_)

theorem affineBackward_safe {g : Nat → ℝ} {first : Bool} {w mIn gOut : Mat ℝ} {old : Grads ℝ} (h_w : w.WF) (h_mIn : mIn.WF) (h_gOut : gOut.WF) (h_old : wf old) :
    Safe (affineBackward g first w mIn gOut old) := by
  obtain ⟨h1, h2, h3⟩ := h_old
  unfold affineBackward; safe
macro_rules | `(tactic| safe_lemma) => `(tactic| with_reducible_and_instances refine affineBackward_safe ?_ ?_ ?_ ?_)

theorem globalBiasForward_safe {g : Nat → ℝ} {b mIn mOut : Mat ℝ} (h_b : b.WF) (h_mIn : mIn.WF) (h_mOut : mOut.WF) :
    Safe (globalBiasForward g b mIn mOut) := by
  unfold globalBiasForward; safe
macro_rules | `(tactic| safe_lemma) => `(tactic| with_reducible_and_instances refine globalBiasForward_safe ?_ ?_ ?_)

theorem globalBiasBackward_safe {g : Nat → ℝ} {first : Bool} {gOut : Mat ℝ} {old : Grads ℝ} (h_gOut : gOut.WF) (h_old : wf old) :
    Safe (globalBiasBackward g first gOut old) := by
  obtain ⟨h1, h2, h3⟩ := h_old
  unfold globalBiasBackward; safe
macro_rules | `(tactic| safe_lemma) => `(tactic| with_reducible_and_instances refine globalBiasBackward_safe ?_ ?_)

theorem globalGainForward_safe {g : Nat → ℝ} {w mIn mOut : Mat ℝ} (h_w : w.WF) (h_mIn : mIn.WF) (h_mOut : mOut.WF) :
    Safe (globalGainForward g w mIn mOut) := by
  unfold globalGainForward; safe
macro_rules | `(tactic| safe_lemma) => `(tactic| with_reducible_and_instances refine globalGainForward_safe ?_ ?_ ?_)

theorem globalGainBackward_safe {g : Nat → ℝ} {first : Bool} {w mIn gOut : Mat ℝ} {old : Grads ℝ} (h_w : w.WF) (h_mIn : mIn.WF) (h_gOut : gOut.WF) (h_old : wf old) :
    Safe (globalGainBackward g first w mIn gOut old) := by
  obtain ⟨h1, h2, h3⟩ := h_old
  unfold globalGainBackward; safe
macro_rules | `(tactic| safe_lemma) => `(tactic| with_reducible_and_instances refine globalGainBackward_safe ?_ ?_ ?_ ?_)

theorem globalAffineForward_safe {g : Nat → ℝ} {w b mIn mOut : Mat ℝ} (h_w : w.WF) (h_b : b.WF) (h_mIn : mIn.WF) (h_mOut : mOut.WF) :
    Safe (globalAffineForward g w b mIn mOut) := by
  unfold globalAffineForward; safe
macro_rules | `(tactic| safe_lemma) => `(tactic| with_reducible_and_instances refine globalAffineForward_safe ?_ ?_ ?_ ?_)

theorem globalAffineBackward_safe {g : Nat → ℝ} {first : Bool} {w mIn gOut : Mat ℝ} {old : Grads ℝ} (h_w : w.WF) (h_mIn : mIn.WF) (h_gOut : gOut.WF) (h_old : wf old) :
    Safe (globalAffineBackward g first w mIn gOut old) := by
  obtain ⟨h1, h2, h3⟩ := h_old
  unfold globalAffineBackward; safe
macro_rules | `(tactic| safe_lemma) => `(tactic| with_reducible_and_instances refine globalAffineBackward_safe ?_ ?_ ?_ ?_)

theorem channelBiasForward_safe {g : Nat → ℝ} {H R C : Nat} {b mIn mOut : Mat ℝ} (h_b : b.WF) (h_mIn : mIn.WF) (h_mOut : mOut.WF) :
    Safe (channelBiasForward g H R C b mIn mOut) := by
  unfold channelBiasForward; safe
macro_rules | `(tactic| safe_lemma) => `(tactic| with_reducible_and_instances refine channelBiasForward_safe ?_ ?_ ?_)

theorem channelBiasBackward_safe {g : Nat → ℝ} {first : Bool} {H R C : Nat} {gOut : Mat ℝ} {old : Grads ℝ} (h_gOut : gOut.WF) (h_old : wf old) :
    Safe (channelBiasBackward g first H R C gOut old) := by
  obtain ⟨h1, h2, h3⟩ := h_old
  unfold channelBiasBackward; safe
macro_rules | `(tactic| safe_lemma) => `(tactic| with_reducible_and_instances refine channelBiasBackward_safe ?_ ?_)

theorem activationForward_safe {g : Nat → ℝ} {act : ℝ → ℝ} {mIn mOut : Mat ℝ} (h_mIn : mIn.WF) (h_mOut : mOut.WF) :
    Safe (activationForward g act mIn mOut) := by
  unfold activationForward; safe
macro_rules | `(tactic| safe_lemma) => `(tactic| with_reducible_and_instances refine activationForward_safe ?_ ?_)

theorem activationBackward_safe {g : Nat → ℝ} {first : Bool} {der : ℝ → ℝ} {mIn gOut gIn : Mat ℝ} (h_mIn : mIn.WF) (h_gOut : gOut.WF) (h_gIn : gIn.WF) :
    Safe (activationBackward g first der mIn gOut gIn) := by
  unfold activationBackward; safe
macro_rules | `(tactic| safe_lemma) => `(tactic| with_reducible_and_instances refine activationBackward_safe ?_ ?_ ?_)

theorem expShifted_safe {g : Nat → ℝ} {ex : ℝ → ℝ} {S : Mat ℝ} (h_S : S.WF) :
    Safe (expShifted g ex S) := by
  unfold expShifted; safe
macro_rules | `(tactic| safe_lemma) => `(tactic| with_reducible_and_instances refine expShifted_safe ?_)

theorem softmaxRows_safe {g : Nat → ℝ} {ex : ℝ → ℝ} {mOut : Mat ℝ} (h_mOut : mOut.WF) :
    Safe (softmaxRows g ex mOut) := by
  unfold softmaxRows; safe
macro_rules | `(tactic| safe_lemma) => `(tactic| with_reducible_and_instances refine softmaxRows_safe ?_)

theorem softmaxForward_safe {g : Nat → ℝ} {ex : ℝ → ℝ} {mIn mOut : Mat ℝ} (h_mIn : mIn.WF) (h_mOut : mOut.WF) :
    Safe (softmaxForward g ex mIn mOut) := by
  unfold softmaxForward; safe
macro_rules | `(tactic| safe_lemma) => `(tactic| with_reducible_and_instances refine softmaxForward_safe ?_ ?_)

theorem softmaxBackward_safe {g : Nat → ℝ} {ex : ℝ → ℝ} {first : Bool} {mIn gOut gIn : Mat ℝ} (h_mIn : mIn.WF) (h_gOut : gOut.WF) (h_gIn : gIn.WF) :
    Safe (softmaxBackward g ex first mIn gOut gIn) := by
  unfold softmaxBackward; safe
macro_rules | `(tactic| safe_lemma) => `(tactic| with_reducible_and_instances refine softmaxBackward_safe ?_ ?_ ?_)

theorem softminForward_safe {g : Nat → ℝ} {ex : ℝ → ℝ} {mIn mOut : Mat ℝ} (h_mIn : mIn.WF) (h_mOut : mOut.WF) :
    Safe (softminForward g ex mIn mOut) := by
  unfold softminForward; safe
macro_rules | `(tactic| safe_lemma) => `(tactic| with_reducible_and_instances refine softminForward_safe ?_ ?_)

theorem softminBackward_safe {g : Nat → ℝ} {ex : ℝ → ℝ} {first : Bool} {mIn gOut gIn : Mat ℝ} (h_mIn : mIn.WF) (h_gOut : gOut.WF) (h_gIn : gIn.WF) :
    Safe (softminBackward g ex first mIn gOut gIn) := by
  unfold softminBackward; safe
macro_rules | `(tactic| safe_lemma) => `(tactic| with_reducible_and_instances refine softminBackward_safe ?_ ?_ ?_)

theorem maxPoolForward_safe {g : Nat → ℝ} {gi : Nat → Int} {fl : Int → Int} {low : ℝ} {p : Pool} {train : Bool} {mIn mOut : Mat ℝ} {mMaxIndex : Mat Int} (h_mIn : mIn.WF) (h_mOut : mOut.WF) (h_mMaxIndex : mMaxIndex.WF) :
    Safe (maxPoolForward g gi fl low p train mIn mOut mMaxIndex) := by
  unfold maxPoolForward; safe
macro_rules | `(tactic| safe_lemma) => `(tactic| with_reducible_and_instances refine maxPoolForward_safe ?_ ?_ ?_)

theorem maxPoolBackward_safe {g : Nat → ℝ} {p : Pool} {first : Bool} {mMaxIndex : Mat Int} {mGradientOut mGradientIn : Mat ℝ} (h_mMaxIndex : mMaxIndex.WF) (h_mGradientOut : mGradientOut.WF) (h_mGradientIn : mGradientIn.WF) :
    Safe (maxPoolBackward g p first mMaxIndex mGradientOut mGradientIn) := by
  unfold maxPoolBackward; safe
macro_rules | `(tactic| safe_lemma) => `(tactic| with_reducible_and_instances refine maxPoolBackward_safe ?_ ?_ ?_)

theorem globalMaxPoolForward_safe {g : Nat → ℝ} {gi : Nat → Int} {fl : Int → Int} {low : ℝ} {inRows inCols channels : Nat} {train : Bool} {mIn mOut : Mat ℝ} {mMaxIndex : Mat Int} (h_mIn : mIn.WF) (h_mOut : mOut.WF) (h_mMaxIndex : mMaxIndex.WF) :
    Safe (globalMaxPoolForward g gi fl low inRows inCols channels train mIn mOut mMaxIndex) := by
  unfold globalMaxPoolForward; safe
macro_rules | `(tactic| safe_lemma) => `(tactic| with_reducible_and_instances refine globalMaxPoolForward_safe ?_ ?_ ?_)

theorem Mat_setColInt_safe {m : Mat ℝ} {r : Nat} {c : Int} {x : ℝ} (h_m : m.WF) :
    Safe (Mat.setColInt m r c x) := by
  unfold Mat.setColInt; safe
macro_rules | `(tactic| safe_lemma) => `(tactic| with_reducible_and_instances refine Mat_setColInt_safe ?_)

theorem globalMaxPoolBackward_safe {g : Nat → ℝ} {inRows inCols channels : Nat} {first : Bool} {mMaxIndex : Mat Int} {mGradientOut mGradientIn : Mat ℝ} (h_mMaxIndex : mMaxIndex.WF) (h_mGradientOut : mGradientOut.WF) (h_mGradientIn : mGradientIn.WF) :
    Safe (globalMaxPoolBackward g inRows inCols channels first mMaxIndex mGradientOut mGradientIn) := by
  unfold globalMaxPoolBackward; safe
macro_rules | `(tactic| safe_lemma) => `(tactic| with_reducible_and_instances refine globalMaxPoolBackward_safe ?_ ?_ ?_)

theorem avgPoolForward_safe {g : Nat → ℝ} {p : Pool} {mIn mOut : Mat ℝ} (h_mIn : mIn.WF) (h_mOut : mOut.WF) :
    Safe (avgPoolForward g p mIn mOut) := by
  unfold avgPoolForward; safe
macro_rules | `(tactic| safe_lemma) => `(tactic| with_reducible_and_instances refine avgPoolForward_safe ?_ ?_)

theorem avgPoolBackward_safe {g : Nat → ℝ} {p : Pool} {first : Bool} {mGradientOut mGradientIn : Mat ℝ} (h_mGradientOut : mGradientOut.WF) (h_mGradientIn : mGradientIn.WF) :
    Safe (avgPoolBackward g p first mGradientOut mGradientIn) := by
  unfold avgPoolBackward; safe
macro_rules | `(tactic| safe_lemma) => `(tactic| with_reducible_and_instances refine avgPoolBackward_safe ?_ ?_)

theorem globalAvgPoolForward_safe {g : Nat → ℝ} {inRows inCols channels : Nat} {mIn mOut : Mat ℝ} (h_mIn : mIn.WF) (h_mOut : mOut.WF) :
    Safe (globalAvgPoolForward g inRows inCols channels mIn mOut) := by
  unfold globalAvgPoolForward; safe
macro_rules | `(tactic| safe_lemma) => `(tactic| with_reducible_and_instances refine globalAvgPoolForward_safe ?_ ?_)

theorem globalAvgPoolBackward_safe {g : Nat → ℝ} {inRows inCols channels : Nat} {first : Bool} {mGradientOut mGradientIn : Mat ℝ} (h_mGradientOut : mGradientOut.WF) (h_mGradientIn : mGradientIn.WF) :
    Safe (globalAvgPoolBackward g inRows inCols channels first mGradientOut mGradientIn) := by
  unfold globalAvgPoolBackward; safe
macro_rules | `(tactic| safe_lemma) => `(tactic| with_reducible_and_instances refine globalAvgPoolBackward_safe ?_ ?_)

theorem zeroPadForward_safe {g : Nat → ℝ} {inRows inCols channels border : Nat} {mIn mOut : Mat ℝ} (h_mIn : mIn.WF) (h_mOut : mOut.WF) :
    Safe (zeroPadForward g inRows inCols channels border mIn mOut) := by
  unfold zeroPadForward; safe
macro_rules | `(tactic| safe_lemma) => `(tactic| with_reducible_and_instances refine zeroPadForward_safe ?_ ?_)

theorem zeroPadBackward_safe {g : Nat → ℝ} {inRows inCols channels border : Nat} {first : Bool} {mGradientOut mGradientIn : Mat ℝ} (h_mGradientOut : mGradientOut.WF) (h_mGradientIn : mGradientIn.WF) :
    Safe (zeroPadBackward g inRows inCols channels border first mGradientOut mGradientIn) := by
  unfold zeroPadBackward; safe
macro_rules | `(tactic| safe_lemma) => `(tactic| with_reducible_and_instances refine zeroPadBackward_safe ?_ ?_)

theorem im2col_safe {g : Nat → ℝ} {p : Conv} {mIn mCol : Mat ℝ} (h_mIn : mIn.WF) (h_mCol : mCol.WF) :
    Safe (im2col g p mIn mCol) := by
  unfold im2col; safe
macro_rules | `(tactic| safe_lemma) => `(tactic| with_reducible_and_instances refine im2col_safe ?_ ?_)

theorem im2colLUT_safe {g : Nat → ℝ} {p : Conv} {mIn mCol : Mat ℝ} (h_mIn : mIn.WF) (h_mCol : mCol.WF) :
    Safe (im2colLUT g p mIn mCol) := by
  unfold im2colLUT; safe
macro_rules | `(tactic| safe_lemma) => `(tactic| with_reducible_and_instances refine im2colLUT_safe ?_ ?_)

theorem col2im_safe {g : Nat → ℝ} {p : Conv} {samples : Nat} {mCol mIm : Mat ℝ} (h_mCol : mCol.WF) (h_mIm : mIm.WF) :
    Safe (col2im g p samples mCol mIm) := by
  unfold col2im; safe
macro_rules | `(tactic| safe_lemma) => `(tactic| with_reducible_and_instances refine col2im_safe ?_ ?_)

theorem col2imLUT_safe {g : Nat → ℝ} {p : Conv} {samples : Nat} {mCol mIm : Mat ℝ} (h_mCol : mCol.WF) (h_mIm : mIm.WF) :
    Safe (col2imLUT g p samples mCol mIm) := by
  unfold col2imLUT; safe
macro_rules | `(tactic| safe_lemma) => `(tactic| with_reducible_and_instances refine col2imLUT_safe ?_ ?_)

theorem reshapeToOut_safe {g : Nat → ℝ} {p : Conv} {samples : Nat} {mOut tempImg : Mat ℝ} (h_mOut : mOut.WF) (h_tempImg : tempImg.WF) :
    Safe (reshapeToOut g p samples mOut tempImg) := by
  unfold reshapeToOut; safe
macro_rules | `(tactic| safe_lemma) => `(tactic| with_reducible_and_instances refine reshapeToOut_safe ?_ ?_)

theorem reshapeFromOut_safe {g : Nat → ℝ} {p : Conv} {samples : Nat} {mOut tempImg : Mat ℝ} (h_mOut : mOut.WF) (h_tempImg : tempImg.WF) :
    Safe (reshapeFromOut g p samples mOut tempImg) := by
  unfold reshapeFromOut; safe
macro_rules | `(tactic| safe_lemma) => `(tactic| with_reducible_and_instances refine reshapeFromOut_safe ?_ ?_)

theorem dropoutForward_safe {g : Nat → ℝ} {lim : ℝ → Nat} {train : Bool} {rate : ℝ} {rng : Nat → Nat} {mask mIn mOut : Mat ℝ} (h_mask : mask.WF) (h_mIn : mIn.WF) (h_mOut : mOut.WF) :
    Safe (dropoutForward g lim train rate rng mask mIn mOut) := by
  unfold dropoutForward; safe
macro_rules | `(tactic| safe_lemma) => `(tactic| with_reducible_and_instances refine dropoutForward_safe ?_ ?_ ?_)

theorem dropoutBackward_safe {g : Nat → ℝ} {first : Bool} {rate : ℝ} {mask gOut gIn : Mat ℝ} (h_mask : mask.WF) (h_gOut : gOut.WF) (h_gIn : gIn.WF) :
    Safe (dropoutBackward g first rate mask gOut gIn) := by
  unfold dropoutBackward; safe
macro_rules | `(tactic| safe_lemma) => `(tactic| with_reducible_and_instances refine dropoutBackward_safe ?_ ?_ ?_)

theorem gaussianDropoutForward_safe {g : Nat → ℝ} {train : Bool} {draw : Nat → ℝ} {mask mIn mOut : Mat ℝ} (h_mask : mask.WF) (h_mIn : mIn.WF) (h_mOut : mOut.WF) :
    Safe (gaussianDropoutForward g train draw mask mIn mOut) := by
  unfold gaussianDropoutForward; safe
macro_rules | `(tactic| safe_lemma) => `(tactic| with_reducible_and_instances refine gaussianDropoutForward_safe ?_ ?_ ?_)

theorem gaussianDropoutBackward_safe {g : Nat → ℝ} {train first : Bool} {mask gOut gIn : Mat ℝ} (h_mask : mask.WF) (h_gOut : gOut.WF) (h_gIn : gIn.WF) :
    Safe (gaussianDropoutBackward g train first mask gOut gIn) := by
  unfold gaussianDropoutBackward; safe
macro_rules | `(tactic| safe_lemma) => `(tactic| with_reducible_and_instances refine gaussianDropoutBackward_safe ?_ ?_ ?_)

theorem noiseForward_safe {g : Nat → ℝ} {train : Bool} {noise : ℝ} {draw : Nat → ℝ} {mIn mOut : Mat ℝ} (h_mIn : mIn.WF) (h_mOut : mOut.WF) :
    Safe (noiseForward g train noise draw mIn mOut) := by
  unfold noiseForward; safe
macro_rules | `(tactic| safe_lemma) => `(tactic| with_reducible_and_instances refine noiseForward_safe ?_ ?_)

theorem noiseBackward_safe {g : Nat → ℝ} {first : Bool} {gOut gIn : Mat ℝ} (h_gOut : gOut.WF) (h_gIn : gIn.WF) :
    Safe (noiseBackward g first gOut gIn) := by
  unfold noiseBackward; safe
macro_rules | `(tactic| safe_lemma) => `(tactic| with_reducible_and_instances refine noiseBackward_safe ?_ ?_)

theorem flipSamples_safe {H W K samples : Nat} {flipped m : Mat ℝ} (h_flipped : flipped.WF) (h_m : m.WF) :
    Safe (flipSamples H W K samples flipped m) := by
  unfold flipSamples
  refine Safe.forN h_m (fun i m hm => Safe.bind_any fun f => ?_)
  split
  · exact Safe.pure hm
  · refine Safe.forN hm (fun j m hm => Safe.bind_any fun _ => ?_)
    refine Safe.forN hm (fun k m hm => ?_)
    intro a ha
    obtain ⟨l, hl, ha⟩ := ok_bind ha
    injection ha with ha
    subst ha
    show l.length = m.rows * m.cols
    rw [reverseData_length hl]; exact hm
macro_rules | `(tactic| safe_lemma) => `(tactic| with_reducible_and_instances refine flipSamples_safe ?_ ?_)

theorem flipForward_safe {g : Nat → ℝ} {H W K : Nat} {train : Bool} {rng : Nat → Nat} {flipped mIn mOut : Mat ℝ} (h_flipped : flipped.WF) (h_mIn : mIn.WF) (h_mOut : mOut.WF) :
    Safe (flipForward g H W K train rng flipped mIn mOut) := by
  unfold flipForward; safe
macro_rules | `(tactic| safe_lemma) => `(tactic| with_reducible_and_instances refine flipForward_safe ?_ ?_ ?_)

theorem flipBackward_safe {g : Nat → ℝ} {H W K : Nat} {first : Bool} {flipped mIn gOut gIn : Mat ℝ} (h_flipped : flipped.WF) (h_mIn : mIn.WF) (h_gOut : gOut.WF) (h_gIn : gIn.WF) :
    Safe (flipBackward g H W K first flipped mIn gOut gIn) := by
  unfold flipBackward; safe
macro_rules | `(tactic| safe_lemma) => `(tactic| with_reducible_and_instances refine flipBackward_safe ?_ ?_ ?_ ?_)

theorem creluForward_safe {g : Nat → ℝ} {mIn mOut : Mat ℝ} (h_mIn : mIn.WF) (h_mOut : mOut.WF) :
    Safe (creluForward g mIn mOut) := by
  unfold creluForward; safe
macro_rules | `(tactic| safe_lemma) => `(tactic| with_reducible_and_instances refine creluForward_safe ?_ ?_)

theorem creluBackward_safe {g : Nat → ℝ} {first : Bool} {mIn gOut gIn : Mat ℝ} (h_mIn : mIn.WF) (h_gOut : gOut.WF) (h_gIn : gIn.WF) :
    Safe (creluBackward g first mIn gOut gIn) := by
  unfold creluBackward; safe
macro_rules | `(tactic| safe_lemma) => `(tactic| with_reducible_and_instances refine creluBackward_safe ?_ ?_ ?_)

theorem gatedForward_safe {g : Nat → ℝ} {a1 a2 : ℝ → ℝ} {mIn mOut : Mat ℝ} (h_mIn : mIn.WF) (h_mOut : mOut.WF) :
    Safe (gatedForward g a1 a2 mIn mOut) := by
  unfold gatedForward; safe
macro_rules | `(tactic| safe_lemma) => `(tactic| with_reducible_and_instances refine gatedForward_safe ?_ ?_)

theorem gatedBackward_safe {g : Nat → ℝ} {first : Bool} {a1 a2 d1 d2 : ℝ → ℝ} {mIn gOut gIn : Mat ℝ} (h_mIn : mIn.WF) (h_gOut : gOut.WF) (h_gIn : gIn.WF) :
    Safe (gatedBackward g first a1 a2 d1 d2 mIn gOut gIn) := by
  unfold gatedBackward; safe
macro_rules | `(tactic| safe_lemma) => `(tactic| with_reducible_and_instances refine gatedBackward_safe ?_ ?_ ?_)

theorem preluForward_safe {g : Nat → ℝ} {w gw mIn mOut : Mat ℝ} (h_w : w.WF) (h_gw : gw.WF) (h_mIn : mIn.WF) (h_mOut : mOut.WF) :
    Safe (preluForward g w gw mIn mOut) := by
  unfold preluForward; safe
macro_rules | `(tactic| safe_lemma) => `(tactic| with_reducible_and_instances refine preluForward_safe ?_ ?_ ?_ ?_)

theorem preluBackward_safe {g : Nat → ℝ} {first : Bool} {w gw mIn gOut gIn : Mat ℝ} (h_w : w.WF) (h_gw : gw.WF) (h_mIn : mIn.WF) (h_gOut : gOut.WF) (h_gIn : gIn.WF) :
    Safe (preluBackward g first w gw mIn gOut gIn) := by
  unfold preluBackward; safe
macro_rules | `(tactic| safe_lemma) => `(tactic| with_reducible_and_instances refine preluBackward_safe ?_ ?_ ?_ ?_ ?_)

theorem peluForward_safe {g : Nat → ℝ} {w gw mIn mOut : Mat ℝ} (h_w : w.WF) (h_gw : gw.WF) (h_mIn : mIn.WF) (h_mOut : mOut.WF) :
    Safe (peluForward g w gw mIn mOut) := by
  unfold peluForward; safe
macro_rules | `(tactic| safe_lemma) => `(tactic| with_reducible_and_instances refine peluForward_safe ?_ ?_ ?_ ?_)

theorem peluClampEntry_safe {w : Mat ℝ} {p j : Nat} (h_w : w.WF) :
    Safe (peluClampEntry w p j) := by
  unfold peluClampEntry; safe
macro_rules | `(tactic| safe_lemma) => `(tactic| with_reducible_and_instances refine peluClampEntry_safe ?_)

theorem peluBackward_safe {g : Nat → ℝ} {first : Bool} {w gw mIn gOut gIn : Mat ℝ} (h_w : w.WF) (h_gw : gw.WF) (h_mIn : mIn.WF) (h_gOut : gOut.WF) (h_gIn : gIn.WF) :
    Safe (peluBackward g first w gw mIn gOut gIn) := by
  unfold peluBackward; safe
macro_rules | `(tactic| safe_lemma) => `(tactic| with_reducible_and_instances refine peluBackward_safe ?_ ?_ ?_ ?_ ?_)

theorem tereluForward_safe {g : Nat → ℝ} {alpha mu : ℝ} {w gw mIn mOut : Mat ℝ} (h_w : w.WF) (h_gw : gw.WF) (h_mIn : mIn.WF) (h_mOut : mOut.WF) :
    Safe (tereluForward g alpha mu w gw mIn mOut) := by
  unfold tereluForward; safe
macro_rules | `(tactic| safe_lemma) => `(tactic| with_reducible_and_instances refine tereluForward_safe ?_ ?_ ?_ ?_)

theorem tereluBackward_safe {g : Nat → ℝ} {alpha mu : ℝ} {first : Bool} {w gw mIn gOut gIn : Mat ℝ} (h_w : w.WF) (h_gw : gw.WF) (h_mIn : mIn.WF) (h_gOut : gOut.WF) (h_gIn : gIn.WF) :
    Safe (tereluBackward g alpha mu first w gw mIn gOut gIn) := by
  unfold tereluBackward; safe
macro_rules | `(tactic| safe_lemma) => `(tactic| with_reducible_and_instances refine tereluBackward_safe ?_ ?_ ?_ ?_ ?_)

theorem setRandomUniform_safe {m : Mat ℝ} {lo hi : ℝ} {draw : Nat → ℝ} (h_m : m.WF) :
    Safe (setRandomUniform m lo hi draw) := by
  unfold setRandomUniform; safe
macro_rules | `(tactic| safe_lemma) => `(tactic| with_reducible_and_instances refine setRandomUniform_safe ?_)

theorem rreluForward_safe {g : Nat → ℝ} {alpha1 alpha2 : ℝ} {train : Bool} {draw : Nat → ℝ} {slopes mIn mOut : Mat ℝ} (h_slopes : slopes.WF) (h_mIn : mIn.WF) (h_mOut : mOut.WF) :
    Safe (rreluForward g alpha1 alpha2 train draw slopes mIn mOut) := by
  unfold rreluForward; safe
macro_rules | `(tactic| safe_lemma) => `(tactic| with_reducible_and_instances refine rreluForward_safe ?_ ?_ ?_)

theorem rreluBackward_safe {g : Nat → ℝ} {first : Bool} {slopes mIn gOut gIn : Mat ℝ} (h_slopes : slopes.WF) (h_mIn : mIn.WF) (h_gOut : gOut.WF) (h_gIn : gIn.WF) :
    Safe (rreluBackward g first slopes mIn gOut gIn) := by
  unfold rreluBackward; safe
macro_rules | `(tactic| safe_lemma) => `(tactic| with_reducible_and_instances refine rreluBackward_safe ?_ ?_ ?_ ?_)

theorem tdBiasForward_safe {g : Nat → ℝ} {F : Nat} {b mIn mOut : Mat ℝ} (h_b : b.WF) (h_mIn : mIn.WF) (h_mOut : mOut.WF) :
    Safe (tdBiasForward g F b mIn mOut) := by
  unfold tdBiasForward; safe
macro_rules | `(tactic| safe_lemma) => `(tactic| with_reducible_and_instances refine tdBiasForward_safe ?_ ?_ ?_)

theorem tdBiasBackward_safe {g : Nat → ℝ} {first : Bool} {F : Nat} {gOut : Mat ℝ} {old : Grads ℝ} (h_gOut : gOut.WF) (h_old : wf old) :
    Safe (tdBiasBackward g first F gOut old) := by
  obtain ⟨h1, h2, h3⟩ := h_old
  unfold tdBiasBackward; safe
macro_rules | `(tactic| safe_lemma) => `(tactic| with_reducible_and_instances refine tdBiasBackward_safe ?_ ?_)

theorem tdDotForward_safe {g : Nat → ℝ} {F O : Nat} {w mIn mOut : Mat ℝ} (h_w : w.WF) (h_mIn : mIn.WF) (h_mOut : mOut.WF) :
    Safe (tdDotForward g F O w mIn mOut) := by
  unfold tdDotForward; safe
macro_rules | `(tactic| safe_lemma) => `(tactic| with_reducible_and_instances refine tdDotForward_safe ?_ ?_ ?_)

theorem tdDenseForward_safe {g : Nat → ℝ} {F O : Nat} {w b mIn mOut : Mat ℝ} (h_w : w.WF) (h_b : b.WF) (h_mIn : mIn.WF) (h_mOut : mOut.WF) :
    Safe (tdDenseForward g F O w b mIn mOut) := by
  unfold tdDenseForward; safe
macro_rules | `(tactic| safe_lemma) => `(tactic| with_reducible_and_instances refine tdDenseForward_safe ?_ ?_ ?_ ?_)

theorem tdDenseBackward_safe {g : Nat → ℝ} {dense first : Bool} {F O : Nat} {w mIn gOut : Mat ℝ} {old : Grads ℝ} (h_w : w.WF) (h_mIn : mIn.WF) (h_gOut : gOut.WF) (h_old : wf old) :
    Safe (tdDenseBackward g dense first F O w mIn gOut old) := by
  obtain ⟨h1, h2, h3⟩ := h_old
  unfold tdDenseBackward; safe
macro_rules | `(tactic| safe_lemma) => `(tactic| with_reducible_and_instances refine tdDenseBackward_safe ?_ ?_ ?_ ?_)

theorem sumGradient_safe {g : Nat → ℝ} {sum gw : Mat ℝ} (h_sum : sum.WF) (h_gw : gw.WF) :
    Safe (sumGradient g sum gw) := by
  unfold sumGradient; safe
macro_rules | `(tactic| safe_lemma) => `(tactic| with_reducible_and_instances refine sumGradient_safe ?_ ?_)

theorem convForward_safe {g : Nat → ℝ} {p : Conv} {fastLUT : Bool} {st : ConvState ℝ} {mIn mOut : Mat ℝ} (hs : wf st)
    (hi : mIn.WF) (ho : mOut.WF) : Safe (convForward g p fastLUT st mIn mOut) := by
  obtain ⟨h1, h2, h3, h4⟩ := hs
  unfold convForward
  dsimp only
  safe

theorem convBackward_safe {g : Nat → ℝ} {p : Conv} {fastLUT first : Bool} {st : ConvState ℝ} {mIn gOut gIn : Mat ℝ} (hs : wf st)
    (hi : mIn.WF) (ho : gOut.WF) (hg : gIn.WF) : Safe (convBackward g p fastLUT first st mIn gOut gIn) := by
  obtain ⟨h1, h2, h3, h4⟩ := hs
  unfold convBackward
  dsimp only
  safe

/-- The recurrent layers' state, with the saved values. -/
def RnnOk {W : Type} [HasWF W] (st : Rnn W ℝ) : Prop := wf st.w ∧ st.h.WF ∧ ∀ m ∈ st.saved, m.WF

instance {W : Type} [HasWF W] : HasWF (Rnn W ℝ) := ⟨RnnOk⟩

theorem rnnForward_safe {W : Type} [HasWF W] {g : Nat → ℝ} {F : Nat} {train : Bool} {init : Rnn W ℝ → Out (Rnn W ℝ)}
    {frame : Rnn W ℝ → Mat ℝ → Mat ℝ → Out (Rnn W ℝ × Mat ℝ)} {st : Rnn W ℝ} {mIn mOut : Mat ℝ}
    (hi : ∀ st, wf st → Safe (init st)) (hf : ∀ st x o, wf st → x.WF → o.WF → Safe (frame st x o)) (hs : wf st)
    (ho : mOut.WF) : Safe (rnnForward g F train init frame st mIn mOut) := by
  unfold rnnForward
  split
  · exact Safe.error _
  · refine Safe.bind_any fun _ => ?_
    refine Safe.bind ?_ (fun st hst => ?_)
    · unfold rnnStart
      split
      · exact hi _ hs
      · exact Safe.ok hs
    · refine Safe.forN2 ⟨hst, ho⟩ (fun i st o hst ho => ?_)
      refine Safe.bind Mat.colExtract_safe (fun x hx => ?_)
      refine Safe.bind2 (hf _ _ _ hst hx ho) (fun st o hst ho => ?_)
      dsimp only
      refine Safe.pure ⟨?_, ho⟩
      dsimp only
      split
      · refine ⟨hst.1, hst.2.1, ?_⟩
        intro m hm
        rcases List.mem_append.1 hm with h | h
        · exact hst.2.2 m h
        · rw [List.mem_singleton] at h
          rw [h]; exact hst.2.1
      · exact hst

theorem savedAt_safe {l : List (Mat ℝ)} {i : Nat} (h : ∀ m ∈ l, m.WF) : Safe (savedAt l i) := by
  unfold savedAt
  split
  · rename_i m hm
    exact Safe.ok (h m (List.mem_of_getElem? hm))
  · exact Safe.error _

theorem rnnBackward_safe {g : Nat → ℝ} {F : Nat} {frame : Mat ℝ → Mat ℝ → Mat ℝ → Mat ℝ → Mat ℝ × Mat ℝ → Out (Mat ℝ × Mat ℝ)}
    {saved : List (Mat ℝ)} {gw mIn gOut gIn : Mat ℝ}
    (hf : ∀ a b c d s, a.WF → b.WF → c.WF → d.WF → wf s → Safe (frame a b c d s)) (hs : ∀ m ∈ saved, m.WF)
    (h1 : gw.WF) (h2 : gOut.WF) (h3 : gIn.WF) : Safe (rnnBackward g F frame saved gw mIn gOut gIn) := by
  unfold rnnBackward
  split
  · exact Safe.error _
  · dsimp only
    refine Safe.bind (σ := Mat ℝ × Mat ℝ × Mat ℝ × Mat ℝ) ?_ ?_
    · refine Safe.forN ⟨h1, h3, h2, Mat.WF_empty⟩ ?_
      rintro i ⟨gw, gIn, gT, sum⟩ ⟨k1, k2, k3, k4⟩
      dsimp only
      refine Safe.bind (savedAt_safe hs) (fun a ha => ?_)
      refine Safe.bind (savedAt_safe hs) (fun b hb => ?_)
      refine Safe.bind Mat.colExtract_safe (fun x hx => ?_)
      refine Safe.bind2 (hf _ _ _ _ _ hx ha hb k3 ⟨k1, k2⟩) (fun u v hu hv => ?_)
      dsimp only
      safe
    · rintro ⟨a, b, c, d⟩ ⟨k1, k2, k3, k4⟩
      dsimp only
      safe

theorem simpleInit_safe {g : Nat → ℝ} {F U : Nat} {drawH drawX : Nat → ℝ} {st : Rnn (SimpleW ℝ) ℝ} (h : wf st) :
    Safe (simpleInit g F U drawH drawX st) := by
  obtain ⟨⟨a, b, c⟩, d, e⟩ := h
  unfold simpleInit
  safe
  simp

theorem simpleFrame_safe {g : Nat → ℝ} {th : ℝ → ℝ} {st : Rnn (SimpleW ℝ) ℝ} {mIn mOut : Mat ℝ} (h : wf st) (hi : mIn.WF)
    (ho : mOut.WF) : Safe (simpleFrame g th st mIn mOut) := by
  obtain ⟨⟨a, b, c⟩, d, e⟩ := h
  unfold simpleFrame
  safe

theorem simplestInit_safe {g : Nat → ℝ} {U : Nat} {draw : Nat → ℝ} {st : Rnn (Mat ℝ) ℝ} (h : wf st) :
    Safe (simplestInit g U draw st) := by
  obtain ⟨a, d, e⟩ := h
  change Mat.WF _ at a
  unfold simplestInit
  safe
  simp

theorem simplestFrame_safe {g : Nat → ℝ} {U : Nat} {st : Rnn (Mat ℝ) ℝ} {mIn mOut : Mat ℝ} (h : wf st) (hi : mIn.WF)
    (ho : mOut.WF) : Safe (simplestFrame g U st mIn mOut) := by
  obtain ⟨a, d, e⟩ := h
  change Mat.WF _ at a
  unfold simplestFrame
  dsimp only
  safe

theorem simplestBackFrame_safe {g : Nat → ℝ} {first : Bool} {w : Mat ℝ} {a mH mHm1 d : Mat ℝ} {s : Mat ℝ × Mat ℝ} (hs : wf s) :
    Safe (simplestBackFrame g first w a mH mHm1 d s) := by
  obtain ⟨s1, s2⟩ := hs
  unfold simplestBackFrame
  safe

end BeeDNN
