import Verif.Lemmas.LayerClone

/-! # A clone computes what the original computes -/

namespace BeeDNN
open Finset

/-- The specification of a layer carries over to its clone. -/
theorem LayerRow.of_clone {l p : Layer} {C C' : Nat} {φ : Row → Row} (h : LayerRow l C C' φ) (hp : l.CloneOk p) :
    LayerRow p C C' φ := by
  obtain ⟨pv, ⟨ek, ew, eb, -, -, -⟩, -, -, ei, -, -⟩ := hp
  cases h with
  | dense i o _ _ w b hk hw hb => exact .dense i o _ _ w b (ek.trans hk) (ew.trans hw) (eb.trans hb)
  | dot i o _ _ w hk hw => exact .dot i o _ _ w (ek.trans hk) (ew.trans hw)
  | bias _ hC b hk hb => exact .bias _ hC b (ek.trans hk) (eb.trans hb)
  | biasNew _ hC c hk hb hi => exact .biasNew _ hC c (ek.trans hk) (eb.trans hb) (by rw [ei hk]; exact hi)
  | gain _ hC w hk hw => exact .gain _ hC w (ek.trans hk) (ew.trans hw)
  | gainNew _ hC hk hw => exact .gainNew _ hC (ek.trans hk) (ew.trans hw)
  | affine _ hC w b hk hw hb => exact .affine _ hC w b (ek.trans hk) (ew.trans hw) (eb.trans hb)
  | affineNew _ hC hk hw hb => exact .affineNew _ hC (ek.trans hk) (ew.trans hw) (eb.trans hb)
  | globalBias _ b hk hb => exact .globalBias _ b (ek.trans hk) (eb.trans hb)
  | globalGain _ w hk hw => exact .globalGain _ w (ek.trans hk) (ew.trans hw)
  | globalAffine _ w b hk hw hb => exact .globalAffine _ w b (ek.trans hk) (ew.trans hw) (eb.trans hb)
  | channelBias R C K b hk hb => exact .channelBias R C K b (ek.trans hk) (eb.trans hb)
  | activation _ a hk s ha => exact .activation _ a (ek.trans hk) s ha
  | softmax _ hk => exact .softmax _ (ek.trans hk)
  | softmin _ hk => exact .softmin _ (ek.trans hk)
  | maxPool R C K rf cf q hk hq hm => exact .maxPool R C K rf cf q (ek.trans hk) hq pv.maxIndex
  | globalMaxPool R C K hk hm => exact .globalMaxPool R C _ (ek.trans hk) pv.maxIndex
  | avgPool R C K rf cf q hk hq => exact .avgPool R C K rf cf q (ek.trans hk) hq
  | globalAvgPool R C K hk => exact .globalAvgPool R C _ (ek.trans hk)
  | zeroPad R C K b hk => exact .zeroPad R C K b (ek.trans hk)
  | conv R C K kR kC O rs cs q w hk hq hw h1 h2 h3 =>
    exact .conv R C K kR kC O rs cs q w (ek.trans hk) hq (ew.trans hw) pv.im2colT pv.tempImg pv.gradWeight
  | dropout _ rate hk => exact .dropout _ rate (ek.trans hk)
  | gaussianDropout _ q hk => exact .gaussianDropout _ q (ek.trans hk)
  | gaussianNoise _ n hk => exact .gaussianNoise _ n (ek.trans hk)
  | uniformNoise _ n hk => exact .uniformNoise _ n (ek.trans hk)
  | crelu n hk => exact .crelu _ (ek.trans hk)
  | gated n a1 a2 hk s1 s2 h1 h2 => exact .gated _ a1 a2 (ek.trans hk) s1 s2 h1 h2
  | prelu _ hC w hk hw => exact .prelu _ hC w (ek.trans hk) (ew.trans hw)
  | preluNew _ hC hk hw => exact .preluNew _ hC (ek.trans hk) (ew.trans hw)
  | pelu _ hC w hk hw => exact .pelu _ hC w (ek.trans hk) (ew.trans hw)
  | peluNew _ hC hk hw => exact .peluNew _ hC (ek.trans hk) (ew.trans hw)
  | terelu _ hC w hk hw => exact .terelu _ hC w (ek.trans hk) (ew.trans hw)
  | tereluNew _ hC hk hw => exact .tereluNew _ hC (ek.trans hk) (ew.trans hw)
  | rrelu _ a1 a2 hk => exact .rrelu _ a1 a2 (ek.trans hk)
  | tdBias T F hF b hk hb => exact .tdBias T F hF b (ek.trans hk) (eb.trans hb)
  | tdDot T F O hF w hk hw => exact .tdDot T F O hF w (ek.trans hk) (ew.trans hw)
  | tdDense T F O hF w b hk hw hb => exact .tdDense T F O hF w b (ek.trans hk) (ew.trans hw) (eb.trans hb)

/-- `rnnForward` in test mode does not look at the saved states. -/
theorem rnnForward_saved {W : Type} (g : Nat → ℝ) (F : Nat) (init : Rnn W ℝ → Out (Rnn W ℝ))
    (frame : Rnn W ℝ → Mat ℝ → Mat ℝ → Out (Rnn W ℝ × Mat ℝ)) (w : W) (h : Mat ℝ) (s s' : List (Mat ℝ)) (mIn mOut : Mat ℝ)
    (hinit : init ⟨w, h, s⟩ = init ⟨w, h, s'⟩) :
    (rnnForward g F false init frame ⟨w, h, s⟩ mIn mOut).map Prod.snd =
      (rnnForward g F false init frame ⟨w, h, s'⟩ mIn mOut).map Prod.snd := by
  unfold rnnForward
  split
  · rfl
  · rename_i hF
    by_cases hm : mIn.cols % F = 0
    · rw [check_true hm, bind_ok', bind_ok']
      unfold rnnStart
      by_cases hs : mIn.size ≠ F ∨ false = true
      · rw [if_pos hs, if_pos hs, hinit]
      · rw [if_neg hs, if_neg hs, bind_ok', bind_ok']
        have hz : mIn.size = F := by
          by_contra h'
          exact hs (.inl h')
        have hc : mIn.cols / F - 1 = 0 := by
          have h1 : mIn.rows * mIn.cols = F := hz
          have h2 : mIn.cols ∣ F := ⟨mIn.rows, by rw [← h1, Nat.mul_comm]⟩
          have := Nat.le_of_dvd (Nat.pos_of_ne_zero hF) h2
          have := Nat.div_le_div_right (c := F) this
          rw [Nat.div_self (Nat.pos_of_ne_zero hF)] at this
          omega
        rw [hc]
        rfl
    · rw [check, if_neg hm]
      rfl

theorem flipForward_mask (g : Nat → ℝ) (H W K : Nat) (rng : Nat → Nat) {m m' : Mat ℝ} (hm : m.WF) (hm' : m'.WF)
    (mIn mOut : Mat ℝ) :
    flipForward g H W K false rng m mIn mOut = flipForward g H W K false rng m' mIn mOut := by
  obtain ⟨d, hd⟩ := Mat.resize_ofFn g hm mIn.rows 1
  obtain ⟨d', hd'⟩ := Mat.resize_ofFn g hm' mIn.rows 1
  unfold flipForward
  simp only [hd, hd', Mat.setQuickBernoulli_ofFn, Bool.false_eq_true, if_false]

end BeeDNN
