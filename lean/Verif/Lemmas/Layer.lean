import Verif.Spec.Layer
import Verif.Props.Conv
import Verif.Props.LayersMisc
import Verif.Lemmas.LayersRect
import Verif.Lemmas.Recurrent
import Verif.Lemmas.Softmax

/-! # Lemmas about layers as objects -/

namespace BeeDNN
open Finset

theorem winSel_eq_maxFrom (low : ℝ) (f : Nat → ℝ) (idx : Nat → Int) (n : Nat) :
    (winSel low f idx n).1 = maxFrom low n f := by
  induction n with
  | zero => rfl
  | succ n ih =>
    rw [maxFrom, List.range_succ, List.foldl_append, List.foldl_cons, List.foldl_nil, ← maxFrom, ← ih, winSel]
    split
    · rename_i h; rw [max_eq_right h.le]
    · rename_i h; rw [max_eq_left (not_lt.1 h)]

theorem ofFn_planes (N K R C : Nat) (f : Nat → Nat → Nat → Nat → ℝ) :
    imgMat N K R C f = Mat.ofFn N (R * C * K) (fun s => planes R C (f s)) := rfl

theorem ofFn_px (N K R C : Nat) (x : Nat → Row) :
    Mat.ofFn N (R * C * K) x = imgMat N K R C (fun s => px R C (x s)) := ofFn_eq_imgMat x

theorem Pool.create_inv {R C K rf cf : Nat} {p : Pool} (h : Pool.create R C K rf cf = .ok p) :
    0 < rf ∧ 0 < cf ∧ p = Pool.std R C K rf cf := by
  unfold Pool.create at h
  split at h
  · cases h
  · rename_i hh
    injection h with h
    refine ⟨by omega, by omega, h.symm⟩

theorem Conv.create_inv {R C K kR kC O rs cs : Nat} {p : Conv} (h : Conv.create R C K kR kC O rs cs = .ok p) :
    2 * (kR / 2) ≤ R ∧ 2 * (kC / 2) ≤ C ∧ p = Conv.std R C K kR kC O rs cs := by
  by_cases h0 : 2 * (kR / 2) ≤ R ∧ 2 * (kC / 2) ≤ C
  · rw [Conv.create_eq h0.1 h0.2] at h
    injection h with h
    exact ⟨h0.1, h0.2, h.symm⟩
  · rw [Conv.create, check, if_neg h0] at h
    cases h

theorem avg_sum (R C rf cf : Nat) (v : Row) (k r c : Nat) :
    accN (rf * cf) (fun t => px R C v k (r * rf + t / cf) (c * cf + t % cf)) =
      ∑ i ∈ range rf, ∑ j ∈ range cf, px R C v k (r * rf + i) (c * cf + j) := by
  rw [accN_eq_sum, sum_range_mul rf cf (fun i j => px R C v k (r * rf + i) (c * cf + j))]

/-- Outcome of `forward` in test mode: the stated output for the whole batch, and a layer that keeps computing the
same function. -/
theorem Layer.forward_row {l : Layer} {C C' : Nat} {φ : Row → Row} (h : LayerRow l C C' φ) (ht : l.train = false)
    (e : Env) (N : Nat) (x : Nat → Row) {mOut : Mat ℝ} (ho : mOut.WF) :
    ∃ l', l.forward e (Mat.ofFn N C x) mOut = .ok (l', Mat.ofFn N C' (fun s => φ (x s))) ∧
      LayerRow l' C C' φ ∧ l'.train = false := by
  cases h with
  | dense i o _ _ w b hk hw hb =>
    refine ⟨l, ?_, .dense i o _ _ w b hk hw hb, ht⟩
    simp only [Layer.forward, hk, hw, hb, denseForward_ofFn e.g N _ _ x w b ho, bind_ok', pure_ok, accN_eq_sum]
  | dot i o _ _ w hk hw =>
    refine ⟨l, ?_, .dot i o _ _ w hk hw, ht⟩
    simp only [Layer.forward, hk, hw, dotForward_ofFn e.g N _ _ x w ho, bind_ok', pure_ok, accN_eq_sum]
  | bias _ hC b hk hb =>
    refine ⟨l, ?_, .bias _ hC b hk hb, ht⟩
    have h0 : ¬ (Mat.ofFn 1 C b).size = 0 := by simp; omega
    simp only [Layer.forward, hk, Layer.lazyBias, hb, if_neg h0, bind_ok', biasForward_ofFn e.g _ N C hC x b ho, pure_ok]
    rw [← hb, ← hk]
  | biasNew _ hC c hk hb hi =>
    refine ⟨{ l with bias := Mat.ofFn 1 C (fun _ _ => c) }, ?_, .bias C hC (fun _ _ => c) hk rfl, ht⟩
    have h0 : (⟨0, 0, []⟩ : Mat ℝ).size = 0 := rfl
    have hcomp : initCompute e.g e.draw l.bInit ⟨0, 0, []⟩ 1 C = .ok (Mat.ofFn 1 C (fun _ _ => c)) := by
      rcases hi with ⟨hi, rfl⟩ | ⟨hi, rfl⟩ <;> rw [hi] <;> simp [initCompute, Mat.setConstantRC_ofFn e.g (m := ⟨0, 0, []⟩) rfl]
    simp only [Layer.forward, hk, Layer.lazyBias, hb, if_pos h0, Mat.ofFn_cols, hcomp, bind_ok',
      biasForward_ofFn e.g _ N C hC x _ ho, pure_ok]
  | gain _ hC w hk hw =>
    refine ⟨l, ?_, .gain _ hC w hk hw, ht⟩
    simp only [Layer.forward, hk, hw, gainForward_ofFn e.g N C hC x w ho, bind_ok', pure_ok]
    rw [← hw, ← hk]
  | gainNew _ hC hk hw =>
    refine ⟨{ l with weight := Mat.ofFn 1 C (fun _ _ => 1) }, ?_, .gain C hC (fun _ _ => 1) hk rfl, ht⟩
    simp only [Layer.forward, hk, hw, gainForward_first e.g N C x (w := ⟨0, 0, []⟩) rfl rfl ho, bind_ok', pure_ok]
  | affine _ hC w b hk hw hb =>
    refine ⟨l, ?_, .affine _ hC w b hk hw hb, ht⟩
    simp only [Layer.forward, hk, hw, hb, affineForward_ofFn e.g N C hC x w b ho, bind_ok', pure_ok]
    rw [← hw, ← hb, ← hk]
  | affineNew _ hC hk hw hb =>
    refine ⟨{ l with weight := Mat.ofFn 1 C (fun _ _ => 1), bias := Mat.ofFn 1 C (fun _ _ => 0) }, ?_,
      .affine C hC (fun _ _ => 1) (fun _ _ => 0) hk rfl rfl, ht⟩
    simp only [Layer.forward, hk, hw, hb,
      affineForward_first e.g N C x (w := ⟨0, 0, []⟩) (b := ⟨0, 0, []⟩) rfl rfl rfl ho, bind_ok', pure_ok]
  | globalBias _ b hk hb =>
    refine ⟨l, ?_, .globalBias _ b hk hb, ht⟩
    simp only [Layer.forward, hk, hb, globalBiasForward_ofFn e.g N C x b ho, bind_ok', pure_ok]
  | globalGain _ w hk hw =>
    refine ⟨l, ?_, .globalGain _ w hk hw, ht⟩
    simp only [Layer.forward, hk, hw, globalGainForward_ofFn e.g N C x w ho, bind_ok', pure_ok]
  | globalAffine _ w b hk hw hb =>
    refine ⟨l, ?_, .globalAffine _ w b hk hw hb, ht⟩
    simp only [Layer.forward, hk, hw, hb, globalAffineForward_ofFn e.g N C x w b ho, bind_ok', pure_ok]
  | channelBias R C K b hk hb =>
    refine ⟨l, ?_, .channelBias R C K b hk hb, ht⟩
    simp only [Layer.forward, hk, hb, channelBiasForward_ofFn e.g N K R C x b ho, bind_ok', pure_ok]
  | activation _ a hk s ha =>
    refine ⟨l, ?_, .activation _ a hk s ha, ht⟩
    simp only [Layer.forward, hk, activationForward_ofFn e.g a.apply N C x ho, bind_ok', pure_ok]
  | softmax _ hk =>
    refine ⟨l, ?_, .softmax _ hk, ht⟩
    simp only [Layer.forward, hk, softmaxForward_ofFn e.g N C x ho, bind_ok', pure_ok]
  | softmin _ hk =>
    refine ⟨l, ?_, .softmin _ hk, ht⟩
    simp only [Layer.forward, hk, softminForward_ofFn e.g N C x ho, bind_ok', pure_ok]
  | maxPool R C K rf cf p hk hp hm =>
    refine ⟨l, ?_, .maxPool R C K rf cf p hk hp hm, ht⟩
    obtain ⟨h1, h2, rfl⟩ := Pool.create_inv hp
    have := maxPoolForward_imgMat (N := N) (K := K) (R := R) (C := C) (rf := rf) (cf := cf) e.g e.gi e.fl Layer.low false
      (fun s => px R C (x s)) ho hm
    rw [ofFn_px]
    simp only [Layer.forward, hk, ht, this, bind_ok', pure_ok, winSel_eq_maxFrom, Bool.false_eq_true, if_false]
    rw [← ht, ← hk]
    rfl
  | globalMaxPool R C _ hk hm =>
    refine ⟨l, ?_, .globalMaxPool R C C' hk hm, ht⟩
    have := globalMaxPoolForward_imgMat (N := N) (K := C') (R := R) (C := C) e.g e.gi e.fl Layer.low false
      (fun s => px R C (x s)) ho hm
    rw [ofFn_px]
    simp only [Layer.forward, hk, ht, this, bind_ok', pure_ok, winSel_eq_maxFrom, Bool.false_eq_true, if_false]
    rw [← ht, ← hk]
  | avgPool R C K rf cf p hk hp =>
    refine ⟨l, ?_, .avgPool R C K rf cf p hk hp, ht⟩
    obtain ⟨h1, h2, rfl⟩ := Pool.create_inv hp
    rw [ofFn_px]
    simp only [Layer.forward, hk, avgPoolForward_imgMat e.g (fun s => px R C (x s)) ho, bind_ok', pure_ok, avg_sum]
    rfl
  | globalAvgPool R C _ hk =>
    refine ⟨l, ?_, .globalAvgPool R C C' hk, ht⟩
    rw [ofFn_px]
    simp only [Layer.forward, hk, globalAvgPoolForward_imgMat e.g (fun s => px R C (x s)) ho, bind_ok', pure_ok]
    congr 3
    funext s k
    rw [accN_eq_sum, ← sum_range_mul R C (fun r c => px R C (x s) k r c)]
  | zeroPad R C K b hk =>
    refine ⟨l, ?_, .zeroPad R C K b hk, ht⟩
    rw [ofFn_px]
    simp only [Layer.forward, hk, zeroPadForward_imgMat e.g (fun s => px R C (x s)) ho, bind_ok', pure_ok]
    rfl
  | conv R C K kR kC O rs cs p w hk hp hw h1 h2 h3 =>
    obtain ⟨c1, c2, rfl⟩ := Conv.create_inv hp
    obtain ⟨st', hok, hs, -, hgw, hf⟩ := convForward_eq (N := N) (rs := rs) (cs := cs) e.g l.fastLUT c1 c2
      (fun s => px R C (x s)) w (st := ⟨l.samples, l.im2colT, l.tempImg, l.weight, l.gradWeight⟩) ⟨h1, h2, hw, h3⟩ ho
    refine ⟨{ l with samples := st'.samples, im2colT := st'.im2colT, tempImg := st'.tempImg
                     weight := st'.weight, gradWeight := st'.gradientWeight }, ?_,
      .conv R C K kR kC O rs cs _ w hk hp hok.weight hok.col hok.tmp hok.grad, ht⟩
    rw [ofFn_px]
    simp only [Layer.forward, hk, hf, bind_ok', pure_ok]
    congr 2
    refine Eq.trans ?_ (ofFn_planes N O (convOutSize R kR rs) (convOutSize C kC cs) _)
    apply imgMat_congr
    intro s o r c _ _ hr hc
    rw [accN_eq_sum]
    exact crossCorr_flat _ _ w _ s o hr hc
  | dropout _ rate hk =>
    refine ⟨l, ?_, .dropout _ rate hk, ht⟩
    simp only [Layer.forward, hk, ht, dropoutForward_test e.g e.lim false rate (.inl rfl) e.rng ho N C x, bind_ok', pure_ok]
    rw [← ht, ← hk]
  | gaussianDropout _ p hk =>
    refine ⟨l, ?_, .gaussianDropout _ p hk, ht⟩
    have h0 : ¬ (false = true) := by decide
    simp only [Layer.forward, hk, ht, gaussianDropoutForward, if_neg h0, Mat.assign_ofFn e.g ho, bind_ok', pure_ok]
    rw [← ht, ← hk]
  | gaussianNoise _ n hk =>
    refine ⟨l, ?_, .gaussianNoise _ n hk, ht⟩
    simp only [Layer.forward, hk, ht, noiseForward_ofFn e.g false n e.draw ho, bind_ok', pure_ok]
    simp
  | uniformNoise _ n hk =>
    refine ⟨l, ?_, .uniformNoise _ n hk, ht⟩
    simp only [Layer.forward, hk, ht, noiseForward_ofFn e.g false n e.draw ho, bind_ok', pure_ok]
    simp
  | crelu n hk =>
    refine ⟨l, ?_, .crelu C hk, ht⟩
    have := C40_forward e.g mOut ho N C x
    simp only [Layer.forward, hk, this, bind_ok', pure_ok]
  | gated n a1 a2 hk s1 s2 h1 h2 =>
    refine ⟨l, ?_, .gated C' a1 a2 hk s1 s2 h1 h2, ht⟩
    have hc : (Mat.ofFn N (2 * C') x).cols % 2 = 0 := by rw [Mat.ofFn_cols]; omega
    simp only [Layer.forward, hk, Layer.gatedFwd, check_true hc, bind_ok', Layer.gatedFns,
      gatedForward_ofFn e.g _ _ ho]
    split
    · rename_i h0
      simp only [bind_ok', pure_ok]
      congr 2
      apply Mat.ofFn_congr
      intro i j hi hj
      exfalso
      have : N * (2 * C') = 0 := by simpa using h0
      rcases Nat.mul_eq_zero.1 this with h | h <;> omega
    · rfl
  | prelu _ hC w hk hw =>
    refine ⟨l, ?_, .prelu _ hC w hk hw, ht⟩
    simp only [Layer.forward, hk, hw, preluForward_ofFn e.g ho N C hC x w, bind_ok', pure_ok]
    rw [← hw, ← hk]
  | preluNew _ hC hk hw =>
    refine ⟨{ l with weight := Mat.ofFn 1 C (fun _ _ => 0.25), gradWeight := l.gradWeight.resize e.g 1 C }, ?_,
      .prelu C hC (fun _ _ => 0.25) hk rfl, ht⟩
    simp only [Layer.forward, hk, hw, preluForward_first e.g (w := ⟨0, 0, []⟩) rfl rfl ho N C hC x, bind_ok', pure_ok]
  | pelu _ hC w hk hw =>
    refine ⟨l, ?_, .pelu _ hC w hk hw, ht⟩
    simp only [Layer.forward, hk, hw, peluForward_ofFn e.g ho N C hC x w, bind_ok', pure_ok]
    rw [← hw, ← hk]
  | peluNew _ hC hk hw =>
    refine ⟨{ l with weight := Mat.ofFn 2 C (fun _ _ => 1), gradWeight := l.gradWeight.resize e.g 2 C }, ?_,
      .pelu C hC (fun _ _ => 1) hk rfl, ht⟩
    simp only [Layer.forward, hk, hw, peluForward_first e.g (w := ⟨0, 0, []⟩) rfl rfl ho N C hC x, bind_ok', pure_ok]
  | terelu _ hC w hk hw =>
    refine ⟨l, ?_, .terelu _ hC w hk hw, ht⟩
    simp only [Layer.forward, hk, hw, tereluForward_ofFn e.g 1 1 ho N C hC x w, bind_ok', pure_ok]
    rw [← hw, ← hk]
  | tereluNew _ hC hk hw =>
    refine ⟨{ l with weight := Mat.ofFn 1 C (fun _ _ => 1), gradWeight := l.gradWeight.resize e.g 1 C }, ?_,
      .terelu C hC (fun _ _ => 1) hk rfl, ht⟩
    simp only [Layer.forward, hk, hw, tereluForward_first e.g 1 1 (w := ⟨0, 0, []⟩) rfl rfl ho N C hC x, bind_ok', pure_ok]
  | rrelu _ a1 a2 hk =>
    refine ⟨l, ?_, .rrelu _ a1 a2 hk, ht⟩
    simp only [Layer.forward, hk, ht, rreluForward_test e.g a1 a2 e.draw ho N C x, bind_ok', pure_ok]
    rw [← ht, ← hk]
  | tdBias T F hF b hk hb =>
    refine ⟨l, ?_, .tdBias T F hF b hk hb, ht⟩
    simp only [Layer.forward, hk, hb, tdBiasForward_ofFn e.g ho N T F hF b x, bind_ok', pure_ok]
  | tdDot T F O hF w hk hw =>
    refine ⟨l, ?_, .tdDot T F O hF w hk hw, ht⟩
    simp only [Layer.forward, hk, hw, tdDotForward_ofFn e.g ho N T F O hF w x, bind_ok', pure_ok, accN_eq_sum]
  | tdDense T F O hF w b hk hw hb =>
    refine ⟨l, ?_, .tdDense T F O hF w b hk hw hb, ht⟩
    simp only [Layer.forward, hk, hw, hb, tdDenseForward_ofFn e.g ho N T F O hF w b x, bind_ok', pure_ok, accN_eq_sum]

end BeeDNN
