import Verif.Lemmas.Conv
import Verif.Props.Pooling

/-!
# Convolution layer (claims C33 – C36)

`imgMat N K R C x` is a batch of `N` samples with `K` channels of `R × C` pixels (every well-formed matrix of
that size is of this form, `exists_imgMat`).  The layer has `O` output channels, kernels of `kR × kC` and strides
`rs`, `cs`.  `st` is the state of the layer before the call (anything well-formed), `w` its weights, `mOut`,
`mGI` the previous contents of the matrices that are overwritten, `g` fresh memory, `fast` the member
`fastLUT`, `first` the member `_bFirstLayer`.

The kernels must fit into the image in the sense of the source: `2 * (kR / 2) ≤ R`, `2 * (kC / 2) ≤ C`.
-/

namespace BeeDNN
open Finset

variable {α : Type} {N R C K kR kC O rs cs : Nat}

/-! ## C33 -/

/-- C33: for every geometry whose kernels fit, both passes and both paths run without any fault, for arbitrary
scalar operations (also rounded ones).  Nothing in the results depends on the fresh memory `g`, the old
contents of the overwritten matrices or the old state: every output is written. -/
theorem C33_memory_safe [Zero α] [One α] [Add α] [Mul α] [Div α] [NatCast α]
    (h1 : 2 * (kR / 2) ≤ R) (h2 : 2 * (kC / 2) ≤ C) (fast first : Bool)
    (x : Nat → Nat → Nat → Nat → α) (w : Nat → Nat → α) :
    ∃ p, Conv.create R C K kR kC O rs cs = .ok p ∧ ∃ y, ∀ gr, ∃ G d,
      ∀ (g g' : Nat → α) (st : ConvState α) (mOut mGI : Mat α), st.im2colT.WF → st.tempImg.WF →
        st.gradientWeight.WF → st.weight = Mat.ofFn O (kR * kC * K) w → mOut.WF → mGI.WF →
        ∃ st' st'', convForward g p fast st (imgMat N K R C x) mOut =
            .ok (st', imgMat N O p.outRows p.outCols y) ∧
          convBackward g' p fast first st' (imgMat N K R C x) (imgMat N O p.outRows p.outCols gr) mGI =
            .ok (st'', if first then mGI else imgMat N K R C d) ∧
          st''.gradientWeight = Mat.ofFn O (kR * kC * K) G ∧ st''.weight = st.weight := by
  refine ⟨_, Conv.create_eq h1 h2, fun s o r c => accN (kR * kC * K) (fun j => w o j *
    colFn (convOutSize R kR rs) (convOutSize C kC cs) kR kC rs cs x
      (s * (convOutSize R kR rs * convOutSize C kC cs) + (r * convOutSize C kC cs + c)) j), fun gr => ?_⟩
  obtain ⟨d1, hd1⟩ := col2im_ok (N := N) (K := K) (O := O) (rs := rs) (cs := cs) h1 h2
    (convGradCol O (convOutSize R kR rs) (convOutSize C kC cs) w gr)
  obtain ⟨d2, hd2⟩ := col2imLUT_ok (N := N) (K := K) (O := O) (rs := rs) (cs := cs) h1 h2
    (convGradCol O (convOutSize R kR rs) (convOutSize C kC cs) w gr)
  refine ⟨convGradW N (convOutSize R kR rs) (convOutSize C kC cs) kR kC rs cs x gr,
    if fast then d2 else d1, fun g g' st mOut mGI c1 c2 c3 c4 c5 c6 => ?_⟩
  obtain ⟨st', ok, hs, hcol, -, hf⟩ := convForward_eq (N := N) (rs := rs) (cs := cs) g fast h1 h2 x w
    (st := st) ⟨c1, c2, c4, c3⟩ c5
  obtain ⟨st'', ok', hgw, hb⟩ := convBackward_gen (D := if fast then d2 else d1) (mGI := mGI) g' fast first x gr w
    ok hs hcol (by
      cases fast
      · exact hd1 g' mGI c6
      · exact hd2 g' mGI c6)
  exact ⟨st', st'', hf, hb, hgw, ok'.weight.trans c4.symm⟩

/-- Non-trivial instance of C33: a 5 × 4 image with 2 channels, 3 × 2 kernels, strides 2 and 3. -/
example : ∃ p, Conv.create 5 4 2 3 2 3 2 3 = .ok p ∧ p.outRows = 2 ∧ p.outCols = 1 :=
  ⟨_, Conv.create_eq (by decide) (by decide), by decide, by decide⟩

/-! ## C34 -/

/-- C34, forward: the column matrices of the two paths, and hence the whole forward passes (with the resulting
states), are the same for every content and arbitrary scalar operations. -/
theorem C34_forward [Zero α] [Add α] [Mul α] (h1 : 2 * (kR / 2) ≤ R) (h2 : 2 * (kC / 2) ≤ C)
    (x : Nat → Nat → Nat → Nat → α) (g : Nat → α) {st : ConvState α} (c1 : st.im2colT.WF) (mOut : Mat α) :
    ∃ p, Conv.create R C K kR kC O rs cs = .ok p ∧
      (∃ col, im2col g p (imgMat N K R C x) st.im2colT = .ok col ∧
        im2colLUT g p (imgMat N K R C x) st.im2colT = .ok col) ∧
      convForward g p true st (imgMat N K R C x) mOut = convForward g p false st (imgMat N K R C x) mOut := by
  have : Inhabited α := ⟨0⟩
  have e1 := im2col_eq (N := N) (K := K) (O := O) (rs := rs) (cs := cs) g h1 h2 x c1
  have e2 := im2colLUT_eq (N := N) (K := K) (O := O) (rs := rs) (cs := cs) g h1 h2 x c1
  refine ⟨_, Conv.create_eq h1 h2, ⟨_, e1, e2⟩, ?_⟩
  rw [convForward, convForward, if_pos rfl, if_neg (by decide), e1, e2]

/-- C34, backward, for exact arithmetic (commutative and associative addition): the two paths of the
back-transform give the same result.  Partial: the two paths add the contributions to one pixel in opposite orders,
so with rounded additions they differ (`C34_backward_rounding`). -/
theorem C34_backward_partial [AddCommMonoid α] [One α] [Mul α] [Div α] [NatCast α]
    (h1 : 2 * (kR / 2) ≤ R) (h2 : 2 * (kC / 2) ≤ C) (col : Nat → Nat → α) (g : Nat → α) {mIm : Mat α}
    (hm : mIm.WF) :
    ∃ p, Conv.create R C K kR kC O rs cs = .ok p ∧ ∃ d,
      col2im g p N (Mat.ofFn (kR * kC * K) (p.outRows * p.outCols * N) col) mIm = .ok (imgMat N K R C d) ∧
      col2imLUT g p N (Mat.ofFn (kR * kC * K) (p.outRows * p.outCols * N) col) mIm = .ok (imgMat N K R C d) :=
  ⟨_, Conv.create_eq h1 h2, _, col2im_eq g h1 h2 col hm, col2imLUT_eq g h1 h2 col hm⟩

/-- Numbers with a bounded range, as an example of an addition that is commutative but not associative
(the behaviour of floating-point addition that matters for `C34_backward_rounding`). -/
structure Sat where
  val : Int
  deriving DecidableEq, Repr

instance : Zero Sat := ⟨⟨0⟩⟩
instance : One Sat := ⟨⟨1⟩⟩
instance : Add Sat := ⟨fun a b => ⟨max (-10) (min 10 (a.val + b.val))⟩⟩
instance : Mul Sat := ⟨fun a b => ⟨max (-10) (min 10 (a.val * b.val))⟩⟩
instance : Div Sat := ⟨fun a _ => a⟩
instance : NatCast Sat := ⟨fun n => ⟨min 10 n⟩⟩

/-- C34 fails for additions that are not associative: the two back-transforms of one column matrix differ,
on a 1 × 5 image with a 1 × 3 kernel. -/
theorem C34_backward_rounding :
    (∀ a b : Sat, a + b = b + a) ∧
    ∃ p, Conv.create 1 5 1 1 3 1 1 1 = .ok p ∧
      ∃ (col : Mat Sat) (d d' : Mat Sat), col2im (fun _ => 0) p 1 col ⟨0, 0, []⟩ = .ok d ∧
        col2imLUT (fun _ => 0) p 1 col ⟨0, 0, []⟩ = .ok d' ∧ d ≠ d' := by
  refine ⟨fun a b => ?_, _, Conv.create_eq (by decide) (by decide),
    ⟨3, 3, [⟨0⟩, ⟨0⟩, ⟨-10⟩, ⟨0⟩, ⟨10⟩, ⟨0⟩, ⟨10⟩, ⟨0⟩, ⟨0⟩]⟩, ⟨1, 5, [⟨0⟩, ⟨0⟩, ⟨0⟩, ⟨0⟩, ⟨0⟩]⟩,
    ⟨1, 5, [⟨0⟩, ⟨0⟩, ⟨10⟩, ⟨0⟩, ⟨0⟩]⟩, ?_, ?_, ?_⟩
  · show Sat.mk _ = Sat.mk _
    rw [Int.add_comm]
  · decide +kernel
  · decide +kernel
  · decide +kernel

/-! ## C35 -/

theorem sum_flat3 [AddCommMonoid α] (K kR kC : Nat) (f : Nat → α) :
    ∑ j ∈ range (kR * kC * K), f j =
      ∑ ch ∈ range K, ∑ kr ∈ range kR, ∑ kc ∈ range kC, f (ch * (kR * kC) + (kr * kC + kc)) := by
  have h1 := sum_range_mul (α := α) K (kR * kC) (fun a b => f (a * (kR * kC) + b))
  simp only [Nat.div_add_mod'] at h1
  rw [Nat.mul_comm (kR * kC) K, h1]
  refine sum_congr rfl fun ch _ => ?_
  have h2 := sum_range_mul (α := α) kR kC (fun a b => f (ch * (kR * kC) + (a * kC + b)))
  simp only [Nat.div_add_mod'] at h2
  exact h2

theorem crossCorr_flat [AddCommMonoid α] [Mul α] (oR oC : Nat) (w : Nat → Nat → α) (x : Nat → Nat → Nat → Nat → α)
    (s o : Nat) {r c : Nat} (hr : r < oR) (hc : c < oC) :
    ∑ j ∈ range (kR * kC * K), w o j * colFn oR oC kR kC rs cs x (s * (oR * oC) + (r * oC + c)) j =
      crossCorr K kR kC rs cs w x s o r c := by
  rw [sum_flat3, crossCorr]
  refine sum_congr rfl fun ch _ => sum_congr rfl fun kr hkr => sum_congr rfl fun kc hkc => ?_
  have a := idx_lt (mem_range.1 hkr) (mem_range.1 hkc)
  have b := idx_lt hr hc
  rw [colFn, idx_div b, idx_mod b, idx_div a, idx_mod a, idx_div hc, idx_mod hc, idx_div (mem_range.1 hkc),
    idx_mod (mem_range.1 hkc)]

/-- C35: for every geometry, batch and weights, each output pixel is the sum over the input channels and kernel
positions of weight times input pixel. -/
theorem C35_cross_correlation [AddCommMonoid α] [Mul α] (h1 : 2 * (kR / 2) ≤ R)
    (h2 : 2 * (kC / 2) ≤ C) (fast : Bool) (x : Nat → Nat → Nat → Nat → α) (w : Nat → Nat → α) (g : Nat → α)
    {st : ConvState α} {mOut : Mat α} (c1 : st.im2colT.WF) (c2 : st.tempImg.WF) (c3 : st.gradientWeight.WF)
    (hw : st.weight = Mat.ofFn O (kR * kC * K) w) (hm : mOut.WF) :
    ∃ p y st', Conv.create R C K kR kC O rs cs = .ok p ∧
      convForward g p fast st (imgMat N K R C x) mOut = .ok (st', imgMat N O p.outRows p.outCols y) ∧
      ∀ s o r c, s < N → o < O → r < p.outRows → c < p.outCols → y s o r c =
        ∑ ch ∈ range K, ∑ kr ∈ range kR, ∑ kc ∈ range kC,
          w o (ch * (kR * kC) + (kr * kC + kc)) * x s ch (r * rs + kr) (c * cs + kc) := by
  obtain ⟨st', -, -, -, -, hf⟩ := convForward_eq (N := N) (rs := rs) (cs := cs) g fast h1 h2 x w
    (st := st) ⟨c1, c2, hw, c3⟩ hm
  refine ⟨_, _, st', Conv.create_eq h1 h2, hf, ?_⟩
  intro s o r c _ _ hr hc
  rw [accN_eq_sum]
  exact crossCorr_flat _ _ w x s o hr hc

/-- C35, output sizes: for odd kernels that fit, the output is that of a valid correlation at strides 1 and 2 (and
never larger for other strides). -/
theorem C35_output_size {n k : Nat} (hk : k % 2 = 1) (hn : k ≤ n) :
    convOutSize n k 1 = n - k + 1 ∧ convOutSize n k 2 = (n - k) / 2 + 1 ∧
      ∀ st, 1 < st → convOutSize n k st ≤ (n - k) / st + 1 := by
  refine ⟨?_, ?_, ?_⟩
  · simp only [convOutSize]
    rw [if_neg (by decide)]
    omega
  · simp only [convOutSize]
    rw [if_pos (by decide)]
    omega
  · intro st hst
    simp only [convOutSize]
    rw [if_pos hst]
    have e : n - 2 * (k / 2) + 1 = (n - k) + 2 := by omega
    rw [e, ← Nat.add_div_right _ (by omega)]
    exact Nat.div_le_div_right (by omega)

/-- At stride 3 the layer drops positions that a valid correlation has. -/
theorem C35_stride_three : convOutSize 4 1 3 = 1 ∧ (4 - 1) / 3 + 1 = 2 := by decide

/-- Non-trivial instance of C35: a 3 × 3 image and one 3 × 3 kernel. -/
example : (convForward (fun _ => (0 : Int)) (Conv.std 3 3 1 3 3 1 1 1) true
    ⟨0, ⟨0, 0, []⟩, ⟨0, 0, []⟩, ⟨1, 9, [1, 2, 3, 4, 5, 6, 7, 8, 9]⟩, ⟨0, 0, []⟩⟩
    ⟨1, 9, [1, 0, 0, 0, 1, 0, 0, 0, 2]⟩ ⟨0, 0, []⟩).map (·.2) = .ok ⟨1, 1, [24]⟩ := by decide +kernel

/-! ## C36 -/

theorem dotI_sum_left {ι : Type} (A : Finset ι) (h : ι → Nat → Nat → Nat → Nat → ℝ) (V : Nat → Nat → Nat → Nat → ℝ) :
    dotI N K R C (fun s k r c => ∑ a ∈ A, h a s k r c) V = ∑ a ∈ A, dotI N K R C (h a) V := by
  simp only [dotI, sum_mul]
  symm
  refine sum_comm.trans (sum_congr rfl fun s _ => ?_)
  refine sum_comm.trans (sum_congr rfl fun k _ => ?_)
  refine sum_comm.trans (sum_congr rfl fun r _ => ?_)
  exact sum_comm

theorem dotI_single {s k r c : Nat} (hs : s < N) (hk : k < K) (hr : r < R) (hc : c < C) (f : ℝ)
    (V : Nat → Nat → Nat → Nat → ℝ) :
    dotI N K R C (fun s' k' r' c' => if s' = s ∧ k' = k ∧ r' = r ∧ c' = c then f else 0) V = f * V s k r c := by
  unfold dotI
  rw [sum_eq_single s, sum_eq_single k, sum_eq_single r, sum_eq_single c]
  · simp
  all_goals first
    | (intro b _ hb; simp [hb])
    | (intro hb; simp at hb; omega)

theorem dotI_smul_left (a : ℝ) (h V : Nat → Nat → Nat → Nat → ℝ) :
    dotI N K R C (fun s k r c => h s k r c * a) V = a * dotI N K R C h V := by
  simp only [dotI, mul_sum]
  refine sum_congr rfl fun s _ => sum_congr rfl fun k _ => sum_congr rfl fun r _ => sum_congr rfl fun c _ => ?_
  ring

theorem dotI_line (gr a b : Nat → Nat → Nat → Nat → ℝ) (t : ℝ) :
    dotI N K R C gr (fun s k r c => a s k r c + t * b s k r c) =
      dotI N K R C gr a + t * dotI N K R C gr b := by
  simp only [dotI, mul_sum, ← sum_add_distrib]
  refine sum_congr rfl fun s _ => sum_congr rfl fun k _ => sum_congr rfl fun r _ => sum_congr rfl fun c _ => ?_
  ring

theorem dotI_congr {a b a' b' : Nat → Nat → Nat → Nat → ℝ}
    (h : ∀ s k r c, s < N → k < K → r < R → c < C → a s k r c * b s k r c = a' s k r c * b' s k r c) :
    dotI N K R C a b = dotI N K R C a' b' :=
  sum_congr rfl fun _ hs => sum_congr rfl fun _ hk => sum_congr rfl fun _ hr => sum_congr rfl fun _ hc =>
    h _ _ _ _ (mem_range.1 hs) (mem_range.1 hk) (mem_range.1 hr) (mem_range.1 hc)

/-- The back-transform of the gradient columns is the adjoint of the correlation. -/
theorem conv_adjoint (h1 : 2 * (kR / 2) ≤ R) (h2 : 2 * (kC / 2) ≤ C) (w : Nat → Nat → ℝ)
    (gr V : Nat → Nat → Nat → Nat → ℝ) :
    dotI N K R C (col2imFn N K (convOutSize R kR rs) (convOutSize C kC cs) kR kC rs cs
      (convGradCol O (convOutSize R kR rs) (convOutSize C kC cs) w gr)) V =
    dotI N O (convOutSize R kR rs) (convOutSize C kC cs) gr (crossCorr K kR kC rs cs w V) := by
  unfold col2imFn
  simp only [dotI_sum_left]
  rw [dotI]
  refine sum_congr rfl fun s hs => ?_
  symm
  refine sum_comm.trans (sum_congr rfl fun r hr => ?_)
  refine sum_comm.trans (sum_congr rfl fun c hc => ?_)
  simp only [crossCorr, mul_sum]
  refine sum_comm.trans (sum_congr rfl fun ch hch => ?_)
  refine sum_comm.trans (sum_congr rfl fun kr hkr => ?_)
  refine sum_comm.trans (sum_congr rfl fun kc hkc => ?_)
  simp only [mem_range] at hs hr hc hch hkr hkc
  rw [dotI_single hs hch (conv_in h1 hr hkr) (conv_in h2 hc hkc), convGradCol, accN_eq_sum, sum_mul]
  refine sum_congr rfl fun o _ => ?_
  have b := idx_lt hr hc
  rw [idx_div b, idx_mod b, idx_div hc, idx_mod hc]
  ring

/-- C36: for every geometry, batch, weights and output gradient `gr`, the weight gradient is the derivative of the
scalar product of `gr` and the output with respect to the weights, and the input gradient times
`kR * kC * O` is the derivative with respect to the input. -/
theorem C36_gradients (h1 : 2 * (kR / 2) ≤ R) (h2 : 2 * (kC / 2) ≤ C) (hO : 0 < O) (hkR : 0 < kR) (hkC : 0 < kC)
    (fast : Bool) (x gr : Nat → Nat → Nat → Nat → ℝ) (w : Nat → Nat → ℝ) (g g' : Nat → ℝ)
    {st : ConvState ℝ} {mOut mGI : Mat ℝ} (c1 : st.im2colT.WF) (c2 : st.tempImg.WF) (c3 : st.gradientWeight.WF)
    (hw : st.weight = Mat.ofFn O (kR * kC * K) w) (hm : mOut.WF) (hm' : mGI.WF) :
    ∃ p y st' st'' G d, Conv.create R C K kR kC O rs cs = .ok p ∧
      convForward g p fast st (imgMat N K R C x) mOut = .ok (st', y) ∧
      convBackward g' p fast false st' (imgMat N K R C x) (imgMat N O p.outRows p.outCols gr) mGI =
        .ok (st'', imgMat N K R C d) ∧
      st''.gradientWeight = Mat.ofFn O (kR * kC * K) G ∧
      IsGrad O (kR * kC * K)
        (fun W => dotI N O p.outRows p.outCols gr (crossCorr K kR kC rs cs W x)) w G ∧
      IsGradI N K R C
        (fun X => dotI N O p.outRows p.outCols gr (crossCorr K kR kC rs cs w X)) x
        (fun s k r c => ((kR * kC * O : Nat) : ℝ) * d s k r c) := by
  obtain ⟨st', ok, hs, hcol, -, hf⟩ := convForward_eq (N := N) (rs := rs) (cs := cs) g fast h1 h2 x w
    (st := st) ⟨c1, c2, hw, c3⟩ hm
  obtain ⟨st'', ok', hgw, hb⟩ := convBackward_eq (mGI := mGI) g' fast false h1 h2 x gr w ok hs hcol hm'
  rw [if_neg (by decide)] at hb
  refine ⟨_, _, st', st'', _, _, Conv.create_eq h1 h2, hf, hb, hgw, ?_, ?_⟩
  · apply isGrad_of_affine
    intro V t
    have e : crossCorr K kR kC rs cs (fun i j => w i j + t * V i j) x =
        fun s o r c => crossCorr K kR kC rs cs w x s o r c + t * crossCorr K kR kC rs cs V x s o r c := by
      funext s o r c
      simp only [crossCorr, mul_sum, ← sum_add_distrib]
      refine sum_congr rfl fun _ _ => sum_congr rfl fun _ _ => sum_congr rfl fun _ _ => ?_
      ring
    rw [e, dotI_line]
    congr 2
    -- the weight gradient contracted with `V`
    show dotI N O (convOutSize R kR rs) (convOutSize C kC cs) gr _ = _
    generalize convOutSize R kR rs = oR
    generalize convOutSize C kC cs = oC
    simp only [dotM, convGradW, accN_eq_sum]
    rw [dotI, sum_comm]
    refine sum_congr rfl fun o _ => ?_
    simp only [sum_mul]
    conv_rhs => rw [sum_comm, sum_flat3]
    refine sum_congr rfl fun s _ => sum_congr rfl fun r hr => sum_congr rfl fun c hc => ?_
    simp only [mem_range] at hr hc
    have b := idx_lt hr hc
    rw [← crossCorr_flat oR oC V x s o hr hc, mul_sum, idx_div b, idx_mod b, idx_div hc, idx_mod hc]
    refine sum_congr rfl fun j _ => ?_
    ring
  · intro V
    have e : ∀ t : ℝ, dotI N O (convOutSize R kR rs) (convOutSize C kC cs) gr
        (crossCorr K kR kC rs cs w (fun s k r c => x s k r c + t * V s k r c)) =
        dotI N O (convOutSize R kR rs) (convOutSize C kC cs) gr (crossCorr K kR kC rs cs w x) +
          t * dotI N O (convOutSize R kR rs) (convOutSize C kC cs) gr (crossCorr K kR kC rs cs w V) := by
      intro t
      rw [← dotI_line]
      congr 1
      funext s o r c
      simp only [crossCorr, mul_sum, ← sum_add_distrib]
      refine sum_congr rfl fun _ _ => sum_congr rfl fun _ _ => sum_congr rfl fun _ _ => ?_
      ring
    have e2 : dotI N K R C (fun s k r c => ((kR * kC * O : Nat) : ℝ) *
        (col2imFn N K (convOutSize R kR rs) (convOutSize C kC cs) kR kC rs cs
          (convGradCol O (convOutSize R kR rs) (convOutSize C kC cs) w gr) s k r c *
            (1 / ((kR * kC * O : Nat) : ℝ)))) V =
        dotI N O (convOutSize R kR rs) (convOutSize C kC cs) gr (crossCorr K kR kC rs cs w V) := by
      rw [← conv_adjoint h1 h2 w gr V]
      apply dotI_congr
      intro s k r c _ _ _ _
      have : ((kR * kC * O : Nat) : ℝ) ≠ 0 := by
        have := Nat.mul_pos (Nat.mul_pos hkR hkC) hO
        exact_mod_cast this.ne'
      field_simp
    have e3 := ((hasDerivAt_id (0 : ℝ)).mul_const
      (dotI N O (convOutSize R kR rs) (convOutSize C kC cs) gr (crossCorr K kR kC rs cs w V))).const_add
      (dotI N O (convOutSize R kR rs) (convOutSize C kC cs) gr (crossCorr K kR kC rs cs w x))
    rw [one_mul] at e3
    exact (e3.congr_deriv e2.symm).congr_of_eventuallyEq (Filter.Eventually.of_forall fun t => e t)

/-- Non-trivial instance of C36: backward pass on a 1 × 4 image, 1 × 3 kernel. -/
example : ((convForward (fun _ => (0 : ℚ)) (Conv.std 1 4 1 1 3 1 1 1) true
      ⟨0, ⟨0, 0, []⟩, ⟨0, 0, []⟩, ⟨1, 3, [1, 2, 3]⟩, ⟨0, 0, []⟩⟩ ⟨1, 4, [1, 0, 5, 2]⟩ ⟨0, 0, []⟩).bind
    (fun r => convBackward (fun _ => 0) (Conv.std 1 4 1 1 3 1 1 1) true false r.1 ⟨1, 4, [1, 0, 5, 2]⟩
      ⟨1, 2, [1, 2]⟩ ⟨0, 0, []⟩)).map (fun r => (r.1.gradientWeight, r.2)) =
    .ok (⟨1, 3, [1, 10, 9]⟩, ⟨1, 4, [1 / 3, 4 / 3, 7 / 3, 2]⟩) := by decide +kernel

end BeeDNN
