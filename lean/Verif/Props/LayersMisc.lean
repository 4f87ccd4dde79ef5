import Verif.Lemmas.LayersMisc
import Verif.Lemmas.Gradient
import Verif.Props.Matrix
import Verif.Props.Activations
import Verif.Lemmas.LossDiff
import Mathlib.Tactic.FieldSimp
import Mathlib.Algebra.Field.Rat

/-!
# Dropout, noise, flip, CRelu and gated layers (claims C37-C41)

`Mat.ofFn R C f` is the `R × C` matrix with entries `f i j`; every well-formed matrix is of this form.
`rng` and `draw` are arbitrary random streams, `g` the contents of fresh memory.
-/

namespace BeeDNN
open Finset

variable {α : Type}

/-! ## C37 -/

/-- C37: in test mode, or with rate 0, dropout is the identity and leaves the mask alone. -/
theorem C37_identity [Zero α] [One α] [Sub α] [Mul α] [Div α] [DecidableEq α] (g : Nat → α) (lim : α → Nat)
    (train : Bool) (rate : α) (h : train = false ∨ rate = 0) (rng : Nat → Nat) (mask mOut : Mat α) (ho : mOut.WF)
    (N C : Nat) (x : Nat → Nat → α) :
    dropoutForward g lim train rate rng mask (Mat.ofFn N C x) mOut = .ok (mask, Mat.ofFn N C x) :=
  dropoutForward_test g lim train rate h rng ho N C x

/-- C37: with rate 0 the gradient passes unchanged. -/
theorem C37_backward_rate_zero [Zero α] [Mul α] [DecidableEq α] (g : Nat → α) (mask gIn : Mat α) (hg : gIn.WF)
    (N C : Nat) (gr : Nat → Nat → α) :
    dropoutBackward g false 0 mask (Mat.ofFn N C gr) gIn = .ok (Mat.ofFn N C gr) := by
  have : Inhabited α := ⟨0⟩
  unfold dropoutBackward
  rw [if_neg (by decide), if_neg (fun h => h rfl), Mat.assign_ofFn g hg]

/-- C37: in training with rate neither 0 nor 1 entry `(i,j)` is kept, and divided by `1-rate`, exactly if the
generator output number `i*C+j` is below the limit; it is 0 otherwise.  Back-propagation with the mask left
by this call keeps, divides and zeroes exactly the same entries. -/
theorem C37_training [Field α] [DecidableEq α] (g : Nat → α) (lim : α → Nat) (rate : α) (h0 : rate ≠ 0) (_h1 : rate ≠ 1)
    (rng : Nat → Nat) (mask mOut : Mat α) (hm : mask.WF) (ho : mOut.WF) (N C : Nat) (x : Nat → Nat → α) :
    ∃ mask', dropoutForward g lim true rate rng mask (Mat.ofFn N C x) mOut =
        .ok (mask', Mat.ofFn N C (fun i j => if rng (i * C + j) % 65536 < lim (1 - rate) then x i j / (1 - rate) else 0)) ∧
      ∀ (gr : Nat → Nat → α) (gIn : Mat α), gIn.WF →
        dropoutBackward g false rate mask' (Mat.ofFn N C gr) gIn =
          .ok (Mat.ofFn N C (fun i j => if rng (i * C + j) % 65536 < lim (1 - rate) then gr i j / (1 - rate) else 0)) := by
  have e : ∀ y : Nat → Nat → α, Mat.ofFn N C (fun i j => y i j * dropFactor lim rate rng C i j) =
      Mat.ofFn N C (fun i j => if rng (i * C + j) % 65536 < lim (1 - rate) then y i j / (1 - rate) else 0) := by
    intro y
    apply Mat.ofFn_congr
    intro i j _ _
    unfold dropFactor
    split
    · rw [one_mul, mul_one_div]
    · rw [zero_mul, mul_zero]
  refine ⟨Mat.ofFn N C (dropFactor lim rate rng C), (dropoutForward_train g lim rate h0 rng hm ho N C x).trans ?_, ?_⟩
  · rw [e]
  · intro gr gIn hg
    rw [dropoutBackward_ofFn g rate h0 hg, e]

/-- A call of a dropout layer. -/
inductive DropCall (α : Type) where
  | trainForward (rng : Nat → Nat) (N C : Nat) (x : Nat → Nat → α)
  | testForward (rng : Nat → Nat) (N C : Nat) (x : Nat → Nat → α)
  | backward (gr gIn : Mat α)

/-- The calls made one after the other; only the mask is carried from call to call.  The results of forward
calls go to a new matrix (`C37_training`, `C37_identity`: the contents of the result matrix do not matter). -/
def dropRun [Zero α] [One α] [Sub α] [Mul α] [Div α] [DecidableEq α] (g : Nat → α) (lim : α → Nat) (rate : α) :
    List (DropCall α) → Mat α → Out (Mat α)
  | [], mask => .ok mask
  | .trainForward rng N C x :: l, mask => do
      let (mask, _) ← dropoutForward g lim true rate rng mask (Mat.ofFn N C x) ⟨0, 0, []⟩
      dropRun g lim rate l mask
  | .testForward rng N C x :: l, mask => do
      let (mask, _) ← dropoutForward g lim false rate rng mask (Mat.ofFn N C x) ⟨0, 0, []⟩
      dropRun g lim rate l mask
  | .backward gr gIn :: l, mask => do
      let _ ← dropoutBackward g false rate mask gr gIn
      dropRun g lim rate l mask

/-- The call is not a training forward pass. -/
def DropCall.keepsMask : DropCall α → Prop
  | .trainForward .. => False
  | _ => True

theorem dropRun_wf [Field α] [DecidableEq α] (g : Nat → α) (lim : α → Nat) (rate : α) (h0 : rate ≠ 0)
    (l l' : List (DropCall α)) : ∀ mask : Mat α, mask.WF → ∀ m', dropRun g lim rate (l ++ l') mask = .ok m' →
      ∃ m, m.WF ∧ dropRun g lim rate l' m = .ok m' := by
  induction l with
  | nil => intro mask hm m' h; exact ⟨mask, hm, h⟩
  | cons c l ih =>
    intro mask hm m' h
    cases c with
    | trainForward rng N C x =>
      rw [List.cons_append, dropRun, dropoutForward_train g lim rate h0 rng hm (by rfl) N C x, bind_ok'] at h
      exact ih _ (Mat.ofFn_WF _ _ _) m' h
    | testForward rng N C x =>
      rw [List.cons_append, dropRun, dropoutForward_test g lim false rate (.inl rfl) rng (by rfl) N C x, bind_ok'] at h
      exact ih _ hm m' h
    | backward gr gIn =>
      rw [List.cons_append, dropRun] at h
      cases hb : dropoutBackward g false rate mask gr gIn with
      | error e => rw [hb] at h; cases h
      | ok v => rw [hb, bind_ok'] at h; exact ih _ hm m' h

theorem dropRun_keeps [Field α] [DecidableEq α] (g : Nat → α) (lim : α → Nat) (rate : α)
    (l : List (DropCall α)) (hl : ∀ c ∈ l, c.keepsMask) : ∀ mask m' : Mat α,
      dropRun g lim rate l mask = .ok m' → m' = mask := by
  induction l with
  | nil => intro mask m' h; cases h; rfl
  | cons c l ih =>
    intro mask m' h
    have ih := ih (fun c hc => hl c (List.mem_cons_of_mem _ hc))
    cases c with
    | trainForward rng N C x => exact (hl _ List.mem_cons_self).elim
    | testForward rng N C x =>
      rw [dropRun, dropoutForward_test g lim false rate (.inl rfl) rng (by rfl) N C x, bind_ok'] at h
      exact ih _ m' h
    | backward gr gIn =>
      rw [dropRun] at h
      cases hb : dropoutBackward g false rate mask gr gIn with
      | error e => rw [hb] at h; cases h
      | ok v => rw [hb, bind_ok'] at h; exact ih _ m' h

/-- C37 for every call history: whatever calls came before, and whatever predictions and backward passes came
between the last training forward pass and now, back-propagation keeps and zeroes exactly the entries that
this last training pass kept and zeroed. -/
theorem C37_history [Field α] [DecidableEq α] (g : Nat → α) (lim : α → Nat) (rate : α) (h0 : rate ≠ 0) (h1 : rate ≠ 1)
    (before after : List (DropCall α)) (hafter : ∀ c ∈ after, c.keepsMask) (rng : Nat → Nat) (N C : Nat)
    (x : Nat → Nat → α) (mask0 mask : Mat α) (hm : mask0.WF)
    (hrun : dropRun g lim rate (before ++ .trainForward rng N C x :: after) mask0 = .ok mask)
    (gr : Nat → Nat → α) (gIn : Mat α) (hg : gIn.WF) :
    dropoutBackward g false rate mask (Mat.ofFn N C gr) gIn =
      .ok (Mat.ofFn N C (fun i j => if rng (i * C + j) % 65536 < lim (1 - rate) then gr i j / (1 - rate) else 0)) := by
  obtain ⟨m1, hm1, h2⟩ := dropRun_wf g lim rate h0 before _ mask0 hm mask hrun
  obtain ⟨mask', h3, h4⟩ := C37_training g lim rate h0 h1 rng m1 ⟨0, 0, []⟩ hm1 rfl N C x
  rw [dropRun, h3, bind_ok'] at h2
  rw [dropRun_keeps g lim rate after hafter _ _ h2]
  exact h4 gr gIn hg

example : dropoutForward (fun _ => (9 : Rat)) (fun _ => 32768) true (1/2) (fun i => i * 32768) ⟨0, 0, []⟩
    ⟨2, 2, [1, 2, 3, 4]⟩ ⟨0, 0, []⟩ = .ok (⟨2, 2, [2, 0, 2, 0]⟩, ⟨2, 2, [2, 0, 6, 0]⟩) := by decide +kernel
example : ∃ m, dropRun (fun _ => (9 : Rat)) (fun _ => 32768) (1/2)
    ([.backward ⟨0, 0, []⟩ ⟨0, 0, []⟩] ++ .trainForward (fun i => i * 32768) 2 2 (fun i j => i + j) ::
      [.testForward (fun _ => 0) 1 1 (fun _ _ => 5)]) ⟨0, 0, []⟩ = .ok m := ⟨⟨2, 2, [2, 0, 2, 0]⟩, by decide +kernel⟩

/-! ## C38 -/

/-- C38: in test mode the noise layers (Gaussian and uniform) are the identity. -/
theorem C38_noise_test [Zero α] [Add α] [LT α] [DecidableRel (α := α) (· < ·)] (g : Nat → α) (noise : α) (draw : Nat → α)
    (mOut : Mat α) (ho : mOut.WF) (N C : Nat) (x : Nat → Nat → α) :
    noiseForward g false noise draw (Mat.ofFn N C x) mOut = .ok (Mat.ofFn N C x) := by
  rw [noiseForward_ofFn g false noise draw ho]
  simp

/-- C38: in training with positive noise every entry gets its own draw added; otherwise nothing changes. -/
theorem C38_noise_train [Zero α] [Add α] [LT α] [DecidableRel (α := α) (· < ·)] (g : Nat → α) (noise : α) (draw : Nat → α)
    (mOut : Mat α) (ho : mOut.WF) (N C : Nat) (x : Nat → Nat → α) :
    noiseForward g true noise draw (Mat.ofFn N C x) mOut =
      .ok (Mat.ofFn N C (fun i j => if 0 < noise then x i j + draw (i * C + j) else x i j)) := by
  rw [noiseForward_ofFn g true noise draw ho]
  simp

/-- C38: in test mode Gaussian dropout is the identity. -/
theorem C38_gaussianDropout_test [Zero α] [Add α] [Mul α] (g : Nat → α) (draw : Nat → α) (mask mOut : Mat α) (ho : mOut.WF)
    (N C : Nat) (x : Nat → Nat → α) :
    gaussianDropoutForward g false draw mask (Mat.ofFn N C x) mOut = .ok (mask, Mat.ofFn N C x) := by
  have : Inhabited α := ⟨0⟩
  unfold gaussianDropoutForward
  rw [if_neg (by decide), Mat.assign_ofFn g ho]
  rfl

/-- C38, the part that holds: the noise layers and Gaussian dropout are the identity in test mode.  Missing
(violated by the code, see below): the same for RandomFlip, and its mirroring in training. -/
theorem C38_identity_partial [Zero α] [Add α] [Mul α] [LT α] [DecidableRel (α := α) (· < ·)] (g : Nat → α) (noise : α)
    (draw : Nat → α) (mask mOut : Mat α) (ho : mOut.WF) (N C : Nat) (x : Nat → Nat → α) :
    noiseForward g false noise draw (Mat.ofFn N C x) mOut = .ok (Mat.ofFn N C x) ∧
    gaussianDropoutForward g false draw mask (Mat.ofFn N C x) mOut = .ok (mask, Mat.ofFn N C x) :=
  ⟨C38_noise_test g noise draw mOut ho N C x, C38_gaussianDropout_test g draw mask mOut ho N C x⟩

/-- C38, violated: in *training* mode RandomFlip does nothing, whatever the random stream. -/
theorem C38_flip_train [Zero α] [One α] [DecidableEq α] (g : Nat → α) (H W K : Nat) (rng : Nat → Nat)
    (flipped mOut : Mat α) (ho : mOut.WF) (N : Nat) (v : Nat → Nat → Nat → Nat → α) :
    flipForward g H W K true rng flipped (imgMat N K H W v) mOut = .ok (flipped, imgMat N K H W v) := by
  have : Inhabited α := ⟨0⟩
  unfold flipForward
  unfold imgMat
  rw [Mat.assign_ofFn g ho, bind_ok', if_pos rfl, pure_ok]

/-- C38, violated: in *test* mode RandomFlip changes the selected images (those whose generator output is
below 32768): the left half of every row is overwritten by the mirror image of the right half. -/
theorem C38_flip_test [Zero α] [One α] [DecidableEq α] (h01 : (1 : α) ≠ 0) (g : Nat → α) (H W K : Nat) (hW : 0 < W)
    (rng : Nat → Nat) (flipped mOut : Mat α) (hf : flipped.WF) (ho : mOut.WF) (N : Nat) (v : Nat → Nat → Nat → Nat → α) :
    ∃ f', flipForward g H W K false rng flipped (imgMat N K H W v) mOut = .ok (f', imgMat N K H W (fun s k r =>
      if rng s % 65536 < 32768 then halfMirror W (v s k r) else v s k r)) := by
  have : Inhabited α := ⟨0⟩
  obtain ⟨d, hd⟩ := Mat.resize_ofFn g hf N 1
  have hr : (imgMat N K H W v).rows = N := rfl
  have ha : mOut.assign g (imgMat N K H W v) = .ok (imgMat N K H W v) := by
    unfold imgMat; exact Mat.assign_ofFn g ho _ _ _
  unfold flipForward
  rw [ha, bind_ok', if_neg (by decide)]
  simp only [hr, hd, Mat.setQuickBernoulli_ofFn, bind_ok', flipSamples_imgMat hW, pure_ok]
  refine ⟨_, congrArg Except.ok (Prod.ext rfl ?_)⟩
  dsimp only
  apply imgMat_congr
  intro s k r c _ _ _ _
  rw [Nat.mul_one, Nat.add_zero]
  by_cases h : rng s % 65536 < 32768 <;> simp [h, h01]

/-- C38, violated: in test mode the output equals the input only if all rows of all selected images are
symmetric. -/
theorem C38_flip_test_identity_iff [Zero α] [One α] [DecidableEq α] (h01 : (1 : α) ≠ 0) (g : Nat → α) (H W K : Nat)
    (hW : 0 < W) (rng : Nat → Nat) (flipped mOut : Mat α) (hf : flipped.WF) (ho : mOut.WF) (N : Nat)
    (v : Nat → Nat → Nat → Nat → α) :
    (∃ f', flipForward g H W K false rng flipped (imgMat N K H W v) mOut = .ok (f', imgMat N K H W v)) ↔
      ∀ s k r c, s < N → k < K → r < H → c < W → rng s % 65536 < 32768 → v s k r c = v s k r (W - 1 - c) := by
  obtain ⟨f1, h1⟩ := C38_flip_test h01 g H W K hW rng flipped mOut hf ho N v
  rw [h1]
  constructor
  · rintro ⟨f', h⟩
    have h2 := (Prod.mk.inj (Except.ok.inj h)).2
    have h3 : ∀ s k r c, s < N → k < K → r < H → c < W → rng s % 65536 < 32768 → c < W / 2 →
        v s k r (W - 1 - c) = v s k r c := by
      intro s k r c hs hk hr hc hsel hc2
      have := imgMat_inj h2 hs hk hr hc
      rw [if_pos hsel, halfMirror, if_pos hc2] at this
      exact this
    intro s k r c hs hk hr hc hsel
    by_cases hc2 : c < W / 2
    · exact (h3 s k r c hs hk hr hc hsel hc2).symm
    · by_cases hmid : W - 1 - c = c
      · rw [hmid]
      · have := h3 s k r (W - 1 - c) hs hk hr (by omega) hsel (by omega)
        rw [show W - 1 - (W - 1 - c) = c by omega] at this
        exact this
  · intro h
    refine ⟨f1, congrArg Except.ok (Prod.ext rfl ?_)⟩
    dsimp only
    apply imgMat_congr
    intro s k r c hs hk hr hc
    by_cases hsel : rng s % 65536 < 32768
    · rw [if_pos hsel, halfMirror]
      split
      · exact (h s k r c hs hk hr hc hsel).symm
      · rfl
    · rw [if_neg hsel]

/-- C38, violated: a concrete image changed at inference (and not into its mirror image). -/
theorem C38_flip_counterexample :
    flipForward (fun _ => (9 : Rat)) 1 3 1 false (fun _ => 0) ⟨0, 0, []⟩ ⟨1, 3, [1, 2, 3]⟩ ⟨0, 0, []⟩ =
      .ok (⟨1, 1, [1]⟩, ⟨1, 3, [3, 2, 3]⟩) := by decide +kernel

/-- C38: back-propagation after training passes only (`_flipped` still empty) fails on every batch. -/
theorem C38_flip_backward_fault [Zero α] [DecidableEq α] (g : Nat → α) (H W K N : Nat) (hN : 0 < N)
    (x gr : Nat → Nat → α) (C : Nat) (gIn : Mat α) (hg : gIn.WF) :
    flipBackward g H W K false ⟨0, 0, []⟩ (Mat.ofFn N C x) (Mat.ofFn N C gr) gIn = .error .assertFail := by
  have : Inhabited α := ⟨0⟩
  unfold flipBackward flipSamples
  rw [if_neg (by decide), Mat.assign_ofFn g hg, bind_ok', Mat.ofFn_rows]
  exact forN_error hN (t := Mat.ofFn N C gr) rfl rfl

example : noiseForward (fun _ => (9 : Rat)) true 1 (fun i => i) ⟨2, 1, [5, 6]⟩ ⟨0, 0, []⟩ = .ok ⟨2, 1, [5, 7]⟩ := by
  decide +kernel

/-! ## C39 -/

/-- C39, the part that holds: a batch of one sample. -/
theorem C39_single_partial [CommSemiring α] (g : Nat → α) (draw : Nat → α) (mask mOut : Mat α) (hm : mask.WF) (ho : mOut.WF)
    (C : Nat) (x : Nat → Nat → α) :
    gaussianDropoutForward g true draw mask (Mat.ofFn 1 C x) mOut =
      .ok (Mat.ofFn 1 C (fun _ j => draw j), Mat.ofFn 1 C (fun i j => x i j * draw j)) := by
  have : Inhabited α := ⟨0⟩
  rw [gaussianDropoutForward_train g draw hm, Nat.one_mul, Mat.mul_ofFn, bind_ok', Mat.assign_ofFn g ho, bind_ok', pure_ok]
  refine congrArg Except.ok (Prod.ext rfl ?_)
  dsimp only
  apply Mat.ofFn_congr
  intro i j _ hj
  rw [accN_eq_sum]
  simp only [mul_ite, mul_zero]
  rw [sum_ite_eq']
  simp [hj]

/-- C39, violated: in training every batch of two or more (non-empty) samples fails an assertion. -/
theorem C39_batch_fault [Zero α] [Add α] [Mul α] (g : Nat → α) (draw : Nat → α) (mask mOut : Mat α) (hm : mask.WF)
    (N C : Nat) (hN : 2 ≤ N) (hC : 1 ≤ C) (x : Nat → Nat → α) :
    gaussianDropoutForward g true draw mask (Mat.ofFn N C x) mOut = .error .assertFail := by
  rw [gaussianDropoutForward_train g draw hm, Mat.mul_shape]
  · rfl
  · simp only [Mat.ofFn_rows, Mat.ofFn_cols]
    have : 2 * C ≤ N * C := Nat.mul_le_mul_right _ hN
    omega

example : gaussianDropoutForward (fun _ => (9 : Rat)) true (fun i => i + 1) ⟨0, 0, []⟩ ⟨2, 1, [5, 6]⟩ ⟨0, 0, []⟩ =
    .error .assertFail := by decide +kernel

/-! ## C40 -/

/-- C40: the output is the positive parts followed by the negative parts. -/
theorem C40_forward [Ring α] [LinearOrder α] [IsOrderedRing α] (g : Nat → α) (mOut : Mat α) (ho : mOut.WF) (N n : Nat)
    (x : Nat → Nat → α) :
    creluForward g (Mat.ofFn N n x) mOut =
      .ok (Mat.ofFn N (n * 2) (fun s j => if j < n then max (x s j) 0 else max (-x s (j - n)) 0)) := by
  rw [creluForward_ofFn g ho]
  congr 1
  apply Mat.ofFn_congr
  intro s j _ _
  split
  · by_cases h : 0 ≤ x s j
    · rw [if_pos h, max_eq_left h]
    · rw [if_neg h, max_eq_right (not_le.mp h).le]
  · by_cases h : 0 ≤ x s (j - n)
    · rw [if_pos h, max_eq_right (neg_nonpos.mpr h)]
    · rw [if_neg h, max_eq_left (neg_nonneg.mpr (not_le.mp h).le)]

/-- C40: nothing is lost: the input is the difference of the two halves. -/
theorem C40_lossless [Ring α] [LinearOrder α] [IsOrderedRing α] (g : Nat → α) (mOut : Mat α) (ho : mOut.WF) (N n : Nat)
    (x : Nat → Nat → α) :
    ∃ y : Nat → Nat → α, creluForward g (Mat.ofFn N n x) mOut = .ok (Mat.ofFn N (n * 2) y) ∧
      ∀ s j, s < N → j < n → x s j = y s j - y s (j + n) := by
  refine ⟨_, C40_forward g mOut ho N n x, ?_⟩
  intro s j _ hj
  have h : ¬ j + n < n := by omega
  simp only [if_pos hj, if_neg h, Nat.add_sub_cancel]
  rw [max_zero_sub_max_neg_zero_eq_self]

/-- C40: what back-propagation returns. -/
theorem C40_backward [Ring α] [LinearOrder α] [IsOrderedRing α] (g : Nat → α) (gIn : Mat α) (hg : gIn.WF) (N n : Nat)
    (x gr : Nat → Nat → α) :
    ∃ y : Nat → Nat → α, creluBackward g false (Mat.ofFn N n x) (Mat.ofFn N (n * 2) gr) gIn = .ok (Mat.ofFn N n y) ∧
      ∀ s j, s < N → j < n → (0 < x s j → y s j = gr s j) ∧ (x s j < 0 → y s j = -gr s (j + n)) := by
  refine ⟨_, creluBackward_ofFn g hg N n x gr, ?_⟩
  intro s j _ _
  exact ⟨fun h => if_pos h, fun h => if_neg (not_lt.mpr h.le)⟩

/-- Gradient of a sum of functions of one entry each. -/
theorem isGrad_sep2 {N C : Nat} {f : Nat → Nat → ℝ → ℝ} {x G : Nat → Nat → ℝ}
    (h : ∀ s j, s < N → j < C → HasDerivAt (f s j) (G s j) (x s j)) :
    IsGrad N C (fun y => ∑ s ∈ range N, ∑ j ∈ range C, f s j (y s j)) x G := by
  intro V
  unfold dotM
  apply HasDerivAt.fun_sum
  intro s hs
  apply HasDerivAt.fun_sum
  intro j hj
  have h1 : HasDerivAt (fun t : ℝ => x s j + t * V s j) (V s j) 0 := by
    simpa using ((hasDerivAt_id (0:ℝ)).mul_const (V s j)).const_add (x s j)
  have h2 := h s j (mem_range.mp hs) (mem_range.mp hj)
  have h3 : HasDerivAt (f s j) (G s j) (x s j + 0 * V s j) := by simpa using h2
  exact h3.comp (0:ℝ) h1

/-- C40: back-propagation gives the gradient with respect to the input wherever no entry is 0. -/
theorem C40_gradient (g : Nat → ℝ) (gIn : Mat ℝ) (hg : gIn.WF) (N n : Nat) (x gr : Nat → Nat → ℝ)
    (hx : ∀ s j, s < N → j < n → x s j ≠ 0) :
    ∃ y : Nat → Nat → ℝ, creluBackward g false (Mat.ofFn N n x) (Mat.ofFn N (n * 2) gr) gIn = .ok (Mat.ofFn N n y) ∧
      IsGrad N n (fun x => dotM N (n * 2) gr (fun s j => if j < n then max (x s j) 0 else max (-x s (j - n)) 0)) x y := by
  refine ⟨_, creluBackward_ofFn g hg N n x gr, ?_⟩
  have e : (fun x : Nat → Nat → ℝ => dotM N (n * 2) gr (fun s j => if j < n then max (x s j) 0 else max (-x s (j - n)) 0)) =
      fun x => ∑ s ∈ range N, ∑ j ∈ range n, (fun v => gr s j * max v 0 + gr s (j + n) * max (-v) 0) (x s j) := by
    funext x
    unfold dotM
    apply sum_congr rfl; intro s _
    rw [show n * 2 = n + n by ring, sum_range_add, ← sum_add_distrib]
    apply sum_congr rfl; intro j hj
    have h : ¬ j + n < n := by omega
    simp only [if_pos (mem_range.mp hj), Nat.add_comm n j, if_neg h, Nat.add_sub_cancel]
  rw [e]
  apply isGrad_sep2 (f := fun s j v => gr s j * max v 0 + gr s (j + n) * max (-v) 0)
  intro s j hs hj
  rcases lt_or_gt_of_ne (hx s j hs hj) with h | h
  · rw [if_neg (not_lt.mpr h.le)]
    refine (((hasDerivAt_id (x s j)).neg).const_mul (gr s (j + n))).congr_deriv (by ring) |>.congr_of_eventuallyEq ?_
    filter_upwards [Iio_mem_nhds h] with v hv
    have hv' : v < 0 := hv
    rw [max_eq_right hv'.le, max_eq_left (neg_nonneg.mpr hv'.le)]
    simp
  · rw [if_pos h]
    refine ((hasDerivAt_id (x s j)).const_mul (gr s j)).congr_deriv (by ring) |>.congr_of_eventuallyEq ?_
    filter_upwards [Ioi_mem_nhds h] with v hv
    have hv' : 0 < v := hv
    rw [max_eq_left hv'.le, max_eq_right (neg_nonpos.mpr hv'.le)]
    simp

example : creluForward (fun _ => (9 : Rat)) ⟨1, 2, [3, -4]⟩ ⟨0, 0, []⟩ = .ok ⟨1, 4, [3, 0, 0, 4]⟩ := by decide +kernel
example : creluBackward (fun _ => (9 : Rat)) false ⟨1, 2, [3, -4]⟩ ⟨1, 4, [10, 20, 30, 40]⟩ ⟨0, 0, []⟩ =
    .ok ⟨1, 2, [10, -40]⟩ := by decide +kernel

/-! ## C41 -/

/-- C41: the layer splits each sample into halves `a`, `b` and outputs `act1(a) * act2(b)`. -/
theorem C41_forward [Mul α] [Inhabited α] (g : Nat → α) (a1 a2 : α → α) (mOut : Mat α) (ho : mOut.WF) (N n : Nat)
    (x : Nat → Nat → α) :
    gatedForward g a1 a2 (Mat.ofFn N (2 * n) x) mOut =
      .ok (Mat.ofFn N n (fun s j => a1 (x s j) * a2 (x s (j + n)))) := gatedForward_ofFn g a1 a2 ho N n x

/-- C41: an odd width is a fault. -/
theorem C41_odd [Mul α] (g : Nat → α) (a1 a2 : α → α) (mIn mOut : Mat α) (h : mIn.cols % 2 = 1) :
    gatedForward g a1 a2 mIn mOut = .error .assertFail := by
  unfold gatedForward
  rw [check_false (by omega)]; rfl

/-- C41: back-propagation is the gradient of `⟨gr, act1(a) * act2(b)⟩` wherever `d1`, `d2` are the
derivatives. -/
theorem C41_gradient (g : Nat → ℝ) (a1 a2 d1 d2 : ℝ → ℝ) (gIn : Mat ℝ) (hg : gIn.WF) (N n : Nat) (x gr : Nat → Nat → ℝ)
    (h1 : ∀ s j, s < N → j < n → HasDerivAt a1 (d1 (x s j)) (x s j))
    (h2 : ∀ s j, s < N → j < n → HasDerivAt a2 (d2 (x s (j + n))) (x s (j + n))) :
    ∃ y : Nat → Nat → ℝ,
      gatedBackward g false a1 a2 d1 d2 (Mat.ofFn N (2 * n) x) (Mat.ofFn N n gr) gIn = .ok (Mat.ofFn N (2 * n) y) ∧
      IsGrad N (2 * n) (fun x => dotM N n gr (fun s j => a1 (x s j) * a2 (x s (j + n)))) x y := by
  refine ⟨_, gatedBackward_ofFn g a1 a2 d1 d2 hg N n x gr, ?_⟩
  intro V
  have e : dotM N (2 * n) (fun s j => if j < n then gr s j * a2 (x s (j + n)) * d1 (x s j)
        else gr s (j - n) * a1 (x s (j - n)) * d2 (x s j)) V =
      ∑ s ∈ range N, ∑ j ∈ range n, gr s j * (d1 (x s j) * V s j * a2 (x s (j + n)) +
        a1 (x s j) * (d2 (x s (j + n)) * V s (j + n))) := by
    unfold dotM
    apply sum_congr rfl; intro s _
    rw [show 2 * n = n + n by ring, sum_range_add, ← sum_add_distrib]
    apply sum_congr rfl; intro j hj
    have h : ¬ j + n < n := by omega
    simp only [if_pos (mem_range.mp hj), Nat.add_comm n j, if_neg h, Nat.add_sub_cancel]
    ring
  rw [e]
  unfold dotM
  apply HasDerivAt.fun_sum
  intro s hs
  apply HasDerivAt.fun_sum
  intro j hj
  have l : ∀ k, HasDerivAt (fun t : ℝ => x s k + t * V s k) (V s k) 0 := fun k => by
    simpa using ((hasDerivAt_id (0:ℝ)).mul_const (V s k)).const_add (x s k)
  have g1 : HasDerivAt a1 (d1 (x s j)) (x s j + 0 * V s j) := by
    simpa using h1 s j (mem_range.mp hs) (mem_range.mp hj)
  have g2 : HasDerivAt a2 (d2 (x s (j + n))) (x s (j + n) + 0 * V s (j + n)) := by
    simpa using h2 s j (mem_range.mp hs) (mem_range.mp hj)
  have p1 := g1.comp (0:ℝ) (l j)
  have p2 := g2.comp (0:ℝ) (l (j + n))
  refine ((p1.mul p2).const_mul (gr s j)).congr_deriv ?_
  simp

/-- C41 for the activations of the library: every pair of activation names other than the four with a wrong
and the two with an inexact derivation (C23), away from the finitely many kinks. -/
theorem C41_named (g : Nat → ℝ) (s1 s2 : String) (A1 A2 : Activation) (hA1 : getActivation s1 = some A1)
    (hA2 : getActivation s2 = some A2)
    (w1 : s1 ∉ ["SineReLU", "Logit", "TanhExp", "SQ-RBF", "GELU", "SoftSteps"])
    (w2 : s2 ∉ ["SineReLU", "Logit", "TanhExp", "SQ-RBF", "GELU", "SoftSteps"])
    (gIn : Mat ℝ) (hg : gIn.WF) (N n : Nat) (x gr : Nat → Nat → ℝ)
    (h1 : ∀ s j, s < N → j < n → x s j ∉ kinks s1) (h2 : ∀ s j, s < N → j < n → x s (j + n) ∉ kinks s2) :
    ∃ y : Nat → Nat → ℝ,
      gatedBackward g false A1.apply A2.apply A1.derivation A2.derivation (Mat.ofFn N (2 * n) x) (Mat.ofFn N n gr) gIn =
        .ok (Mat.ofFn N (2 * n) y) ∧
      IsGrad N (2 * n) (fun x => dotM N n gr (fun s j => A1.apply (x s j) * A2.apply (x s (j + n)))) x y := by
  simp only [List.mem_cons, List.not_mem_nil, or_false, not_or] at w1 w2
  apply C41_gradient g _ _ _ _ gIn hg N n x gr
  · intro s j hs hj
    exact C23_differentiable s1 A1 hA1 (by simp [w1]) (by simp [w1]) _ (h1 s j hs hj)
  · intro s j hs hj
    exact C23_differentiable s2 A2 hA2 (by simp [w2]) (by simp [w2]) _ (h2 s j hs hj)

/-- The activations of the gated layers GLU, ReGLU, Bilinear, SwiGLU, SeGLU and GTU (LayerGatedActivation.h)
satisfy the hypotheses of `C41_named`. -/
example : ∀ p ∈ [("Identity", "Sigmoid"), ("Identity", "Relu"), ("Identity", "Identity"), ("Identity", "Swish"),
    ("Identity", "Selu"), ("Tanh", "Sigmoid")], (∃ A, getActivation p.1 = some A) ∧ (∃ A, getActivation p.2 = some A) ∧
    p.1 ∉ ["SineReLU", "Logit", "TanhExp", "SQ-RBF", "GELU", "SoftSteps"] ∧
    p.2 ∉ ["SineReLU", "Logit", "TanhExp", "SQ-RBF", "GELU", "SoftSteps"] := by
  intro p hp
  simp only [List.mem_cons, List.not_mem_nil, or_false] at hp
  rcases hp with rfl | rfl | rfl | rfl | rfl | rfl <;>
    exact ⟨⟨_, rfl⟩, ⟨_, rfl⟩, by decide, by decide⟩

end BeeDNN
