import Verif.Lemmas.Pooling
import Verif.Props.LayersBasic
import Mathlib.Algebra.BigOperators.Field

/-!
# Pooling and padding layers (claims C28 – C32)

`imgMat N K R C v` is a batch of `N` samples with `K` channels of `R × C` pixels, pixel `(r,c)` of channel
`k` of sample `s` being `v s k r c`; every well-formed matrix of that size is of this form
(`exists_imgMat`).  `mOut`, `mGI`, `mMax` are the previous contents of the matrices that are overwritten,
`g`, `gi` fresh memory, `low` the literal `-1.e38f`, `fl` the conversion of an index to `float` and back.
-/

namespace BeeDNN
open Finset

variable {α : Type}

/-! ## C28 -/

/-- C28: for all sizes and all factors, each output pixel is the maximum of its window. -/
theorem C28_maxpool [LinearOrder α] [Inhabited α] (g : Nat → α) (gi : Nat → Int) (fl : Int → Int) (low : α)
    (train : Bool) {N K R C rf cf : Nat} (hrf : 0 < rf) (hcf : 0 < cf) (x : Nat → Nat → Nat → Nat → α)
    (hlow : ∀ s k r c, s < N → k < K → r < R → c < C → low < x s k r c)
    {mOut : Mat α} {mMax : Mat Int} (hO : mOut.WF) (hM : mMax.WF) :
    ∃ p y idx, Pool.create R C K rf cf = .ok p ∧
      maxPoolForward g gi fl low p train (imgMat N K R C x) mOut mMax =
        .ok (imgMat N K (R / rf) (C / cf) y, idx) ∧
      ∀ s k r c, s < N → k < K → r < R / rf → c < C / cf →
        (∃ i j, i < rf ∧ j < cf ∧ y s k r c = x s k (r * rf + i) (c * cf + j)) ∧
        (∀ i j, i < rf → j < cf → x s k (r * rf + i) (c * cf + j) ≤ y s k r c) := by
  refine ⟨_, _, _, Pool.create_eq hrf hcf, maxPoolForward_imgMat g gi fl low train x hO hM, ?_⟩
  intro s k r c hs hk hr hc
  obtain ⟨t, ⟨h1, h2, -⟩, h4⟩ := winSel_spec (low := low) (n := rf * cf)
    (f := fun t => x s k (r * rf + t / cf) (c * cf + t % cf))
    (idx := fun t => (((r * rf + t / cf) * C + (c * cf + t % cf) : Nat) : Int))
    (Nat.mul_pos hrf hcf) (fun i hi => by
      obtain ⟨a, b, -⟩ := idx_decomp hi
      exact hlow _ _ _ _ hs hk (win_lt hr a) (win_lt hc b))
  obtain ⟨a, b, -⟩ := idx_decomp h1
  simp only [h4]
  refine ⟨⟨_, _, a, b, rfl⟩, ?_⟩
  intro i j hi hj
  have := h2 (i * cf + j) (idx_lt hi hj)
  simpa only [idx_div hj, idx_mod hj] using this

/-- Non-trivial instance of C28: a 5 × 4 image, windows 2 × 3 (neither factor divides), two channels. -/
example : ∃ p y idx, Pool.create 5 4 2 2 3 = .ok p ∧
    maxPoolForward (fun _ => (0 : Int)) (fun _ => 0) id (-1000) p true
      (imgMat 1 2 5 4 (fun _ k r c => (k : Int) * 10 + (r : Int) * 4 - (c : Int))) ⟨0, 0, []⟩ ⟨0, 0, []⟩ =
      .ok (imgMat 1 2 2 1 y, idx) ∧
    y 0 1 1 0 = 22 := by
  obtain ⟨p, y, idx, h1, h2, h3⟩ := C28_maxpool (fun _ => (0 : Int)) (fun _ => 0) id (-1000) true
    (N := 1) (K := 2) (R := 5) (C := 4) (rf := 2) (cf := 3) (by decide) (by decide)
    (fun _ k r c => (k : Int) * 10 + (r : Int) * 4 - (c : Int))
    (by intro s k r c _ _ _ hc; omega)
    (mOut := ⟨0, 0, []⟩) (mMax := ⟨0, 0, []⟩) rfl rfl
  refine ⟨p, y, idx, h1, h2, ?_⟩
  obtain ⟨⟨i, j, hi, hj, h4⟩, h5⟩ := h3 0 1 1 0 (by decide) (by decide) (by decide) (by decide)
  have := h5 1 0 (by decide) (by decide)
  omega

/-- C28: a zero factor makes the constructor divide by zero. -/
theorem C28_zero_factor (R C K rf cf : Nat) (h : rf = 0 ∨ cf = 0) :
    Pool.create R C K rf cf = .error .divByZero := by
  rw [Pool.create, if_pos h]

/-- C28: pixels at or below the internal constant are not seen: a window entirely below it gives the
constant instead of the maximum, with the invalid position −1. -/
theorem C28_below_constant :
    maxPoolForward (fun _ => (0 : Int)) (fun _ => 0) id (-10) (Pool.std 1 1 1 1 1) true
      (imgMat 1 1 1 1 (fun _ _ _ _ => -20)) ⟨0, 0, []⟩ ⟨0, 0, []⟩ =
      .ok (imgMat 1 1 1 1 (fun _ _ _ _ => -10), imgMat 1 1 1 1 (fun _ _ _ _ => -1)) := by
  decide

/-! ## C29 -/

/-- `w s k r c` is, inside the window of output pixel `(r,c)`, the position (row by row) of the first
maximum. -/
def IsWinner [LE α] [LT α] (N K R C rf cf : Nat) (x : Nat → Nat → Nat → Nat → α)
    (w : Nat → Nat → Nat → Nat → Nat) : Prop :=
  ∀ s k r c, s < N → k < K → r < R / rf → c < C / cf →
    IsFirstMax (rf * cf) (fun t => x s k (r * rf + t / cf) (c * cf + t % cf)) (w s k r c)

/-- C29, what the code computes: whatever the sample and the channel, the gradient is sent to the pixel that
won in sample 0, channel 0 (LayerMaxPool2D.cpp:107). -/
theorem C29_actual [LinearOrder α] [Inhabited α] [Zero α] (g g' : Nat → α) (gi : Nat → Int) (fl : Int → Int)
    (low : α) {N K R C rf cf : Nat} (hrf : 0 < rf) (hcf : 0 < cf) (hN : 0 < N) (hK : 0 < K)
    (hfl : ∀ i : Nat, i < R * C → fl i = i) (x : Nat → Nat → Nat → Nat → α)
    (hlow : ∀ s k r c, s < N → k < K → r < R → c < C → low < x s k r c)
    {mOut mGI : Mat α} {mMax : Mat Int} (hO : mOut.WF) (hM : mMax.WF) (hG : mGI.WF)
    (gr : Nat → Nat → Nat → Nat → α) (w : Nat → Nat → Nat → Nat → Nat) (hw : IsWinner N K R C rf cf x w) :
    ∃ p y idx, Pool.create R C K rf cf = .ok p ∧
      maxPoolForward g gi fl low p true (imgMat N K R C x) mOut mMax = .ok (y, idx) ∧
      maxPoolBackward g' p false idx (imgMat N K (R / rf) (C / cf) gr) mGI =
        .ok (imgMat N K R C (fun s k ri ci =>
          if ri / rf < R / rf ∧ ci / cf < C / cf ∧
            ri % rf * cf + ci % cf = w 0 0 (ri / rf) (ci / cf) then gr s k (ri / rf) (ci / cf) else 0)) := by
  refine ⟨_, _, _, Pool.create_eq hrf hcf, maxPoolForward_imgMat g gi fl low true x hO hM, ?_⟩
  rw [if_pos rfl]
  rw [maxPoolBackward_imgMat g' hrf hcf gr _ (w 0 0) ?_ hG]
  · rfl
  intro r c hr hc
  have hwin := hw 0 0 r c hN hK hr hc
  refine ⟨hwin.1, ?_⟩
  obtain ⟨t, h1, h4⟩ := winSel_spec (low := low) (n := rf * cf)
    (f := fun t => x 0 0 (r * rf + t / cf) (c * cf + t % cf))
    (idx := fun t => (((r * rf + t / cf) * C + (c * cf + t % cf) : Nat) : Int))
    (Nat.mul_pos hrf hcf) (fun i hi => by
      obtain ⟨a, b, -⟩ := idx_decomp hi
      exact hlow _ _ _ _ hN hK (win_lt hr a) (win_lt hc b))
  simp only [h4]
  rw [IsFirstMax.unique h1 hwin]
  apply hfl
  obtain ⟨a, b, -⟩ := idx_decomp hwin.1
  exact idx_lt (win_lt hr a) (win_lt hc b)

/-- C29, partial: if the winners of all samples and channels are at the same place (in particular for one
sample and one channel), every input pixel receives the gradient of the window it won and zero otherwise.
What is missing for the full claim: batches where the winners differ, see `C29_wrong`. -/
theorem C29_partial [LinearOrder α] [Inhabited α] [Zero α] (g g' : Nat → α) (gi : Nat → Int) (fl : Int → Int)
    (low : α) {N K R C rf cf : Nat} (hrf : 0 < rf) (hcf : 0 < cf) (hN : 0 < N) (hK : 0 < K)
    (hfl : ∀ i : Nat, i < R * C → fl i = i) (x : Nat → Nat → Nat → Nat → α)
    (hlow : ∀ s k r c, s < N → k < K → r < R → c < C → low < x s k r c)
    {mOut mGI : Mat α} {mMax : Mat Int} (hO : mOut.WF) (hM : mMax.WF) (hG : mGI.WF)
    (gr : Nat → Nat → Nat → Nat → α) (w : Nat → Nat → Nat → Nat → Nat) (hw : IsWinner N K R C rf cf x w)
    (hsame : ∀ s k r c, s < N → k < K → r < R / rf → c < C / cf → w s k r c = w 0 0 r c) :
    ∃ p y idx d, Pool.create R C K rf cf = .ok p ∧
      maxPoolForward g gi fl low p true (imgMat N K R C x) mOut mMax = .ok (y, idx) ∧
      maxPoolBackward g' p false idx (imgMat N K (R / rf) (C / cf) gr) mGI = .ok (imgMat N K R C d) ∧
      ∀ s k, s < N → k < K →
        (∀ r c, r < R / rf → c < C / cf →
          d s k (r * rf + w s k r c / cf) (c * cf + w s k r c % cf) = gr s k r c) ∧
        (∀ ri ci, ri < R → ci < C → (∀ r c, r < R / rf → c < C / cf →
          ¬ (ri = r * rf + w s k r c / cf ∧ ci = c * cf + w s k r c % cf)) → d s k ri ci = 0) := by
  obtain ⟨p, y, idx, h1, h2, h3⟩ := C29_actual g g' gi fl low hrf hcf hN hK hfl x hlow hO hM hG gr w hw
  refine ⟨p, y, idx, _, h1, h2, h3, ?_⟩
  intro s k hs hk
  constructor
  · intro r c hr hc
    have hwin := hw s k r c hs hk hr hc
    obtain ⟨a, b, e⟩ := idx_decomp hwin.1
    simp only [idx_div a, idx_div b, idx_mod a, idx_mod b, ← e]
    rw [if_pos ⟨hr, hc, hsame s k r c hs hk hr hc⟩]
  · intro ri ci hri hci hno
    apply if_neg
    rintro ⟨h4, h5, h6⟩
    apply hno _ _ h4 h5
    rw [hsame s k _ _ hs hk h4 h5, ← h6, idx_div (Nat.mod_lt _ hcf), idx_mod (Nat.mod_lt _ hcf)]
    exact ⟨(Nat.div_add_mod' _ _).symm, (Nat.div_add_mod' _ _).symm⟩

/-- The hypotheses of `C29_partial` hold for one sample, one channel, a 2 × 2 image. -/
example : ∃ p y idx d, Pool.create 2 2 1 2 2 = .ok p ∧
    maxPoolForward (fun _ => (0 : Int)) (fun _ => 0) id (-1000) p true
      (imgMat 1 1 2 2 (fun _ _ r c => (r : Int) - (c : Int))) ⟨0, 0, []⟩ ⟨0, 0, []⟩ = .ok (y, idx) ∧
    maxPoolBackward (fun _ => (0 : Int)) p false idx (imgMat 1 1 1 1 (fun _ _ _ _ => 7)) ⟨0, 0, []⟩ =
      .ok (imgMat 1 1 2 2 d) ∧ d 0 0 1 0 = 7 := by
  obtain ⟨p, y, idx, d, h1, h2, h3, h4⟩ := C29_partial (fun _ => (0 : Int)) (fun _ => 0) (fun _ => 0) id (-1000)
    (N := 1) (K := 1) (R := 2) (C := 2) (rf := 2) (cf := 2) (by decide) (by decide) (by decide) (by decide)
    (fun _ _ => rfl) (fun _ _ r c => (r : Int) - (c : Int))
    (by intro s k r c _ _ _ hc; omega)
    (mOut := ⟨0, 0, []⟩) (mMax := ⟨0, 0, []⟩) (mGI := ⟨0, 0, []⟩) rfl rfl rfl (fun _ _ _ _ => 7)
    (fun _ _ _ _ => 2)
    (by
      intro s k r c hs hk hr hc
      have h1 : r = 0 := by omega
      have h2 : c = 0 := by omega
      subst h1; subst h2
      show IsFirstMax 4 (fun t => (((0 * 2 + t / 2 : Nat) : Int) - ((0 * 2 + t % 2 : Nat) : Int))) 2
      refine ⟨by decide, ?_, ?_⟩
      · intro j hj
        have : j = 0 ∨ j = 1 ∨ j = 2 ∨ j = 3 := by omega
        rcases this with rfl | rfl | rfl | rfl <;> decide
      · intro j hj
        have : j = 0 ∨ j = 1 := by omega
        rcases this with rfl | rfl <;> decide)
    (by intros; rfl)
  exact ⟨p, y, idx, d, h1, h2, h3, (h4 0 0 (by decide) (by decide)).1 0 0 (by decide) (by decide)⟩

/-- C29 is violated: two samples (1 × 2 images, one window) with winners at different places; the second
sample's gradient goes to the pixel that lost, the pixel that won gets zero. -/
theorem C29_wrong :
    let x : Nat → Nat → Nat → Nat → Int := fun s _ _ c => if s = 0 then (if c = 0 then 5 else 1) else
      (if c = 0 then 1 else 5)
    ∃ p idx, Pool.create 1 2 1 1 2 = .ok p ∧
      maxPoolForward (fun _ => 0) (fun _ => 0) id (-1000) p true (imgMat 2 1 1 2 x) ⟨0, 0, []⟩ ⟨0, 0, []⟩ =
        .ok (imgMat 2 1 1 1 (fun _ _ _ _ => 5), idx) ∧
      maxPoolBackward (fun _ => 0) p false idx (imgMat 2 1 1 1 (fun _ _ _ _ => 1)) ⟨0, 0, []⟩ =
        .ok (imgMat 2 1 1 2 (fun _ _ _ c => if c = 0 then 1 else 0)) := by
  refine ⟨Pool.std 1 2 1 1 2, imgMat 2 1 1 1 (fun s _ _ _ => if s = 0 then 0 else 1), ?_⟩
  decide

/-! ## C30 -/

/-- C30: forward and backward of the global max pooling. -/
theorem C30_globalmax [LinearOrder α] [Inhabited α] [Zero α] (g g' : Nat → α) (gi : Nat → Int)
    (fl : Int → Int) (low : α) {N K R C : Nat} (hR : 0 < R) (hC : 0 < C)
    (hfl : ∀ i : Nat, i < R * C * K → fl i = i) (x : Nat → Nat → Nat → Nat → α)
    (hlow : ∀ s k r c, s < N → k < K → r < R → c < C → low < x s k r c)
    {mOut mGI : Mat α} {mMax : Mat Int} (hO : mOut.WF) (hM : mMax.WF) (hG : mGI.WF)
    (gr : Nat → Nat → α) :
    ∃ y idx d, ∃ wr wc : Nat → Nat → Nat,
      globalMaxPoolForward g gi fl low R C K true (imgMat N K R C x) mOut mMax = .ok (Mat.ofFn N K y, idx) ∧
      globalMaxPoolForward g gi fl low R C K false (imgMat N K R C x) mOut mMax = .ok (Mat.ofFn N K y, mMax) ∧
      globalMaxPoolBackward g' R C K false idx (Mat.ofFn N K gr) mGI = .ok (imgMat N K R C d) ∧
      ∀ s k, s < N → k < K →
        (wr s k < R ∧ wc s k < C ∧ y s k = x s k (wr s k) (wc s k)) ∧
        (∀ r c, r < R → c < C → x s k r c ≤ y s k) ∧
        (∀ r c, r < R → c < C → d s k r c = if r = wr s k ∧ c = wc s k then gr s k else 0) := by
  have hspec : ∀ s k, ∃ t, s < N → k < K → IsFirstMax (R * C) (fun t => x s k (t / C) (t % C)) t ∧
      winSel low (fun t => x s k (t / C) (t % C))
        (fun t => ((k * (R * C) + (t / C * C + t % C) : Nat) : Int)) (R * C) =
        (x s k (t / C) (t % C), ((k * (R * C) + (t / C * C + t % C) : Nat) : Int)) := by
    intro s k
    by_cases h : s < N ∧ k < K
    · obtain ⟨t, h1, h2⟩ := winSel_spec (low := low) (n := R * C)
        (f := fun t => x s k (t / C) (t % C))
        (idx := fun t => ((k * (R * C) + (t / C * C + t % C) : Nat) : Int))
        (Nat.mul_pos hR hC) (fun i hi => by
          obtain ⟨a, b, -⟩ := idx_decomp hi
          exact hlow _ _ _ _ h.1 h.2 a b)
      exact ⟨t, fun _ _ => ⟨h1, h2⟩⟩
    · exact ⟨0, fun h1 h2 => absurd ⟨h1, h2⟩ h⟩
  choose w hw using hspec
  have hf := fun train => globalMaxPoolForward_imgMat (N := N) (K := K) (R := R) (C := C) g gi fl low train x
    hO hM
  have e2 : Mat.ofFn N K (fun s k => fl (winSel low (fun t => x s k (t / C) (t % C))
        (fun t => ((k * (R * C) + (t / C * C + t % C) : Nat) : Int)) (R * C)).2) =
      Mat.ofFn N K (fun s k => ((k * (R * C) + (w s k / C * C + w s k % C) : Nat) : Int)) := by
    apply Mat.ofFn_congr
    intro s k hs hk
    rw [(hw s k hs hk).2]
    apply hfl
    obtain ⟨a, b, -⟩ := idx_decomp (hw s k hs hk).1.1
    exact px_lt hk a b
  refine ⟨_, _, fun s k r c => if r * C + c = w s k then gr s k else 0, fun s k => w s k / C,
    fun s k => w s k % C, hf true, hf false, ?_, ?_⟩
  · rw [if_pos rfl]
    simp only [e2]
    exact globalMaxPoolBackward_imgMat g' gr w (fun s k hs hk => (hw s k hs hk).1.1) hG
  · intro s k hs hk
    obtain ⟨⟨h1, h2, h3⟩, h4⟩ := hw s k hs hk
    obtain ⟨a, b, e⟩ := idx_decomp h1
    simp only [h4]
    refine ⟨⟨a, b, trivial⟩, ?_, ?_⟩
    · intro r c hr hc
      have := h2 (r * C + c) (idx_lt hr hc)
      simpa only [idx_div hc, idx_mod hc] using this
    · intro r c hr hc
      have hiff : (r = w s k / C ∧ c = w s k % C) ↔ r * C + c = w s k := by
        constructor
        · rintro ⟨rfl, rfl⟩; exact e.symm
        · intro h
          rw [← h, idx_div hc, idx_mod hc]
          exact ⟨rfl, rfl⟩
      simp only [hiff]

/-- Non-trivial instance of C30: two samples, two channels, 2 × 3 planes. -/
example : ∃ y idx d, ∃ wr wc : Nat → Nat → Nat,
    globalMaxPoolForward (fun _ => (0 : Int)) (fun _ => 0) id (-1000) 2 3 2 true
      (imgMat 2 2 2 3 (fun s k r c => (s : Int) + k - r - c)) ⟨0, 0, []⟩ ⟨0, 0, []⟩ = .ok (Mat.ofFn 2 2 y, idx) ∧
    globalMaxPoolBackward (fun _ => (0 : Int)) 2 3 2 false idx (Mat.ofFn 2 2 (fun s k => (s : Int) + k))
      ⟨0, 0, []⟩ = .ok (imgMat 2 2 2 3 d) ∧ wr 0 0 < 2 ∧ wc 0 0 < 3 := by
  obtain ⟨y, idx, d, wr, wc, h1, -, h2, h3⟩ := C30_globalmax (fun _ => (0 : Int)) (fun _ => 0) (fun _ => 0) id
    (-1000) (N := 2) (K := 2) (R := 2) (C := 3) (by decide) (by decide) (fun _ _ => rfl)
    (fun s k r c => (s : Int) + k - r - c) (by intro s k r c _ _ _ _; omega)
    (mOut := ⟨0, 0, []⟩) (mMax := ⟨0, 0, []⟩) (mGI := ⟨0, 0, []⟩) rfl rfl rfl (fun s k => (s : Int) + k)
  obtain ⟨⟨h4, h5, -⟩, -⟩ := h3 0 0 (by decide) (by decide)
  exact ⟨y, idx, d, wr, wc, h1, h2, h4, h5⟩

/-! ## C31 -/

theorem sum_windows {R rf : Nat} (hrf : 0 < rf) (F : Nat → ℝ) :
    ∑ ri ∈ range R, (if ri / rf < R / rf then F ri else 0) =
      ∑ r ∈ range (R / rf), ∑ i ∈ range rf, F (r * rf + i) := by
  have h1 := sum_range_mul (α := ℝ) (R / rf) rf (fun r i => F (r * rf + i))
  rw [← h1, ← Finset.sum_filter]
  apply Finset.sum_congr
  · ext i
    simp only [mem_filter, mem_range, Nat.div_lt_iff_lt_mul hrf]
    have := Nat.div_mul_le_self R rf
    omega
  · intro i _
    rw [Nat.div_add_mod']

/-- C31: AveragePooling2D computes window means and its backward pass is the adjoint. -/
theorem C31_average (g g' : Nat → ℝ) {N K R C rf cf : Nat} (hrf : 0 < rf) (hcf : 0 < cf)
    (x gr : Nat → Nat → Nat → Nat → ℝ) {mOut mGI : Mat ℝ} (hO : mOut.WF) (hG : mGI.WF) :
    ∃ p y d, Pool.create R C K rf cf = .ok p ∧
      avgPoolForward g p (imgMat N K R C x) mOut = .ok (imgMat N K (R / rf) (C / cf) y) ∧
      (∀ s k r c, s < N → k < K → r < R / rf → c < C / cf → y s k r c =
        (∑ i ∈ range rf, ∑ j ∈ range cf, x s k (r * rf + i) (c * cf + j)) / (rf * cf)) ∧
      avgPoolBackward g' p false (imgMat N K (R / rf) (C / cf) gr) mGI = .ok (imgMat N K R C d) ∧
      dotI N K (R / rf) (C / cf) gr y = dotI N K R C d x := by
  have hy : ∀ s k r c, accN (rf * cf) (fun t => x s k (r * rf + t / cf) (c * cf + t % cf)) *
      (1 / ((rf * cf : Nat) : ℝ)) =
      (∑ i ∈ range rf, ∑ j ∈ range cf, x s k (r * rf + i) (c * cf + j)) / (rf * cf) := by
    intro s k r c
    rw [accN_eq_sum, sum_range_mul rf cf (fun i j => x s k (r * rf + i) (c * cf + j))]
    push_cast
    ring
  refine ⟨_, _, _, Pool.create_eq hrf hcf, avgPoolForward_imgMat g x hO, fun s k r c _ _ _ _ => hy s k r c,
    avgPoolBackward_imgMat g' hrf hcf gr hG, ?_⟩
  unfold dotI
  refine Finset.sum_congr rfl fun s _ => Finset.sum_congr rfl fun k _ => ?_
  have e1 : ∀ ri ci : Nat, (if ri / rf < R / rf ∧ ci / cf < C / cf then
      0 + gr s k (ri / rf) (ci / cf) * (1 / ((rf * cf : Nat) : ℝ)) else 0) * x s k ri ci =
      if ri / rf < R / rf then (if ci / cf < C / cf then
        gr s k (ri / rf) (ci / cf) * (1 / ((rf * cf : Nat) : ℝ)) * x s k ri ci else 0) else 0 := by
    intro ri ci
    by_cases h1 : ri / rf < R / rf <;> by_cases h2 : ci / cf < C / cf <;> simp [h1, h2]
  simp only [e1]
  have e2 : ∀ ri : Nat, (∑ ci ∈ range C, if ri / rf < R / rf then (if ci / cf < C / cf then
        gr s k (ri / rf) (ci / cf) * (1 / ((rf * cf : Nat) : ℝ)) * x s k ri ci else 0) else 0) =
      if ri / rf < R / rf then ∑ c ∈ range (C / cf), ∑ j ∈ range cf,
        gr s k (ri / rf) c * (1 / ((rf * cf : Nat) : ℝ)) * x s k ri (c * cf + j) else 0 := by
    intro ri
    by_cases h1 : ri / rf < R / rf
    · simp only [h1, if_true]
      rw [sum_windows hcf (fun ci => gr s k (ri / rf) (ci / cf) * (1 / ((rf * cf : Nat) : ℝ)) * x s k ri ci)]
      refine Finset.sum_congr rfl fun c _ => Finset.sum_congr rfl fun j hj => ?_
      rw [idx_div (mem_range.1 hj)]
    · simp [h1]
  simp only [e2]
  rw [sum_windows hrf (fun ri => ∑ c ∈ range (C / cf), ∑ j ∈ range cf,
    gr s k (ri / rf) c * (1 / ((rf * cf : Nat) : ℝ)) * x s k ri (c * cf + j))]
  refine Finset.sum_congr rfl fun r _ => ?_
  have e3 : ∑ i ∈ range rf, ∑ c ∈ range (C / cf), ∑ j ∈ range cf,
      gr s k ((r * rf + i) / rf) c * (1 / ((rf * cf : Nat) : ℝ)) * x s k (r * rf + i) (c * cf + j) =
      ∑ i ∈ range rf, ∑ c ∈ range (C / cf), ∑ j ∈ range cf,
      gr s k r c * (1 / ((rf * cf : Nat) : ℝ)) * x s k (r * rf + i) (c * cf + j) := by
    refine Finset.sum_congr rfl fun i hi => ?_
    rw [idx_div (mem_range.1 hi)]
  rw [e3, Finset.sum_comm]
  refine Finset.sum_congr rfl fun c _ => ?_
  rw [hy]
  push_cast
  simp only [Finset.sum_div, Finset.mul_sum]
  refine Finset.sum_congr rfl fun i _ => Finset.sum_congr rfl fun j _ => ?_
  ring

/-- C31: GlobalAveragePooling2D computes plane means and its backward pass is the adjoint. -/
theorem C31_globalaverage (g g' : Nat → ℝ) {N K R C : Nat}
    (x : Nat → Nat → Nat → Nat → ℝ) (gr : Nat → Nat → ℝ) {mOut mGI : Mat ℝ} (hO : mOut.WF) (hG : mGI.WF) :
    ∃ y d, globalAvgPoolForward g R C K (imgMat N K R C x) mOut = .ok (Mat.ofFn N K y) ∧
      (0 < R → 0 < C → ∀ s k, s < N → k < K →
        y s k = (∑ r ∈ range R, ∑ c ∈ range C, x s k r c) / (R * C)) ∧
      globalAvgPoolBackward g' R C K false (Mat.ofFn N K gr) mGI = .ok (imgMat N K R C d) ∧
      dotM N K gr y = dotI N K R C d x := by
  refine ⟨_, _, globalAvgPoolForward_imgMat g x hO, ?_, globalAvgPoolBackward_imgMat g' gr hG, ?_⟩
  · intro _ _ s k _ _
    rw [accN_eq_sum, sum_range_mul R C (fun r c => x s k r c)]
    push_cast
    ring
  · unfold dotM dotI
    refine Finset.sum_congr rfl fun s _ => Finset.sum_congr rfl fun k _ => ?_
    simp only []
    rw [accN_eq_sum, sum_range_mul R C (fun r c => x s k r c)]
    simp only [Finset.sum_mul, Finset.mul_sum]
    refine Finset.sum_congr rfl fun i _ => Finset.sum_congr rfl fun j _ => ?_
    ring

/-- Non-trivial instance of C31: a 3 × 4 image, factor 2 × 2 (the last row is in no window). -/
example : ∃ p y d, Pool.create 3 4 1 2 2 = .ok p ∧
    avgPoolForward (fun _ => (0 : ℝ)) p (imgMat 1 1 3 4 (fun _ _ r c => (r : ℝ) + c)) ⟨0, 0, []⟩ =
      .ok (imgMat 1 1 1 2 y) ∧ y 0 0 0 1 = 3 ∧
    avgPoolBackward (fun _ => (0 : ℝ)) p false (imgMat 1 1 1 2 (fun _ _ _ _ => 1)) ⟨0, 0, []⟩ =
      .ok (imgMat 1 1 3 4 d) := by
  obtain ⟨p, y, d, h1, h2, h3, h4, -⟩ := C31_average (fun _ => 0) (fun _ => 0) (N := 1) (K := 1) (R := 3)
    (C := 4) (rf := 2) (cf := 2) (by decide) (by decide) (fun _ _ r c => (r : ℝ) + c) (fun _ _ _ _ => 1)
    (mOut := ⟨0, 0, []⟩) (mGI := ⟨0, 0, []⟩) rfl rfl
  refine ⟨p, y, d, h1, h2, ?_, h4⟩
  rw [h3 0 0 0 1 (by decide) (by decide) (by decide) (by decide)]
  simp only [Finset.sum_range_succ, Finset.sum_range_zero]
  norm_num

/-! ## C32 -/

theorem sum_shift {R b : Nat} (F : Nat → ℝ) :
    ∑ r ∈ range (R + 2 * b), (if b ≤ r ∧ r < R + b then F r else 0) = ∑ r ∈ range R, F (r + b) := by
  rw [show R + 2 * b = b + (R + b) by ring, Finset.sum_range_add, Finset.sum_range_add]
  rw [Finset.sum_eq_zero, Finset.sum_eq_zero (s := range b), zero_add, add_zero]
  · refine Finset.sum_congr rfl fun r hr => ?_
    have := mem_range.1 hr
    rw [if_pos (by omega), Nat.add_comm]
  · intro r hr
    have := mem_range.1 hr
    rw [if_neg (by omega)]
  · intro r hr
    have := mem_range.1 hr
    rw [if_neg (by omega)]

/-- C32: forward copies into the centre and fills the border with zeros. -/
theorem C32_forward [Zero α] [Inhabited α] (g : Nat → α) {N K R C b : Nat} (x : Nat → Nat → Nat → Nat → α)
    {mOut : Mat α} (hO : mOut.WF) :
    ∃ y, zeroPadForward g R C K b (imgMat N K R C x) mOut = .ok (imgMat N K (R + 2 * b) (C + 2 * b) y) ∧
      (∀ s k r c, r < R → c < C → y s k (b + r) (b + c) = x s k r c) ∧
      (∀ s k r c, (r < b ∨ R + b ≤ r ∨ c < b ∨ C + b ≤ c) → y s k r c = 0) := by
  refine ⟨_, zeroPadForward_imgMat g x hO, ?_, ?_⟩
  · intro s k r c hr hc
    rw [if_pos (by omega), Nat.add_sub_cancel_left, Nat.add_sub_cancel_left]
  · intro s k r c h
    rw [if_neg (by omega)]

/-- C32: backward returns the centre. -/
theorem C32_backward [Inhabited α] (g : Nat → α) {N K R C b : Nat} (gr : Nat → Nat → Nat → Nat → α)
    {mGI : Mat α} (hG : mGI.WF) :
    ∃ d, zeroPadBackward g R C K b false (imgMat N K (R + 2 * b) (C + 2 * b) gr) mGI =
        .ok (imgMat N K R C d) ∧
      ∀ s k r c, s < N → k < K → r < R → c < C → d s k r c = gr s k (b + r) (b + c) :=
  ⟨_, zeroPadBackward_imgMat g gr hG, fun s k r c _ _ _ _ => by rw [Nat.add_comm r, Nat.add_comm c]⟩

/-- C32: the backward pass is a left inverse of the forward pass. -/
theorem C32_left_inverse [Zero α] [Inhabited α] (g g' : Nat → α) {N K R C b : Nat}
    (x : Nat → Nat → Nat → Nat → α) {mOut mGI : Mat α} (hO : mOut.WF) (hG : mGI.WF) :
    (zeroPadForward g R C K b (imgMat N K R C x) mOut >>= fun y => zeroPadBackward g' R C K b false y mGI) =
      .ok (imgMat N K R C x) := by
  rw [zeroPadForward_imgMat g x hO, bind_ok', zeroPadBackward_imgMat g' _ hG]
  congr 1
  apply imgMat_congr
  intro s k r c _ _ hr hc
  rw [if_pos (by omega), Nat.add_sub_cancel, Nat.add_sub_cancel]

/-- C32: the backward pass is the adjoint of the forward pass. -/
theorem C32_adjoint (g g' : Nat → ℝ) {N K R C b : Nat} (x gr : Nat → Nat → Nat → Nat → ℝ)
    {mOut mGI : Mat ℝ} (hO : mOut.WF) (hG : mGI.WF) :
    ∃ y d, zeroPadForward g R C K b (imgMat N K R C x) mOut =
        .ok (imgMat N K (R + 2 * b) (C + 2 * b) y) ∧
      zeroPadBackward g' R C K b false (imgMat N K (R + 2 * b) (C + 2 * b) gr) mGI = .ok (imgMat N K R C d) ∧
      dotI N K (R + 2 * b) (C + 2 * b) gr y = dotI N K R C d x := by
  refine ⟨_, _, zeroPadForward_imgMat g x hO, zeroPadBackward_imgMat g' gr hG, ?_⟩
  unfold dotI
  refine Finset.sum_congr rfl fun s _ => Finset.sum_congr rfl fun k _ => ?_
  have e1 : ∀ r : Nat, ∑ c ∈ range (C + 2 * b), gr s k r c *
      (if (b ≤ r ∧ r < R + b) ∧ b ≤ c ∧ c < C + b then x s k (r - b) (c - b) else 0) =
      if b ≤ r ∧ r < R + b then ∑ c ∈ range C, gr s k r (c + b) * x s k (r - b) c else 0 := by
    intro r
    by_cases h : b ≤ r ∧ r < R + b
    · rw [if_pos h]
      have := sum_shift (R := C) (b := b) (fun c => gr s k r c * x s k (r - b) (c - b))
      simp only [Nat.add_sub_cancel] at this
      rw [← this]
      refine Finset.sum_congr rfl fun c _ => ?_
      simp only [h, true_and, mul_ite, mul_zero]
    · rw [if_neg h]
      apply Finset.sum_eq_zero
      intro c _
      rw [if_neg (by tauto), mul_zero]
  simp only [e1]
  rw [sum_shift (fun r => ∑ c ∈ range C, gr s k r (c + b) * x s k (r - b) c)]
  simp only [Nat.add_sub_cancel]

/-- Non-trivial instance of C32: border 1 around a 1 × 2 image with two channels. -/
example : zeroPadForward (fun _ => (0 : Int)) 1 2 2 1 (imgMat 1 2 1 2 (fun _ k _ c => (k : Int) * 2 + c + 1))
    ⟨0, 0, []⟩ = .ok ⟨1, 24, [0, 0, 0, 0, 0, 1, 2, 0, 0, 0, 0, 0, 0, 0, 0, 0, 0, 3, 4, 0, 0, 0, 0, 0]⟩ := by
  decide +kernel

end BeeDNN
