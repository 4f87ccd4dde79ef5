import Verif.Lemmas.Recurrent
import Verif.Lemmas.Conv

/-!
# Recurrent layers (claims C43, C90)

Sequences of `T+1` frames of `F` values; `N` samples.  C43 is violated by the code in several ways, each
stated as a theorem; the `_partial` theorems say what the layers do compute.
-/

namespace BeeDNN
open Finset

variable {α : Type}

/-! ## C43 -/

/-- C43, violated for every recurrent layer (whatever its `init` and `forward_frame`): two sequences that differ
in the last frame only give the same result. -/
theorem C43_last_frame_ignored {W : Type} (g : Nat → α) (F T N : Nat) (hF : 0 < F) (train : Bool)
    (init : Rnn W α → Out (Rnn W α)) (frame : Rnn W α → Mat α → Mat α → Out (Rnn W α × Mat α))
    (st : Rnn W α) (mOut : Mat α) (x x' : Nat → Nat → α) (hx : ∀ s j, j < T * F → x s j = x' s j) :
    rnnForward g F train init frame st (Mat.ofFn N ((T + 1) * F) x) mOut =
      rnnForward g F train init frame st (Mat.ofFn N ((T + 1) * F) x') mOut := by
  cases hi : rnnStart F (N * ((T + 1) * F)) train init st with
  | ok st' =>
    rw [rnn_loop g F T hF N train init frame st st' mOut x hi, rnn_loop g F T hF N train init frame st st' mOut x' hi]
    apply forN_congr
    intro i hi s
    have e : Mat.ofFn N F (fun s j => x s (i * F + j)) = Mat.ofFn N F (fun s j => x' s (i * F + j)) := by
      apply Mat.ofFn_congr
      intro r c _ hc
      have : (i + 1) * F ≤ T * F := Nat.mul_le_mul_right F hi
      rw [Nat.add_mul, Nat.one_mul] at this
      exact hx r _ (by omega)
    rw [e]
  | error e =>
    unfold rnnForward
    have hs : ∀ y : Nat → Nat → α, (Mat.ofFn N ((T + 1) * F) y).size = N * ((T + 1) * F) := by simp
    rw [if_neg (by omega), if_neg (by omega), Mat.ofFn_cols, Mat.ofFn_cols, check_true (by simp), bind_ok', bind_ok',
      hs, hs, hi]
    rfl

/-- C43, violated for every recurrent layer: a sequence of one frame leaves `mOut` as it was. -/
theorem C43_single_frame {W : Type} (g : Nat → α) (F N : Nat) (hF : 0 < F) (train : Bool)
    (init : Rnn W α → Out (Rnn W α)) (frame : Rnn W α → Mat α → Mat α → Out (Rnn W α × Mat α))
    (st st' : Rnn W α) (mOut : Mat α) (x : Nat → Nat → α) (hi : rnnStart F (N * F) train init st = .ok st') :
    rnnForward g F train init frame st (Mat.ofFn N F x) mOut = .ok (st', mOut) := by
  have h := rnn_loop g F 0 hF N train init frame st st' mOut x (by rw [Nat.zero_add, Nat.one_mul]; exact hi)
  rw [Nat.zero_add, Nat.one_mul] at h
  exact h

/-- C43, violated: in particular the on-the-fly prediction of one frame of one sample, which line 26 of the code
provides for, does nothing at all. -/
theorem C43_streaming_noop {W : Type} (g : Nat → α) (F : Nat) (hF : 0 < F)
    (init : Rnn W α → Out (Rnn W α)) (frame : Rnn W α → Mat α → Mat α → Out (Rnn W α × Mat α))
    (st : Rnn W α) (mOut : Mat α) (x : Nat → Nat → α) :
    rnnForward g F false init frame st (Mat.ofFn 1 F x) mOut = .ok (st, mOut) := by
  apply C43_single_frame g F 1 hF
  unfold rnnStart
  rw [if_neg (by simp)]

theorem start_init {W : Type} {F T N : Nat} (hF : 0 < F) (hT : 0 < T) (train : Bool) (init : Rnn W α → Out (Rnn W α))
    (st : Rnn W α) : rnnStart F (N * ((T + 1) * F)) train init st = init st := by
  unfold rnnStart
  apply if_pos
  left
  intro h
  have h1 : N * (T + 1) * F = 1 * F := by rw [Nat.mul_assoc, h, Nat.one_mul]
  have h2 := Nat.eq_of_mul_eq_mul_right hF h1
  have := Nat.eq_one_of_mul_eq_one_left h2
  omega

/-- C43 for SimplestRNN, what holds: `T+1` frames with `T ≥ 1` give the hidden state after the *first* `T`
frames, computed with *newly drawn* weights, from the hidden state left by the previous call (if the batch size
is the same).  Missing (violated): the layer's own weights, the last frame, and a defined initial state. -/
theorem C43_simplest_partial [Zero α] [Add α] [Mul α] (g : Nat → α) (F T N : Nat) (hF : 0 < F) (hT : 0 < T) (train : Bool)
    (draw : Nat → α) (w : Mat α) (hw : w.WF) (h : Nat → Nat → α) (sv : List (Mat α)) (mOut : Mat α) (ho : mOut.WF)
    (x : Nat → Nat → α) :
    let W : Nat → Nat → α := fun i j => draw (i * F + j)
    let H := hidden id F W (fun t s j => x s (t * F + j)) h
    rnnForward g F train (simplestInit g F draw) (simplestFrame g F) ⟨w, Mat.ofFn N F h, sv⟩ (Mat.ofFn N ((T + 1) * F) x) mOut =
      .ok (⟨Mat.ofFn F F W, Mat.ofFn N F (H T), if train then (List.range T).map (fun t => Mat.ofFn N F (H (t + 1))) else []⟩,
        Mat.ofFn N F (H T)) := by
  intro W H
  have : Inhabited α := ⟨0⟩
  rw [rnn_loop g F T hF N train _ _ _ ⟨Mat.ofFn F F W, Mat.ofFn N F (H 0), []⟩ mOut x,
    rnn_states N F T train (Mat.ofFn F F W) _ (fun i => Mat.ofFn N F (fun s j => x s (i * F + j))) H [] mOut ho]
  · have hT0 : T ≠ 0 := by omega
    simp [hT0]
  · intro i _ sv o ho
    rw [simplestFrame_ofFn g N F W (H i) _ sv ho]
    rfl
  · rw [start_init hF hT]
    unfold simplestInit
    simp only [setRandom_ofFn g hw, bind_ok']
    rfl

/-- C43 for SimplestRNN with a new batch size: the same from the hidden state 0. -/
theorem C43_simplest_new_batch_partial [Zero α] [Add α] [Mul α] (g : Nat → α) (F T N : Nat) (hF : 0 < F) (hT : 0 < T)
    (train : Bool) (draw : Nat → α) (w : Mat α) (hw : w.WF) (h : Mat α) (hh : h.WF) (hr : h.rows ≠ N) (sv : List (Mat α))
    (mOut : Mat α) (ho : mOut.WF) (x : Nat → Nat → α) :
    rnnForward g F train (simplestInit g F draw) (simplestFrame g F) ⟨w, h, sv⟩ (Mat.ofFn N ((T + 1) * F) x) mOut =
      rnnForward g F train (simplestInit g F draw) (simplestFrame g F) ⟨w, Mat.ofFn N F (fun _ _ => 0), sv⟩
        (Mat.ofFn N ((T + 1) * F) x) mOut := by
  have : Inhabited α := ⟨0⟩
  have hi : ∀ h : Mat α, rnnStart F (N * ((T + 1) * F)) train (simplestInit g F draw) ⟨w, h, sv⟩ =
      .ok ⟨Mat.ofFn F F (fun i j => draw (i * F + j)), h, []⟩ := by
    intro h
    rw [start_init hF hT]
    unfold simplestInit
    simp only [setRandom_ofFn g hw, bind_ok']
    rfl
  rw [rnn_loop g F T hF N train _ _ _ _ mOut x (hi h), rnn_loop g F T hF N train _ _ _ _ mOut x (hi _)]
  obtain ⟨k, rfl⟩ := Nat.exists_eq_succ_of_ne_zero (Nat.pos_iff_ne_zero.mp hT)
  rw [Nat.succ_eq_add_one, Nat.add_comm, forN_add, forN_add]
  congr 1
  show (simplestFrame g F _ _ _ >>= _) = (simplestFrame g F _ _ _ >>= _)
  rw [simplestFrame_fresh g N F _ _ h hh hr [] ho]

/-- C43, violated: the weights of SimplestRNN have no influence: two layers that differ in their weights end in
the same state with the same output. -/
theorem C43_simplest_weights_lost [Zero α] [Add α] [Mul α] (g : Nat → α) (F T N : Nat) (hF : 0 < F) (hT : 0 < T) (train : Bool)
    (draw : Nat → α) (w w' : Mat α) (hw : w.WF) (hw' : w'.WF) (h : Nat → Nat → α) (sv : List (Mat α)) (mOut : Mat α)
    (ho : mOut.WF) (x : Nat → Nat → α) :
    rnnForward g F train (simplestInit g F draw) (simplestFrame g F) ⟨w, Mat.ofFn N F h, sv⟩ (Mat.ofFn N ((T + 1) * F) x) mOut =
    rnnForward g F train (simplestInit g F draw) (simplestFrame g F) ⟨w', Mat.ofFn N F h, sv⟩ (Mat.ofFn N ((T + 1) * F) x) mOut := by
  rw [C43_simplest_partial g F T N hF hT train draw w hw h sv mOut ho x,
    C43_simplest_partial g F T N hF hT train draw w' hw' h sv mOut ho x]

/-- C43 for SimpleRNN, what holds, for one sample: the hidden state after the first `T` of `T+1` frames with
newly drawn weights, from 0; the bias is not used. -/
theorem C43_simple_partial [Zero α] [Add α] [Mul α] (g : Nat → α) (th : α → α) (F U T : Nat) (hF : 0 < F) (hT : 0 < T)
    (train : Bool) (drawH drawX : Nat → α) (w : SimpleW α) (h : Mat α) (h1 : w.whh.WF) (h2 : w.wxh.WF) (h3 : w.bh.WF)
    (h4 : h.WF) (sv : List (Mat α)) (mOut : Mat α) (ho : mOut.WF) (x : Nat → Nat → α) :
    let H := hidden th U (fun i j => drawH (i * U + j))
      (fun t s j => accN F (fun k => x s (t * F + k) * drawX (k * U + j))) (fun _ _ => 0)
    rnnForward g F train (simpleInit g F U drawH drawX) (simpleFrame g th) ⟨w, h, sv⟩ (Mat.ofFn 1 ((T + 1) * F) x) mOut =
      .ok (⟨⟨Mat.ofFn U U (fun i j => drawH (i * U + j)), Mat.ofFn F U (fun i j => drawX (i * U + j)),
          Mat.ofFn 1 U (fun _ _ => 0)⟩, Mat.ofFn 1 U (H T),
          if train then (List.range T).map (fun t => Mat.ofFn 1 U (H (t + 1))) else []⟩,
        Mat.ofFn 1 U (H T)) := by
  intro H
  have : Inhabited α := ⟨0⟩
  rw [rnn_loop g F T hF 1 train _ _ _ ⟨⟨Mat.ofFn U U (fun i j => drawH (i * U + j)),
      Mat.ofFn F U (fun i j => drawX (i * U + j)), Mat.ofFn 1 U (fun _ _ => 0)⟩, Mat.ofFn 1 U (H 0), []⟩ mOut x,
    rnn_states 1 U T train _ _ (fun i => Mat.ofFn 1 F (fun s j => x s (i * F + j))) H [] mOut ho]
  · have hT0 : T ≠ 0 := by omega
    simp [hT0]
  · intro i _ sv o ho
    rw [simpleFrame_ofFn g th F U _ _ _ (H i) _ sv ho]
    rfl
  · rw [start_init hF hT]
    unfold simpleInit
    simp only [setRandom_ofFn g h1, setRandom_ofFn g h2, Mat.setConstantRC_ofFn g h3, Mat.setConstantRC_ofFn g h4, bind_ok']
    rfl

/-- C43, violated: SimpleRNN fails on every batch that has not exactly one sample. -/
theorem C43_simple_batch_fault [Zero α] [Add α] [Mul α] (g : Nat → α) (th : α → α) (F U T N : Nat) (hF : 0 < F) (hT : 0 < T)
    (hN : N ≠ 1) (train : Bool) (drawH drawX : Nat → α) (w : SimpleW α) (h : Mat α) (h1 : w.whh.WF) (h2 : w.wxh.WF)
    (h3 : w.bh.WF) (h4 : h.WF) (sv : List (Mat α)) (mOut : Mat α) (x : Nat → Nat → α) :
    rnnForward g F train (simpleInit g F U drawH drawX) (simpleFrame g th) ⟨w, h, sv⟩ (Mat.ofFn N ((T + 1) * F) x) mOut =
      .error .assertFail := by
  have : Inhabited α := ⟨0⟩
  rw [rnn_loop g F T hF N train _ _ _ ⟨⟨Mat.ofFn U U (fun i j => drawH (i * U + j)),
      Mat.ofFn F U (fun i j => drawX (i * U + j)), Mat.ofFn 1 U (fun _ _ => 0)⟩, Mat.ofFn 1 U (fun _ _ => 0), []⟩ mOut x]
  · refine forN_error hT (t := _) rfl ?_
    unfold simpleFrame Mat.add
    simp only [Mat.mul_ofFn, bind_ok']
    rw [Mat.cwise2_shape (by left; simp; omega)]
    rfl
  · rw [start_init hF hT]
    unfold simpleInit
    simp only [setRandom_ofFn g h1, setRandom_ofFn g h2, Mat.setConstantRC_ofFn g h3, Mat.setConstantRC_ofFn g h4, bind_ok']
    rfl

/-- Three frames `1, 10, 100` (and then `1, 10, 999`), weight 2 replaced by the draw 3: the output is `1·3+10`
for both; a second call starts from the hidden state of the first. -/
example :
    rnnForward (fun _ => (9 : Int)) 1 false (simplestInit (fun _ => 9) 1 (fun _ => 3)) (simplestFrame (fun _ => 9) 1)
      ⟨⟨1, 1, [2]⟩, ⟨0, 0, []⟩, []⟩ ⟨1, 3, [1, 10, 100]⟩ ⟨0, 0, []⟩ =
      .ok (⟨⟨1, 1, [3]⟩, ⟨1, 1, [13]⟩, []⟩, ⟨1, 1, [13]⟩) ∧
    rnnForward (fun _ => (9 : Int)) 1 false (simplestInit (fun _ => 9) 1 (fun _ => 3)) (simplestFrame (fun _ => 9) 1)
      ⟨⟨1, 1, [2]⟩, ⟨0, 0, []⟩, []⟩ ⟨1, 3, [1, 10, 999]⟩ ⟨0, 0, []⟩ =
      .ok (⟨⟨1, 1, [3]⟩, ⟨1, 1, [13]⟩, []⟩, ⟨1, 1, [13]⟩) ∧
    rnnForward (fun _ => (9 : Int)) 1 false (simplestInit (fun _ => 9) 1 (fun _ => 3)) (simplestFrame (fun _ => 9) 1)
      ⟨⟨1, 1, [3]⟩, ⟨1, 1, [13]⟩, []⟩ ⟨1, 3, [1, 10, 100]⟩ ⟨0, 0, []⟩ =
      .ok (⟨⟨1, 1, [3]⟩, ⟨1, 1, [130]⟩, []⟩, ⟨1, 1, [130]⟩) := ⟨rfl, rfl, rfl⟩

/-! ## C90 -/

/-- C90, violated for SimpleRNN: back-propagation leaves `mGradientIn` as it was and sets the weight gradient to
an empty matrix, whatever the incoming gradient; the trained parameters get no gradient. -/
theorem C90_simple_nothing (g : Nat → ℝ) (F N n : Nat) (hF : 0 < F) (saved : List (Mat ℝ)) (hs : n - 1 ≤ saved.length)
    (x : Nat → Nat → ℝ) (gOut gIn : Mat ℝ) (h1 : gOut.WF) (h2 : gIn.WF) :
    rnnBackward g F simpleBackFrame saved ⟨0, 0, []⟩ (Mat.ofFn N (n * F) x) gOut gIn = .ok (⟨0, 0, []⟩, gIn) := by
  unfold rnnBackward
  rw [if_neg (by omega), Mat.ofFn_cols, Nat.mul_div_cancel _ hF]
  obtain ⟨fi, hfi⟩ := h2.exists_ofFn
  have e0 : (⟨0, 0, []⟩ : Mat ℝ) = Mat.ofFn 0 0 (fun _ _ => 0) := rfl
  have key : forN (n - 2) (fun i (s : Mat ℝ × Mat ℝ × Mat ℝ × Mat ℝ) => do
      let (gw, gIn, gTemp, sum) := s
      let iS := n - 2 - i
      let mH ← savedAt saved iS
      let mHm1 ← savedAt saved (iS - 1)
      let mFrame ← Mat.colExtract g (Mat.ofFn N (n * F) x) (iS * F) (iS * F + F)
      let (gw, gIn) ← simpleBackFrame mFrame mH mHm1 gTemp (gw, gIn)
      let gTemp ← gTemp.assign g gIn
      let sum ← sumGradient g sum gw
      return (gw, gIn, gTemp, sum)) (⟨0, 0, []⟩, gIn, gOut, ⟨0, 0, []⟩) =
      .ok (⟨0, 0, []⟩, gIn, if n - 2 = 0 then gOut else gIn, ⟨0, 0, []⟩) := by
    refine forN_closed' (fun k => (⟨0, 0, []⟩, gIn, if k = 0 then gOut else gIn, ⟨0, 0, []⟩)) rfl rfl ?_
    intro i hi
    have hsv : ∀ j, j < n - 1 → ∃ m, savedAt saved j = .ok m := by
      intro j hj
      unfold savedAt
      rw [List.getElem?_eq_getElem (by omega)]
      exact ⟨_, rfl⟩
    obtain ⟨m1, hm1⟩ := hsv (n - 2 - i) (by omega)
    obtain ⟨m2, hm2⟩ := hsv (n - 2 - i - 1) (by omega)
    have hb : (n - 2 - i) * F + F ≤ n * F := by
      have : (n - 2 - i + 1) * F ≤ n * F := Nat.mul_le_mul_right F (by omega)
      rw [Nat.add_mul, Nat.one_mul] at this; exact this
    have hw : (if i = 0 then gOut else gIn).WF := by
      split
      · exact h1
      · exact h2
    have ha : (if i = 0 then gOut else gIn).assign g gIn = .ok gIn := by
      rw [hfi] at hw ⊢
      exact Mat.assign_ofFn g hw _ _ _
    simp only [hm1, hm2, bind_ok', Mat.colExtract_ofFn g x (Nat.le_add_right _ _) hb, simpleBackFrame, ha]
    rfl
  rw [bind_congr_left key]
  rfl

theorem savedAt_some {l : List (Mat ℝ)} {i : Nat} {m : Mat ℝ} (h : l[i]? = some m) : savedAt l i = .ok m := by
  unfold savedAt; rw [h]

/-- One step of the back-propagation of SimplestRNN for `F` samples of `F` values. -/
theorem simplestBackFrame_ofFn (g : Nat → ℝ) (F : Nat) (W a b : Nat → Nat → ℝ) (fr gT gw gIn : Mat ℝ) (h1 : gw.WF) (h2 : gIn.WF) :
    simplestBackFrame g false (Mat.ofFn F F W) fr (Mat.ofFn F F a) (Mat.ofFn F F b) gT (gw, gIn) =
      .ok (Mat.ofFn F F (fun i j => (∑ k ∈ range F, a k i * b k j) * (1 / (F : ℝ))),
        Mat.ofFn F F (fun i j => ∑ k ∈ range F, a k i * W k j)) := by
  unfold simplestBackFrame
  simp only [Mat.transpose_ofFn, Mat.mul_ofFn, bind_ok', Mat.assign_ofFn g h1, Mat.assign_ofFn g h2, Mat.scale_ofFn,
    Mat.ofFn_rows, accN_eq_sum]
  rfl

/-- C90, violated for SimplestRNN: with `n ≥ 3` frames (and as many samples as units, see
`C90_simplest_batch_fault`) the weight gradient and the gradient of the input are sums of products of hidden
states and weights; the incoming gradient `gOut` and the input do not occur in them. -/
theorem C90_simplest_backward_partial (g : Nat → ℝ) (F n : Nat) (hF : 0 < F) (hn : 3 ≤ n) (W : Nat → Nat → ℝ) (hs : Nat → Nat → Nat → ℝ)
    (saved : List (Mat ℝ)) (hsv : ∀ t, t < n - 1 → saved[t]? = some (Mat.ofFn F F (hs t)))
    (x : Nat → Nat → ℝ) (gw gOut gIn : Mat ℝ) (h0 : gw.WF) (h1 : gOut.WF) (h2 : gIn.WF) :
    rnnBackward g F (simplestBackFrame g false (Mat.ofFn F F W)) saved gw (Mat.ofFn F (n * F) x) gOut gIn =
      .ok (Mat.ofFn F F (fun i j =>
            (∑ t ∈ range (n - 2), (∑ k ∈ range F, hs (t + 1) k i * hs t k j) * (1 / (F : ℝ))) * (1 / (n : ℝ))),
        Mat.ofFn F F (fun i j => ∑ k ∈ range F, hs 1 k i * W k j)) := by
  unfold rnnBackward
  rw [if_neg (by omega), Mat.ofFn_cols, Nat.mul_div_cancel _ hF]
  let G : Nat → Nat → Nat → ℝ := fun t i j => (∑ k ∈ range F, hs (t + 1) k i * hs t k j) * (1 / (F : ℝ))
  let D : Nat → Nat → Nat → ℝ := fun t i j => ∑ k ∈ range F, hs (t + 1) k i * W k j
  let S : Nat → Mat ℝ × Mat ℝ × Mat ℝ × Mat ℝ := fun k =>
    if k = 0 then (gw, gIn, gOut, ⟨0, 0, []⟩)
    else (Mat.ofFn F F (G (n - 2 - k)), Mat.ofFn F F (D (n - 2 - k)), Mat.ofFn F F (D (n - 2 - k)),
      Mat.ofFn F F (fun i j => ∑ t ∈ range k, G (n - 3 - t) i j))
  have key : forN (n - 2) (fun i (s : Mat ℝ × Mat ℝ × Mat ℝ × Mat ℝ) => do
      let (gw, gIn, gTemp, sum) := s
      let iS := n - 2 - i
      let mH ← savedAt saved iS
      let mHm1 ← savedAt saved (iS - 1)
      let mFrame ← Mat.colExtract g (Mat.ofFn F (n * F) x) (iS * F) (iS * F + F)
      let (gw, gIn) ← simplestBackFrame g false (Mat.ofFn F F W) mFrame mH mHm1 gTemp (gw, gIn)
      let gTemp ← gTemp.assign g gIn
      let sum ← sumGradient g sum gw
      return (gw, gIn, gTemp, sum)) (gw, gIn, gOut, ⟨0, 0, []⟩) = .ok (S (n - 2)) := by
    refine forN_closed' S rfl rfl ?_
    intro i hi
    obtain ⟨m, hm⟩ : ∃ m, n - 2 - i = m + 1 := ⟨n - 2 - i - 1, by omega⟩
    have e1 := savedAt_some (hsv (m + 1) (by omega))
    have e2 := savedAt_some (hsv m (by omega))
    have hb : (m + 1) * F + F ≤ n * F := by
      have : (m + 1 + 1) * F ≤ n * F := Nat.mul_le_mul_right F (by omega)
      rw [Nat.add_mul (m + 1), Nat.one_mul] at this; exact this
    have hm2 : n - 2 - (i + 1) = m := by omega
    have hne : i + 1 ≠ 0 := by omega
    by_cases hi0 : i = 0
    · subst hi0
      have hm3 : n - 3 = m := by omega
      simp only [S, if_true, hm, Nat.add_sub_cancel, e1, e2, bind_ok', Mat.colExtract_ofFn g x (Nat.le_add_right _ _) hb,
        simplestBackFrame_ofFn g F W _ _ _ _ _ _ h0 h2, Mat.assign_ofFn g h1, hne, if_false, hm2]
      unfold sumGradient
      rw [if_pos (show (⟨0, 0, []⟩ : Mat ℝ).size = 0 from rfl), Mat.assign_ofFn g (by rfl)]
      simp only [bind_ok', zero_add, range_one, sum_singleton, Nat.sub_zero, hm3]
      rfl
    · have hm3 : n - 3 - i = m := by omega
      have hsz : ¬ (Mat.ofFn F F (fun i_1 j => ∑ t ∈ range i, G (n - 3 - t) i_1 j)).size = 0 := by
        simp; omega
      simp only [S, if_neg hi0, hm, Nat.add_sub_cancel, e1, e2, bind_ok', Mat.colExtract_ofFn g x (Nat.le_add_right _ _) hb,
        simplestBackFrame_ofFn g F W _ _ _ _ _ _ (Mat.ofFn_WF _ _ _) (Mat.ofFn_WF _ _ _), Mat.assign_ofFn g (Mat.ofFn_WF _ _ _),
        hne, if_false, hm2]
      unfold sumGradient Mat.add
      rw [if_neg hsz, Mat.cwise2_ofFn]
      simp only [bind_ok', sum_range_succ, hm3]
      rfl
  rw [bind_congr_left key]
  have hn2 : n - 2 ≠ 0 := by omega
  simp only [S, if_neg hn2, bind_ok', Mat.scale_ofFn, Mat.assign_ofFn g (Mat.ofFn_WF _ _ _), Nat.sub_self]
  have er : ∀ i j, ∑ t ∈ range (n - 2), G (n - 3 - t) i j = ∑ t ∈ range (n - 2), G t i j := by
    intro i j
    rw [← sum_range_reflect (fun t => G t i j) (n - 2)]
    apply sum_congr rfl
    intro t _
    rw [show n - 2 - 1 - t = n - 3 - t by omega]
  simp only [er]
  rfl

/-- C90, violated: SimplestRNN back-propagation (not as first layer, `n ≥ 3` frames) fails unless the batch has as
many samples as there are units. -/
theorem C90_simplest_batch_fault (g : Nat → ℝ) (F N n : Nat) (hF : 0 < F) (hn : 3 ≤ n) (hN : N ≠ F) (W : Nat → Nat → ℝ)
    (hs : Nat → Nat → Nat → ℝ) (saved : List (Mat ℝ)) (hsv : ∀ t, t < n - 1 → saved[t]? = some (Mat.ofFn N F (hs t)))
    (x : Nat → Nat → ℝ) (gw gOut gIn : Mat ℝ) (h0 : gw.WF) :
    rnnBackward g F (simplestBackFrame g false (Mat.ofFn F F W)) saved gw (Mat.ofFn N (n * F) x) gOut gIn =
      .error .assertFail := by
  unfold rnnBackward
  rw [if_neg (by omega), Mat.ofFn_cols, Nat.mul_div_cancel _ hF]
  have e1 := savedAt_some (hsv (n - 2) (by omega))
  have e2 := savedAt_some (hsv (n - 2 - 1) (by omega))
  have hb : (n - 2) * F + F ≤ n * F := by
    have : (n - 2 + 1) * F ≤ n * F := Nat.mul_le_mul_right F (by omega)
    rw [Nat.add_mul, Nat.one_mul] at this; exact this
  refine (bind_congr_left (forN_error (k := 0) (e := .assertFail) (by omega) rfl ?_)).trans rfl
  simp only [Nat.sub_zero, e1, e2, bind_ok', Mat.colExtract_ofFn g x (Nat.le_add_right _ _) hb]
  have : simplestBackFrame g false (Mat.ofFn F F W) (Mat.ofFn N ((n - 2) * F + F - (n - 2) * F) fun i j => x i (j + (n - 2) * F))
      (Mat.ofFn N F (hs (n - 2))) (Mat.ofFn N F (hs (n - 2 - 1))) gOut (gw, gIn) = .error .assertFail := by
    unfold simplestBackFrame
    simp only [Mat.transpose_ofFn, Mat.mul_ofFn, bind_ok', Mat.assign_ofFn g h0, Mat.scale_ofFn]
    rw [Mat.mul_shape g (by simp; exact hN)]
    rfl
  rw [this]
  rfl

/-- The gradient 0 comes in, nonzero gradients come out. -/
example : rnnBackward (fun _ => (9 : Rat)) 1 (simplestBackFrame (fun _ => 9) false ⟨1, 1, [5]⟩)
    [⟨1, 1, [2]⟩, ⟨1, 1, [3]⟩] ⟨0, 0, []⟩ ⟨1, 3, [1, 1, 1]⟩ ⟨1, 1, [0]⟩ ⟨0, 0, []⟩ =
    .ok (⟨1, 1, [2]⟩, ⟨1, 1, [15]⟩) := by decide +kernel

end BeeDNN
