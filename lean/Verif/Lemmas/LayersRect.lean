import Verif.Lemmas.LayersMisc
import Mathlib.Tactic.Linarith

/-! # Closed forms of the rectifiers and the time-distributed layers -/

namespace BeeDNN
open Finset

variable {α : Type}

/-! ## Rectifiers -/

theorem preluForward_ofFn (g : Nat → ℝ) {gw mOut : Mat ℝ} (ho : mOut.WF) (N C : Nat) (hC : 0 < C)
    (x w : Nat → Nat → ℝ) :
    preluForward g (Mat.ofFn 1 C w) gw (Mat.ofFn N C x) mOut =
      .ok (Mat.ofFn 1 C w, gw, Mat.ofFn N C (fun s j => preluFn (w 0 j) (x s j))) := by
  unfold preluForward
  have h : ¬ (Mat.ofFn 1 C w).size = 0 := by simp; omega
  simp only [if_neg h, bind_ok', Mat.assign_ofFn g ho, Mat.ofFn_rows]
  rw [Mat.forN_rows' (e := fun s j => preluFn (w 0 j) (x s j))]
  · rfl
  · intro r c hr hc f' hf
    rw [Mat.get_ofFn hr hc, bind_ok', hf]
    by_cases hx : x r c < 0
    · rw [if_pos hx, Mat.getI_ofFn_row hc, bind_ok', Mat.set_ofFn hr hc]
      simp [preluFn, hx]
    · rw [if_neg hx, pure_ok]
      congr 1
      apply Mat.ofFn_congr
      intro i j _ _
      split
      · next e => rw [e.1, e.2, hf, preluFn, if_neg hx]
      · rfl

theorem preluForward_first (g : Nat → ℝ) {w gw mOut : Mat ℝ} (hw : w.WF) (hw0 : w.size = 0) (ho : mOut.WF) (N C : Nat)
    (hC : 0 < C) (x : Nat → Nat → ℝ) :
    preluForward g w gw (Mat.ofFn N C x) mOut =
      .ok (Mat.ofFn 1 C (fun _ _ => 0.25), gw.resize g 1 C, Mat.ofFn N C (fun s j => preluFn 0.25 (x s j))) := by
  have h := preluForward_ofFn g (gw := gw.resize g 1 C) ho N C hC x (fun _ _ => 0.25)
  unfold preluForward at h ⊢
  have h1 : ¬ (Mat.ofFn 1 C (fun _ _ => (0.25 : ℝ))).size = 0 := by simp; omega
  simp only [if_neg h1, bind_ok'] at h
  simp only [if_pos hw0, Mat.ofFn_cols, Mat.setConstantRC_ofFn g hw, bind_ok', Mat.ofFn_rows]
  exact h

theorem preluBackward_ofFn (g : Nat → ℝ) (first : Bool) {gIn : Mat ℝ} (hg : gIn.WF) (N C : Nat)
    (w gw x gr : Nat → Nat → ℝ) :
    preluBackward g first (Mat.ofFn 1 C w) (Mat.ofFn 1 C gw) (Mat.ofFn N C x) (Mat.ofFn N C gr) gIn =
      .ok (Mat.ofFn 1 C (fun _ j => (∑ s ∈ range N, if x s j < 0 then x s j * gr s j else 0) / (N : ℝ)),
        if first then gIn else Mat.ofFn N C (fun s j => if x s j < 0 then gr s j * w 0 j else gr s j)) := by
  unfold preluBackward
  simp only [Mat.setConstant_ofFn, bind_ok', Mat.ofFn_rows, Mat.ofFn_cols]
  rw [Mat.forN_colAcc (fun i _ q => if x i q < 0 then x i q * gr i q else 0)]
  · simp only [bind_ok', Mat.divScalar_ofFn', Mat.assign_ofFn g hg, Mat.ofFn_rows]
    cases first
    · rw [if_neg (by decide), Mat.forN_rows' (e := fun s j => if x s j < 0 then gr s j * w 0 j else gr s j)]
      · rfl
      · intro r c hr hc f' hf
        rw [Mat.get_ofFn hr hc, bind_ok']
        by_cases hx : x r c < 0
        · rw [if_pos hx, Mat.get_ofFn hr hc, bind_ok', Mat.getI_ofFn_row hc, bind_ok', Mat.set_ofFn hr hc]
          simp [hx, hf]
        · rw [if_neg hx, pure_ok]
          congr 1
          apply Mat.ofFn_congr
          intro i j _ _
          split
          · next e => rw [e.1, e.2, hf]
          · rfl
    · rfl
  · intro i j hi hj f
    rw [Mat.get_ofFn hi hj, bind_ok']
    by_cases hx : x i j < 0
    · rw [if_pos hx, Mat.get_ofFn hi hj, bind_ok', Mat.get_ofFn (by omega) hj, bind_ok', Mat.set_ofFn (by omega) hj]
      congr 1
      apply Mat.ofFn_congr
      intro p q hp _
      obtain rfl : p = 0 := by omega
      by_cases e : q = j
      · subst e; simp [hx]
      · simp [e]
    · rw [if_neg hx, pure_ok]
      congr 1
      apply Mat.ofFn_congr
      intro p q hp _
      by_cases e : q = j
      · subst e; simp [hx]
      · simp [e]

theorem peluForward_ofFn (g : Nat → ℝ) {gw mOut : Mat ℝ} (ho : mOut.WF) (N C : Nat) (hC : 0 < C)
    (x w : Nat → Nat → ℝ) :
    peluForward g (Mat.ofFn 2 C w) gw (Mat.ofFn N C x) mOut =
      .ok (Mat.ofFn 2 C w, gw, Mat.ofFn N C (fun s j => peluFn (w 0 j) (w 1 j) (x s j))) := by
  unfold peluForward
  have h : ¬ (Mat.ofFn 2 C w).size = 0 := by simp; omega
  simp only [if_neg h, bind_ok', Mat.assign_ofFn g ho, Mat.ofFn_rows]
  rw [Mat.forN_rows' (e := fun s j => peluFn (w 0 j) (w 1 j) (x s j))]
  · rfl
  · intro r c hr hc f' hf
    rw [Mat.get_ofFn hr hc, bind_ok', Mat.get_ofFn (by omega) hc, bind_ok', Mat.get_ofFn (by omega) hc, bind_ok', hf]
    by_cases hx : 0 < x r c
    · rw [if_pos hx, Mat.set_ofFn hr hc, peluFn, if_pos hx]
    · rw [if_neg hx, Mat.set_ofFn hr hc, peluFn, if_neg hx]

theorem peluForward_first (g : Nat → ℝ) {w gw mOut : Mat ℝ} (hw : w.WF) (hw0 : w.size = 0) (ho : mOut.WF) (N C : Nat)
    (hC : 0 < C) (x : Nat → Nat → ℝ) :
    peluForward g w gw (Mat.ofFn N C x) mOut =
      .ok (Mat.ofFn 2 C (fun _ _ => 1), gw.resize g 2 C, Mat.ofFn N C (fun s j => peluFn 1 1 (x s j))) := by
  have h := peluForward_ofFn g (gw := gw.resize g 2 C) ho N C hC x (fun _ _ => 1)
  unfold peluForward at h ⊢
  have h1 : ¬ (Mat.ofFn 2 C (fun _ _ => (1 : ℝ))).size = 0 := by simp; omega
  simp only [if_neg h1, bind_ok'] at h
  obtain ⟨d, hd⟩ := Mat.resize_ofFn g hw 2 C
  simp only [if_pos hw0, Mat.ofFn_cols, hd, Mat.setConstant_ofFn, bind_ok', Mat.ofFn_rows]
  exact h

/-- Positivity constraint of PELU. -/
theorem peluClamp_ofFn (C : Nat) (w : Nat → Nat → ℝ) :
    forN C (fun j w => do
      let w ← peluClampEntry w 0 j
      peluClampEntry w 1 j) (Mat.ofFn 2 C w) =
    .ok (Mat.ofFn 2 C (fun p j => max 0.1 (w p j))) := by
  refine forN_closed' (fun k => Mat.ofFn 2 C (fun p j => if j < k then max 0.1 (w p j) else w p j)) ?_ ?_ ?_
  · simp
  · apply Mat.ofFn_congr; intro p j _ hj; simp [hj]
  · intro c hc
    have key : ∀ f : Nat → Nat → ℝ, ∀ p, p < 2 → peluClampEntry (Mat.ofFn 2 C f) p c =
        .ok (Mat.ofFn 2 C (fun i j => if i = p ∧ j = c then max 0.1 (f i j) else f i j)) := by
      intro f p hp
      unfold peluClampEntry
      rw [Mat.get_ofFn hp hc, bind_ok']
      by_cases h : f p c < 0.1
      · rw [if_pos h, Mat.set_ofFn hp hc]
        congr 1
        apply Mat.ofFn_congr
        intro i j _ _
        split
        · next e => rw [e.1, e.2, max_eq_left h.le]
        · rfl
      · rw [if_neg h]
        congr 1
        apply Mat.ofFn_congr
        intro i j _ _
        split
        · next e => rw [e.1, e.2, max_eq_right (not_lt.mp h)]
        · rfl
    rw [key _ 0 (by omega), bind_ok', key _ 1 (by omega)]
    congr 1
    apply Mat.ofFn_congr
    intro i j hi _
    by_cases hj : j = c
    · subst hj
      have : i = 0 ∨ i = 1 := by omega
      rcases this with rfl | rfl <;> simp
    · have : (j < c + 1) = (j < c) := by rw [eq_iff_iff]; omega
      simp [hj, this]

theorem peluBackward_ofFn (g : Nat → ℝ) (first : Bool) {gIn : Mat ℝ} (hg : gIn.WF) (N C : Nat)
    (w gw x gr : Nat → Nat → ℝ) :
    let w' : Nat → Nat → ℝ := fun p j => max 0.1 (w p j)
    peluBackward g first (Mat.ofFn 2 C w) (Mat.ofFn 2 C gw) (Mat.ofFn N C x) (Mat.ofFn N C gr) gIn =
      .ok (Mat.ofFn 2 C w',
        Mat.ofFn 2 C (fun p j => (∑ s ∈ range N,
          if p = 0 then (if 0 < x s j then x s j / w' 1 j else Real.exp (x s j / w' 1 j) - 1)
          else (if 0 < x s j then -w' 0 j * (x s j / (w' 1 j * w' 1 j))
            else -w' 0 j * (x s j / (w' 1 j * w' 1 j)) * Real.exp (x s j / w' 1 j))) / (N : ℝ)),
        if first then gIn else Mat.ofFn N C (fun s j => gr s j *
          if 0 < x s j then w' 0 j / w' 1 j else w' 0 j / w' 1 j * Real.exp (x s j / w' 1 j))) := by
  intro w'
  unfold peluBackward
  simp only [Mat.setConstant_ofFn, bind_ok', Mat.ofFn_rows, Mat.ofFn_cols, peluClamp_ofFn]
  rw [Mat.forN_colAcc (fun s p j =>
          if p = 0 then (if 0 < x s j then x s j / w' 1 j else Real.exp (x s j / w' 1 j) - 1)
          else (if 0 < x s j then -w' 0 j * (x s j / (w' 1 j * w' 1 j))
            else -w' 0 j * (x s j / (w' 1 j * w' 1 j)) * Real.exp (x s j / w' 1 j)))]
  · simp only [bind_ok', Mat.divScalar_ofFn', Mat.assign_ofFn g hg, Mat.ofFn_rows]
    cases first
    · rw [if_neg (by decide), Mat.forN_rows' (e := fun s j => gr s j *
          if 0 < x s j then w' 0 j / w' 1 j else w' 0 j / w' 1 j * Real.exp (x s j / w' 1 j))]
      · rfl
      · intro r c hr hc f' hf
        rw [Mat.get_ofFn hr hc, bind_ok', Mat.get_ofFn hr hc, bind_ok', Mat.get_ofFn (by omega) hc, bind_ok',
          Mat.get_ofFn (by omega) hc, bind_ok', Mat.set_ofFn hr hc, hf]
    · rfl
  · intro i j hi hj f
    rw [Mat.get_ofFn hi hj, bind_ok', Mat.get_ofFn (by omega) hj, bind_ok', Mat.get_ofFn (by omega) hj, bind_ok',
      Mat.get_ofFn (by omega) hj, bind_ok', Mat.set_ofFn (by omega) hj, bind_ok', Mat.get_ofFn (by omega) hj, bind_ok',
      Mat.set_ofFn (by omega) hj]
    congr 1
    apply Mat.ofFn_congr
    intro p q hp _
    by_cases e : q = j
    · subst e
      have : p = 0 ∨ p = 1 := by omega
      rcases this with rfl | rfl <;> simp [w']
    · simp [e]

theorem tereluForward_ofFn (g : Nat → ℝ) (alpha mu : ℝ) {gw mOut : Mat ℝ} (ho : mOut.WF) (N C : Nat) (hC : 0 < C)
    (x w : Nat → Nat → ℝ) :
    tereluForward g alpha mu (Mat.ofFn 1 C w) gw (Mat.ofFn N C x) mOut =
      .ok (Mat.ofFn 1 C w, gw, Mat.ofFn N C (fun s j => tereluFn alpha mu (w 0 j) (x s j))) := by
  unfold tereluForward
  have h : ¬ (Mat.ofFn 1 C w).size = 0 := by simp; omega
  simp only [if_neg h, bind_ok', Mat.assign_ofFn g ho, Mat.ofFn_rows]
  rw [Mat.forN_rows' (e := fun s j => tereluFn alpha mu (w 0 j) (x s j))]
  · rfl
  · intro r c hr hc f' hf
    rw [Mat.get_ofFn hr hc, bind_ok', tereluFn]
    by_cases hx : x r c ≤ 0
    · rw [if_pos hx, Mat.set_ofFn hr hc, if_pos hx]
    · rw [if_neg hx, if_neg hx]
      by_cases hm : mu ≤ x r c
      · rw [if_pos hm, if_pos hm, Mat.getI_ofFn_row hc, bind_ok', Mat.set_ofFn hr hc]
      · rw [if_neg hm, if_neg hm, pure_ok]
        congr 1
        apply Mat.ofFn_congr
        intro i j _ _
        split
        · next e => rw [e.1, e.2, hf]
        · rfl

theorem tereluForward_first (g : Nat → ℝ) (alpha mu : ℝ) {w gw mOut : Mat ℝ} (hw : w.WF) (hw0 : w.size = 0) (ho : mOut.WF)
    (N C : Nat) (hC : 0 < C) (x : Nat → Nat → ℝ) :
    tereluForward g alpha mu w gw (Mat.ofFn N C x) mOut =
      .ok (Mat.ofFn 1 C (fun _ _ => 1), gw.resize g 1 C, Mat.ofFn N C (fun s j => tereluFn alpha mu 1 (x s j))) := by
  have h := tereluForward_ofFn g alpha mu (gw := gw.resize g 1 C) ho N C hC x (fun _ _ => 1)
  unfold tereluForward at h ⊢
  have h1 : ¬ (Mat.ofFn 1 C (fun _ _ => (1 : ℝ))).size = 0 := by simp; omega
  simp only [if_neg h1, bind_ok'] at h
  simp only [if_pos hw0, Mat.ofFn_cols, Mat.setConstantRC_ofFn g hw, bind_ok', Mat.ofFn_rows]
  exact h

theorem tereluBackward_ofFn (g : Nat → ℝ) (alpha mu : ℝ) (first : Bool) {gIn : Mat ℝ} (hg : gIn.WF) (N C : Nat)
    (w gw x gr : Nat → Nat → ℝ) :
    tereluBackward g alpha mu first (Mat.ofFn 1 C w) (Mat.ofFn 1 C gw) (Mat.ofFn N C x) (Mat.ofFn N C gr) gIn =
      .ok (Mat.ofFn 1 C (fun _ j => (∑ s ∈ range N,
          if mu ≤ x s j then mu - (Real.exp (mu - x s j) - 1) else 0) / (N : ℝ)),
        if first then gIn else Mat.ofFn N C (fun s j =>
          if x s j ≤ 0 then gr s j * (alpha * Real.exp (x s j))
          else if mu ≤ x s j then gr s j * (w 0 j * Real.exp (mu - x s j)) else gr s j)) := by
  unfold tereluBackward
  simp only [Mat.setConstant_ofFn, bind_ok', Mat.ofFn_rows, Mat.ofFn_cols]
  rw [Mat.forN_colAcc (fun i _ q => if mu ≤ x i q then mu - (Real.exp (mu - x i q) - 1) else 0)]
  · simp only [bind_ok', Mat.divScalar_ofFn', Mat.assign_ofFn g hg, Mat.ofFn_rows]
    cases first
    · rw [if_neg (by decide), Mat.forN_rows' (e := fun s j =>
          if x s j ≤ 0 then gr s j * (alpha * Real.exp (x s j))
          else if mu ≤ x s j then gr s j * (w 0 j * Real.exp (mu - x s j)) else gr s j)]
      · rfl
      · intro r c hr hc f' hf
        rw [Mat.get_ofFn hr hc, bind_ok']
        by_cases hx : x r c ≤ 0
        · rw [if_pos hx, Mat.get_ofFn hr hc, bind_ok', Mat.set_ofFn hr hc, if_pos hx, hf]
        · rw [if_neg hx, if_neg hx]
          by_cases hm : mu ≤ x r c
          · rw [if_pos hm, if_pos hm, Mat.get_ofFn hr hc, bind_ok', Mat.getI_ofFn_row hc, bind_ok', Mat.set_ofFn hr hc, hf]
          · rw [if_neg hm, if_neg hm, pure_ok]
            congr 1
            apply Mat.ofFn_congr
            intro i j _ _
            split
            · next e => rw [e.1, e.2, hf]
            · rfl
    · rfl
  · intro i j hi hj f
    rw [Mat.get_ofFn hi hj, bind_ok']
    by_cases hx : mu ≤ x i j
    · rw [if_pos hx, Mat.get_ofFn (by omega) hj, bind_ok', Mat.set_ofFn (by omega) hj]
      congr 1
      apply Mat.ofFn_congr
      intro p q hp _
      obtain rfl : p = 0 := by omega
      by_cases e : q = j
      · subst e; simp [hx]
      · simp [e]
    · rw [if_neg hx, pure_ok]
      congr 1
      apply Mat.ofFn_congr
      intro p q hp _
      by_cases e : q = j
      · subst e; simp [hx]
      · simp [e]

theorem forN_negScale (N C : Nat) (x : Nat → Nat → ℝ) (sl : Nat → Out ℝ) (m : Nat → Nat → ℝ)
    (h : ∀ i, i < N * C → sl i = .ok (m (i / C) (i % C))) :
    forN (N * C) (fun i o => do
      let x ← Mat.getI o i
      if x < 0 then do
        let y ← sl i
        o.setI i (x * y)
      else return o) (Mat.ofFn N C x) =
    .ok (Mat.ofFn N C (fun s j => preluFn (m s j) (x s j))) := by
  rw [Mat.ofFn_eq_flat, Mat.ofFn_eq_flat]
  apply Mat.forN_flat
  intro i hi d' hd
  rw [Mat.getI_flat hi, bind_ok', hd i (Nat.le_refl _), preluFn]
  by_cases hx : x (i / C) (i % C) < 0
  · rw [if_pos hx, if_pos hx, h i hi, bind_ok', Mat.setI_flat hi]
  · rw [if_neg hx, if_neg hx, pure_ok]
    congr 1
    apply Mat.flat_congr
    intro j _
    split
    · next e => rw [e, hd i (Nat.le_refl _)]
    · rfl

theorem rreluForward_test (g : Nat → ℝ) (alpha1 alpha2 : ℝ) (draw : Nat → ℝ) {slopes mOut : Mat ℝ} (ho : mOut.WF)
    (N C : Nat) (x : Nat → Nat → ℝ) :
    rreluForward g alpha1 alpha2 false draw slopes (Mat.ofFn N C x) mOut =
      .ok (slopes, Mat.ofFn N C (fun s j => preluFn ((1 / alpha1 + 1 / alpha2) * 0.5) (x s j))) := by
  unfold rreluForward
  have hs : (Mat.ofFn N C x).size = N * C := by simp
  simp only [Mat.assign_ofFn g ho, bind_ok', hs]
  rw [if_neg (by decide)]
  have h := forN_negScale N C x (fun _ => .ok ((1 / alpha1 + 1 / alpha2) * 0.5))
    (fun _ _ => (1 / alpha1 + 1 / alpha2) * 0.5) (fun _ _ => rfl)
  simp only [bind_ok'] at h
  rw [h]; rfl

theorem rreluForward_train (g : Nat → ℝ) (alpha1 alpha2 : ℝ) (hle : 1 / alpha1 ≤ 1 / alpha2) (draw : Nat → ℝ)
    {slopes mOut : Mat ℝ} (hsl : slopes.WF) (ho : mOut.WF) (N C : Nat) (x : Nat → Nat → ℝ) :
    rreluForward g alpha1 alpha2 true draw slopes (Mat.ofFn N C x) mOut =
      .ok (Mat.ofFn N C (fun s j => draw (s * C + j)),
        Mat.ofFn N C (fun s j => preluFn (draw (s * C + j)) (x s j))) := by
  unfold rreluForward
  have hs : (Mat.ofFn N C x).size = N * C := by simp
  obtain ⟨d, hd⟩ := Mat.resize_ofFn g hsl N C
  simp only [Mat.assign_ofFn g ho, bind_ok', hs, Mat.ofFn_rows, Mat.ofFn_cols, hd]
  rw [if_pos trivial]
  have e1 : setRandomUniform (Mat.ofFn N C d) (1 / alpha1) (1 / alpha2) draw =
      .ok (Mat.ofFn N C (fun s j => draw (s * C + j))) := by
    unfold setRandomUniform
    rw [if_neg (not_lt.mpr hle), Mat.ofFn_eq_flat, Mat.setDraws_flat, Mat.flat_eq_ofFn]
  rw [e1, bind_ok']
  have h := forN_negScale N C x (fun i => (Mat.ofFn N C (fun s j => draw (s * C + j))).getI i)
    (fun s j => draw (s * C + j)) (fun i hi => Mat.getI_ofFn hi)
  rw [h]; rfl

theorem rreluBackward_ofFn (g : Nat → ℝ) {gIn : Mat ℝ} (hg : gIn.WF) (N C : Nat) (sl x gr : Nat → Nat → ℝ) :
    rreluBackward g false (Mat.ofFn N C sl) (Mat.ofFn N C x) (Mat.ofFn N C gr) gIn =
      .ok (Mat.ofFn N C (fun s j => if x s j < 0 then gr s j * sl s j else gr s j)) := by
  unfold rreluBackward
  have hs : (Mat.ofFn N C gr).size = N * C := by simp
  rw [if_neg (by decide), Mat.assign_ofFn g hg, bind_ok', hs]
  rw [Mat.ofFn_eq_flat N C gr, Mat.ofFn_eq_flat N C (fun s j => if x s j < 0 then gr s j * sl s j else gr s j)]
  apply Mat.forN_flat
  intro i hi d' hd
  rw [Mat.getI_ofFn hi, bind_ok']
  by_cases hx : x (i / C) (i % C) < 0
  · rw [if_pos hx, if_pos hx, Mat.getI_flat hi, bind_ok', Mat.getI_ofFn hi, bind_ok', Mat.setI_flat hi,
      hd i (Nat.le_refl _)]
  · rw [if_neg hx, if_neg hx, pure_ok]
    congr 1
    apply Mat.flat_congr
    intro j _
    split
    · next e => rw [e, hd i (Nat.le_refl _)]
    · rfl

/-! ## Time-distributed layers -/

section
variable [Zero α]

/-- Column `j` of frame `f` of sample `s`, in the reshaped matrix with one frame per row. -/
theorem frame_idx {T F s i : Nat} (h : i < T * F) :
    (s * (T * F) + i) / F = s * T + i / F ∧ (s * (T * F) + i) % F = i % F := by
  rcases Nat.eq_zero_or_pos F with h0 | h0
  · subst h0; simp at h
  · rw [← Nat.mul_assoc]
    constructor
    · rw [Nat.mul_comm (s * T), Nat.mul_add_div h0]
    · rw [Nat.mul_comm (s * T), Nat.mul_add_mod]

theorem frame_back {T F p j : Nat} (hj : j < F) (hT : 0 < T) :
    (p * F + j) / (T * F) = p / T ∧ (p * F + j) % (T * F) = p % T * F + j := by
  have hF : 0 < F := by omega
  have e : p * F + j = p / T * (T * F) + (p % T * F + j) := by
    conv_lhs => rw [← Nat.div_add_mod p T]
    ring
  have hlt : p % T * F + j < T * F := idx_lt (Nat.mod_lt _ hT) hj
  rw [e, idx_div hlt, idx_mod hlt]
  exact ⟨rfl, rfl⟩

theorem tdBiasForward_ofFn [Add α] (g : Nat → α) {mOut : Mat α} (ho : mOut.WF) (N T F : Nat) (hF : 0 < F)
    (b x : Nat → Nat → α) :
    tdBiasForward g F (Mat.ofFn 1 F b) (Mat.ofFn N (T * F) x) mOut =
      .ok (Mat.ofFn N (T * F) (fun s j => x s j + b 0 (j % F))) := by
  have : Inhabited α := ⟨0⟩
  unfold tdBiasForward
  rw [if_neg (by omega)]
  have hs : (Mat.ofFn N (T * F) x).size = N * (T * F) := by simp
  have hd : N * (T * F) / F = N * T := by rw [← Nat.mul_assoc]; exact Nat.mul_div_cancel _ hF
  rw [hs, hd, Mat.viewResize_ofFn (by ring), bind_ok', Mat.rowWiseAdd_ofFn, bind_ok', Mat.assign_ofFn g ho, bind_ok',
    pure_ok]
  simp only [Mat.ofFn_rows, Mat.ofFn_cols]
  rw [Mat.resize_ofFn_reshape g (by ring)]
  congr 1
  apply Mat.ofFn_congr
  intro s j hs hj
  obtain ⟨h1, h2⟩ := frame_idx (s := s) hj
  rw [h1, h2]
  have h3 : (s * T + j / F) * F + j % F = s * (T * F) + j := by
    have := Nat.div_add_mod j F
    calc _ = s * (T * F) + (F * (j / F) + j % F) := by ring
      _ = _ := by rw [this]
  rw [h3, idx_div hj, idx_mod hj]

theorem tdBiasBackward_ofFn [Add α] [Div α] [NatCast α] (g : Nat → α) (first : Bool) (N T F : Nat) (hF : 0 < F)
    (gr : Nat → Nat → α) {old : Grads α} (h2 : old.gB.WF) (h3 : old.gIn.WF) :
    tdBiasBackward g first F (Mat.ofFn N (T * F) gr) old =
      .ok ⟨old.gW, Mat.ofFn 1 F (fun _ j => accN (N * T) (fun p => gr (p / T) (p % T * F + j)) / ((N * T : Nat) : α)),
        if first then old.gIn else Mat.ofFn N (T * F) gr⟩ := by
  have : Inhabited α := ⟨0⟩
  unfold tdBiasBackward
  rw [if_neg (by omega)]
  have hs : (Mat.ofFn N (T * F) gr).size = N * (T * F) := by simp
  have hd : N * (T * F) / F = N * T := by rw [← Nat.mul_assoc]; exact Nat.mul_div_cancel _ hF
  rw [hs, hd, Mat.viewResize_ofFn (by ring), bind_ok', Mat.colWiseMean_ofFn, bind_ok', Mat.assign_ofFn g h2, bind_ok',
    Mat.assign_ofFn g h3]
  have e : Mat.ofFn 1 F (fun _ j => accN (N * T) (fun i => gr ((i * F + j) / (T * F)) ((i * F + j) % (T * F))) /
      ((N * T : Nat) : α)) =
      Mat.ofFn 1 F (fun _ j => accN (N * T) (fun p => gr (p / T) (p % T * F + j)) / ((N * T : Nat) : α)) := by
    apply Mat.ofFn_congr
    intro _ j _ hj
    congr 1
    apply accN_congr
    intro p hp
    have hT : 0 < T := by
      rcases Nat.eq_zero_or_pos T with h | h
      · subst h; simp at hp
      · exact h
    obtain ⟨h4, h5⟩ := frame_back (p := p) hj hT
    rw [h4, h5]
  rw [e]
  cases first <;> rfl

theorem tdDenseCore [Add α] [Mul α] (N T F O : Nat) (b x : Nat → Nat → α) (W : Nat → Nat → α) (g : Nat → α) :
    (Mat.ofFn (T * N) O (fun p j => accN F (fun k => x ((p * F + k) / (T * F)) ((p * F + k) % (T * F)) * W k j) + b 0 j)).resize
      g N (T * O) =
    Mat.ofFn N (T * O) (fun s j => accN F (fun k => x s (j / O * F + k) * W k (j % O)) + b 0 (j % O)) := by
  rw [Mat.resize_ofFn_reshape g (by ring)]
  apply Mat.ofFn_congr
  intro s j _ hj
  obtain ⟨h1, h2⟩ := frame_idx (s := s) hj
  rw [h1, h2]
  congr 1
  apply accN_congr
  intro k hk
  have hT : 0 < T := by
    rcases Nat.eq_zero_or_pos T with h | h
    · subst h; simp at hj
    · exact h
  have hO : j / O < T := Nat.div_lt_of_lt_mul (by rw [Nat.mul_comm]; exact hj)
  obtain ⟨h4, h5⟩ := frame_back (p := s * T + j / O) hk hT
  rw [h4, h5, idx_div hO, idx_mod hO]

theorem tdDenseForward_ofFn [Add α] [Mul α] (g : Nat → α) {mOut : Mat α} (ho : mOut.WF) (N T F O : Nat) (hF : 0 < F)
    (W b x : Nat → Nat → α) :
    tdDenseForward g F O (Mat.ofFn F O W) (Mat.ofFn 1 O b) (Mat.ofFn N (T * F) x) mOut =
      .ok (Mat.ofFn N (T * O) (fun s j => accN F (fun k => x s (j / O * F + k) * W k (j % O)) + b 0 (j % O))) := by
  have : Inhabited α := ⟨0⟩
  unfold tdDenseForward
  rw [if_neg (by omega)]
  have hd : T * F / F = T := Nat.mul_div_cancel _ hF
  simp only [Mat.ofFn_rows, Mat.ofFn_cols, hd]
  rw [Mat.viewResize_ofFn (by ring), bind_ok', Mat.mul_ofFn, bind_ok', Mat.assign_ofFn g ho, bind_ok',
    Mat.rowWiseAdd_ofFn, bind_ok', Mat.assign_ofFn g (Mat.ofFn_WF _ _ _), bind_ok', pure_ok, tdDenseCore]

theorem tdDotForward_ofFn [Add α] [Mul α] (g : Nat → α) {mOut : Mat α} (ho : mOut.WF) (N T F O : Nat) (hF : 0 < F)
    (W x : Nat → Nat → α) :
    tdDotForward g F O (Mat.ofFn F O W) (Mat.ofFn N (T * F) x) mOut =
      .ok (Mat.ofFn N (T * O) (fun s j => accN F (fun k => x s (j / O * F + k) * W k (j % O)))) := by
  have : Inhabited α := ⟨0⟩
  unfold tdDotForward
  rw [if_neg (by omega)]
  have hd : T * F / F = T := Nat.mul_div_cancel _ hF
  simp only [Mat.ofFn_rows, Mat.ofFn_cols, hd]
  rw [Mat.viewResize_ofFn (by ring), bind_ok', Mat.mul_ofFn, bind_ok', Mat.assign_ofFn g ho, bind_ok', pure_ok]
  rw [Mat.resize_ofFn_reshape g (by ring)]
  congr 1
  apply Mat.ofFn_congr
  intro s j _ hj
  obtain ⟨h1, h2⟩ := frame_idx (s := s) hj
  rw [h1, h2]
  apply accN_congr
  intro k hk
  have hT : 0 < T := by
    rcases Nat.eq_zero_or_pos T with h | h
    · subst h; simp at hj
    · exact h
  have hO : j / O < T := Nat.div_lt_of_lt_mul (by rw [Nat.mul_comm]; exact hj)
  obtain ⟨h4, h5⟩ := frame_back (p := s * T + j / O) hk hT
  rw [h4, h5, idx_div hO, idx_mod hO]

theorem tdDenseBackward_ofFn [One α] [Add α] [Mul α] [Div α] [NatCast α] (g : Nat → α) (dense first : Bool)
    (N T F O : Nat) (hF : 0 < F) (hO : 0 < O) (W x gr : Nat → Nat → α) {old : Grads α} (h1 : old.gW.WF) (h2 : old.gB.WF)
    (h3 : old.gIn.WF) :
    tdDenseBackward g dense first F O (Mat.ofFn F O W) (Mat.ofFn N (T * F) x) (Mat.ofFn N (T * O) gr) old =
      .ok ⟨Mat.ofFn F O (fun k j => accN (T * N) (fun p => x (p / T) (p % T * F + k) * gr (p / T) (p % T * O + j)) *
            (1 / (N : α))),
        if dense then Mat.ofFn 1 O (fun _ j => accN (T * N) (fun p => gr (p / T) (p % T * O + j)) / ((T * N : Nat) : α))
          else old.gB,
        if first then old.gIn
          else Mat.ofFn N (T * F) (fun s k => accN O (fun j => gr s (k / F * O + j) * W (k % F) j))⟩ := by
  have : Inhabited α := ⟨0⟩
  unfold tdDenseBackward
  rw [if_neg (by omega)]
  have hd : T * O / O = T := Nat.mul_div_cancel _ hO
  simp only [Mat.ofFn_rows, Mat.ofFn_cols, hd]
  rw [Mat.viewResize_ofFn (by ring), bind_ok', Mat.viewResize_ofFn (by ring), bind_ok', Mat.transpose_ofFn, bind_ok',
    Mat.mul_ofFn, bind_ok', Mat.scale_ofFn, bind_ok', Mat.assign_ofFn g h1, bind_ok']
  have hTp : ∀ p, p < T * N → 0 < T := by
    intro p hp
    rcases Nat.eq_zero_or_pos T with h | h
    · subst h; simp at hp
    · exact h
  have e1 : Mat.ofFn F O (fun i j => accN (T * N) (fun k => x ((k * F + i) / (T * F)) ((k * F + i) % (T * F)) *
        gr ((k * O + j) / (T * O)) ((k * O + j) % (T * O))) * (1 / (N : α))) =
      Mat.ofFn F O (fun k j => accN (T * N) (fun p => x (p / T) (p % T * F + k) * gr (p / T) (p % T * O + j)) *
            (1 / (N : α))) := by
    apply Mat.ofFn_congr
    intro i j hi hj
    congr 1
    apply accN_congr
    intro p hp
    obtain ⟨h4, h5⟩ := frame_back (p := p) hj (hTp p hp)
    obtain ⟨h6, h7⟩ := frame_back (p := p) hi (hTp p hp)
    rw [h4, h5, h6, h7]
  have e2 : Mat.ofFn 1 O (fun _ j => accN (T * N) (fun i => gr ((i * O + j) / (T * O)) ((i * O + j) % (T * O))) /
      ((T * N : Nat) : α)) =
      Mat.ofFn 1 O (fun _ j => accN (T * N) (fun p => gr (p / T) (p % T * O + j)) / ((T * N : Nat) : α)) := by
    apply Mat.ofFn_congr
    intro _ j _ hj
    congr 1
    apply accN_congr
    intro p hp
    obtain ⟨h4, h5⟩ := frame_back (p := p) hj (hTp p hp)
    rw [h4, h5]
  rw [e1, Mat.colWiseMean_ofFn, bind_ok', Mat.assign_ofFn g h2, e2]
  simp only [Mat.transpose_ofFn, bind_ok', Mat.mul_ofFn, Mat.assign_ofFn g h3,
    Mat.resize_ofFn_reshape g (show N * (T * F) = T * N * F by ring)]
  have e3 : Mat.ofFn N (T * F) (fun i j => accN O (fun k => gr (((i * (T * F) + j) / F * O + k) / (T * O))
        (((i * (T * F) + j) / F * O + k) % (T * O)) * W ((i * (T * F) + j) % F) k)) =
      Mat.ofFn N (T * F) (fun s k => accN O (fun j => gr s (k / F * O + j) * W (k % F) j)) := by
    apply Mat.ofFn_congr
    intro s j _ hj
    obtain ⟨h1, h2⟩ := frame_idx (s := s) hj
    rw [h1, h2]
    apply accN_congr
    intro k hk
    have hT : 0 < T := by
      rcases Nat.eq_zero_or_pos T with h | h
      · subst h; simp at hj
      · exact h
    have hO : j / F < T := Nat.div_lt_of_lt_mul (by rw [Nat.mul_comm]; exact hj)
    obtain ⟨h4, h5⟩ := frame_back (p := s * T + j / F) hk hT
    rw [h4, h5, idx_div hO, idx_mod hO]
  rw [e3]
  cases dense <;> cases first <;> rfl

end

end BeeDNN
