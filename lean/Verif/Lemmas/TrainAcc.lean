import Verif.Spec.Train
import Verif.Lemmas.MatrixMore
import Mathlib.Data.Finset.Range

/-! # Counting right predictions -/

namespace BeeDNN
open Finset

theorem isFirstMax_unique {n : Nat} {x : Nat → ℝ} {a b : Nat} (ha : IsFirstMax n x a) (hb : IsFirstMax n x b) : a = b := by
  rcases Nat.lt_trichotomy a b with h | h | h
  · exact absurd (ha.2.1 b hb.1) (not_le.mpr (hb.2.2 a h))
  · exact h
  · exact absurd (hb.2.1 a ha.1) (not_le.mpr (ha.2.2 b h))

theorem nbRight_succ (N C D : Nat) (p t : Nat → Row) {c : Prop} [Decidable c] (h : c ↔ IsRight C D (p N) (t N)) :
    nbRight (N + 1) C D p t = nbRight N C D p t + if c then 1 else 0 := by
  classical
  unfold nbRight
  rw [range_add_one, filter_insert]
  by_cases hc : IsRight C D (p N) (t N)
  · rw [if_pos hc, if_pos (h.2 hc), card_insert_of_notMem (by simp)]
  · rw [if_neg hc, if_neg (fun h' => hc (h.1 h'))]; rfl

theorem nbRight_le (N C D : Nat) (p t : Nat → Row) : nbRight N C D p t ≤ N := by
  classical
  unfold nbRight
  exact (card_filter_le _ _).trans (by simp)

/-- The batches together. -/
theorem nbRight_add (A B C D : Nat) (p t : Nat → Row) :
    nbRight (A + B) C D p t = nbRight A C D p t + nbRight B C D (fun i => p (A + i)) (fun i => t (A + i)) := by
  classical
  induction B with
  | zero => simp [nbRight]
  | succ B ih =>
    rw [← Nat.add_assoc, nbRight_succ (A + B) C D p t (c := IsRight C D (p (A + B)) (t (A + B))) Iff.rfl, ih,
      nbRight_succ B C D _ _ (c := IsRight C D (p (A + B)) (t (A + B))) Iff.rfl]
    omega

namespace Trainer

section
variable (N C D : Nat) (p t : Nat → Row)

theorem loop_round (hC : C = 1) : forN N (fun i k => (do
      let x ← (Mat.ofFn N 1 p).getI i
      let y ← (Mat.ofFn N 1 t).getI i
      return k + if World.roundf x = y then 1 else 0 : Out Nat)) 0 = .ok (nbRight N C 1 p t) := by
  refine forN_closed' (fun i => nbRight i C 1 p t) rfl rfl fun i hi => ?_
  rw [Mat.getI_ofFn_col hi, Mat.getI_ofFn_col hi, bind_ok', bind_ok', pure_ok]
  rw [nbRight_succ i C 1 p t (c := World.roundf (p i 0) = t i 0)]
  simp [IsRight, hC]

theorem loop_label (hC : 0 < C) (hC1 : C ≠ 1) : forN N (fun i k => (do
      let r ← (Mat.ofFn N C p).row i
      let x ← r.argmax
      let y ← (Mat.ofFn N 1 t).getI i
      return k + if (x : ℝ) = y then 1 else 0 : Out Nat)) 0 = .ok (nbRight N C 1 p t) := by
  refine forN_closed' (fun i => nbRight i C 1 p t) rfl rfl fun i hi => ?_
  obtain ⟨k, h1, h2⟩ := argmax_ofFn hC (fun _ j => p i j)
  rw [Mat.row_ofFn hi, bind_ok', h1, bind_ok', Mat.getI_ofFn_col hi, bind_ok', pure_ok]
  rw [nbRight_succ i C 1 p t (c := (k : ℝ) = t i 0)]
  simp only [IsRight, if_neg hC1, if_true]
  constructor
  · exact fun h => ⟨k, h2, h⟩
  · rintro ⟨c, hc, h⟩
    rw [isFirstMax_unique h2 hc]; exact h

theorem loop_onehot (hC : 0 < C) (hC1 : C ≠ 1) : forN N (fun i k => (do
      let r ← (Mat.ofFn N C p).row i
      let x ← r.argmax
      let r' ← (Mat.ofFn N C t).row i
      let y ← r'.argmax
      return k + if x = y then 1 else 0 : Out Nat)) 0 = .ok (nbRight N C C p t) := by
  refine forN_closed' (fun i => nbRight i C C p t) rfl rfl fun i hi => ?_
  obtain ⟨k, h1, h2⟩ := argmax_ofFn hC (fun _ j => p i j)
  obtain ⟨k', h1', h2'⟩ := argmax_ofFn hC (fun _ j => t i j)
  rw [Mat.row_ofFn hi, bind_ok', h1, bind_ok', Mat.row_ofFn hi, bind_ok', h1', bind_ok', pure_ok]
  rw [nbRight_succ i C C p t (c := k = k')]
  simp only [IsRight, if_neg hC1]
  constructor
  · rintro rfl; exact ⟨k, h2, h2'⟩
  · rintro ⟨c, hc, h⟩
    rw [isFirstMax_unique h2 hc, isFirstMax_unique h2' h]

theorem goodOnline_ofFn (hC : 0 < C) (hD : D = C ∨ D = 1) : goodOnline (Mat.ofFn N C p) (Mat.ofFn N D t) = .ok (nbRight N C D p t) := by
  unfold goodOnline
  by_cases h1 : C = 1
  · subst h1
    obtain rfl : D = 1 := by omega
    rw [if_pos (show (Mat.ofFn N 1 p).cols = 1 from rfl), check_true (show (Mat.ofFn N 1 t).cols = 1 from rfl), bind_ok']
    exact loop_round N 1 p t rfl
  · rw [if_neg (show ¬ (Mat.ofFn N C p).cols = 1 from h1)]
    by_cases hD1 : D = 1
    · subst hD1
      rw [if_pos (show (Mat.ofFn N 1 t).cols = 1 from rfl)]
      exact loop_label N C p t hC h1
    · obtain rfl : D = C := by omega
      rw [if_neg (show ¬ (Mat.ofFn N D t).cols = 1 from h1), check_true (show (Mat.ofFn N D t).cols = (Mat.ofFn N D p).cols from rfl), bind_ok']
      exact loop_onehot N D p t hC h1

theorem goodEval_ofFn (hC : 0 < C) (hD : D = C ∨ D = 1) : goodEval N (Mat.ofFn N C p) (Mat.ofFn N D t) = .ok (nbRight N C D p t) := by
  unfold goodEval
  by_cases hD1 : D = 1
  · subst hD1
    rw [if_neg (show ¬ (Mat.ofFn N 1 t).cols ≠ 1 by simp)]
    by_cases h1 : C = 1
    · subst h1
      rw [if_neg (show ¬ (Mat.ofFn N 1 p).cols ≠ 1 by simp)]
      exact loop_round N 1 p t rfl
    · rw [if_pos (show (Mat.ofFn N C p).cols ≠ 1 from h1)]
      exact loop_label N C p t hC h1
  · obtain rfl : D = C := by omega
    rw [if_pos (show (Mat.ofFn N D t).cols ≠ 1 from hD1), check_true (show (Mat.ofFn N D p).cols = (Mat.ofFn N D t).cols from rfl), bind_ok']
    exact loop_onehot N D p t hC hD1

end

end Trainer

end BeeDNN
