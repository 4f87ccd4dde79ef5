import Verif.Model.Layer
import Verif.Lemmas.Recurrent

/-! # Lemmas about the initializers -/

namespace BeeDNN

theorem initUniform_ofFn (g draw : Nat → ℝ) (a : ℝ) {m : Mat ℝ} (hm : m.WF) (i o : Nat) :
    initUniform g draw a m i o = .ok (Mat.ofFn i o (fun r c => draw (r * o + c) * a)) := by
  rw [initUniform, setRandom_ofFn g hm, bind_ok', Mat.scale_ofFn]

theorem setDraws_resize (g draw : Nat → ℝ) {m : Mat ℝ} (hm : m.WF) (i o : Nat) :
    (m.resize g i o).setDraws draw = .ok (Mat.ofFn i o (fun r c => draw (r * o + c))) := by
  obtain ⟨d, hd⟩ := Mat.resize_ofFn g hm i o
  rw [hd, Mat.ofFn_eq_flat, Mat.setDraws_flat, Mat.flat_eq_ofFn]

theorem initNormal_ofFn (g draw : Nat → ℝ) (a : ℝ) {m : Mat ℝ} (hm : m.WF) (i o : Nat) :
    initNormal g draw a m i o = .ok (Mat.ofFn i o (fun r c => a * draw (r * o + c))) := by
  rw [initNormal, setDraws_resize g _ hm]
  simp only [zero_add]

/-- Whatever the name, `compute` succeeds: it leaves the matrix alone or fills it. -/
theorem initCompute_ok (g draw : Nat → ℝ) (s : String) {m : Mat ℝ} (hm : m.WF) (i o : Nat) :
    initCompute g draw s m i o = .ok m ∨ ∃ x, initCompute g draw s m i o = .ok (Mat.ofFn i o x) := by
  unfold initCompute
  iterate 10
    split
    · right
      first
        | exact ⟨_, initUniform_ofFn g draw _ hm i o⟩
        | exact ⟨_, initNormal_ofFn g draw _ hm i o⟩
        | exact ⟨_, setRandom_ofFn g hm i o draw⟩
        | exact ⟨_, Mat.setConstantRC_ofFn g hm i o _⟩
  exact .inl rfl

theorem initCompute_WF (g draw : Nat → ℝ) (s : String) {m : Mat ℝ} (hm : m.WF) (i o : Nat) :
    ∃ m', initCompute g draw s m i o = .ok m' ∧ m'.WF := by
  rcases initCompute_ok g draw s hm i o with h | ⟨x, h⟩
  · exact ⟨m, h, hm⟩
  · exact ⟨_, h, Mat.ofFn_WF ..⟩

end BeeDNN
