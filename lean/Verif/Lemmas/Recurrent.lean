import Verif.Lemmas.LayersRect
import Verif.Model.Recurrent
import Verif.Spec.Recurrent

/-! # Lemmas about the recurrent layers -/

namespace BeeDNN
open Finset

variable {α : Type}

theorem setRandom_ofFn [Inhabited α] (g : Nat → α) {m : Mat α} (hm : m.WF) (r c : Nat) (draw : Nat → α) :
    m.setRandom g r c draw = .ok (Mat.ofFn r c (fun i j => draw (i * c + j))) := by
  unfold Mat.setRandom
  obtain ⟨d, hd⟩ := Mat.resize_ofFn g hm r c
  rw [hd, Mat.ofFn_eq_flat, Mat.setDraws_flat, Mat.flat_eq_ofFn]

/-- Loop of `rnnForward` over frames. -/
theorem rnn_loop {W : Type} (g : Nat → α) (F T : Nat) (hF : 0 < F) (N : Nat) (train : Bool)
    (init : Rnn W α → Out (Rnn W α)) (frame : Rnn W α → Mat α → Mat α → Out (Rnn W α × Mat α))
    (st st' : Rnn W α) (mOut : Mat α) (x : Nat → Nat → α)
    (hinit : rnnStart F (N * ((T + 1) * F)) train init st = .ok st') :
    rnnForward g F train init frame st (Mat.ofFn N ((T + 1) * F) x) mOut =
      forN T (fun i (s : Rnn W α × Mat α) => do
        let (st, mOut) ← frame s.1 (Mat.ofFn N F (fun s j => x s (i * F + j))) s.2
        return (if train then { st with saved := st.saved ++ [st.h] } else st, mOut)) (st', mOut) := by
  unfold rnnForward
  have hs : (Mat.ofFn N ((T + 1) * F) x).size = N * ((T + 1) * F) := by simp
  rw [if_neg (by omega), Mat.ofFn_cols, check_true (by simp), bind_ok', hs, hinit, bind_ok',
    Nat.mul_div_cancel _ hF, Nat.add_sub_cancel]
  apply forN_congr
  intro i hi s
  have hb : i * F + F ≤ (T + 1) * F := by
    have : (i + 1) * F ≤ (T + 1) * F := Nat.mul_le_mul_right F (by omega)
    rw [Nat.add_mul, Nat.one_mul] at this; exact this
  rw [Mat.colExtract_ofFn g x (Nat.le_add_right _ _) hb, bind_ok', Nat.add_sub_cancel_left]
  have e : (fun i_1 j => x i_1 (j + i * F)) = fun s j => x s (i * F + j) := by
    funext s j; rw [Nat.add_comm]
  rw [e]

theorem simplestFrame_ofFn [Zero α] [Add α] [Mul α] (g : Nat → α) (N U : Nat) (W h x : Nat → Nat → α)
    (sv : List (Mat α)) {mOut : Mat α} (ho : mOut.WF) :
    simplestFrame g U ⟨Mat.ofFn U U W, Mat.ofFn N U h, sv⟩ (Mat.ofFn N U x) mOut =
      .ok (⟨Mat.ofFn U U W, Mat.ofFn N U (fun s j => accN U (fun k => h s k * W k j) + x s j), sv⟩,
        Mat.ofFn N U (fun s j => accN U (fun k => h s k * W k j) + x s j)) := by
  have : Inhabited α := ⟨0⟩
  unfold simplestFrame Mat.add
  simp only [Mat.ofFn_rows, ne_eq, not_true, if_false, bind_ok', Mat.mul_ofFn, Mat.cwise2_ofFn,
    Mat.assign_ofFn g (Mat.ofFn_WF _ _ _), Mat.assign_ofFn g ho]
  rfl

theorem simplestFrame_fresh [Zero α] [Add α] [Mul α] (g : Nat → α) (N U : Nat) (W x : Nat → Nat → α) (h : Mat α) (hh : h.WF)
    (hr : h.rows ≠ N) (sv : List (Mat α)) {mOut : Mat α} (ho : mOut.WF) :
    simplestFrame g U ⟨Mat.ofFn U U W, h, sv⟩ (Mat.ofFn N U x) mOut =
      simplestFrame g U ⟨Mat.ofFn U U W, Mat.ofFn N U (fun _ _ => 0), sv⟩ (Mat.ofFn N U x) mOut := by
  have : Inhabited α := ⟨0⟩
  rw [simplestFrame_ofFn g N U W _ x sv ho]
  unfold simplestFrame Mat.add
  simp only [Mat.ofFn_rows, ne_eq, hr, not_false_iff, if_true, bind_ok', Mat.mul_ofFn, Mat.cwise2_ofFn,
    Mat.setConstantRC_ofFn g hh, Mat.assign_ofFn g (Mat.ofFn_WF _ _ _), Mat.assign_ofFn g ho]
  rfl

theorem simpleFrame_ofFn [Zero α] [Add α] [Mul α] (g : Nat → α) (th : α → α) (F U : Nat) (Wh Wx b h x : Nat → Nat → α)
    (sv : List (Mat α)) {mOut : Mat α} (ho : mOut.WF) :
    simpleFrame g th ⟨⟨Mat.ofFn U U Wh, Mat.ofFn F U Wx, Mat.ofFn 1 U b⟩, Mat.ofFn 1 U h, sv⟩ (Mat.ofFn 1 F x) mOut =
      .ok (⟨⟨Mat.ofFn U U Wh, Mat.ofFn F U Wx, Mat.ofFn 1 U b⟩,
          Mat.ofFn 1 U (fun s j => th (accN U (fun k => h s k * Wh k j) + accN F (fun k => x s k * Wx k j))), sv⟩,
        Mat.ofFn 1 U (fun s j => th (accN U (fun k => h s k * Wh k j) + accN F (fun k => x s k * Wx k j)))) := by
  have : Inhabited α := ⟨0⟩
  unfold simpleFrame Mat.add
  simp only [bind_ok', Mat.mul_ofFn, Mat.cwise2_ofFn, Mat.cwise_ofFn, Mat.rowWiseAdd_ofFn,
    Mat.assign_ofFn g (Mat.ofFn_WF _ _ _), Mat.assign_ofFn g ho]
  rfl

/-- The loop when every frame step keeps the weights and produces the next hidden state. -/
theorem rnn_states {W : Type} (N U T : Nat) (train : Bool) (w : W)
    (frame : Rnn W α → Mat α → Mat α → Out (Rnn W α × Mat α)) (fr : Nat → Mat α) (H : Nat → Nat → Nat → α) (sv : List (Mat α))
    (mOut : Mat α) (ho : mOut.WF)
    (hf : ∀ i, i < T → ∀ sv (o : Mat α), o.WF → frame ⟨w, Mat.ofFn N U (H i), sv⟩ (fr i) o =
      .ok (⟨w, Mat.ofFn N U (H (i + 1)), sv⟩, Mat.ofFn N U (H (i + 1)))) :
    forN T (fun i (s : Rnn W α × Mat α) => do
        let (st, mOut) ← frame s.1 (fr i) s.2
        return (if train then { st with saved := st.saved ++ [st.h] } else st, mOut)) (⟨w, Mat.ofFn N U (H 0), sv⟩, mOut) =
      .ok (⟨w, Mat.ofFn N U (H T), if train then sv ++ (List.range T).map (fun t => Mat.ofFn N U (H (t + 1))) else sv⟩,
        if T = 0 then mOut else Mat.ofFn N U (H T)) := by
  refine forN_closed' (fun k => (⟨w, Mat.ofFn N U (H k),
    if train then sv ++ (List.range k).map (fun t => Mat.ofFn N U (H (t + 1))) else sv⟩,
        if k = 0 then mOut else Mat.ofFn N U (H k))) ?_ rfl ?_
  · cases train <;> simp
  · intro i hi
    have hw : (if i = 0 then mOut else Mat.ofFn N U (H i)).WF := by
      split
      · exact ho
      · exact Mat.ofFn_WF _ _ _
    dsimp only
    rw [hf i hi _ _ hw, bind_ok']
    cases train
    · simp [pure_ok]
    · simp [pure_ok, List.range_succ]

end BeeDNN
