import Verif.Spec.Alike
import Verif.Lemmas.TrainEval
import Verif.Lemmas.MatrixMore

/-! # Lemmas: different networks that do the same -/

namespace BeeDNN
open Finset

theorem Mlp.hidden_congr_ply {m m' : Mlp} {v : Row} {n : Nat} (hw : ∀ i, i < n → m'.width i = m.width i) (hp : ∀ i, i < n → m'.ply i = m.ply i) :
    m'.hidden v n = m.hidden v n := by
  induction n with
  | zero => rfl
  | succ n ih =>
    show (m'.ply n).apply (m'.width n) (m'.hidden v n) = (m.ply n).apply (m.width n) (m.hidden v n)
    rw [hw n (by omega), hp n (by omega), ih (fun i hi => hw i (by omega)) (fun i hi => hp i (by omega))]

theorem Mlp.Topped.out {m m' : Mlp} (h : Mlp.Topped m m') (v : Row) : m'.out v = (m'.ply m.depth).apply (m.width m.depth) (m.out v) := by
  show m'.hidden v m'.depth = _
  rw [h.depth]
  show (m'.ply m.depth).apply (m'.width m.depth) (m'.hidden v m.depth) = _
  rw [h.width _ le_rfl, Mlp.hidden_congr_ply (fun i hi => h.width i hi.le) h.ply]
  rfl

theorem PlyKind.KeepsOrder.iff {p : Ply} (h : p.kind.KeepsOrder) {C : Nat} (hC : 0 < C) (v : Row) (i j : Nat) : p.apply C v i < p.apply C v j ↔ v i < v j := by
  cases hk : p.kind <;> rw [hk] at h <;> simp only [PlyKind.KeepsOrder] at h
  · simp only [Ply.apply, hk]
    exact h.lt_iff_lt
  · simp only [Ply.apply, hk, softmaxAt]
    have hp : 0 < ∑ k ∈ range C, Real.exp (v k) := sum_pos (fun _ _ => Real.exp_pos _) ⟨0, mem_range.2 hC⟩
    rw [div_lt_div_iff_of_pos_right hp, Real.exp_lt_exp]

theorem IsFirstMax.of_order {n : Nat} {x y : Row} (h : ∀ i j, x i < x j ↔ y i < y j) {k : Nat} (hk : IsFirstMax n x k) : IsFirstMax n y k := by
  refine ⟨hk.1, fun i hi => ?_, fun i hi => ?_⟩
  · exact not_lt.1 fun hlt => absurd ((h _ _).2 hlt) (not_lt.2 (hk.2.1 i hi))
  · exact (h _ _).1 (hk.2.2 i hi)

theorem Mlp.Rescaled.out {c : Nat → ℝ} {l : Nat} {m m' : Mlp} (h : Mlp.Rescaled c l m m') (hok : m.Ok) (hc : ∀ j, j < m.width (l + 1) → 0 < c j) (v : Row) :
    m'.out v = m.out v := by
  obtain ⟨a, hb, ha⟩ := h.between
  have hd := h.depth
  have hw : ∀ i, m'.width i = m.width i := fun i => by rw [h.like.width]
  have e0 : m'.hidden v l = m.hidden v l := Mlp.hidden_congr_ply (fun i _ => hw i) fun i hi => h.other i (by omega) (by omega)
  have hw2 : m.width (l + 2) = m.width (l + 1) := by
    have := hok.fits (l + 1) (by omega)
    rw [hb] at this
    exact this.1
  have e1 : ∀ j, j < m.width (l + 1) → m'.hidden v (l + 1) j = c j * m.hidden v (l + 1) j := fun j hj => by
    show (m'.ply l).apply (m'.width l) (m'.hidden v l) j = c j * (m.ply l).apply (m.width l) (m.hidden v l) j
    rw [e0, hw]
    simp only [Ply.apply, h.like.kind, h.before]
    rw [mul_add, mul_sum, h.bias j hj, mul_comm (c j)]
    congr 1
    refine sum_congr rfl fun k hk => ?_
    rw [h.weight k j (mem_range.1 hk) hj]
    ring
  have e2 : ∀ j, j < m.width (l + 1) → m'.hidden v (l + 2) j = c j * m.hidden v (l + 2) j := fun j hj => by
    show (m'.ply (l + 1)).apply (m'.width (l + 1)) (m'.hidden v (l + 1)) j = c j * (m.ply (l + 1)).apply (m.width (l + 1)) (m.hidden v (l + 1)) j
    simp only [Ply.apply, h.like.kind, hb]
    rw [e1 j hj, ha _ _ (hc j hj)]
  have e3 : m'.hidden v (l + 3) = m.hidden v (l + 3) := funext fun q => by
    show (m'.ply (l + 2)).apply (m'.width (l + 2)) (m'.hidden v (l + 2)) q = (m.ply (l + 2)).apply (m.width (l + 2)) (m.hidden v (l + 2)) q
    simp only [Ply.apply, h.like.kind, h.after]
    rw [hw, h.nextBias q]
    congr 1
    refine sum_congr rfl fun j hj => ?_
    have hj : j < m.width (l + 1) := by rw [← hw2]; exact mem_range.1 hj
    have := (hc j hj).ne'
    rw [e2 j hj, h.next j q hj]
    field_simp
  have e4 : ∀ n, m'.hidden v (l + 3 + n) = m.hidden v (l + 3 + n) := fun n => by
    induction n with
    | zero => exact e3
    | succ n ih =>
      show (m'.ply (l + 3 + n)).apply (m'.width (l + 3 + n)) (m'.hidden v (l + 3 + n)) = (m.ply (l + 3 + n)).apply (m.width (l + 3 + n)) (m.hidden v (l + 3 + n))
      rw [h.other _ (by omega) (by omega), hw, ih]
  show m'.hidden v m'.depth = m.hidden v m.depth
  rw [h.like.depth]
  have := e4 (m.depth - (l + 3))
  rwa [show l + 3 + (m.depth - (l + 3)) = m.depth by omega] at this

theorem Mlp.Plain.hidden {m : Mlp} (h : m.Plain) (hok : m.Ok) {n : Nat} (hn : n ≤ m.depth) :
    ∃ (W : Nat → Nat → ℝ) (b : Nat → ℝ), ∀ v j, j < m.width n → m.hidden v n j = ∑ k ∈ range (m.width 0), v k * W k j + b j := by
  induction n with
  | zero =>
    refine ⟨fun k j => if k = j then 1 else 0, fun _ => 0, fun v j hj => ?_⟩
    simp only [mul_ite, mul_one, mul_zero, add_zero, Mlp.hidden]
    rw [sum_ite_eq' (range (m.width 0)) j v, if_pos (mem_range.2 hj)]
  | succ n ih =>
    obtain ⟨W, b, hh⟩ := ih (by omega)
    have key : ∀ v j, ∑ i ∈ range (m.width n), m.hidden v n i * (m.ply n).weight i j =
        ∑ k ∈ range (m.width 0), v k * (∑ i ∈ range (m.width n), W k i * (m.ply n).weight i j) + ∑ i ∈ range (m.width n), b i * (m.ply n).weight i j := fun v j => by
      rw [sum_congr rfl fun i hi => by rw [hh v i (mem_range.1 hi), add_mul, sum_mul], sum_add_distrib, sum_comm]
      congr 1
      refine sum_congr rfl fun k _ => ?_
      rw [mul_sum]
      exact sum_congr rfl fun i _ => by ring
    rcases h n (by omega) with hk | hk | hk
    · refine ⟨fun k j => ∑ i ∈ range (m.width n), W k i * (m.ply n).weight i j, fun j => ∑ i ∈ range (m.width n), b i * (m.ply n).weight i j + (m.ply n).bias 0 j, fun v j hj => ?_⟩
      show (m.ply n).apply (m.width n) (m.hidden v n) j = _
      simp only [Ply.apply, hk]
      rw [key, add_assoc]
    · refine ⟨fun k j => ∑ i ∈ range (m.width n), W k i * (m.ply n).weight i j, fun j => ∑ i ∈ range (m.width n), b i * (m.ply n).weight i j, fun v j hj => ?_⟩
      show (m.ply n).apply (m.width n) (m.hidden v n) j = _
      simp only [Ply.apply, hk]
      rw [key]
    · refine ⟨W, fun j => b j + (m.ply n).bias 0 j, fun v j hj => ?_⟩
      have hf := hok.fits n (by omega)
      rw [hk] at hf
      show (m.ply n).apply (m.width n) (m.hidden v n) j = _
      simp only [Ply.apply, hk]
      rw [hh v j (by rw [← show m.width (n + 1) = m.width n from hf]; exact hj), add_assoc]

end BeeDNN
