import Verif.Spec.PyRnn
import Verif.Lemmas.PyTrainBy
import Mathlib.Tactic.Ring

/-! # Lemmas on the recurrent layer of the Python library -/

namespace BeeDNN
open Finset

theorem forN_first_error {σ : Type} {f : Nat → σ → Out σ} {s : σ} {e : Fault} (h : f 0 s = .error e) : ∀ n, 0 < n → forN n f s = .error e
  | 1, _ => h
  | n + 2, _ => by rw [forN_succ, forN_first_error h (n + 1) (Nat.succ_pos n)]; rfl

/-- A state depends on the frames so far only. -/
theorem rnnState_causal {F : Nat} (W : Nat → Nat → ℝ) {x x' : Nat → ℝ} : ∀ {n : Nat}, (∀ k, k < (n + 1) * F → x k = x' k) → ∀ j, j < F → rnnState F W x n j = rnnState F W x' n j
  | 0, h, j, hj => by rw [rnnState, rnnState, h j (by omega)]
  | n + 1, h, j, hj => by
    have hk : (n + 1) * F ≤ (n + 2) * F := Nat.mul_le_mul_right F (by omega)
    rw [rnnState, rnnState, h ((n + 1) * F + j) (by rw [Nat.add_mul (n + 1) 1 F]; omega)]
    congr 2
    exact Finset.sum_congr rfl fun k hk' => by rw [rnnState_causal W (fun q hq => h q (lt_of_lt_of_le hq hk)) k (mem_range.1 hk')]

namespace PyRnn

/-- Column `j` of frame `m`. -/
theorem frame_index {F m n j : Nat} (hj : j < F) : (n * F ≤ m * F + j ∧ m * F + j < (n + 1) * F) ↔ m = n := by
  constructor
  · rintro ⟨h1, h2⟩
    have h3 : n < m + 1 := by
      by_contra h
      have : (m + 1) * F ≤ n * F := Nat.mul_le_mul_right F (not_lt.1 h)
      rw [Nat.add_mul, Nat.one_mul] at this
      omega
    have h4 : m < n + 1 := by
      by_contra h
      have : (n + 1) * F ≤ m * F := Nat.mul_le_mul_right F (not_lt.1 h)
      omega
    omega
  · rintro rfl
    rw [Nat.add_mul, Nat.one_mul]
    omega

theorem slice_cols {F n N C : Nat} (hn : n < N) (hC : N * F ≤ C) : min ((n + 1) * F) C - min (n * F) C = F := by
  have h1 : (n + 1) * F ≤ N * F := Nat.mul_le_mul_right F hn
  rw [Nat.add_mul, Nat.one_mul] at h1 ⊢
  omega

theorem setSlice_ok {a b : NpArr} {F n N : Nat} (hn : n < N) (hC : N * F ≤ a.cols) (hr : b.rows = a.rows) (hb : b.cols = F) :
    ∃ c, a.setSlice (n * F) ((n + 1) * F) b = .ok c ∧ c.rows = a.rows ∧ c.cols = a.cols ∧
      ∀ i m j, j < F → c.val i (m * F + j) = if m = n then b.val i j else a.val i (m * F + j) := by
  refine ⟨{ a with val := fun i j => if n * F ≤ j ∧ j < (n + 1) * F then b.val i (j - n * F) else a.val i j },
    by rw [NpArr.setSlice, npCheck_ok ⟨hr, by rw [slice_cols hn hC]; exact hb⟩, bind_ok'], rfl, rfl, fun i m j hj => ?_⟩
  dsimp only
  by_cases h : m = n
  · rw [if_pos ((frame_index hj).2 h), if_pos h, h, Nat.add_sub_cancel_left]
  · rw [if_neg fun h' => h ((frame_index hj).1 h'), if_neg h]

/-- The arrays after `n` frames. -/
def Upto (F R C N n : Nat) (S : Nat → Nat → Nat → ℝ) (s : Option NpArr × NpArr × NpArr) : Prop :=
  if n = 0 then s.1 = none
  else (∃ h, s.1 = some h ∧ h.rows = R ∧ h.cols = F ∧ ∀ i j, i < R → j < F → h.val i j = S i (n - 1) j) ∧
    (s.2.1.rows = R ∧ s.2.1.cols = F * N ∧ ∀ i m j, i < R → m < n → j < F → s.2.1.val i (m * F + j) = S i m j) ∧
    (s.2.2.rows = R ∧ s.2.2.cols = F * N ∧ ∀ i m j, i < R → m < n → j < F → s.2.2.val i (m * F + j) = S i m j)

theorem cellForward_ok {F : Nat} {W x : NpArr} {h : Option NpArr} (hW : W.rows = F ∧ W.cols = F) (hx : x.cols = F) (hh : ∀ a, h = some a → a.rows = x.rows ∧ a.cols = F) :
    ∃ y, cellForward F W x h = .ok y ∧ y.rows = x.rows ∧ y.cols = F ∧
      ∀ i j, y.val i j = Real.tanh (x.val i j + h.elim 0 fun a => ∑ k ∈ range F, a.val i k * W.val k j) := by
  have hs : (h.getD (npZeros x.rows F)).rows = x.rows ∧ (h.getD (npZeros x.rows F)).cols = F := by
    cases h with
    | none => exact ⟨rfl, rfl⟩
    | some a => exact hh a rfl
  refine ⟨⟨x.rows, x.cols, fun i j => Real.tanh (x.val i j + ∑ k ∈ range (h.getD (npZeros x.rows F)).cols, (h.getD (npZeros x.rows F)).val i k * W.val k j)⟩, by
    rw [cellForward, npDot, npCheck_ok (hs.2.trans hW.1.symm), bind_ok', bind_ok', npZip, npCheck_ok ⟨hs.1.symm, hx.trans hW.2.symm⟩, bind_ok', bind_ok']
    rfl, rfl, hx, fun i j => ?_⟩
  dsimp only
  rw [hs.2]
  cases h with
  | none => simp [npZeros]
  | some a => rfl

theorem frame_ok {l : PyRnn} {F R N n : Nat} {W X : NpArr} (hF : 0 < F) (hl : l.inF = F ∧ l.hS = F ∧ l.outF = F) (hW : W.rows = F ∧ W.cols = F) (hX : X.rows = R ∧ X.cols / F = N) (hn : n < N)
    {s : Option NpArr × NpArr × NpArr} (hs : Upto F R X.cols N n (fun i => rnnState F W.val (X.val i)) s) :
    ∃ s', l.frame W X n s = .ok s' ∧ Upto F R X.cols N (n + 1) (fun i => rnnState F W.val (X.val i)) s' := by
  obtain ⟨h1, h2, h3⟩ := hl
  have hC : N * F ≤ X.cols := by
    rw [← hX.2, Nat.mul_comm]
    exact Nat.mul_div_le _ _
  obtain ⟨y, a1, a2, a3, a4⟩ := cellForward_ok (F := F) (W := W) (x := X.slice (n * F) ((n + 1) * F)) (h := s.1) hW (slice_cols hn hC) (by
    intro a ha
    unfold Upto at hs
    split_ifs at hs with h0
    · rw [hs] at ha; cases ha
    · obtain ⟨⟨b, b1, b2, b3, -⟩, -⟩ := hs
      rw [b1] at ha
      obtain rfl := Option.some.inj ha
      exact ⟨b2.trans hX.1.symm, b3⟩)
  -- the arrays written to
  let H := if s.1.isNone then npZeros X.rows (F * N) else s.2.1
  let Y := if s.1.isNone then npZeros X.rows (F * N) else s.2.2
  have hHY : (H.rows = R ∧ H.cols = F * N ∧ ∀ i m j, i < R → m < n → j < F → H.val i (m * F + j) = rnnState F W.val (X.val i) m j) ∧
      (Y.rows = R ∧ Y.cols = F * N ∧ ∀ i m j, i < R → m < n → j < F → Y.val i (m * F + j) = rnnState F W.val (X.val i) m j) := by
    unfold Upto at hs
    split_ifs at hs with h0
    · have : s.1.isNone = true := by rw [hs]; rfl
      dsimp only [H, Y]
      rw [if_pos this, if_pos this]
      exact ⟨⟨hX.1, rfl, fun i m j _ hm => by omega⟩, hX.1, rfl, fun i m j _ hm => by omega⟩
    · obtain ⟨⟨b, b1, -⟩, b2, b3⟩ := hs
      have : ¬ s.1.isNone = true := by rw [b1]; simp
      dsimp only [H, Y]
      rw [if_neg this, if_neg this]
      exact ⟨b2, b3⟩
  -- the new state
  have hy : ∀ i j, i < R → j < F → y.val i j = rnnState F W.val (X.val i) n j := fun i j hi hj => by
    rw [a4]
    unfold Upto at hs
    split_ifs at hs with h0
    · subst h0
      rw [hs]
      simp [NpArr.slice, rnnState]
    · obtain ⟨⟨b, b1, b2, b3, b4⟩, -⟩ := hs
      obtain ⟨m, rfl⟩ := Nat.exists_eq_succ_of_ne_zero h0
      rw [b1]
      change Real.tanh (X.val i ((m + 1) * F + j) + ∑ k ∈ range F, b.val i k * W.val k j) = _
      rw [rnnState]
      congr 2
      exact Finset.sum_congr rfl fun k hk => by rw [b4 i k hi (mem_range.1 hk)]; rfl
  have hrow : y.rows = R := a2.trans hX.1
  obtain ⟨H', c1, c2, c3, c4⟩ := setSlice_ok (a := H) (b := y) (F := F) hn (by rw [hHY.1.2.1, Nat.mul_comm]) (by rw [hHY.1.1, hrow]) a3
  obtain ⟨Y', d1, d2, d3, d4⟩ := setSlice_ok (a := Y) (b := y) (F := F) hn (by rw [hHY.2.2.1, Nat.mul_comm]) (by rw [hHY.2.1, hrow]) a3
  refine ⟨(some y, H', Y'), ?_, ?_⟩
  · rw [frame]
    dsimp only
    rw [h1, h2, h3, a1, bind_ok', hX.2]
    change (H.setSlice _ _ y >>= _) = _
    rw [c1, bind_ok']
    change (Y.setSlice _ _ y >>= _) = _
    rw [d1, bind_ok']
  · rw [Upto, if_neg (Nat.succ_ne_zero n)]
    refine ⟨⟨y, rfl, hrow, a3, hy⟩, ⟨c2.trans hHY.1.1, c3.trans hHY.1.2.1, fun i m j hi hm hj => ?_⟩, d2.trans hHY.2.1, d3.trans hHY.2.2.1, fun i m j hi hm hj => ?_⟩
    · dsimp only
      rw [c4 i m j hj]
      split_ifs with h
      · rw [h]; exact hy i j hi hj
      · exact hHY.1.2.2 i m j hi (by omega) hj
    · dsimp only
      rw [d4 i m j hj]
      split_ifs with h
      · rw [h]; exact hy i j hi hj
      · exact hHY.2.2.2 i m j hi (by omega) hj

/-- The layer while it is used for training. -/
theorem forward_ok {l : PyRnn} {F R N : Nat} {W X : NpArr} {st : NpStore} (hF : 0 < F) (hl : l.inF = F ∧ l.hS = F ∧ l.outF = F) (hst : st[l.cw]? = some W)
    (hW : W.rows = F ∧ W.cols = F) (hX : X.rows = R ∧ X.cols / F = N) (hN : 0 < N) :
    ∃ H Y, (H.rows = R ∧ H.cols = F * N ∧ ∀ i m j, i < R → m < N → j < F → H.val i (m * F + j) = rnnState F W.val (X.val i) m j) ∧
      (Y.rows = R ∧ Y.cols = F * N ∧ ∀ i m j, i < R → m < N → j < F → Y.val i (m * F + j) = rnnState F W.val (X.val i) m j) ∧
      l.forward X st = .ok (Y, { l with cellDldw := W.map (fun _ => 0), x := if l.training then some X else l.x, h := some H, y := some Y }) := by
  have hl' : ∀ l' : PyRnn, l'.inF = F ∧ l'.hS = F ∧ l'.outF = F → ∃ s, forN N (l'.frame W X) (none, npZeros 0 0, npZeros 0 0) = .ok s ∧
      Upto F R X.cols N N (fun i => rnnState F W.val (X.val i)) s := fun l' hl' =>
    forN_inv (fun n s => Upto F R X.cols N n (fun i => rnnState F W.val (X.val i)) s) (by rw [Upto, if_pos rfl]) fun n hn s hs => frame_ok hF hl' hW hX hn hs
  obtain ⟨⟨o, H, Y⟩, e, hs⟩ := hl' { l with cellDldw := W.map (fun _ => 0), x := if l.training then some X else l.x } hl
  rw [Upto, if_neg (by omega)] at hs
  refine ⟨H, Y, hs.2.1, hs.2.2, ?_⟩
  rw [forward, PyLayer.load_some hst, bind_ok']
  have hif : (if l.training then { { l with cellDldw := W.map fun _ => 0 } with x := some X } else { l with cellDldw := W.map fun _ => 0 }) =
      { l with cellDldw := W.map (fun _ => 0), x := if l.training then some X else l.x } := by split_ifs <;> rfl
  dsimp only
  rw [hif]
  dsimp only
  have hd : X.cols / l.inF = N := by rw [hl.1]; exact hX.2
  rw [npCheck_ok (show 0 < l.inF by rw [hl.1]; exact hF), bind_ok', hd, e, bind_ok']
  dsimp only
  rw [if_neg (by omega)]

/-- One frame of back-propagation. -/
theorem frameBackward_ok {l : PyRnn} {F R N n : Nat} {W H G : NpArr} (hl : l.inF = F ∧ l.hS = F ∧ l.outF = F) (hW : W.rows = F ∧ W.cols = F) (hH : H.rows = R ∧ H.cols = F * N)
    (hG : G.rows = R ∧ G.cols = F * N) (hn : n < N) {s : Option NpArr × NpArr × NpArr} (h1 : ∀ a, s.1 = some a → a.rows = R ∧ a.cols = F)
    (h2 : s.2.1.rows = R ∧ N * F ≤ s.2.1.cols) (h3 : s.2.2.rows = F ∧ s.2.2.cols = F) :
    ∃ a b c, l.frameBackward W H G n s = .ok (some a, b, c) ∧ (a.rows = R ∧ a.cols = F) ∧ (b.rows = R ∧ b.cols = s.2.1.cols) ∧ (c.rows = F ∧ c.cols = F) ∧
      ∀ i m j, j < F → b.val i (m * F + j) = if m = n then 1 - ((G.val i (n * F + j) + s.1.elim 0 fun a => a.val i j) * 0.5) * ((G.val i (n * F + j) + s.1.elim 0 fun a => a.val i j) * 0.5)
        else s.2.1.val i (m * F + j) := by
  obtain ⟨e1, e2, e3⟩ := hl
  have hc : min ((n + 1) * F) G.cols - min (n * F) G.cols = F := slice_cols hn (by rw [hG.2, Nat.mul_comm])
  have hc' : min ((n + 1) * F) H.cols - min (n * F) H.cols = F := slice_cols hn (by rw [hH.2, Nat.mul_comm])
  let D := s.1.getD (npZeros (H.slice (n * F) ((n + 1) * F)).rows (H.slice (n * F) ((n + 1) * F)).cols)
  have hD : D.rows = R ∧ D.cols = F ∧ ∀ i j, D.val i j = s.1.elim 0 fun a => a.val i j := by
    dsimp only [D]
    cases h : s.1 with
    | none => exact ⟨hH.1, hc', fun _ _ => rfl⟩
    | some a => exact ⟨(h1 a h).1, (h1 a h).2, fun _ _ => rfl⟩
  let u : NpArr := ⟨R, F, fun i j => 1 - ((G.val i (n * F + j) + D.val i j) * 0.5) * ((G.val i (n * F + j) + D.val i j) * 0.5)⟩
  have hcell : ∃ a c, cellBackward W s.2.2 (G.slice (n * F) ((n + 1) * F)) D (H.slice (n * F) ((n + 1) * F)) = .ok (⟨G.rows, min ((n + 1) * F) G.cols - min (n * F) G.cols, u.val⟩, a, c) ∧
      (a.rows = R ∧ a.cols = F) ∧ (c.rows = F ∧ c.cols = F) := by
    let U : NpArr := ⟨G.rows, min ((n + 1) * F) G.cols - min (n * F) G.cols, u.val⟩
    let g : NpArr := ⟨U.cols, (H.slice (n * F) ((n + 1) * F)).cols, fun i j => ∑ k ∈ range U.rows, U.val k i * (H.slice (n * F) ((n + 1) * F)).val k j⟩
    have k1 : npZip (fun a b => (a + b) * 0.5) (G.slice (n * F) ((n + 1) * F)) D =
        .ok ⟨G.rows, min ((n + 1) * F) G.cols - min (n * F) G.cols, fun i j => (G.val i (n * F + j) + D.val i j) * 0.5⟩ := by
      rw [npZip, npCheck_ok ⟨hG.1.trans hD.1.symm, hc.trans hD.2.1.symm⟩, bind_ok']
      rfl
    have k2 : npDot U.transpose (H.slice (n * F) ((n + 1) * F)) = .ok g := by
      rw [npDot, npCheck_ok (show U.transpose.cols = (H.slice (n * F) ((n + 1) * F)).rows from hG.1.trans hH.1.symm), bind_ok']
      rfl
    have k3 : npZip (· + ·) s.2.2 g = .ok { s.2.2 with val := fun i j => s.2.2.val i j + g.val i j } := by
      rw [npZip, npCheck_ok ⟨h3.1.trans hc.symm, h3.2.trans hc'.symm⟩, bind_ok']
    have k4 : npDot U W.transpose = .ok ⟨U.rows, W.rows, fun i j => ∑ k ∈ range U.cols, U.val i k * W.val j k⟩ := by
      rw [npDot, npCheck_ok (show U.cols = W.transpose.rows from hc.trans hW.2.symm), bind_ok']
      rfl
    refine ⟨⟨U.rows, W.rows, fun i j => ∑ k ∈ range U.cols, U.val i k * W.val j k⟩, { s.2.2 with val := fun i j => s.2.2.val i j + g.val i j }, ?_, ⟨hG.1, hW.1⟩, h3⟩
    rw [cellBackward, k1, bind_ok']
    change (npDot U.transpose (H.slice (n * F) ((n + 1) * F)) >>= _) = _
    rw [k2, bind_ok', k3, bind_ok']
    change (npDot U W.transpose >>= _) = _
    rw [k4, bind_ok']
    rfl
  obtain ⟨a, c, g1, g2, g3⟩ := hcell
  obtain ⟨b, f1, f2, f3, f4⟩ := setSlice_ok (a := s.2.1) (b := ⟨G.rows, min ((n + 1) * F) G.cols - min (n * F) G.cols, u.val⟩) (F := F) hn h2.2 (hG.1.trans h2.1.symm) hc
  refine ⟨a, b, c, ?_, g2, ⟨f2.trans h2.1, f3⟩, g3, fun i m j hj => ?_⟩
  · rw [frameBackward, e1, e3]
    change (cellBackward W s.2.2 (G.slice (n * F) ((n + 1) * F)) D (H.slice (n * F) ((n + 1) * F)) >>= _) = _
    rw [g1, bind_ok']
    dsimp only
    rw [f1, bind_ok']
  · rw [f4 i m j hj]
    dsimp only [u]
    rw [hD.2.2]

/-- Back-propagation after a forward pass. -/
theorem backward_ok {l : PyRnn} {F R N : Nat} {W X H G : NpArr} {st : NpStore} (hF : 0 < F) (hl : l.inF = F ∧ l.hS = F ∧ l.outF = F) (hst : st[l.cw]? = some W)
    (hW : W.rows = F ∧ W.cols = F) (hx : l.x = some X) (hX : X.rows = R ∧ X.cols / F = N) (hN : 0 < N) (hh : l.h = some H) (hH : H.rows = R ∧ H.cols = F * N)
    (hG : G.rows = R ∧ G.cols = F * N) (hc : l.cellDldw.rows = F ∧ l.cellDldw.cols = F) :
    ∃ dx dw, l.backward G st = .ok (dx, { l with cellDldw := dw, dldw := dw.map (· / N), weight := some l.cw }) ∧ (dx.rows = R ∧ dx.cols = X.cols) ∧ (dw.rows = F ∧ dw.cols = F) ∧
      ∀ i j, j < F → dx.val i ((N - 1) * F + j) = 1 - (G.val i ((N - 1) * F + j) / 2) ^ 2 := by
  have hC : N * F ≤ X.cols := by
    rw [← hX.2, Nat.mul_comm]
    exact Nat.mul_div_le _ _
  obtain ⟨⟨a, dx, dw⟩, e, e1, e2, e3, e4⟩ := forN_inv (n := N) (f := fun k => l.frameBackward W H G (N - 1 - k)) (s := (none, npZeros X.rows X.cols, l.cellDldw))
    (fun n s => (if n = 0 then s.1 = none else ∃ a, s.1 = some a ∧ a.rows = R ∧ a.cols = F) ∧ (s.2.1.rows = R ∧ s.2.1.cols = X.cols) ∧ (s.2.2.rows = F ∧ s.2.2.cols = F) ∧
      (0 < n → ∀ i j, j < F → s.2.1.val i ((N - 1) * F + j) = 1 - (G.val i ((N - 1) * F + j) / 2) ^ 2))
    ⟨by rw [if_pos rfl], ⟨hX.1, rfl⟩, hc, fun h => absurd h (lt_irrefl 0)⟩ (by
      rintro k hk s ⟨h1, h2, h3, h4⟩
      obtain ⟨a, b, c, g1, g2, g3, g4, g5⟩ := frameBackward_ok (n := N - 1 - k) hl hW hH hG (by omega) (s := s) (by
        intro a ha
        split_ifs at h1 with h0
        · rw [h1] at ha; cases ha
        · obtain ⟨b, b1, b2⟩ := h1
          rw [b1] at ha
          obtain rfl := Option.some.inj ha
          exact b2) ⟨h2.1, by rw [h2.2]; exact hC⟩ h3
      refine ⟨_, g1, by rw [if_neg (Nat.succ_ne_zero k)]; exact ⟨a, rfl, g2⟩, ⟨g3.1, g3.2.trans h2.2⟩, g4, fun _ i j hj => ?_⟩
      dsimp only
      rw [g5 i (N - 1) j hj]
      rcases Nat.eq_zero_or_pos k with rfl | h0
      · rw [if_pos rfl] at h1
        rw [Nat.sub_zero, if_pos rfl, h1]
        simp only [Option.elim]
        ring
      · rw [if_neg (by omega)]
        exact h4 h0 i j hj)
  refine ⟨dx, dw, ?_, e2, e3, e4 hN⟩
  rw [backward, hx]
  change (st.load l.cw >>= _) = _
  rw [PyLayer.load_some hst, bind_ok', hl.1, hX.2, npCheck_ok ⟨hF, hN⟩, bind_ok', hh]
  change (forN N _ _ >>= _) = _
  rw [e, bind_ok']

/-- A call of an optimizer that returns a new array. -/
theorem optimize_new {o : PyOpt} {h : NpStore} {r F : Nat} {W D : NpArr} (hr : h[r]? = some W) (hW : W.rows = F ∧ W.cols = F) (hD : D.rows = F ∧ D.cols = F)
    (hf : o.Fits F F) (hk : o.kind.inPlace = false) :
    ∃ o' W', o.optimize r D h = .ok (o', h.length, h ++ [W']) ∧ o'.Fits F F ∧ o'.kind = o.kind := by
  obtain ⟨wr, wc, w⟩ := W
  obtain ⟨dr, dc, d⟩ := D
  obtain ⟨g1, g2⟩ := hW
  obtain ⟨g3, g4⟩ := hD
  dsimp only at g1 g2 g3 g4
  subst g1 g3
  obtain rfl := g2.symm
  obtain rfl := g4.symm
  obtain ⟨v, m, vh, a1, a2, a3, a4, a5⟩ := PyOpt.start_fits hf w d
  obtain ⟨o', w', b1, b2, b3⟩ := PyOpt.update_fits a1 a3 a4 a5 w d
  refine ⟨o', ⟨dr, dr, w'⟩, ?_, b3, b2.trans a2⟩
  simp only [PyOpt.optimize, NpStore.load, hr, bind_ok', b1]
  rw [if_neg (by rw [b2, a2, hk]; decide)]

/-- A call of an optimizer that writes to the array it is given. -/
theorem optimize_write {o : PyOpt} {h : NpStore} {r F : Nat} {W D : NpArr} (hr : h[r]? = some W) (hW : W.rows = F ∧ W.cols = F) (hD : D.rows = F ∧ D.cols = F)
    (hf : o.Fits F F) (hk : o.kind.inPlace = true) :
    ∃ o' W', (o.start W D).update W D = .ok (o', W') ∧ o.optimize r D h = .ok (o', r, h.set r W') ∧ (W'.rows = F ∧ W'.cols = F) ∧ o'.Fits F F ∧ o'.kind = o.kind := by
  obtain ⟨wr, wc, w⟩ := W
  obtain ⟨dr, dc, d⟩ := D
  obtain ⟨g1, g2⟩ := hW
  obtain ⟨g3, g4⟩ := hD
  dsimp only at g1 g2 g3 g4
  subst g1 g3
  obtain rfl := g2.symm
  obtain rfl := g4.symm
  obtain ⟨v, m, vh, a1, a2, a3, a4, a5⟩ := PyOpt.start_fits hf w d
  obtain ⟨o', w', b1, b2, b3⟩ := PyOpt.update_fits a1 a3 a4 a5 w d
  refine ⟨o', ⟨dr, dr, w'⟩, b1, ?_, ⟨rfl, rfl⟩, b3, b2.trans a2⟩
  simp only [PyOpt.optimize, NpStore.load, hr, bind_ok', b1]
  rw [if_pos (by rw [b2, a2, hk])]

/-- One round up to the optimizer. -/
theorem round_ok {l : PyRnn} {F : Nat} {W X : NpArr} {G : NpArr → NpArr} {st : NpStore} (hF : 0 < F) (hl : l.inF = F ∧ l.hS = F ∧ l.outF = F) (ht : l.training = true)
    (hst : st[l.cw]? = some W) (hW : W.rows = F ∧ W.cols = F) (hX : F ≤ X.cols)
    (hG : ∀ y, y.rows = X.rows → y.cols = F * (X.cols / F) → (G y).rows = X.rows ∧ (G y).cols = F * (X.cols / F)) :
    ∃ y l1 dx l2, l.forward X st = .ok (y, l1) ∧ l1.backward (G y) st = .ok (dx, l2) ∧ (l2.inF = F ∧ l2.hS = F ∧ l2.outF = F) ∧ l2.training = true ∧ l2.cw = l.cw ∧
      l2.weight = some l.cw ∧ l2.opt = l.opt ∧ (l2.dldw.rows = F ∧ l2.dldw.cols = F) ∧
      (dx.rows = X.rows ∧ dx.cols = X.cols) ∧
      ∀ i j, j < F → dx.val i ((X.cols / F - 1) * F + j) = 1 - ((G y).val i ((X.cols / F - 1) * F + j) / 2) ^ 2 := by
  have hN : 0 < X.cols / F := Nat.div_pos hX hF
  obtain ⟨H, Y, a1, a2, a3⟩ := forward_ok hF hl hst hW ⟨rfl, rfl⟩ hN
  obtain ⟨dx, dw, b1, b2, b3, b4⟩ := backward_ok (l := { l with cellDldw := W.map (fun _ => 0), x := if l.training then some X else l.x, h := some H, y := some Y }) (G := G Y) hF hl hst hW
    (X := X) (by dsimp only; rw [if_pos ht]) ⟨rfl, rfl⟩ hN (H := H) rfl ⟨a1.1, a1.2.1⟩ (hG Y a2.1 a2.2.1) hW
  exact ⟨Y, _, dx, _, a3, b1, hl, ht, rfl, rfl, rfl, b3, b2, b4⟩

end PyRnn
end BeeDNN
