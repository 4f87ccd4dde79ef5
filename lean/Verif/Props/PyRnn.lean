import Verif.Lemmas.PyRnn
import Mathlib.Tactic.NormNum

/-! # C141: the recurrent layer of the Python library -/

namespace BeeDNN
open Finset

/-- **C141**: forward computes `h_n = tanh(x_n + h_{n-1} W)` for each sample and frame, if the three sizes are the same; columns that do not fill a frame are left out.
Not so the gradients (see `C141_gradient`) nor training (see `C141_never_learns`). -/
theorem C141_forward_partial {l : PyRnn} {F : Nat} {W X : NpArr} {st : NpStore} (hF : 0 < F) (hl : l.inF = F ∧ l.hS = F ∧ l.outF = F) (hst : st[l.cw]? = some W)
    (hW : W.rows = F ∧ W.cols = F) (hX : F ≤ X.cols) :
    ∃ Y l', l.forward X st = .ok (Y, l') ∧ Y.rows = X.rows ∧ Y.cols = F * (X.cols / F) ∧
      ∀ i n j, i < X.rows → n < X.cols / F → j < F → Y.val i (n * F + j) = rnnState F W.val (X.val i) n j := by
  obtain ⟨H, Y, -, a, b⟩ := PyRnn.forward_ok hF hl hst hW ⟨rfl, rfl⟩ (Nat.div_pos hX hF)
  exact ⟨Y, _, b, a⟩

/-- Two frames of one number, with weight 1. -/
example : ∃ Y l', (⟨1, 1, 1, false, 0, npZeros 0 0, none, npZeros 0 0, none, none, none, PyOpt.new .sgd⟩ : PyRnn).forward ⟨1, 2, fun _ j => j + 1⟩ [⟨1, 1, fun _ _ => 1⟩] = .ok (Y, l') ∧
    Y.val 0 1 = Real.tanh (2 + Real.tanh 1) := by
  obtain ⟨Y, l', h1, -, -, h2⟩ := C141_forward_partial (l := ⟨1, 1, 1, false, 0, npZeros 0 0, none, npZeros 0 0, none, none, none, PyOpt.new .sgd⟩) (F := 1)
    (X := ⟨1, 2, fun _ j => j + 1⟩) (st := [⟨1, 1, fun _ _ => 1⟩]) Nat.one_pos ⟨rfl, rfl, rfl⟩ rfl ⟨rfl, rfl⟩ (by decide)
  refine ⟨Y, l', h1, ?_⟩
  have := h2 0 1 0 (by decide) (by decide) (by decide)
  norm_num [rnnState] at this
  exact this

/-- **C141**: an output frame depends on this frame and those before it, of the same sample, and on nothing else: two batches of any sizes, with a sample that begins with the same
frames, give the same output frames for it. -/
theorem C141_causal {l : PyRnn} {F : Nat} {W X X' : NpArr} {st : NpStore} (hF : 0 < F) (hl : l.inF = F ∧ l.hS = F ∧ l.outF = F) (hst : st[l.cw]? = some W)
    (hW : W.rows = F ∧ W.cols = F) (hX : F ≤ X.cols) (hX' : F ≤ X'.cols) {i i' n : Nat} (hi : i < X.rows) (hi' : i' < X'.rows) (hn : n < X.cols / F) (hn' : n < X'.cols / F)
    (he : ∀ k, k < (n + 1) * F → X.val i k = X'.val i' k) :
    ∃ Y l1 Y' l2, l.forward X st = .ok (Y, l1) ∧ l.forward X' st = .ok (Y', l2) ∧ ∀ j, j < F → Y.val i (n * F + j) = Y'.val i' (n * F + j) := by
  obtain ⟨Y, l1, a1, -, -, a2⟩ := C141_forward_partial hF hl hst hW hX
  obtain ⟨Y', l2, b1, -, -, b2⟩ := C141_forward_partial hF hl hst hW hX'
  exact ⟨Y, l1, Y', l2, a1, b1, fun j hj => by rw [a2 i n j hi hn hj, b2 i' n j hi' hn' hj]; exact rnnState_causal _ he j hj⟩

/-- A sample of two frames, alone with one frame. -/
example := C141_causal (l := ⟨2, 2, 2, false, 0, npZeros 0 0, none, npZeros 0 0, none, none, none, PyOpt.new .sgd⟩) (W := ⟨2, 2, fun i j => i + j⟩) (F := 2)
  (X := ⟨3, 4, fun i j => i + j⟩) (X' := ⟨1, 2, fun _ j => 1 + j⟩) (st := [⟨2, 2, fun i j => i + j⟩]) (i := 1) (i' := 0) (n := 0)
  (by decide) ⟨rfl, rfl, rfl⟩ rfl ⟨rfl, rfl⟩ (by decide) (by decide) (by decide) (by decide) (by decide) (by decide) (fun k _ => by simp)

/-- **C141**: with other sizes, forward raises an exception. -/
theorem C141_sizes {l : PyRnn} {W X : NpArr} {st : NpStore} (hst : st[l.cw]? = some W) (hW : W.rows = l.inF ∧ W.cols = l.outF) (hF : 0 < l.inF) (hX : l.inF ≤ X.cols)
    (hs : ¬(l.hS = l.inF ∧ l.outF = l.inF)) : l.forward X st = .error .exception := by
  have hN : 0 < X.cols / l.inF := Nat.div_pos hX hF
  have hf : ∀ l' : PyRnn, l'.inF = l.inF → l'.hS = l.hS → l'.frame W X 0 (none, npZeros 0 0, npZeros 0 0) = .error .exception := by
    intro l' h1 h2
    rw [PyRnn.frame]
    dsimp only
    suffices h : PyRnn.cellForward l'.hS W (X.slice (0 * l'.inF) ((0 + 1) * l'.inF)) none = .error .exception by
      rw [h]
      rfl
    change (npDot (npZeros X.rows l'.hS) W >>= _) = _
    by_cases h3 : l.hS = l.inF
    · rw [npDot, npCheck_ok (show (npZeros X.rows l'.hS).cols = W.rows from h2.trans (h3.trans hW.1.symm)), bind_ok', bind_ok', npZip, npCheck, if_neg]
      · rfl
      · rintro ⟨-, h4⟩
        refine hs ⟨h3, ?_⟩
        change min ((0 + 1) * l'.inF) X.cols - min (0 * l'.inF) X.cols = W.cols at h4
        rw [h1, hW.2] at h4
        omega
    · rw [npDot, npCheck, if_neg (show ¬ (npZeros X.rows l'.hS).cols = W.rows from fun h => h3 (h2.symm.trans (h.trans hW.1)))]
      rfl
  rw [PyRnn.forward, PyLayer.load_some hst, bind_ok']
  dsimp only
  have hl : ∀ l' : PyRnn, l'.inF = l.inF → l'.hS = l.hS → (do
      npCheck (0 < l'.inF)
      let (_, H, Y) ← forN (X.cols / l'.inF) (l'.frame W X) (none, npZeros 0 0, npZeros 0 0)
      if X.cols / l'.inF = 0 then do
        let y ← pyAttr l'.y
        .ok (y, l')
      else .ok (Y, { l' with h := some H, y := some Y })) = (.error .exception : Out (NpArr × PyRnn)) := by
    intro l' h1 h2
    rw [npCheck_ok (show 0 < l'.inF by rw [h1]; exact hF), bind_ok', forN_first_error (hf l' h1 h2) _ (by rw [h1]; exact hN)]
    rfl
  exact hl _ (by split_ifs <;> rfl) (by split_ifs <;> rfl)

/-- Frames of 2 numbers and 3 outputs. -/
example := C141_sizes (l := ⟨2, 2, 3, false, 0, npZeros 0 0, none, npZeros 0 0, none, none, none, PyOpt.new .sgd⟩) (W := npZeros 2 3) (X := npZeros 5 4) (st := [npZeros 2 3])
  rfl ⟨rfl, rfl⟩ (by decide) (by decide) (by decide)

/-- **C141**: back-propagation does not give the gradient: in the last frame it returns `1 - (g/2)²` for the gradient `g` of the output, whatever the input and the weights.
For a loss that does not depend on the output at all (`g = 0`) this is 1, and the sign of `g` makes no difference. -/
theorem C141_gradient {l : PyRnn} {F : Nat} {W X : NpArr} {st : NpStore} (hF : 0 < F) (hl : l.inF = F ∧ l.hS = F ∧ l.outF = F) (ht : l.training = true)
    (hst : st[l.cw]? = some W) (hW : W.rows = F ∧ W.cols = F) (hX : F ≤ X.cols) (g : Nat → Nat → ℝ) :
    ∃ y l1 dx l2, l.forward X st = .ok (y, l1) ∧ l1.backward ⟨X.rows, F * (X.cols / F), g⟩ st = .ok (dx, l2) ∧ dx.rows = X.rows ∧ dx.cols = X.cols ∧
      ∀ i j, j < F → dx.val i ((X.cols / F - 1) * F + j) = 1 - (g i ((X.cols / F - 1) * F + j) / 2) ^ 2 := by
  obtain ⟨y, l1, dx, l2, a1, a2, -, -, -, -, -, -, a3, a4⟩ := PyRnn.round_ok (G := fun _ => ⟨X.rows, F * (X.cols / F), g⟩) hF hl ht hst hW hX fun _ _ _ => ⟨rfl, rfl⟩
  exact ⟨y, l1, dx, l2, a1, a2, a3.1, a3.2, a4⟩

/-- A constant loss, whose gradient is 0: back-propagation returns 1. -/
example : ∃ y l1 dx l2, (⟨1, 1, 1, true, 0, npZeros 0 0, none, npZeros 0 0, none, none, none, PyOpt.new .sgd⟩ : PyRnn).forward ⟨1, 2, fun _ j => j + 1⟩ [⟨1, 1, fun _ _ => 1⟩] = .ok (y, l1) ∧
    l1.backward ⟨1, 2, fun _ _ => 0⟩ [⟨1, 1, fun _ _ => 1⟩] = .ok (dx, l2) ∧ dx.val 0 1 = 1 := by
  obtain ⟨y, l1, dx, l2, h1, h2, -, -, h3⟩ := C141_gradient (l := ⟨1, 1, 1, true, 0, npZeros 0 0, none, npZeros 0 0, none, none, none, PyOpt.new .sgd⟩) (F := 1)
    (X := ⟨1, 2, fun _ j => j + 1⟩) (st := [⟨1, 1, fun _ _ => 1⟩]) Nat.one_pos ⟨rfl, rfl, rfl⟩ rfl rfl ⟨rfl, rfl⟩ (by decide) fun _ _ => 0
  refine ⟨y, l1, dx, l2, h1, h2, ?_⟩
  have := h3 0 0 (by decide)
  norm_num at this
  exact this

/-- **C141**: with Step, SGD, Momentum, MomentumNg or RPROP-, any number of rounds of training leaves the weights of the recurrent layer as they were: the optimizer returns a
new array, which the layer keeps as its own `weight`, but the cell goes on with its old one. -/
theorem C141_never_learns {l : PyRnn} {F : Nat} {W : NpArr} {st : NpStore} (hF : 0 < F) (hl : l.inF = F ∧ l.hS = F ∧ l.outF = F) (ht : l.training = true)
    (hst : st[l.cw]? = some W) (hW : W.rows = F ∧ W.cols = F) (ho : l.opt.init = false) (hk : l.opt.kind ∈ [.step, .sgd, .momentum, .momentumNg, .rpropm])
    {X : Nat → NpArr} {G : Nat → NpArr → NpArr} (hX : ∀ t, F ≤ (X t).cols)
    (hG : ∀ t y, y.rows = (X t).rows → y.cols = F * ((X t).cols / F) → (G t y).rows = (X t).rows ∧ (G t y).cols = F * ((X t).cols / F)) (n : Nat) :
    ∃ l' st', l.train X G n st = .ok (l', st') ∧ st'[l'.cw]? = some W ∧
      ∀ Z : NpArr, F ≤ Z.cols → ∃ Y l1 Y' l2, l.forward Z st = .ok (Y, l1) ∧ l'.forward Z st' = .ok (Y', l2) ∧ Y'.rows = Y.rows ∧ Y'.cols = Y.cols ∧
        ∀ i m j, i < Z.rows → m < Z.cols / F → j < F → Y'.val i (m * F + j) = Y.val i (m * F + j) := by
  have hp : l.opt.kind.inPlace = false := by
    revert hk
    cases l.opt.kind <;> simp [PyOptKind.inPlace]
  obtain ⟨⟨l', st'⟩, e, h1, h2, h3, h4, h5, h6⟩ := forN_inv (n := n) (f := fun t (s : PyRnn × NpStore) => do
      let (y, l) ← s.1.forward (X t) s.2
      let (_, l) ← l.backward (G t y) s.2
      l.optimize s.2) (s := (l, st))
    (fun _ s => (s.1.inF = F ∧ s.1.hS = F ∧ s.1.outF = F) ∧ s.1.training = true ∧ s.1.cw = l.cw ∧ s.2[l.cw]? = some W ∧ s.1.opt.Fits F F ∧ s.1.opt.kind = l.opt.kind)
    ⟨hl, ht, rfl, hst, (fun h => by rw [ho] at h; cases h), rfl⟩ (by
      rintro t - ⟨l0, st0⟩ ⟨g1, g2, g3, g4, g5, g6⟩
      dsimp only at g1 g2 g3 g4 g5 g6
      obtain ⟨y, l1, dx, l2, a1, a2, a3, a4, a5, a6, a7, a8, -⟩ := PyRnn.round_ok (l := l0) (X := X t) (G := G t) hF g1 g2 (by rw [g3]; exact g4) hW (hX t) (hG t)
      obtain ⟨o', W', b1, b2, b3⟩ := PyRnn.optimize_new (o := l2.opt) (D := l2.dldw) (r := l0.cw) (by rw [g3]; exact g4) hW a8 (by rw [a7]; exact g5) (by rw [a7, g6]; exact hp)
      refine ⟨({ l2 with opt := o', weight := some st0.length }, st0 ++ [W']), ?_, a3, a4, a5.trans g3, ?_, b2, b3.trans (by rw [a7, g6])⟩
      · dsimp only
        rw [a1, bind_ok']
        dsimp only
        rw [a2, bind_ok', PyRnn.optimize, a6]
        change (l2.opt.optimize l0.cw l2.dldw st0 >>= _) = _
        rw [b1, bind_ok']
      · dsimp only
        rw [List.getElem?_append_left (List.getElem?_eq_some_iff.mp g4).1]
        exact g4)
  dsimp only at h1 h2 h3 h4
  refine ⟨l', st', e, by rw [h3]; exact h4, fun Z hZ => ?_⟩
  obtain ⟨Y, l1, c1, c2, c3, c4⟩ := C141_forward_partial hF hl hst hW hZ
  obtain ⟨Y', l2, d1, d2, d3, d4⟩ := C141_forward_partial hF h1 (by rw [h3]; exact h4) hW hZ
  exact ⟨Y, l1, Y', l2, c1, d1, d2.trans c2.symm, d3.trans c3.symm, fun i m j hi hm hj => by rw [c4 i m j hi hm hj, d4 i m j hi hm hj]⟩

/-- Training with SGD towards the output 0. -/
example (n : Nat) := C141_never_learns (l := ⟨1, 1, 1, true, 0, npZeros 0 0, none, npZeros 0 0, none, none, none, PyOpt.new .sgd⟩) (F := 1) (st := [⟨1, 1, fun _ _ => 1⟩])
  Nat.one_pos ⟨rfl, rfl, rfl⟩ rfl rfl ⟨rfl, rfl⟩ rfl (by simp [PyOpt.new]) (X := fun t => ⟨1, 2, fun _ j => j + t⟩) (G := fun _ y => y) (fun _ => Nat.le_succ 1) (fun _ _ h1 h2 => ⟨h1, h2⟩) n

/-- **C141**: Nesterov, Adam, AdamW, Adamax, Nadam and AMSGrad write to the array of the cell, so that it gets the weights of their rule. -/
theorem C141_writes {l : PyRnn} {F : Nat} {W X : NpArr} {st : NpStore} (hF : 0 < F) (hl : l.inF = F ∧ l.hS = F ∧ l.outF = F) (ht : l.training = true)
    (hst : st[l.cw]? = some W) (hW : W.rows = F ∧ W.cols = F) (ho : l.opt.init = false) (hk : l.opt.kind ∈ [.nesterov, .adam, .adamW, .adamax, .nadam, .amsgrad])
    {G : NpArr → NpArr} (hX : F ≤ X.cols) (hG : ∀ y, y.rows = X.rows → y.cols = F * (X.cols / F) → (G y).rows = X.rows ∧ (G y).cols = F * (X.cols / F)) :
    ∃ l' st' o' W', l.train (fun _ => X) (fun _ => G) 1 st = .ok (l', st') ∧ (l.opt.start W l'.dldw).update W l'.dldw = .ok (o', W') ∧ st'[l'.cw]? = some W' := by
  have hp : l.opt.kind.inPlace = true := by
    revert hk
    cases l.opt.kind <;> simp [PyOptKind.inPlace]
  obtain ⟨y, l1, dx, l2, a1, a2, a3, a4, a5, a6, a7, a8, -⟩ := PyRnn.round_ok (l := l) (X := X) (G := G) hF hl ht hst hW hX hG
  obtain ⟨o', W', b0, b1, b2, b3⟩ := PyRnn.optimize_write (o := l2.opt) (D := l2.dldw) (r := l.cw) hst hW a8 (by rw [a7]; exact fun h => by rw [ho] at h; cases h) (by rw [a7]; exact hp)
  refine ⟨{ l2 with opt := o', weight := some l.cw }, st.set l.cw W', o', W', ?_, by rw [← a7]; exact b0, ?_⟩
  · rw [PyRnn.train, forN_succ, forN_zero]
    change (l.forward X st >>= _) = _
    rw [a1, bind_ok']
    dsimp only
    rw [a2, bind_ok', PyRnn.optimize, a6]
    change (l2.opt.optimize l.cw l2.dldw st >>= _) = _
    rw [b1, bind_ok']
  · dsimp only
    rw [a5, List.getElem?_set_self (List.getElem?_eq_some_iff.mp hst).1]

/-- A round with Adam. -/
example := C141_writes (l := ⟨1, 1, 1, true, 0, npZeros 0 0, none, npZeros 0 0, none, none, none, PyOpt.new .adam⟩) (F := 1) (st := [⟨1, 1, fun _ _ => 1⟩])
  Nat.one_pos ⟨rfl, rfl, rfl⟩ rfl rfl ⟨rfl, rfl⟩ rfl (by simp [PyOpt.new]) (X := ⟨1, 2, fun _ j => j⟩) (G := fun y => y) (by decide) (fun _ h1 h2 => ⟨h1, h2⟩)

end BeeDNN
