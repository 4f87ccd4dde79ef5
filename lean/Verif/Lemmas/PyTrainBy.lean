import Verif.Spec.PyTrainBy
import Verif.Lemmas.PyTrain
import Verif.Lemmas.PyFit
import Verif.Lemmas.PyOptimizer

/-! # Lemmas: training with the Python library and any optimizer -/

namespace BeeDNN
open Finset

/-! ## One call of an optimizer -/

/-- The memory of the optimizer has the shape of the parameter. -/
def PyOpt.Fits (o : PyOpt) (R C : Nat) : Prop :=
  o.init = true → (o.v.rows = R ∧ o.v.cols = C) ∧ (o.m.rows = R ∧ o.m.cols = C) ∧ o.vHat.rows = R ∧ o.vHat.cols = C

theorem PyOpt.start_fits {o : PyOpt} {R C : Nat} (h : o.Fits R C) (w d : Nat → Nat → ℝ) :
    ∃ v m vh, (o.start ⟨R, C, w⟩ ⟨R, C, d⟩).init = true ∧ (o.start ⟨R, C, w⟩ ⟨R, C, d⟩).kind = o.kind ∧ (o.start ⟨R, C, w⟩ ⟨R, C, d⟩).v = ⟨R, C, v⟩ ∧
      (o.start ⟨R, C, w⟩ ⟨R, C, d⟩).m = ⟨R, C, m⟩ ∧ (o.start ⟨R, C, w⟩ ⟨R, C, d⟩).vHat = ⟨R, C, vh⟩ := by
  obtain ⟨k, i, lr, mo, b1, b2, e, la, q1, q2, v, m, vh⟩ := o
  cases i
  · cases k <;> exact ⟨_, _, _, rfl, rfl, rfl, rfl, rfl⟩
  · obtain ⟨⟨h1, h2⟩, ⟨h3, h4⟩, h5, h6⟩ := h rfl
    obtain ⟨vr, vc, vf⟩ := v
    obtain ⟨mr, mc, mf⟩ := m
    obtain ⟨hr, hc, hf⟩ := vh
    dsimp only at h1 h2 h3 h4 h5 h6
    subst h1 h2 h3 h4 h5 h6
    exact ⟨_, _, _, rfl, rfl, rfl, rfl, rfl⟩

theorem PyOpt.update_fits {o : PyOpt} {R C : Nat} (hi : o.init = true) {v m vh : Nat → Nat → ℝ} (hv : o.v = ⟨R, C, v⟩) (hm : o.m = ⟨R, C, m⟩) (hh : o.vHat = ⟨R, C, vh⟩)
    (w d : Nat → Nat → ℝ) : ∃ o' w', o.update ⟨R, C, w⟩ ⟨R, C, d⟩ = .ok (o', ⟨R, C, w'⟩) ∧ o'.kind = o.kind ∧ o'.Fits R C := by
  obtain ⟨k, i, lr, mo, b1, b2, e, la, q1, q2, v, m, vh⟩ := o
  dsimp only at hi hv hm hh
  subst hi hv hm hh
  cases k <;> simp only [PyOpt.update, npZip_mk, bind_ok', NpArr.map, PyOpt.firstMoment, PyOpt.secondMoment] <;>
    exact ⟨_, _, rfl, rfl, fun _ => ⟨⟨rfl, rfl⟩, ⟨rfl, rfl⟩, rfl, rfl⟩⟩

/-- One call: what happens to the values and to the arrays. -/
theorem PyOpt.optimize_ok {o : PyOpt} {h : NpStore} {r R C : Nat} {W D : NpArr} (hr : h[r]? = some W) (hW : W.rows = R ∧ W.cols = C) (hD : D.rows = R ∧ D.cols = C)
    (hf : o.Fits R C) : ∃ o' W' r' h', (o.start W D).update W D = .ok (o', W') ∧ (W'.rows = R ∧ W'.cols = C) ∧ o'.Fits R C ∧ o.optimize r D h = .ok (o', r', h') ∧
      h'[r']? = some W' ∧ h.length ≤ h'.length ∧ (r' = r ∨ h.length ≤ r') ∧ ∀ q, q < h.length → q ≠ r → h'[q]? = h[q]? := by
  obtain ⟨wr, wc, w⟩ := W
  obtain ⟨dr, dc, d⟩ := D
  obtain ⟨g1, g2⟩ := hW
  obtain ⟨g3, g4⟩ := hD
  dsimp only at g1 g2 g3 g4
  subst g1 g2
  obtain rfl := g3.symm
  obtain rfl := g4.symm
  obtain ⟨v, m, vh, a1, a2, a3, a4, a5⟩ := PyOpt.start_fits hf w d
  obtain ⟨o', w', b1, b2, b3⟩ := PyOpt.update_fits a1 a3 a4 a5 w d
  have hl : r < h.length := (List.getElem?_eq_some_iff.mp hr).1
  have e : o.optimize r ⟨wr, wc, d⟩ h = if o'.kind.inPlace then .ok (o', r, h.set r ⟨wr, wc, w'⟩) else .ok (o', h.length, h ++ [⟨wr, wc, w'⟩]) := by
    simp only [PyOpt.optimize, NpStore.load, hr, bind_ok', b1]
  by_cases hi : o'.kind.inPlace = true
  · rw [if_pos hi] at e
    exact ⟨o', ⟨wr, wc, w'⟩, r, _, b1, ⟨rfl, rfl⟩, b3, e, List.getElem?_set_self hl, by simp, .inl rfl, fun q _ hq => List.getElem?_set_ne (Ne.symm hq)⟩
  · rw [if_neg hi] at e
    exact ⟨o', ⟨wr, wc, w'⟩, _, _, b1, ⟨rfl, rfl⟩, b3, e, by simp, by simp, .inr le_rfl, fun q hq _ => List.getElem?_append_left hq⟩

/-- A chain of calls follows the rule of a cell. -/
theorem PyOpt.chain {o : PyOpt} (h0 : o.init = false) {os : Nat → PyOpt} {W D : Nat → NpArr} {R C : Nat} (ho : os 0 = o) (hW : (W 0).rows = R ∧ (W 0).cols = C)
    (hD : ∀ t, (D t).rows = R ∧ (D t).cols = C) (hu : ∀ t, ((os t).start (W t) (D t)).update (W t) (D t) = .ok (os (t + 1), W (t + 1))) (t : Nat) :
    W t = ⟨R, C, fun i j => (o.cells ((W 0).val i j) (fun u => (D u).val i j) t).w⟩ := by
  have hd : ∀ t, D t = ⟨R, C, (D t).val⟩ := fun t => by
    obtain ⟨a, b⟩ := hD t
    rw [← a, ← b]
  have key : ∀ t, W t = ⟨R, C, fun i j => (o.cells ((W 0).val i j) (fun u => (D u).val i j) t).w⟩ ∧
      (os t).start (W t) (D t) = o.at R C (fun n i j => o.cells ((W 0).val i j) (fun u => (D u).val i j) n) t := by
    intro t
    induction t with
    | zero =>
      have e : W 0 = ⟨R, C, fun i j => (o.cells ((W 0).val i j) (fun u => (D u).val i j) 0).w⟩ := by
        simp only [PyOpt.cells, pyFresh_w]
        obtain ⟨a, b⟩ := hW
        rw [← a, ← b]
      refine ⟨e, ?_⟩
      have := PyOpt.start_fresh h0 R C (W 0).val (fun t => (D t).val)
      rw [← hd 0, show (⟨R, C, (W 0).val⟩ : NpArr) = W 0 by obtain ⟨a, b⟩ := hW; rw [← a, ← b]] at this
      rw [ho]
      exact this
    | succ t ih =>
      have h1 := hu t
      rw [ih.2, ih.1, hd t, PyOpt.update_at o R C (fun n i j => o.cells ((W 0).val i j) (fun u => (D u).val i j) n) t (D t).val (fun i j => rfl)] at h1
      have h2 := Prod.ext_iff.mp (Except.ok.inj h1)
      refine ⟨h2.2.symm, ?_⟩
      have h4 := h2.1
      dsimp only at h4
      rw [← h4]
      simp [PyOpt.start, PyOpt.at]
  exact (key t).1

/-- The rule of an optimizer is determined by its runs. -/
theorem PyOpt.Gives.eq {o : PyOpt} (h0 : o.init = false) {W : Nat → ℝ → (Nat → ℝ) → ℝ} (h : o.Gives W) (n : Nat) (w : ℝ) (d : Nat → ℝ) : W n w d = (o.cells w d n).w := by
  obtain ⟨o1, r1, h1, a1, a2, -⟩ := h 1 1 (fun _ _ => w) (fun t _ _ => d t) n 0 [⟨1, 1, fun _ _ => w⟩] rfl
  obtain ⟨o2, r2, h2, b1, b2, -⟩ := PyOpt.gives_cells h0 1 1 (fun _ _ => w) (fun t _ _ => d t) n 0 [⟨1, 1, fun _ _ => w⟩] rfl
  have e := Except.ok.inj (a1.symm.trans b1)
  simp only [Prod.mk.injEq] at e
  obtain ⟨-, rfl, rfl⟩ := e
  have e := Option.some.inj (a2.symm.trans b2)
  simp only [NpArr.mk.injEq, true_and] at e
  exact congrFun (congrFun e 0) 0

/-! ## The layers -/

/-- One call of `optimize`, by its values. -/
def PyOpt.Calls (q : PyOpt) (W D : NpArr) (q' : PyOpt) (W' : NpArr) : Prop := (q.start W D).update W D = .ok (q', W')

namespace PyLayer

/-- What a step does to the layer and its arrays. -/
structure MovedBy (l : PyLayer) (h h' : NpStore) (l' : PyLayer) : Prop where
  kind : l'.kind = l.kind
  training : l'.training = l.training
  learns : l.Learns → l'.Learns
  length : h.length ≤ h'.length
  old : ∀ q, q < h.length → q ∉ l.params → h'[q]? = h[q]?
  place : ∀ q ∈ l'.params, q ∈ l.params ∨ h.length ≤ q
  nodup : l'.params.Nodup

/-- The step of the biases or weights of a layer. -/
def SteppedBy (l : PyLayer) (o : Bool → PyOpt) (h : NpStore) (b : Bool) (R C : Nat) (l' : PyLayer) (o' : Bool → PyOpt) (h' : NpStore) (P : Nat → Nat → ℝ) : Prop :=
  ∃ W W' : NpArr, h[l.param b]? = some W ∧ (o b).Calls W (l.grad b) (o' b) W' ∧ h'[l'.param b]? = some W' ∧ (W'.rows = R ∧ W'.cols = C) ∧ (o' b).Fits R C ∧ W'.val = P

theorem stepBy_ok {l : PyLayer} {o : Bool → PyOpt} {h : NpStore} {b : Bool} {R C : Nat} {f : Nat → Nat → ℝ} (hp : h.Has (l.param b) R C f)
    (hg : (l.grad b).rows = R ∧ (l.grad b).cols = C) (hf : (o b).Fits R C) :
    ∃ q' W W' r' h', l.stepBy b o h = .ok (if b then { l with bias := r' } else { l with weight := r' }, Function.update o b q', h') ∧ h[l.param b]? = some W ∧
      (o b).Calls W (l.grad b) q' W' ∧ (W'.rows = R ∧ W'.cols = C) ∧ q'.Fits R C ∧ h'[r']? = some W' ∧ h.length ≤ h'.length ∧ (r' = l.param b ∨ h.length ≤ r') ∧
      (∀ q, q < h.length → q ≠ l.param b → h'[q]? = h[q]?) ∧ h'.Has r' R C W'.val := by
  obtain ⟨W, hW1, hW2⟩ := hp
  obtain ⟨q', W', r', h', a1, a2, a3, a4, a5, a6, a7, a8⟩ := PyOpt.optimize_ok (o := o b) hW1 ⟨hW2.1, hW2.2.1⟩ hg hf
  exact ⟨q', W, W', r', h', by simp only [stepBy, a4, bind_ok'], hW1, a1, a2, a3, a5, a6, a7, a8, W', a5, a2.1, a2.2, fun _ _ _ _ => rfl⟩

theorem optimizeBy_ok {h : NpStore} {l : PyLayer} {p : Ply} {C C' : Nat} (hs : l.Shows h p C C') (hl : l.Learns) (hn : l.params.Nodup) {o : Bool → PyOpt}
    (hg : ∀ b, p.has b = true → (l.grad b).rows = (p.kind.shape b C C').1 ∧ (l.grad b).cols = (p.kind.shape b C C').2)
    (ho : ∀ b, p.has b = true → (o b).Fits (p.kind.shape b C C').1 (p.kind.shape b C C').2) :
    ∃ l' o' h' p', l.optimizeBy o h = .ok (l', o', h') ∧ p'.kind = p.kind ∧ l'.Shows h' p' C C' ∧ l.MovedBy h h' l' ∧
      ∀ b, p.has b = true → l.SteppedBy o h b (p.kind.shape b C C').1 (p.kind.shape b C C').2 l' o' h' (p'.par b) := by
  obtain ⟨k, t, d, dw, w, b, gw, gb⟩ := l
  obtain ⟨pk, W, B⟩ := p
  cases k <;> cases pk <;> first
    | exact absurd hs id
    | exact absurd hl id
    | exact ⟨_, o, h, _, rfl, rfl, hs, ⟨rfl, rfl, id, le_rfl, fun _ _ _ => rfl, fun q hq => .inl hq, hn⟩, fun b hb => by simp [Ply.has, PlyKind.has] at hb⟩
    | skip
  · -- Bias
    obtain ⟨rfl, hB⟩ := hs
    obtain ⟨q', X, X', r', h', a1, a2, a3, a4, a5, a6, a7, a8, a9, a10⟩ := stepBy_ok (l := ⟨.bias, t, d, dw, w, b, gw, gb⟩) (b := true) hB (hg true rfl) (ho true rfl)
    refine ⟨_, _, h', ⟨.bias, W, X'.val⟩, a1, rfl, ⟨rfl, a10⟩, ⟨rfl, rfl, id, a7, fun q hq hq' => a9 q hq (by simpa [params, param] using hq'), fun q hq => ?_, by simp [params]⟩, fun c hc => ?_⟩
    · simp [params] at hq ⊢
      subst hq
      exact a8
    · cases c
      · cases hc
      · exact ⟨X, X', a2, by rw [Function.update_self]; exact a3, a6, a4, by rw [Function.update_self]; exact a5, rfl⟩
  · -- Dot
    obtain ⟨q', X, X', r', h', a1, a2, a3, a4, a5, a6, a7, a8, a9, a10⟩ := stepBy_ok (l := ⟨.dot, t, d, dw, w, b, gw, gb⟩) (b := false) hs (hg false rfl) (ho false rfl)
    refine ⟨_, _, h', ⟨.dot, X'.val, B⟩, a1, rfl, a10, ⟨rfl, rfl, id, a7, fun q hq hq' => a9 q hq (by simpa [params, param] using hq'), fun q hq => ?_, by simp [params]⟩, fun c hc => ?_⟩
    · simp [params] at hq ⊢
      subst hq
      exact a8
    · cases c
      · exact ⟨X, X', a2, by rw [Function.update_self]; exact a3, a6, a4, by rw [Function.update_self]; exact a5, rfl⟩
      · cases hc
  · -- Dense
    have hwb : w ≠ b := by simpa [params] using hn
    obtain ⟨q', X, X', r', h₁, a1, a2, a3, a4, a5, a6, a7, a8, a9, a10⟩ := stepBy_ok (l := ⟨.dense, t, d, dw, w, b, gw, gb⟩) (b := false) hs.1 (hg false rfl) (ho false rfl)
    obtain ⟨q₂, Y, Y', r₂, h', b1, b2, b3, b4, b5, b6, b7, b8, b9, b10⟩ := stepBy_ok (l := ⟨.dense, t, d, dw, r', b, gw, gb⟩) (b := true) (o := Function.update o false q') (h := h₁)
      (hs.2.congr (a9 b hs.2.lt (Ne.symm hwb))) (hg true rfl) (by rw [Function.update_of_ne (by simp)]; exact ho true rfl)
    have hlr := (List.getElem?_eq_some_iff.1 a6).1
    have hblt := hs.2.lt
    have hrb : r' ≠ b := by
      rcases a8 with e | e
      · exact fun h => hwb (e.symm.trans h)
      · intro h; dsimp only at e hblt; omega
    have hk : h'[r']? = some X' := (b9 r' hlr hrb).trans a6
    dsimp only [param] at a8 b8
    simp only [if_true, if_false, Bool.false_eq_true] at a8 b8
    refine ⟨⟨.dense, t, d, dw, r', r₂, gw, gb⟩, _, h', ⟨.dense, X'.val, Y'.val⟩, by unfold optimizeBy; dsimp only; rw [a1, bind_ok']; exact b1, rfl,
      ⟨⟨X', hk, a4.1, a4.2, fun _ _ _ _ => rfl⟩, b10⟩, ⟨rfl, rfl, id, a7.trans b7, fun q hq hq' => ?_, fun q hq => ?_, ?_⟩, fun c hc => ?_⟩
    · simp [params] at hq'
      exact (b9 q (by omega) hq'.2).trans (a9 q hq hq'.1)
    · simp [params] at hq ⊢
      omega
    · simp [params]
      omega
    · cases c
      · refine ⟨X, X', a2, ?_, hk, a4, ?_, rfl⟩ <;> rw [Function.update_of_ne (by simp), Function.update_self]
        · exact a3
        · exact a5
      · refine ⟨Y, Y', ?_, ?_, b6, b4, ?_, rfl⟩
        · exact (a9 b hblt (Ne.symm hwb)).symm.trans b2
        · rw [Function.update_self]
          rw [Function.update_of_ne (by simp)] at b3
          exact b3
        · rw [Function.update_self]
          exact b5
  · -- TimeDistributedDot
    obtain ⟨⟨rfl, rfl⟩, hc1, hc2, hs⟩ := hs
    obtain ⟨q', X, X', r', h', a1, a2, a3, a4, a5, a6, a7, a8, a9, a10⟩ := stepBy_ok (l := ⟨.tdDot _ _, t, d, dw, w, b, gw, gb⟩) (b := false) hs (hg false rfl) (ho false rfl)
    refine ⟨_, _, h', ⟨.tdDot _ _ _, X'.val, B⟩, a1, rfl, ⟨⟨rfl, rfl⟩, hc1, hc2, a10⟩, ⟨rfl, rfl, id, a7, fun q hq hq' => a9 q hq (by simpa [params, param] using hq'), fun q hq => ?_, by simp [params]⟩, fun c hc => ?_⟩
    · simp [params] at hq ⊢
      subst hq
      exact a8
    · cases c
      · exact ⟨X, X', a2, by rw [Function.update_self]; exact a3, a6, a4, by rw [Function.update_self]; exact a5, rfl⟩
      · cases hc
  · -- TimeDistributedBias
    obtain ⟨rfl, hc1, hc2, hB⟩ := hs
    obtain ⟨q', X, X', r', h', a1, a2, a3, a4, a5, a6, a7, a8, a9, a10⟩ := stepBy_ok (l := ⟨.tdBias _, t, d, dw, w, b, gw, gb⟩) (b := true) hB (hg true rfl) (ho true rfl)
    refine ⟨_, _, h', ⟨.tdBias _ _, W, X'.val⟩, a1, rfl, ⟨rfl, hc1, hc2, a10⟩, ⟨rfl, rfl, id, a7, fun q hq hq' => a9 q hq (by simpa [params, param] using hq'), fun q hq => ?_, by simp [params]⟩, fun c hc => ?_⟩
    · simp [params] at hq ⊢
      subst hq
      exact a8
    · cases c
      · cases hc
      · exact ⟨X, X', a2, by rw [Function.update_self]; exact a3, a6, a4, by rw [Function.update_self]; exact a5, rfl⟩
  · -- TimeDistributedDense
    obtain ⟨⟨rfl, rfl⟩, hc1, hc2, hs⟩ := hs
    have hwb : w ≠ b := by simpa [params] using hn
    obtain ⟨q', X, X', r', h₁, a1, a2, a3, a4, a5, a6, a7, a8, a9, a10⟩ := stepBy_ok (l := ⟨.tdDense _ _, t, d, dw, w, b, gw, gb⟩) (b := false) hs.1 (hg false rfl) (ho false rfl)
    obtain ⟨q₂, Y, Y', r₂, h', b1, b2, b3, b4, b5, b6, b7, b8, b9, b10⟩ := stepBy_ok (l := ⟨.tdDense _ _, t, d, dw, r', b, gw, gb⟩) (b := true) (o := Function.update o false q') (h := h₁)
      (hs.2.congr (a9 b hs.2.lt (Ne.symm hwb))) (hg true rfl) (by rw [Function.update_of_ne (by simp)]; exact ho true rfl)
    have hlr := (List.getElem?_eq_some_iff.1 a6).1
    have hblt := hs.2.lt
    have hrb : r' ≠ b := by
      rcases a8 with e | e
      · exact fun h => hwb (e.symm.trans h)
      · intro h; dsimp only at e hblt; omega
    have hk : h'[r']? = some X' := (b9 r' hlr hrb).trans a6
    dsimp only [param] at a8 b8
    simp only [if_true, if_false, Bool.false_eq_true] at a8 b8
    refine ⟨⟨.tdDense _ _, t, d, dw, r', r₂, gw, gb⟩, _, h', ⟨.tdDense _ _ _, X'.val, Y'.val⟩, by unfold optimizeBy; dsimp only; rw [a1, bind_ok']; exact b1, rfl,
      ⟨⟨rfl, rfl⟩, hc1, hc2, ⟨X', hk, a4.1, a4.2, fun _ _ _ _ => rfl⟩, b10⟩, ⟨rfl, rfl, id, a7.trans b7, fun q hq hq' => ?_, fun q hq => ?_, ?_⟩, fun c hc => ?_⟩
    · simp [params] at hq'
      exact (b9 q (by omega) hq'.2).trans (a9 q hq hq'.1)
    · simp [params] at hq ⊢
      omega
    · simp [params]
      omega
    · cases c
      · refine ⟨X, X', a2, ?_, hk, a4, ?_, rfl⟩ <;> rw [Function.update_of_ne (by simp), Function.update_self]
        · exact a3
        · exact a5
      · refine ⟨Y, Y', ?_, ?_, b6, b4, ?_, rfl⟩
        · exact (a9 b hblt (Ne.symm hwb)).symm.trans b2
        · rw [Function.update_self]
          rw [Function.update_of_ne (by simp)] at b3
          exact b3
        · rw [Function.update_self]
          exact b5

/-- The parameters of a layer are among its arrays. -/
theorem param_mem {l : PyLayer} {h : NpStore} {p : Ply} {C C' : Nat} (hs : l.Shows h p C C') {b : Bool} (hb : p.has b = true) : l.param b ∈ l.params := by
  obtain ⟨k, t, d, dw, w, c, gw, gb⟩ := l
  obtain ⟨pk, W, B⟩ := p
  cases k <;> cases pk <;> first
    | exact absurd hs id
    | (cases b <;> first | (cases hb; done) | simp [params, param])

/-- The numbers in them are the parameters. -/
theorem Shows.has_param {l : PyLayer} {h : NpStore} {p : Ply} {C C' : Nat} (hs : l.Shows h p C C') {b : Bool} (hb : p.has b = true) :
    h.Has (l.param b) (p.kind.shape b C C').1 (p.kind.shape b C C').2 (p.par b) := by
  obtain ⟨k, t, d, dw, w, c, gw, gb⟩ := l
  obtain ⟨pk, W, B⟩ := p
  cases k <;> cases pk <;> first
    | exact absurd hs id
    | (cases b <;> first | (cases hb; done) | skip)
  · obtain ⟨rfl, hs⟩ := hs
    exact hs
  · exact hs
  · exact hs.1
  · exact hs.2
  · obtain ⟨⟨rfl, rfl⟩, -, -, hs⟩ := hs
    exact hs
  · obtain ⟨rfl, -, -, hs⟩ := hs
    exact hs
  · obtain ⟨⟨rfl, rfl⟩, -, -, hs⟩ := hs
    exact hs.1
  · obtain ⟨⟨rfl, rfl⟩, -, -, hs⟩ := hs
    exact hs.2

end PyLayer

theorem mem_params {ls : List PyLayer} {l : PyLayer} {q : Nat} (h : l ∈ ls) (hq : q ∈ l.params) : q ∈ ls.flatMap PyLayer.params := List.mem_flatMap.2 ⟨l, h, hq⟩

/-- All layers after `optimize`. -/
theorem pyOptimizeBy_ok {m : Mlp} : ∀ (ls : List PyLayer) (i : Nat) (o : Nat → Bool → PyOpt) (h : NpStore),
    (∀ (k : Nat) (l : PyLayer), ls[k]? = some l → l.Shows h (m.ply (i + k)) (m.width (i + k)) (m.width (i + k + 1)) ∧ l.Learns ∧
      ∀ b, (m.ply (i + k)).has b = true → ((l.grad b).rows = (m.shape b (i + k)).1 ∧ (l.grad b).cols = (m.shape b (i + k)).2) ∧
        (o (i + k) b).Fits (m.shape b (i + k)).1 (m.shape b (i + k)).2) → PyApart ls →
    ∃ ls' o' h', ∃ ps : Nat → Ply, pyOptimizeBy ls i o h = .ok (ls', o', h') ∧ ls'.length = ls.length ∧ h.length ≤ h'.length ∧
      (∀ q, q < h.length → q ∉ ls.flatMap PyLayer.params → h'[q]? = h[q]?) ∧ (∀ q ∈ ls'.flatMap PyLayer.params, q ∈ ls.flatMap PyLayer.params ∨ h.length ≤ q) ∧ PyApart ls' ∧
      (∀ k, k < i → o' k = o k) ∧
      ∀ (k : Nat) (l : PyLayer), ls[k]? = some l → ∃ l', ls'[k]? = some l' ∧ l'.kind = l.kind ∧ l'.training = l.training ∧ l'.Learns ∧ (ps (i + k)).kind = (m.ply (i + k)).kind ∧
        l'.Shows h' (ps (i + k)) (m.width (i + k)) (m.width (i + k + 1)) ∧
        ∀ b, (m.ply (i + k)).has b = true → l.SteppedBy (o (i + k)) h b (m.shape b (i + k)).1 (m.shape b (i + k)).2 l' (o' (i + k)) h' ((ps (i + k)).par b) := by
  intro ls
  induction ls with
  | nil => exact fun i o h _ _ => ⟨[], o, h, m.ply, rfl, rfl, le_rfl, fun _ _ _ => rfl, fun q hq => by simp at hq, List.nodup_nil, fun _ _ => rfl, fun k l hk => by simp at hk⟩
  | cons l ls ih =>
    intro i o h H hn
    obtain ⟨s1, s2, s3⟩ := H 0 l rfl
    rw [PyApart, List.flatMap_cons, List.nodup_append] at hn
    obtain ⟨n1, n2, n3⟩ := hn
    obtain ⟨l', q', h₁, p', o1, o2, o3, o4, o5⟩ := PyLayer.optimizeBy_ok s1 s2 n1 (o := o i) (fun b hb => (s3 b hb).1) (fun b hb => (s3 b hb).2)
    have low : ∀ (k : Nat) (l₁ : PyLayer), ls[k]? = some l₁ → ∀ q ∈ l₁.params, q < h.length ∧ q ∉ l.params := fun k l₁ hk q hq =>
      ⟨(H (k + 1) l₁ (by simpa using hk)).1.lt q hq, fun hq' => n3 q hq' q (mem_params (List.mem_of_getElem? hk) hq) rfl⟩
    have low' : ∀ q ∈ ls.flatMap PyLayer.params, q < h.length ∧ q ∉ l.params := fun q hq => by
      obtain ⟨l₁, h1, h2⟩ := List.mem_flatMap.1 hq
      obtain ⟨k, hk⟩ := List.mem_iff_getElem?.1 h1
      exact low k l₁ hk q h2
    obtain ⟨ls', o', h', ps, p1, p2, p3, p4, p5, p6, p7, p8⟩ := ih (i + 1) (Function.update o i q') h₁ (fun k l₁ hk => by
      obtain ⟨t1, t2, t3⟩ := H (k + 1) l₁ (by simpa using hk)
      rw [show i + (k + 1) = i + 1 + k by omega] at t1 t3
      refine ⟨t1.congr fun q hq => o4.old q (low k l₁ hk q hq).1 (low k l₁ hk q hq).2, t2, fun b hb => ?_⟩
      rw [Function.update_of_ne (by omega)]
      exact t3 b hb) n2
    have hlen := o4.length
    have hnew : ∀ q ∈ l'.params, q < h₁.length ∧ q ∉ ls.flatMap PyLayer.params := fun q hq => ⟨o3.lt q hq, fun hq' => by
      have h1 := low' q hq'
      rcases o4.place q hq with h2 | h2
      · exact h1.2 h2
      · omega⟩
    have hkeep : ∀ q ∈ l'.params, h'[q]? = h₁[q]? := fun q hq => p4 q (hnew q hq).1 (hnew q hq).2
    refine ⟨l' :: ls', o', h', Function.update ps i p', by unfold pyOptimizeBy; rw [o1, bind_ok']; dsimp only; rw [p1, bind_ok'], by simp [p2], by omega, fun q hq hq' => ?_, fun q hq => ?_, ?_,
      fun k hk => ?_, fun k l₁ hk => ?_⟩
    · rw [List.flatMap_cons, List.mem_append, not_or] at hq'
      exact (p4 q (by omega) hq'.2).trans (o4.old q hq hq'.1)
    · rw [List.flatMap_cons, List.mem_append] at hq ⊢
      rcases hq with hq | hq
      · rcases o4.place q hq with h1 | h1
        · exact .inl (.inl h1)
        · exact .inr h1
      · rcases p5 q hq with h1 | h1
        · exact .inl (.inr h1)
        · exact .inr (by omega)
    · rw [PyApart, List.flatMap_cons, List.nodup_append]
      refine ⟨o4.nodup, p6, fun a ha b hb e => ?_⟩
      subst e
      rcases p5 a hb with h1 | h1
      · exact (hnew a ha).2 h1
      · have := (hnew a ha).1
        omega
    · rw [p7 k (by omega), Function.update_of_ne (by omega)]
    · match k with
      | 0 =>
        obtain rfl : l = l₁ := by simpa using hk
        have e : Function.update ps i p' (i + 0) = p' := Function.update_self ..
        rw [e]
        refine ⟨l', rfl, o4.kind, o4.training, o4.learns s2, o2, o3.congr hkeep, fun b hb => ?_⟩
        obtain ⟨W, W', c1, c2, c3, c4, c5, c6⟩ := o5 b hb
        have e' : o' (i + 0) = q' := by rw [Nat.add_zero, p7 i (by omega), Function.update_self]
        rw [e']
        exact ⟨W, W', c1, c2, (hkeep _ (PyLayer.param_mem o3 (by rw [Ply.has, o2]; exact hb))).trans c3, c4, c5, c6⟩
      | k + 1 =>
        have hk' : ls[k]? = some l₁ := by simpa using hk
        obtain ⟨l₂, t1, t2, t3, t4, t5, t6, t7⟩ := p8 k l₁ hk'
        rw [show i + (k + 1) = i + 1 + k by omega, Function.update_of_ne (by omega)]
        refine ⟨l₂, by simpa using t1, t2, t3, t4, t5, t6, fun b hb => ?_⟩
        obtain ⟨W, W', c1, c2, c3⟩ := t7 b hb
        rw [Function.update_of_ne (by omega)] at c2
        have hs := (H (k + 1) l₁ hk).1
        rw [show i + (k + 1) = i + 1 + k by omega] at hs
        have hm := low k l₁ hk' _ (PyLayer.param_mem hs hb)
        exact ⟨W, W', (o4.old _ hm.1 hm.2).symm.trans c1, c2, c3⟩

/-! ## A batch -/

/-- The array of the biases or weights of layer `i`. -/
def PyTrainState.arr (s : PyTrainState) (i : Nat) (b : Bool) : Option NpArr := s.ls[i]?.bind fun l => s.h[l.param b]?

theorem PyRep.arr {s : PyTrainState} {m : Mlp} (hr : PyRep s.h s.ls m) {b : Bool} {i : Nat} (hi : i < m.depth) (hb : (m.ply i).has b = true) :
    ∃ W, s.arr i b = some W ∧ W.Is (m.shape b i).1 (m.shape b i).2 ((m.ply i).par b) := by
  obtain ⟨l, hl⟩ : ∃ l, s.ls[i]? = some l := ⟨_, List.getElem?_eq_getElem (by rw [hr.count]; exact hi)⟩
  obtain ⟨W, h1, h2⟩ := (hr.layer i l hl).has_param hb
  exact ⟨W, by rw [PyTrainState.arr, hl]; exact h1, h2⟩

/-- What a batch does to the biases or weights of a layer, with their gradient in `D`. -/
def PyTrainState.Stepped (s s' : PyTrainState) (b : Bool) (i R C : Nat) (D : NpArr) : Prop :=
  ∃ W W' : NpArr, s.arr i b = some W ∧ (s.o i b).Calls W D (s'.o i b) W' ∧ s'.arr i b = some W' ∧ (s'.o i b).Fits R C

/-- One batch of training. -/
theorem pyTrainBatchBy_core {loss : String} (e : Nat → PyRnd) {s : PyTrainState} {m : Mlp} (hr : PyRep s.h s.ls m) {x : Nat}
    (hrd : PyReady s.ls x) (ha : PyApart s.ls) (ho : ∀ b i, i < m.depth → (m.ply i).has b = true → (s.o i b).Fits (m.shape b i).1 (m.shape b i).2)
    {N : Nat} (hN : 0 < N) {v g : Nat → Row} (hX : s.h.Has x N (m.width 0) v) {t : NpArr}
    (hder : ∀ (k : Nat) (l : PyLayer), s.ls[k]? = some l → l.DerivOk (m.ply k) (m.width k) N fun s => m.hidden (v s) k)
    (hg : ∀ P : NpArr, P.Is N (m.width m.depth) (fun s => m.out (v s)) → ∃ G, pyLossGrad loss P t = .ok G ∧ G.Is N (m.width m.depth) g) :
    ∃ s' m', pyTrainBatchBy loss e s x t = .ok s' ∧ PyRep s'.h s'.ls m' ∧ Mlp.Like m m' ∧ PyApart s'.ls ∧ s.h.length ≤ s'.h.length ∧
      (∀ q, q < s.h.length → q ≠ x → q ∉ s.ls.flatMap PyLayer.params → s'.h[q]? = s.h[q]? ∧ q ∉ s'.ls.flatMap PyLayer.params) ∧
      (∀ (k : Nat) (l : PyLayer), s.ls[k]? = some l → ∃ l', s'.ls[k]? = some l' ∧ l'.kind = l.kind ∧ l'.training = l.training ∧ l'.Learns) ∧
      ∀ b i, i < m.depth → (m.ply i).has b = true → ∃ D, D.Is (m.shape b i).1 (m.shape b i).2 (fun k j => (m.ply i).kind.pyRate b N * m.grad N v g b i k j) ∧
        s.Stepped s' b i (m.shape b i).1 (m.shape b i).2 D := by
  obtain ⟨ls, o, h⟩ := s
  obtain ⟨r, ls₁, h₁, f1, f2, f3, f4, -, f5⟩ := pyTrain_passes (m := m) (v := v) hN hr.pos ls e 0 x h hrd
    (by rw [Nat.zero_add]; exact hr.count) (fun k l hk => by rw [Nat.zero_add]; exact hr.layer k l hk) (fun k l hk => by rw [Nat.zero_add]; exact hder k l hk) hX
  obtain ⟨P, hP1, hP2⟩ := f2.load
  obtain ⟨G, hG1, hG2⟩ := hg P hP2
  obtain ⟨G', ls₂, b1, -, b3, b4⟩ := f5 h₁ (fun _ _ => rfl) G _ hG2
  have hsame : ∀ (k : Nat) (l : PyLayer), ls[k]? = some l → ∃ l'', ls₂[k]? = some l'' ∧ l.Alike l'' ∧
      l''.HasGrads (m.ply k) (m.width k) (m.width (k + 1)) N (fun s => m.hidden (v s) k)
        (fun s => m.delta (v s) (g s) (m.depth - 1 - k)) := fun k l hk => by
    have := b4 k l hk
    rwa [Nat.zero_add] at this
  have back : ∀ (k : Nat) (l : PyLayer), ls₂[k]? = some l → ∃ l₀, ls[k]? = some l₀ := fun k l hk =>
    ⟨_, List.getElem?_eq_getElem (by rw [← b3]; exact (List.getElem?_eq_some_iff.1 hk).1)⟩
  have hcell : ∀ q, q < h.length → q ≠ x → h₁[q]? = h[q]? := fun q hq hqx => f4 q hq fun hx => absurd hx hqx
  have hflat : ls₂.map PyLayer.params = ls.map PyLayer.params := by
    refine List.ext_getElem (by simp [b3]) fun k h1 h2 => ?_
    rw [List.getElem_map, List.getElem_map]
    obtain ⟨l'', c1, c2, -⟩ := hsame k _ (List.getElem?_eq_getElem (by simpa using h2))
    rw [List.getElem?_eq_getElem (by simpa using h1)] at c1
    obtain rfl := Option.some.inj c1
    exact c2.params
  have ha₂ : PyApart ls₂ := by
    rw [PyApart, List.flatMap_def, hflat, ← List.flatMap_def]
    exact ha
  obtain ⟨ls', o', h', ps, o1, o2, o3, o4, o5, o6, -, o8⟩ := pyOptimizeBy_ok (m := m) ls₂ 0 o h₁ (fun k l hk => by
      obtain ⟨l₀, h0⟩ := back k l hk
      obtain ⟨l'', c1, c2, c3⟩ := hsame k l₀ h0
      obtain rfl : l'' = l := Option.some.inj (c1.symm.trans hk)
      have hm := List.mem_iff_getElem?.2 ⟨k, h0⟩
      rw [Nat.zero_add]
      have hsh := hr.layer k l₀ h0
      exact ⟨c2.shows (hsh.congr fun q hq => hcell q (hsh.lt q hq) fun hqx => hrd.apart l₀ hm (hqx ▸ hq)), c2.learns (hrd.learns l₀ hm), fun b hb =>
        ⟨⟨(c3 b hb).1, (c3 b hb).2.1⟩, ho b k ((List.getElem?_eq_some_iff.1 h0).1.trans_eq hr.count) hb⟩⟩) ha₂
  refine ⟨⟨ls', o', h'⟩, ⟨m.depth, m.width, fun i => if i < m.depth then ps i else m.ply i⟩, ?_, ⟨?_, hr.pos, fun i l hi => ?_⟩, ⟨rfl, rfl, fun i => ?_⟩, o6, f3.trans o3,
    fun q hq hqx hqp => ⟨?_, fun hq' => ?_⟩, fun k l hk => ?_, fun b i hi hb => ?_⟩
  · unfold pyTrainBatchBy
    dsimp only
    rw [f1, bind_ok']
    dsimp only
    rw [hP1, bind_ok', hG1, bind_ok', b1, bind_ok']
    dsimp only
    rw [o1, bind_ok']
  · rw [o2, b3]
    exact hr.count
  · have hlt := (List.getElem?_eq_some_iff.1 hi).1
    rw [o2] at hlt
    obtain ⟨l', d1, -, -, -, -, d6, -⟩ := o8 i _ (List.getElem?_eq_getElem hlt)
    obtain rfl : l' = l := Option.some.inj (d1.symm.trans hi)
    rw [Nat.zero_add] at d6
    dsimp only
    rw [if_pos (by rw [b3] at hlt; exact hlt.trans_eq hr.count)]
    exact d6
  · dsimp only
    split
    · rename_i hi
      obtain ⟨l', d1, -, -, -, d5, -⟩ := o8 i _ (List.getElem?_eq_getElem (by rw [b3]; exact hi.trans_eq hr.count.symm))
      rw [Nat.zero_add] at d5
      exact d5
    · rfl
  · exact (o4 q (hq.trans_le f3) (by rw [List.flatMap_def, hflat, ← List.flatMap_def]; exact hqp)).trans (hcell q hq hqx)
  · have h1 := o5 q hq'
    rw [List.flatMap_def (l := ls₂), hflat, ← List.flatMap_def] at h1
    dsimp only at hqp hq
    exact h1.elim hqp fun h => by omega
  · obtain ⟨l'', c1, c2, -⟩ := hsame k l hk
    obtain ⟨l', d1, d2, d3, d4, -⟩ := o8 k l'' c1
    exact ⟨l', d1, d2.trans c2.1, d3.trans c2.2.1, d4⟩
  · obtain ⟨l, hl⟩ : ∃ l, ls[i]? = some l := ⟨_, List.getElem?_eq_getElem (hi.trans_eq hr.count.symm)⟩
    obtain ⟨l'', c1, c2, c3⟩ := hsame i l hl
    obtain ⟨l', d1, -, -, -, -, -, d7⟩ := o8 i l'' c1
    rw [Nat.zero_add] at d7
    obtain ⟨W, W', e1, e2, e3, e4, e5, e6⟩ := d7 b hb
    have hsh := hr.layer i l hl
    have hpar : l''.param b = l.param b := by
      unfold PyLayer.param
      rw [c2.2.2.1, c2.2.2.2.1]
    have hmem := PyLayer.param_mem hsh hb
    refine ⟨l''.grad b, c3 b hb, W, W', ?_, e2, ?_, e5⟩
    · rw [PyTrainState.arr]
      dsimp only
      rw [hl]
      rw [hpar] at e1
      exact (hcell _ (hsh.lt _ hmem) fun hqx => hrd.apart l (List.mem_of_getElem? hl) (hqx ▸ hmem)).symm.trans e1
    · rw [PyTrainState.arr]
      dsimp only
      rw [d1]
      exact e3

theorem Mlp.Like.shape {m m' : Mlp} (h : Mlp.Like m m') (b : Bool) (i : Nat) : m'.shape b i = m.shape b i := by
  unfold Mlp.shape
  rw [h.kind, h.width]

theorem Mlp.Like.has {m m' : Mlp} (h : Mlp.Like m m') (b : Bool) (i : Nat) : (m'.ply i).has b = (m.ply i).has b := by
  unfold Ply.has
  rw [h.kind]

theorem PlyKind.derivBy_has (l : Option PyLayer) (K : PlyKind) (b : Bool) : (K.derivBy l).has b = K.has b := by
  cases l <;> cases K <;> rfl

theorem PlyKind.derivBy_shape (l : Option PyLayer) (K : PlyKind) (b : Bool) (C C' : Nat) : (K.derivBy l).shape b C C' = K.shape b C C' := by
  cases l <;> cases K <;> rfl

/-- One batch of training, also with samples at kinks. -/
theorem pyTrainBatchBy_any {loss : String} (hl : loss ∈ pyLosses) (e : Nat → PyRnd) {s : PyTrainState} {m : Mlp} (hr : PyRep s.h s.ls m) (hok : m.Ok) {x : Nat}
    (hrd : PyReady s.ls x) (ha : PyApart s.ls) (ho : ∀ b i, i < m.depth → (m.ply i).has b = true → (s.o i b).Fits (m.shape b i).1 (m.shape b i).2)
    {N D : Nat} (hN : 0 < N) {v y : Nat → Row} (hX : s.h.Has x N (m.width 0) v) {t : NpArr} (ht : t.Is N D y)
    (hT : TruthFits (pyLossName loss) (m.width m.depth) D N y) :
    ∃ s' m', pyTrainBatchBy loss e s x t = .ok s' ∧ PyRep s'.h s'.ls m' ∧ Mlp.Like m m' ∧ PyApart s'.ls ∧ s.h.length ≤ s'.h.length ∧
      (∀ q, q < s.h.length → q ≠ x → q ∉ s.ls.flatMap PyLayer.params → s'.h[q]? = s.h[q]? ∧ q ∉ s'.ls.flatMap PyLayer.params) ∧
      (∀ (k : Nat) (l : PyLayer), s.ls[k]? = some l → ∃ l', s'.ls[k]? = some l' ∧ l'.kind = l.kind ∧ l'.training = l.training ∧ l'.Learns) ∧
      ∀ b i, i < m.depth → (m.ply i).has b = true → ∃ D, (D.rows = (m.shape b i).1 ∧ D.cols = (m.shape b i).2) ∧
        ((∀ s, s < N → m.Regular 1e-8 (pyLossName loss) (v s) (y s)) →
          ∃ G', IsGrad (m.shape b i).1 (m.shape b i).2 (fun P => (m.setPar b i P).error (pyLossName loss) N v y) ((m.ply i).par b) G' ∧
            ∀ k j, k < (m.shape b i).1 → j < (m.shape b i).2 → D.val k j = (m.ply i).kind.pyRate b N * G' k j) ∧
        s.Stepped s' b i (m.shape b i).1 (m.shape b i).2 D := by
  by_cases hreg : ∀ s, s < N → m.Regular 1e-8 (pyLossName loss) (v s) (y s)
  · obtain ⟨ψ, g1, g2⟩ := pyLossGrad_ok hl (hok.pos _ le_rfl)
    obtain ⟨s', m', c1, c2, c3, c4, c5, c5', c6, c7⟩ := pyTrainBatchBy_core (loss := loss) e hr hrd ha ho hN hX (fun k l hk => (hr.layer k l hk).derivOk (hrd.learns l (List.mem_of_getElem? hk)) fun hs s hsN =>
      (hreg s hsN).smooth (by rw [← hr.count]; exact (List.getElem?_eq_some_iff.1 hk).1) hs) (fun P hP => g2 hT hP ht)
    refine ⟨s', m', c1, c2, c3, c4, c5, c5', c6, fun b i hi hb => ?_⟩
    obtain ⟨D, d1, d2⟩ := c7 b i hi hb
    exact ⟨D, ⟨d1.1, d1.2.1⟩, fun _ => ⟨_, Mlp.grad_error hok (by norm_num) (pyLossName_mem hl) g1 N v y hT hreg b hi hb, fun k j hk hj => d1.2.2 k j hk hj⟩, d2⟩
  · obtain ⟨ψ, -, g2⟩ := pyLossGrad_ok hl (hok.pos _ le_rfl)
    have hh : ∀ b i, ((m.derivBy s.ls).ply i).has b = (m.ply i).has b := fun b i => PlyKind.derivBy_has ..
    have hsh : ∀ b i, (m.derivBy s.ls).shape b i = m.shape b i := fun b i => PlyKind.derivBy_shape ..
    obtain ⟨s', m₂, c1, c2, c3, c4, c5, c5', c6, c7⟩ := pyTrainBatchBy_core (m := m.derivBy s.ls) (loss := loss) (t := t) e hr.derivBy hrd ha
      (fun b i hi hb => by rw [hsh]; exact ho b i hi (by rw [← hh]; exact hb)) hN (v := v) hX (hr.derivOk hrd) (fun P hP => g2 hT hP ht)
    refine ⟨s', ⟨m.depth, m.width, fun i => ⟨(m.ply i).kind, (m₂.ply i).weight, (m₂.ply i).bias⟩⟩, c1, ⟨c2.count.trans c3.depth, hr.pos, fun i l hi => ?_⟩, ⟨rfl, rfl, fun _ => rfl⟩,
      c4, c5, c5', c6, fun b i hi hb => ?_⟩
    · rw [← PyLayer.Shows.changed s.ls[i]?]
      have := c2.layer i l hi
      rw [c3.width] at this
      have hk : (m₂.ply i).kind = (m.ply i).kind.derivBy s.ls[i]? := c3.kind i
      rw [← hk]
      exact this
    · obtain ⟨D, d1, d2⟩ := c7 b i hi (by rw [hh]; exact hb)
      rw [hsh] at d1 d2
      exact ⟨D, ⟨d1.1, d1.2.1⟩, fun h => absurd h hreg, d2⟩

/-! ## Sequences of batches -/

theorem chain_of {σ : Type} {P : Nat → σ → Prop} {R : Nat → σ → σ → Prop} (step : ∀ t s, P t s → ∃ s', P (t + 1) s' ∧ R t s s') {s : σ} (h : P 0 s) :
    ∃ S : Nat → σ, S 0 = s ∧ ∀ t, P t (S t) ∧ R t (S t) (S (t + 1)) := by
  choose f hf using step
  let S : (t : Nat) → { s // P t s } := fun t => Nat.rec ⟨s, h⟩ (fun t s => ⟨f t s.1 s.2, (hf t s.1 s.2).1⟩) t
  exact ⟨fun t => (S t).1, rfl, fun t => ⟨(S t).2, (hf t (S t).1 (S t).2).2⟩⟩

/-- What holds before each batch. -/
structure PyTrainState.Before (s₀ : PyTrainState) (m₀ : Mlp) (s : PyTrainState) (m : Mlp) : Prop where
  ready : s.Ready m
  like : Mlp.Like m₀ m
  length : s₀.h.length ≤ s.h.length
  kept : ∀ q, q < s₀.h.length → q ∉ s₀.ls.flatMap PyLayer.params → s.h[q]? = s₀.h[q]? ∧ q ∉ s.ls.flatMap PyLayer.params
  kinds : ∀ (k : Nat) (l₀ : PyLayer), s₀.ls[k]? = some l₀ → ∃ l, s.ls[k]? = some l ∧ l.kind = l₀.kind
  fits : ∀ b i, i < m.depth → (m.ply i).has b = true → (s.o i b).Fits (m.shape b i).1 (m.shape b i).2

theorem PyTrainState.Before.step {loss : String} (hl : loss ∈ pyLosses) (e : Nat → PyRnd) {m₀ m : Mlp} (hok : m₀.Ok) {s₀ s : PyTrainState} (h : s₀.Before m₀ s m)
    {N D : Nat} (hN : 0 < N) {v y : Nat → Row} {X t : NpArr} (hX : X.Is N (m₀.width 0) v) (ht : t.Is N D y) (hT : TruthFits (pyLossName loss) (m₀.width m₀.depth) D N y) :
    ∃ s' m', pyTrainBatchBy loss e { s with h := s.h ++ [X] } s.h.length t = .ok s' ∧ s₀.Before m₀ s' m' ∧
      ∀ b i, i < m₀.depth → (m₀.ply i).has b = true → ∃ D, (D.rows = (m₀.shape b i).1 ∧ D.cols = (m₀.shape b i).2) ∧
        ((∀ s, s < N → m.Regular 1e-8 (pyLossName loss) (v s) (y s)) →
          ∃ G', IsGrad (m₀.shape b i).1 (m₀.shape b i).2 (fun P => (m.setPar b i P).error (pyLossName loss) N v y) ((m.ply i).par b) G' ∧
            ∀ k j, k < (m₀.shape b i).1 → j < (m₀.shape b i).2 → D.val k j = (m₀.ply i).kind.pyRate b N * G' k j) ∧
        s.Stepped s' b i (m₀.shape b i).1 (m₀.shape b i).2 D := by
  obtain ⟨hrdy, hlike, hlen, hkept, hkinds, hfits⟩ := h
  obtain ⟨ls, o, hp⟩ := s
  have hr : PyRep (hp ++ [X]) ls m := ⟨hrdy.rep.count, hrdy.rep.pos, fun i l hi => by
    have := hrdy.rep.layer i l hi
    exact this.congr fun q hq => List.getElem?_append_left (this.lt q hq)⟩
  have hrd : PyReady ls hp.length := ⟨hrdy.training, hrdy.learns, fun l hl hq => by
    obtain ⟨k, hk⟩ := List.mem_iff_getElem?.1 hl
    exact absurd ((hrdy.rep.layer k l hk).lt _ hq) (lt_irrefl _), hrdy.exp⟩
  obtain ⟨s', m', c1, c2, c3, c4, c5, c5', c6, c7⟩ := pyTrainBatchBy_any (s := ⟨ls, o, hp ++ [X]⟩) hl e hr (hlike.ok hok) hrd hrdy.apart hfits hN
    (hp.has_append _ (by rw [hlike.width]; exact hX)) ht (by rw [hlike.width, hlike.depth]; exact hT)
  have hrd' := PyReady.of (ls' := s'.ls) (x := s'.h.length) hrdy.exp (by rw [c2.count, c3.depth, hrdy.rep.count]) fun k l hk => by
    obtain ⟨l', d1, d2, d3, d4⟩ := c6 k l hk
    exact ⟨l', d1, d2, d3.trans (hrdy.training l (List.mem_of_getElem? hk)), d4, fun hq => absurd ((c2.layer k l' d1).lt _ hq) (lt_irrefl _)⟩
  refine ⟨s', m', c1, ⟨⟨c2, hrd'.training, hrd'.learns, hrd'.exp, c4⟩, hlike.trans c3, hlen.trans (le_trans (by simp) c5), fun q hq hqp => ?_, fun k l₀ hk => ?_, fun b i hi hb => ?_⟩, fun b i hi hb => ?_⟩
  · have h1 := hkept q hq hqp
    dsimp only at hlen h1
    have h2 := c5' q (by simp; omega) (by omega) h1.2
    exact ⟨(h2.1.trans (List.getElem?_append_left (by omega))).trans h1.1, h2.2⟩
  · obtain ⟨l, k1, k2⟩ := hkinds k l₀ hk
    obtain ⟨l', k3, k4, -⟩ := c6 k l k1
    exact ⟨l', k3, k4.trans k2⟩
  · obtain ⟨D, -, -, W, W', -, -, -, d4⟩ := c7 b i (by rw [← c3.depth]; exact hi) (by rw [← c3.has]; exact hb)
    rw [c3.shape]
    exact d4
  · obtain ⟨D, d1, d2, W, W', d3, d4⟩ := c7 b i (by rw [hlike.depth]; exact hi) (by rw [hlike.has]; exact hb)
    rw [hlike.shape] at d1 d2 d4
    rw [hlike.kind] at d2
    refine ⟨D, d1, d2, W, W', ?_, d4⟩
    obtain ⟨W₂, g1, -⟩ := hrdy.rep.arr (s := ⟨ls, o, hp⟩) (by rw [hlike.depth]; exact hi) (b := b) (by rw [hlike.has]; exact hb)
    rw [g1, ← d3]
    unfold PyTrainState.arr at g1 ⊢
    dsimp only at g1 ⊢
    obtain ⟨l, hl, hg⟩ := Option.bind_eq_some_iff.1 g1
    rw [hl]
    exact (hg.symm.trans (List.getElem?_append_left (List.getElem?_eq_some_iff.1 hg).1).symm)

/-- What may be done after a batch. -/
def PyTrainState.Keeps (s₀ : PyTrainState) (m₀ : Mlp) (f : PyTrainState → Out PyTrainState) : Prop :=
  ∀ s m, s₀.Before m₀ s m → ∃ s', f s = .ok s' ∧ s₀.Before m₀ s' m ∧ s'.o = s.o ∧ ∀ b i, i < m₀.depth → (m₀.ply i).has b = true → s'.arr i b = s.arr i b

/-- Training with a sequence of batches, with something done after each; `Q t` is the state between. -/
theorem pyTrain_chainQ {loss : String} (hl : loss ∈ pyLosses) {m : Mlp} (hok : m.Ok) {s : PyTrainState} (hs : s.Ready m)
    (ho : ∀ b i, i < m.depth → (m.ply i).has b = true → (s.o i b).init = false) (e : Nat → Nat → PyRnd) {N D : Nat → Nat} (hN : ∀ t, 0 < N t) {x y : Nat → Nat → Row} {X T : Nat → NpArr}
    (hX : ∀ t, (X t).Is (N t) (m.width 0) (x t)) (hT : ∀ t, (T t).Is (N t) (D t) (y t)) (hF : ∀ t, TruthFits (pyLossName loss) (m.width m.depth) (D t) (N t) (y t))
    {post : Nat → PyTrainState → Out PyTrainState} (hpost : ∀ t, s.Keeps m (post t)) :
    ∃ (ms : Nat → Mlp) (S : Nat → PyTrainState), ms 0 = m ∧ S 0 = s ∧ Mlp.TrainedBy s.o (pyLossName loss) N x y ms ∧
      (∀ t, ∃ q, pyTrainBatchBy loss (e t) { S t with h := (S t).h ++ [X t] } (S t).h.length (T t) = .ok q ∧ post t q = .ok (S (t + 1)) ∧ s.Before m q (ms (t + 1))) ∧
      ∀ t, s.Before m (S t) (ms t) := by
  obtain ⟨S, S0, hS⟩ := chain_of (σ := PyTrainState × Mlp) (P := fun _ s' => s.Before m s'.1 s'.2)
    (R := fun t s₁ s' => (∃ q, pyTrainBatchBy loss (e t) { s₁.1 with h := s₁.1.h ++ [X t] } s₁.1.h.length (T t) = .ok q ∧ post t q = .ok s'.1 ∧ s.Before m q s'.2) ∧
      ∀ b i, i < m.depth → (m.ply i).has b = true → ∃ D : NpArr, (D.rows = (m.shape b i).1 ∧ D.cols = (m.shape b i).2) ∧
        ((∀ k, k < N t → s₁.2.Regular 1e-8 (pyLossName loss) (x t k) (y t k)) →
          ∃ G', IsGrad (m.shape b i).1 (m.shape b i).2 (fun P => (s₁.2.setPar b i P).error (pyLossName loss) (N t) (x t) (y t)) ((s₁.2.ply i).par b) G' ∧
            ∀ k j, k < (m.shape b i).1 → j < (m.shape b i).2 → D.val k j = (m.ply i).kind.pyRate b (N t) * G' k j) ∧
        s₁.1.Stepped s'.1 b i (m.shape b i).1 (m.shape b i).2 D)
    (fun t s' hs' => by
      obtain ⟨s₁, m₁, c1, c2, c3⟩ := hs'.step hl (e t) hok (hN t) (hX t) (hT t) (hF t)
      obtain ⟨s₂, d1, d2, d3, d4⟩ := hpost t s₁ m₁ c2
      refine ⟨(s₂, m₁), d2, ⟨s₁, c1, d1, c2⟩, fun b i hi hb => ?_⟩
      obtain ⟨D, e1, e2, W, W', e3, e4, e5, e6⟩ := c3 b i hi hb
      refine ⟨D, e1, e2, W, W', e3, ?_, (d4 b i hi hb).trans e5, ?_⟩ <;> dsimp only <;> rw [d3] <;> assumption) (s := (s, m))
    ⟨hs, Mlp.Like.refl m, le_rfl, fun q _ hq => ⟨rfl, hq⟩, fun _ l hl => ⟨l, hl, rfl⟩, fun b i hi hb h => by rw [ho b i hi hb] at h; cases h⟩
  have S0' : (S 0).2 = m := by rw [S0]
  refine ⟨fun t => (S t).2, fun t => (S t).1, S0', congrArg Prod.fst S0, ⟨fun t => ?_, fun b i hi hb => ?_⟩, fun t => (hS t).2.1, fun t => (hS t).1⟩
  · rw [S0']
    exact (hS t).1.like
  · rw [S0'] at hi hb ⊢
    choose D hD using fun t => (hS t).2.2 b i hi hb
    choose W hW using fun t => (hS t).1.ready.rep.arr (s := (S t).1) (b := b) (i := i) (by rw [(hS t).1.like.depth]; exact hi) (by rw [(hS t).1.like.has]; exact hb)
    have h0 : ((S 0).1.o i b) = s.o i b := by rw [S0]
    have hch := PyOpt.chain (ho b i hi hb) (os := fun t => (S t).1.o i b) (W := W) (D := D) (R := (m.shape b i).1) (C := (m.shape b i).2) h0
      (by have := (hW 0).2; rw [S0'] at this; exact ⟨this.1, this.2.1⟩) (fun t => (hD t).1) (fun t => by
        obtain ⟨A, A', a1, a2, a3, -⟩ := (hD t).2.2
        obtain rfl := Option.some.inj (a1.symm.trans (hW t).1)
        obtain rfl := Option.some.inj (a3.symm.trans (hW (t + 1)).1)
        exact a2)
    refine ⟨fun t => (D t).val, fun t => (hD t).2.1, fun V hV t k j hk hj => ?_⟩
    have hin : ∀ t, (W t).val k j = ((S t).2.ply i).par b k j := fun t => (hW t).2.2.2 k j (by rw [(hS t).1.like.shape]; exact hk) (by rw [(hS t).1.like.shape]; exact hj)
    rw [hV.eq (ho b i hi hb), ← hin t, hch t, ← S0', ← hin 0]

/-- The same, without the states between. -/
theorem pyTrain_chain {loss : String} (hl : loss ∈ pyLosses) {m : Mlp} (hok : m.Ok) {s : PyTrainState} (hs : s.Ready m)
    (ho : ∀ b i, i < m.depth → (m.ply i).has b = true → (s.o i b).init = false) (e : Nat → Nat → PyRnd) {N D : Nat → Nat} (hN : ∀ t, 0 < N t) {x y : Nat → Nat → Row} {X T : Nat → NpArr}
    (hX : ∀ t, (X t).Is (N t) (m.width 0) (x t)) (hT : ∀ t, (T t).Is (N t) (D t) (y t)) (hF : ∀ t, TruthFits (pyLossName loss) (m.width m.depth) (D t) (N t) (y t))
    {post : Nat → PyTrainState → Out PyTrainState} (hpost : ∀ t, s.Keeps m (post t)) :
    ∃ (ms : Nat → Mlp) (S : Nat → PyTrainState), ms 0 = m ∧ S 0 = s ∧ Mlp.TrainedBy s.o (pyLossName loss) N x y ms ∧
      (∀ t, ((pyTrainBatchBy loss (e t) { S t with h := (S t).h ++ [X t] } (S t).h.length (T t)).bind (post t)) = .ok (S (t + 1))) ∧ ∀ t, s.Before m (S t) (ms t) := by
  obtain ⟨ms, S, h1, h2, h3, h4, h5⟩ := pyTrain_chainQ hl hok hs ho e hN hX hT hF hpost
  refine ⟨ms, S, h1, h2, h3, fun t => ?_, h5⟩
  obtain ⟨q, q1, q2, -⟩ := h4 t
  rw [q1]
  exact q2

/-- Training with a sequence of batches. -/
theorem pyTrainBatches_ok {loss : String} (hl : loss ∈ pyLosses) {m : Mlp} (hok : m.Ok) {s : PyTrainState} (hs : s.Ready m)
    (ho : ∀ b i, i < m.depth → (m.ply i).has b = true → (s.o i b).init = false) (e : Nat → Nat → PyRnd) {N D : Nat → Nat} (hN : ∀ t, 0 < N t) {x y : Nat → Nat → Row} {X T : Nat → NpArr}
    (hX : ∀ t, (X t).Is (N t) (m.width 0) (x t)) (hT : ∀ t, (T t).Is (N t) (D t) (y t)) (hF : ∀ t, TruthFits (pyLossName loss) (m.width m.depth) (D t) (N t) (y t)) :
    ∃ ms, ms 0 = m ∧ Mlp.TrainedBy s.o (pyLossName loss) N x y ms ∧ ∀ n, ∃ s', pyTrainBatches loss e X T n s = .ok s' ∧ s'.Ready (ms n) ∧
      ∀ q, q < s.h.length → q ∉ s.ls.flatMap PyLayer.params → s'.h[q]? = s.h[q]? := by
  obtain ⟨ms, S, h1, h2, h3, h4, h5⟩ := pyTrain_chain hl hok hs ho e hN hX hT hF (post := fun _ => .ok) fun t s' m' h => ⟨s', rfl, h, rfl, fun _ _ _ _ => rfl⟩
  refine ⟨ms, h1, h3, fun n => ⟨S n, ?_, (h5 n).ready, fun q hq hq' => ((h5 n).kept q hq hq').1⟩⟩
  induction n with
  | zero => rw [h2]; rfl
  | succ n ih =>
    unfold pyTrainBatches at ih ⊢
    rw [forN_succ, ih]
    have := h4 n
    revert this
    change _ → pyTrainBatchBy loss (e n) { S n with h := (S n).h ++ [X n] } (S n).h.length (T n) = _
    generalize pyTrainBatchBy loss (e n) { S n with h := (S n).h ++ [X n] } (S n).h.length (T n) = z
    cases z <;> exact id

/-! ## `fit` -/

theorem PyLayer.init_apart (u : Nat → Nat → ℝ) (C C' : Nat) (l : PyLayer) (h : NpStore) : (l.init u C C' h).1.params.Nodup ∧
    (∀ q ∈ (l.init u C C' h).1.params, h.length ≤ q ∧ q < (l.init u C C' h).2.length) ∧ h.length ≤ (l.init u C C' h).2.length := by
  obtain ⟨k, t, d, dw, w, b, gw, gb⟩ := l
  cases k <;> simp [init, newBias, newWeight, params]

theorem pyInit_apart (u : Nat → Nat → Nat → ℝ) (w : Nat → Nat) : ∀ (ls : List PyLayer) (i : Nat) (h : NpStore), PyApart (pyInit u w ls i h).1 ∧
    (∀ q ∈ (pyInit u w ls i h).1.flatMap PyLayer.params, h.length ≤ q) := by
  intro ls
  induction ls with
  | nil => exact fun i h => ⟨List.nodup_nil, fun q hq => by simp [pyInit] at hq⟩
  | cons l ls ih =>
    intro i h
    obtain ⟨a1, a2, a3⟩ := l.init_apart (u i) (w i) (w (i + 1)) h
    obtain ⟨b1, b2⟩ := ih (i + 1) (l.init (u i) (w i) (w (i + 1)) h).2
    have e : (pyInit u w (l :: ls) i h).1 = (l.init (u i) (w i) (w (i + 1)) h).1 :: (pyInit u w ls (i + 1) (l.init (u i) (w i) (w (i + 1)) h).2).1 := rfl
    rw [e]
    refine ⟨?_, fun q hq => ?_⟩
    · rw [PyApart, List.flatMap_cons, List.nodup_append]
      exact ⟨a1, b1, fun a ha b hb hab => by have h1 := (a2 a ha).2; have h2 := b2 b hb; omega⟩
    · rw [List.flatMap_cons, List.mem_append] at hq
      rcases hq with hq | hq
      · exact (a2 q hq).1
      · exact a3.trans (b2 q hq)

theorem flat_params {ls ls' : List PyLayer} (hlen : ls'.length = ls.length) (h : ∀ (k : Nat) (l : PyLayer), ls[k]? = some l → ∃ l', ls'[k]? = some l' ∧ l.Alike l') :
    ls'.flatMap PyLayer.params = ls.flatMap PyLayer.params := by
  have : ls'.map PyLayer.params = ls.map PyLayer.params := by
    refine List.ext_getElem (by simp [hlen]) fun k h1 h2 => ?_
    rw [List.getElem_map, List.getElem_map]
    obtain ⟨l'', c1, c2⟩ := h k _ (List.getElem?_eq_getElem (by simpa using h2))
    rw [List.getElem?_eq_getElem (by simpa using h1)] at c1
    obtain rfl := Option.some.inj c1
    exact c2.params
  rw [List.flatMap_def, this, ← List.flatMap_def]

/-- The prediction for the accuracy. -/
theorem PyTrainState.keeps_predict {s₀ : PyTrainState} {m₀ : Mlp} {x N : Nat} {v : Nat → Row} (hN : 0 < N) (hX : s₀.h.Has x N (m₀.width 0) v) (hx : x ∉ s₀.ls.flatMap PyLayer.params)
    (h0 : 0 < s₀.ls.length) (hk : ∀ l, s₀.ls[0]? = some l → l.keeps = false) (e : Nat → PyRnd) :
    s₀.Keeps m₀ fun s => (pyPredict e s.ls x s.h).bind fun z => .ok { s with ls := z.2.1, h := z.2.2 } := by
  intro s m h
  have hxk := h.kept x hX.lt hx
  have hrd : PyReady s.ls x := ⟨h.ready.training, h.ready.learns, fun l hl hq => hxk.2 (mem_params hl hq), h.ready.exp⟩
  have hX' : s.h.Has x N (m.width 0) v := by
    rw [h.like.width]
    exact hX.congr hxk.1
  have hfirst : ∀ l, s.ls[0]? = some l → l.keeps = false := fun l hl => by
    obtain ⟨l', k1, k2⟩ := h.kinds 0 _ (List.getElem?_eq_getElem h0)
    obtain rfl := Option.some.inj (k1.symm.trans hl)
    rw [keeps_kind k2]
    exact hk _ (List.getElem?_eq_getElem h0)
  obtain ⟨r, ls', h', p1, p2, p3, p4, p5⟩ := pyPredict_train h.ready.rep hrd hN hX' e
  have hcell : ∀ q, q < s.h.length → h'[q]? = s.h[q]? := fun q hq => p3 q hq fun _ => hfirst
  have hflat := flat_params p4 p5
  have hrd' := PyReady.of (ls' := ls') (x := x) h.ready.exp p4 fun k l hk => by
    obtain ⟨l', c1, c2⟩ := p5 k l hk
    have hm := List.mem_of_getElem? hk
    exact ⟨l', c1, c2.1, c2.2.1.trans (h.ready.training l hm), c2.learns (h.ready.learns l hm), by rw [c2.params]; exact hrd.apart l hm⟩
  refine ⟨{ s with ls := ls', h := h' }, by dsimp only; rw [p1]; rfl, ⟨⟨⟨p4.trans h.ready.rep.count, h.ready.rep.pos, fun i l hi => ?_⟩, hrd'.training, hrd'.learns, hrd'.exp, ?_⟩, h.like,
    h.length.trans p2, fun q hq hq' => ?_, fun k l₀ hk => ?_, h.fits⟩, rfl, fun b i hi hb => ?_⟩
  · have hlt' := (List.getElem?_eq_some_iff.1 hi).1
    dsimp only at hlt'
    rw [p4] at hlt'
    obtain ⟨l', c1, c2⟩ := p5 i _ (List.getElem?_eq_getElem hlt')
    obtain rfl := Option.some.inj (c1.symm.trans hi)
    have hsh := h.ready.rep.layer i _ (List.getElem?_eq_getElem hlt')
    exact c2.shows (hsh.congr fun q hq => hcell q (hsh.lt q hq))
  · dsimp only
    rw [PyApart, hflat]
    exact h.ready.apart
  · have h1 := h.kept q hq hq'
    refine ⟨(hcell q (hq.trans_le h.length)).trans h1.1, ?_⟩
    dsimp only
    rw [hflat]
    exact h1.2
  · obtain ⟨l, k1, k2⟩ := h.kinds k l₀ hk
    obtain ⟨l', c1, c2⟩ := p5 k l k1
    exact ⟨l', c1, c2.1.trans k2⟩
  · obtain ⟨l, hl⟩ : ∃ l, s.ls[i]? = some l := ⟨_, List.getElem?_eq_getElem (by rw [h.ready.rep.count, h.like.depth]; exact hi)⟩
    obtain ⟨l', c1, c2⟩ := p5 i l hl
    have hsh := h.ready.rep.layer i l hl
    have hmem := PyLayer.param_mem hsh (b := b) (by rw [h.like.has]; exact hb)
    unfold PyTrainState.arr
    dsimp only
    rw [c1, hl]
    change h'[l'.param b]? = s.h[l.param b]?
    rw [show l'.param b = l.param b by unfold PyLayer.param; rw [c2.2.2.1, c2.2.2.2.1]]
    exact hcell _ (hsh.lt _ hmem)

/-- A model after `init`. -/
theorem pyInit_ready (u : Nat → Nat → Nat → ℝ) {ls : List PyLayer} {m : Mlp} (hm : PyModel ls m) (h : NpStore) (o : Nat → Bool → PyOpt) :
    ∃ s : PyTrainState, pyInit u m.width (ls.map fun l => { l with training := true }) 0 h = (s.ls, s.h) ∧ s.o = o ∧ s.Ready (m.xavier u) ∧ h.length ≤ s.h.length ∧
      (∀ q, q < h.length → s.h[q]? = h[q]? ∧ q ∉ s.ls.flatMap PyLayer.params) ∧ ∀ (k : Nat) (l : PyLayer), s.ls[k]? = some l → ∃ l₀, ls[k]? = some l₀ ∧ l.kind = l₀.kind := by
  obtain ⟨a1, a2⟩ := pyInit_apart u m.width (ls.map fun l => { l with training := true }) 0 h
  obtain ⟨ls₁, h₁, i1, i2, i3, i4, i5⟩ := pyInit_ok u (m := m) (ls.map fun l => { l with training := true }) 0 h fun k l hk => by
    rw [List.getElem?_map, Option.map_eq_some_iff] at hk
    obtain ⟨l₀, k1, rfl⟩ := hk
    rw [Nat.zero_add]
    exact hm.made k l₀ k1
  rw [List.length_map] at i2
  rw [i1] at a1 a2
  have i6 : ∀ (k : Nat) (l : PyLayer), ls[k]? = some l → ∃ l', ls₁[k]? = some l' ∧ PyLayer.Moved { l with training := true } h h₁ l' ∧
      l'.Shows h₁ ((m.xavier u).ply k) (m.width k) (m.width (k + 1)) := fun k l hk => by
    have := i5 k { l with training := true } (by rw [List.getElem?_map, hk]; rfl)
    rwa [Nat.zero_add] at this
  have back : ∀ (k : Nat) (l' : PyLayer), ls₁[k]? = some l' → ∃ l, ls[k]? = some l ∧ PyLayer.Moved { l with training := true } h h₁ l' ∧
      l'.Shows h₁ ((m.xavier u).ply k) (m.width k) (m.width (k + 1)) := fun k l' hk => by
    have hlt := (List.getElem?_eq_some_iff.1 hk).1
    rw [i2] at hlt
    obtain ⟨l₂, g1, g2⟩ := i6 k _ (List.getElem?_eq_getElem hlt)
    obtain rfl := Option.some.inj (g1.symm.trans hk)
    exact ⟨_, List.getElem?_eq_getElem hlt, g2⟩
  have hrd : PyReady ls₁ h₁.length := .of hm.exp i2 fun k l hk => by
    obtain ⟨l', g1, g2, g3⟩ := i6 k l hk
    exact ⟨l', g1, g2.kind, g2.training, g2.learns (hm.learns l (List.mem_of_getElem? hk)), fun hq => absurd (g3.lt _ hq) (lt_irrefl _)⟩
  refine ⟨⟨ls₁, o, h₁⟩, i1, rfl, ⟨⟨i2.trans hm.count, hm.ok.pos, fun i l hi => ?_⟩, hrd.training, hrd.learns, hrd.exp, a1⟩, i3, fun q hq => ⟨i4 q hq, fun hq' => ?_⟩, fun k l hk => ?_⟩
  · obtain ⟨l₀, -, -, g3⟩ := back i l hi
    exact g3
  · have := a2 q hq'
    omega
  · obtain ⟨l₀, g1, g2, -⟩ := back k l hk
    exact ⟨l₀, g1, g2.kind⟩

/-- `fit` with any optimizer. -/
theorem pyFitBy_ok {loss : String} (hl : loss ∈ pyLosses) (k : PyOptKind) (epochs batchSize : Nat) (acc : Bool) (r : PyFitRnd) {ls : List PyLayer} {m : Mlp} (hm : PyModel ls m)
    (hacc : acc = true → ∀ l, ls[0]? = some l → l.keeps = false) {h : NpStore} {x N D : Nat} (hN : 0 < N) {v y : Nat → Row} (hX : h.Has x N (m.width 0) v) {t : NpArr} (ht : t.Is N D y)
    (hT : TruthFits (pyLossName loss) (m.width m.depth) D N y) (hσ : ∀ ep, ((List.range N).map (r.perm ep)).Perm (List.range N)) {B nb : Nat}
    (hB : B = if batchSize = 0 then N else batchSize) (hnb : nb = nbBatches N B) :
    ∃ (s' : PyTrainState) (ms : Nat → Mlp), pyFitBy loss k epochs batchSize acc r m.width ls x t h = .ok s' ∧ ms 0 = m.xavier r.init ∧ PyRep s'.h s'.ls (ms (epochs * nb)) ∧
      Mlp.TrainedBy (fun _ _ => PyOpt.new k) (pyLossName loss) (fun u => batchEnd N B (u % nb) - batchStart B (u % nb))
        (fun u i => v (r.perm (u / nb) (batchStart B (u % nb) + i))) (fun u i => y (r.perm (u / nb) (batchStart B (u % nb) + i))) ms ∧
      (∀ l ∈ s'.ls, l.training = false) ∧ ∀ q, q < h.length → s'.h[q]? = h[q]? := by
  have hBpos : 0 < B := by rw [hB]; split <;> omega
  have hnpos : 0 < nb := by rw [hnb]; exact Nat.div_pos (by omega) hBpos
  have hstart : ∀ u, batchStart B (u % nb) < batchEnd N B (u % nb) := fun u => by
    have h1 : u % nb < nb := Nat.mod_lt _ hnpos
    generalize u % nb = a at h1
    rw [hnb] at h1
    have h2 := (Nat.le_div_iff_mul_le hBpos).1 (show a + 1 ≤ _ from h1)
    unfold batchStart batchEnd
    rw [Nat.add_mul, Nat.one_mul] at h2 ⊢
    omega
  have hend : ∀ j, batchEnd N B j = min (j * B + B) N := fun j => by unfold batchEnd; rw [Nat.add_mul, Nat.one_mul]
  have hlt : ∀ u i, i < batchEnd N B (u % nb) - batchStart B (u % nb) → r.perm (u / nb) (batchStart B (u % nb) + i) < N := fun u i hi =>
    List.mem_range.1 ((hσ _).mem_iff.1 (List.mem_map.2 ⟨_, List.mem_range.2 (by have := hend (u % nb); omega), rfl⟩))
  obtain ⟨s, i1, i2, i3, i4, i5, i6⟩ := pyInit_ready r.init hm h (fun _ _ => PyOpt.new k)
  obtain ⟨X, hX0, hX2⟩ := hX
  have hxlt : x < h.length := (List.getElem?_eq_some_iff.1 hX0).1
  have hsx : s.h[x]? = some X := (i5 x hxlt).1.trans hX0
  have hlike : Mlp.Like m (m.xavier r.init) := ⟨rfl, rfl, fun _ => rfl⟩
  let post : Nat → PyTrainState → Out PyTrainState := fun u =>
    if acc = true ∧ u % nb + 1 = nb then fun s => (pyPredict (r.test (u / nb)) s.ls x s.h).bind fun z => .ok { s with ls := z.2.1, h := z.2.2 } else .ok
  have hpost : ∀ u, s.Keeps (m.xavier r.init) (post u) := fun u => by
    by_cases hc : acc = true ∧ u % nb + 1 = nb
    · rw [show post u = fun s => (pyPredict (r.test (u / nb)) s.ls x s.h).bind fun z => .ok { s with ls := z.2.1, h := z.2.2 } from if_pos hc]
      refine PyTrainState.keeps_predict (m₀ := m.xavier r.init) hN ⟨X, hsx, hX2⟩ (i5 x hxlt).2 (by rw [i3.rep.count]; exact hm.ok.depth) (fun l hl' => ?_) _
      obtain ⟨l₀, k1, k2⟩ := i6 0 l hl'
      rw [keeps_kind k2]
      exact hacc hc.1 l₀ k1
    · rw [show post u = .ok from if_neg hc]
      exact fun s' m' h => ⟨s', rfl, h, rfl, fun _ _ _ _ => rfl⟩
  obtain ⟨ms, S, h1, h2, h3, h4, h5⟩ := pyTrain_chain hl (hlike.ok hm.ok) i3 (fun b i _ _ => by rw [i2]; cases k <;> rfl) (fun u => r.batch (u / nb) (u % nb))
    (N := fun u => batchEnd N B (u % nb) - batchStart B (u % nb)) (D := fun _ => D) (fun u => by have := hstart u; omega)
    (x := fun u i => v (r.perm (u / nb) (batchStart B (u % nb) + i))) (y := fun u i => y (r.perm (u / nb) (batchStart B (u % nb) + i)))
    (X := fun u => npTake X (r.perm (u / nb)) (batchStart B (u % nb)) (batchEnd N B (u % nb))) (T := fun u => npTake t (r.perm (u / nb)) (batchStart B (u % nb)) (batchEnd N B (u % nb)))
    (fun u => npTake_is hX2 (hlt u)) (fun u => npTake_is ht (hlt u)) (fun u => hT.some (hlt u)) (post := post) hpost
  have hdiv : ∀ ep j, j < nb → (ep * nb + j) / nb = ep ∧ (ep * nb + j) % nb = j := fun ep j hj => by
    rw [Nat.mul_comm]
    exact ⟨by rw [Nat.mul_add_div hnpos, Nat.div_eq_of_lt hj, Nat.add_zero], by rw [Nat.mul_add_mod, Nat.mod_eq_of_lt hj]⟩
  have hstep : ∀ ep j, j < nb → (pyTrainBatchBy loss (r.batch ep j) { S (ep * nb + j) with h := (S (ep * nb + j)).h ++ [npTake X (r.perm ep) (j * B) (min (j * B + B) N)] }
      (S (ep * nb + j)).h.length (npTake t (r.perm ep) (j * B) (min (j * B + B) N))).bind (post (ep * nb + j)) = .ok (S (ep * nb + j + 1)) := fun ep j hj => by
    have := h4 (ep * nb + j)
    rw [(hdiv ep j hj).1, (hdiv ep j hj).2, hend] at this
    exact this
  have hepoch : ∀ ep, pyEpochBy loss B acc r x t ep (S (ep * nb)) = .ok (S ((ep + 1) * nb)) := fun ep => by
    have hload : (S (ep * nb)).h.load x = .ok X := PyLayer.load_some (((h5 (ep * nb)).kept x (hxlt.trans_le i4) (i5 x hxlt).2).1.trans hsx)
    have hchk : npCheck (X.rows ≤ t.rows) = .ok () := by rw [npCheck, if_pos (by rw [hX2.1, ht.1])]
    have hin : ∀ j, j < nb → forN j (fun k s => pyTrainBatchBy loss (r.batch ep k) { s with h := s.h ++ [npTake X (r.perm ep) (k * B) (min (k * B + B) N)] } s.h.length
        (npTake t (r.perm ep) (k * B) (min (k * B + B) N))) (S (ep * nb)) = .ok (S (ep * nb + j)) := by
      intro j
      induction j with
      | zero => exact fun _ => rfl
      | succ j ih =>
        intro hj
        rw [forN_succ, ih (by omega)]
        have h6 := hstep ep j (by omega)
        rw [show post (ep * nb + j) = .ok from if_neg (by rw [(hdiv ep j (by omega)).2]; omega)] at h6
        change pyTrainBatchBy loss (r.batch ep j) { S (ep * nb + j) with h := (S (ep * nb + j)).h ++ [npTake X (r.perm ep) (j * B) (min (j * B + B) N)] }
          (S (ep * nb + j)).h.length (npTake t (r.perm ep) (j * B) (min (j * B + B) N)) = _
        revert h6
        generalize pyTrainBatchBy loss (r.batch ep j) { S (ep * nb + j) with h := (S (ep * nb + j)).h ++ [npTake X (r.perm ep) (j * B) (min (j * B + B) N)] }
          (S (ep * nb + j)).h.length (npTake t (r.perm ep) (j * B) (min (j * B + B) N)) = z
        cases z <;> exact id
    obtain ⟨j, rfl⟩ : ∃ j, nb = j + 1 := ⟨nb - 1, by omega⟩
    have h6 := hstep ep j (by omega)
    have h7 := hin j (by omega)
    unfold pyEpochBy
    rw [hload, bind_ok', hchk, bind_ok', hX2.1]
    change (forN (nbBatches N B) _ _).bind _ = _
    rw [← hnb, forN_succ, h7]
    rw [show ep * (j + 1) + j + 1 = (ep + 1) * (j + 1) by ring] at h6
    change (pyTrainBatchBy loss (r.batch ep j) { S (ep * (j + 1) + j) with h := (S (ep * (j + 1) + j)).h ++ [npTake X (r.perm ep) (j * B) (min (j * B + B) N)] }
      (S (ep * (j + 1) + j)).h.length (npTake t (r.perm ep) (j * B) (min (j * B + B) N))).bind _ = _
    rw [← h6]
    congr 1
    funext s'
    cases acc with
    | false => rw [show post (ep * (j + 1) + j) = .ok from if_neg (by simp)]; rfl
    | true =>
      rw [show post (ep * (j + 1) + j) = fun s => (pyPredict (r.test ((ep * (j + 1) + j) / (j + 1))) s.ls x s.h).bind fun z => .ok { s with ls := z.2.1, h := z.2.2 } from
        if_pos ⟨rfl, by rw [(hdiv ep j (by omega)).2]⟩, (hdiv ep j (by omega)).1]
      rfl
  have hall : forN epochs (pyEpochBy loss B acc r x t) s = .ok (S (epochs * nb)) := by
    clear hσ
    induction epochs with
    | zero => rw [Nat.zero_mul, h2]; rfl
    | succ n ih =>
      rw [forN_succ, ih]
      exact hepoch n
  have h6 := h5 (epochs * nb)
  refine ⟨{ S (epochs * nb) with ls := (S (epochs * nb)).ls.map fun l => { l with training := false } }, ms, ?_, h1, ⟨by dsimp only; rw [List.length_map]; exact h6.ready.rep.count, h6.ready.rep.pos, fun i l hi => ?_⟩,
    by rw [i2] at h3; exact h3, fun l hl' => ?_, fun q hq => ((h6.kept q (hq.trans_le i4) (i5 q hq).2).1).trans (i5 q hq).1⟩
  · unfold pyFitBy
    rw [i1]
    dsimp only
    rw [PyLayer.load_some hsx, bind_ok', hX2.1, ← hB, ← i2, hall, bind_ok']
  · rw [List.getElem?_map, Option.map_eq_some_iff] at hi
    obtain ⟨l₀, h7, rfl⟩ := hi
    exact h6.ready.rep.layer i l₀ h7
  · obtain ⟨l₀, h7, rfl⟩ := List.mem_map.1 hl'
    rfl

end BeeDNN
