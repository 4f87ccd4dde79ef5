import Verif.Spec.PyOptimizer
import Verif.Lemmas.PyLib
import Mathlib.Tactic.Linarith
import Mathlib.Tactic.Ring
import Mathlib.Tactic.FieldSimp
import Mathlib.Tactic.NormNum

/-! # Runs of the optimizers of the Python library, cell by cell -/

namespace BeeDNN
open Finset

theorem npZip_mk (f : ℝ → ℝ → ℝ) (R C : Nat) (a b : Nat → Nat → ℝ) :
    npZip f ⟨R, C, a⟩ ⟨R, C, b⟩ = .ok ⟨R, C, fun i j => f (a i j) (b i j)⟩ := by
  simp [npZip, npCheck, bind_ok']

/-- The first memory of a cell. -/
noncomputable def pyFresh (k : PyOptKind) (w d : ℝ) : Coord ℝ :=
  match k with
  | .momentum | .momentumNg => ⟨w, d, 0, 0⟩
  | .rpropm => ⟨w, 0.0125, d, 0⟩
  | _ => ⟨w, 0, 0, 0⟩

/-- Does the class keep the powers of `beta1`? -/
def PyOptKind.prod1 : PyOptKind → Bool
  | .adam | .adamW | .nadam | .adamax => true
  | _ => false

/-- Does the class keep the powers of `beta2`? -/
def PyOptKind.prod2 : PyOptKind → Bool
  | .adam | .adamW | .nadam => true
  | _ => false

/-- The power of `beta1` at step `n`. -/
noncomputable def PyOpt.p1 (o : PyOpt) (n : Nat) : ℝ := if o.kind.prod1 then o.beta1 ^ (n + 1) else o.beta1
/-- The power of `beta2` at step `n`. -/
noncomputable def PyOpt.p2 (o : PyOpt) (n : Nat) : ℝ := if o.kind.prod2 then o.beta2 ^ (n + 1) else o.beta2

/-- The update of one cell. -/
noncomputable def PyOpt.cell (o : PyOpt) (n : Nat) (s : Coord ℝ) (d : ℝ) : Coord ℝ :=
  match o.kind with
  | .step => { s with w := s.w - npSign d * o.lr }
  | .sgd => { s with w := s.w - d * o.lr }
  | .momentum =>
    let v := s.v * o.momentum + d * o.lr
    { s with w := s.w - v, v := v }
  | .momentumNg =>
    let v := s.v * o.momentum + d * (1 - o.momentum)
    { s with w := s.w - v * o.lr, v := v }
  | .nesterov =>
    let v := o.momentum * s.v - o.lr * d
    { s with w := s.w + (-o.momentum * s.v + (1 + o.momentum) * v), v := v }
  | .rpropm =>
    let sg := npSign (d * s.m)
    let mu := if sg < 0 then s.v * 0.5 else s.v
    let mu := if sg > 0 then mu * 1.2 else mu
    let mu := min (max mu 1e-6) 50
    { s with w := s.w - mu * npSign d, v := mu, m := d }
  | .adam =>
    let m := s.m * o.beta1 + (1 - o.beta1) * d
    let v := s.v * o.beta2 + (1 - o.beta2) * d ^ 2
    { s with w := s.w - o.lr / (1 - o.p1 n) * m / (√(v / (1 - o.p2 n)) + o.epsilon), m := m, v := v }
  | .adamW =>
    let m := s.m * o.beta1 + (1 - o.beta1) * d
    let v := s.v * o.beta2 + (1 - o.beta2) * d ^ 2
    { s with w := s.w - (o.lr / (1 - o.p1 n) * m / (√(v / (1 - o.p2 n)) + o.epsilon) + o.lambda * s.w), m := m, v := v }
  | .adamax =>
    let m := s.m * o.beta1 + (1 - o.beta1) * d
    let v := max (o.beta2 * s.v) |d| + o.epsilon
    { s with w := s.w - o.lr / (1 - o.p1 n) * m / v, m := m, v := v }
  | .nadam =>
    let m := s.m * o.beta1 + (1 - o.beta1) * d
    let v := s.v * o.beta2 + (1 - o.beta2) * d ^ 2
    let mHat := m / (1 - o.p1 n) + (1 - o.beta1) * d / (1 - o.p1 n)
    { s with w := s.w - o.lr * mHat / (√(v / (1 - o.p2 n)) + o.epsilon), m := m, v := v }
  | .amsgrad =>
    let m := s.m * o.beta1 + (1 - o.beta1) * d
    let v := s.v * o.beta2 + (1 - o.beta2) * d ^ 2
    let vh := max v s.vh
    { s with w := s.w - o.lr * m / (√vh + o.epsilon), m := m, v := v, vh := vh }

/-- One cell after `n` updates. -/
noncomputable def PyOpt.cells (o : PyOpt) (w : ℝ) (d : Nat → ℝ) : Nat → Coord ℝ
  | 0 => pyFresh o.kind w (d 0)
  | n + 1 => o.cell n (o.cells w d n) (d n)

/-- The object ready for step `n`. -/
noncomputable def PyOpt.at (o : PyOpt) (R C : Nat) (c : Nat → Nat → Nat → Coord ℝ) (n : Nat) : PyOpt :=
  { o with
    init := true
    v := ⟨R, C, fun i j => (c n i j).v⟩
    m := ⟨R, C, fun i j => (c n i j).m⟩
    vHat := ⟨R, C, fun i j => (c n i j).vh⟩
    beta1Prod := o.p1 n
    beta2Prod := o.p2 n }

theorem pyFresh_w (k : PyOptKind) (w d : ℝ) : (pyFresh k w d).w = w := by cases k <;> rfl

theorem PyOpt.start_fresh {o : PyOpt} (h0 : o.init = false) (R C : Nat) (w : Nat → Nat → ℝ) (D : Nat → Nat → Nat → ℝ) :
    o.start ⟨R, C, w⟩ ⟨R, C, D 0⟩ = o.at R C (fun n i j => o.cells (w i j) (fun t => D t i j) n) 0 := by
  obtain ⟨k, i, lr, mo, b1, b2, e, la, q1, q2, v, m, vh⟩ := o
  dsimp only at h0
  subst h0
  cases k <;> simp [PyOpt.start, PyOpt.at, PyOpt.cells, pyFresh, NpArr.map, PyOpt.p1, PyOpt.p2, PyOptKind.prod1, PyOptKind.prod2]

theorem PyOpt.update_at (o : PyOpt) (R C : Nat) (c : Nat → Nat → Nat → Coord ℝ) (n : Nat) (d : Nat → Nat → ℝ)
    (hc : ∀ i j, c (n + 1) i j = o.cell n (c n i j) (d i j)) :
    (o.at R C c n).update ⟨R, C, fun i j => (c n i j).w⟩ ⟨R, C, d⟩ = .ok (o.at R C c (n + 1), ⟨R, C, fun i j => (c (n + 1) i j).w⟩) := by
  obtain ⟨k, i, lr, mo, b1, b2, e, la, q1, q2, v, m, vh⟩ := o
  simp only [PyOpt.at, hc]
  cases k <;> simp [PyOpt.update, PyOpt.cell, npZip_mk, bind_ok', NpArr.map, PyOpt.p1, PyOpt.p2, PyOptKind.prod1, PyOptKind.prod2, PyOpt.firstMoment,
    PyOpt.secondMoment, pow_succ]

theorem PyOpt.run_ok {o : PyOpt} (h0 : o.init = false) (R C : Nat) (w : Nat → Nat → ℝ) (D : Nat → Nat → Nat → ℝ) {r : Nat} {h : NpStore}
    (hr : h[r]? = some ⟨R, C, w⟩) (n : Nat) :
    ∃ o' r' h', o.run r (fun t => ⟨R, C, D t⟩) n h = .ok (o', r', h') ∧
      h'[r']? = some ⟨R, C, fun i j => (o.cells (w i j) (fun t => D t i j) n).w⟩ ∧
      (o.kind.inPlace = true → r' = r) ∧ (∀ q, q < h.length → o.kind.inPlace = false ∨ q ≠ r → h'[q]? = h[q]?) ∧
      h.length ≤ h'.length ∧ (o.kind.inPlace = false → n ≠ 0 → h.length ≤ r') ∧
      o'.start ⟨R, C, fun i j => (o.cells (w i j) (fun t => D t i j) n).w⟩ ⟨R, C, D n⟩ = o.at R C (fun n i j => o.cells (w i j) (fun t => D t i j) n) n := by
  induction n with
  | zero =>
    refine ⟨o, r, h, rfl, ?_, fun _ => rfl, fun _ _ _ => rfl, le_rfl, fun _ h => absurd rfl h, ?_⟩
    · simpa [PyOpt.cells, pyFresh_w] using hr
    · simpa [PyOpt.cells, pyFresh_w] using PyOpt.start_fresh h0 R C w D
  | succ n ih =>
    obtain ⟨o1, r1, h1, e1, e2, e3, e4, e5, e6, e7⟩ := ih
    have hl : r1 < h1.length := (List.getElem?_eq_some_iff.mp e2).1
    have hu := PyOpt.update_at o R C (fun n i j => o.cells (w i j) (fun t => D t i j) n) n (D n) (fun i j => rfl)
    have hs : ∀ W d, (o.at R C (fun n i j => o.cells (w i j) (fun t => D t i j) n) (n + 1)).start W d =
        o.at R C (fun n i j => o.cells (w i j) (fun t => D t i j) n) (n + 1) := fun W d => by simp [PyOpt.start, PyOpt.at]
    have hk : (o.at R C (fun n i j => o.cells (w i j) (fun t => D t i j) n) (n + 1)).kind = o.kind := rfl
    have hopt : o1.optimize r1 ⟨R, C, D n⟩ h1 = if o.kind.inPlace then
        .ok (o.at R C (fun n i j => o.cells (w i j) (fun t => D t i j) n) (n + 1), r1,
          h1.set r1 ⟨R, C, fun i j => (o.cells (w i j) (fun t => D t i j) (n + 1)).w⟩)
        else .ok (o.at R C (fun n i j => o.cells (w i j) (fun t => D t i j) n) (n + 1), h1.length,
          h1 ++ [⟨R, C, fun i j => (o.cells (w i j) (fun t => D t i j) (n + 1)).w⟩]) := by
      simp only [PyOpt.optimize, NpStore.load, e2, bind_ok', e7, hu, hk]
    have hrun : o.run r (fun t => ⟨R, C, D t⟩) (n + 1) h = o1.optimize r1 ⟨R, C, D n⟩ h1 := by
      unfold PyOpt.run at e1 ⊢
      rw [forN_succ, e1]
      rfl
    rw [hrun, hopt]
    by_cases hi : o.kind.inPlace = true
    · rw [if_pos hi]
      have hrr := e3 hi
      subst hrr
      refine ⟨_, _, _, rfl, ?_, fun _ => rfl, fun q hq hqr => ?_, by simpa using e5, fun h => by rw [hi] at h; exact absurd h (by decide), hs _ _⟩
      · rw [List.getElem?_set_self hl]
      · have : q ≠ r1 := hqr.resolve_left (by rw [hi]; decide)
        rw [List.getElem?_set_ne (Ne.symm this)]
        exact e4 q hq hqr
    · rw [if_neg hi]
      refine ⟨_, _, _, rfl, ?_, fun h => absurd h hi, fun q hq hqr => ?_, by simp; omega, fun _ _ => e5, hs _ _⟩
      · simp
      · rw [List.getElem?_append_left (lt_of_lt_of_le hq e5)]
        exact e4 q hq hqr

/-- Runs of an object follow the rule of a cell. -/
theorem PyOpt.gives_cells {o : PyOpt} (h0 : o.init = false) : o.Gives fun n w d => (o.cells w d n).w := by
  intro R C w D n r h hr
  obtain ⟨o', r', h', a, b, c, d, -⟩ := PyOpt.run_ok h0 R C w D hr n
  exact ⟨o', r', h', a, b, c, d⟩

theorem PyOpt.Gives.congr {o : PyOpt} {W W' : Nat → ℝ → (Nat → ℝ) → ℝ} (h : o.Gives W) (e : ∀ n w d, W n w d = W' n w d) : o.Gives W' := by
  have : W = W' := by funext n w d; exact e n w d
  exact this ▸ h

/-! ## The C++ rule -/

/-- The memory of the C++ rule. -/
noncomputable def PyOpt.cpp (o : PyOpt) (w : ℝ) (d : Nat → ℝ) (n : Nat) : Coord ℝ := Coord.run Real.sqrt (|·|) o.hyper o.kind.cpp w d n

theorem npSign_neg_iff (x : ℝ) : npSign x < 0 ↔ x < 0 := by
  unfold npSign
  split_ifs with h1 h2
  · constructor <;> intro h <;> linarith
  · simp [h2]
  · simp [h2]

theorem npSign_pos_iff (x : ℝ) : npSign x > 0 ↔ 0 < x := by
  unfold npSign
  split_ifs with h1 h2
  · simp [h1]
  · constructor <;> intro h <;> linarith
  · simp [h1]

theorem againstSign_eq (w mu d : ℝ) : w - mu * npSign d = againstSign w mu d := by
  unfold npSign againstSign
  split_ifs <;> ring

theorem py_rprop_size {mu : ℝ} (h1 : 1e-6 ≤ mu) (h2 : mu ≤ 50) (d p : ℝ) :
    min (max (if npSign (d * p) > 0 then (if npSign (d * p) < 0 then mu * 0.5 else mu) * 1.2 else if npSign (d * p) < 0 then mu * 0.5 else mu) 1e-6) 50 =
      rpropSize mu d p := by
  simp only [npSign_neg_iff, npSign_pos_iff, rpropSize]
  rcases lt_trichotomy (d * p) 0 with h | h | h
  · rw [if_neg (not_lt.mpr h.le), if_pos h, if_pos h, min_eq_left]
    refine max_le ?_ (by norm_num)
    norm_num
    linarith
  · rw [if_neg (by rw [h]; exact lt_irrefl _), if_neg (by rw [h]; exact lt_irrefl _), if_neg (by rw [h]; exact lt_irrefl _),
      if_neg (by rw [h]; exact lt_irrefl _), max_eq_left h1, min_eq_left h2]
  · rw [if_pos h, if_neg (not_lt.mpr h.le), if_neg (not_lt.mpr h.le), if_pos h, max_eq_left]
    norm_num at h1 ⊢
    linarith

theorem py_rpropSize_bounds {mu : ℝ} (h1 : 1e-6 ≤ mu) (h2 : mu ≤ 50) (d p : ℝ) : 1e-6 ≤ rpropSize mu d p ∧ rpropSize mu d p ≤ 50 := by
  norm_num [rpropSize] at *
  split_ifs
  · exact ⟨le_max_right _ _, max_le (by linarith) (by norm_num)⟩
  · exact ⟨le_min (by linarith) (by norm_num), min_le_right _ _⟩
  · exact ⟨h1, h2⟩

theorem PyOpt.cpp_succ (o : PyOpt) (w : ℝ) (d : Nat → ℝ) (n : Nat) :
    o.cpp w d (n + 1) = Coord.step Real.sqrt (|·|) o.hyper o.kind.cpp n (o.cpp w d n) (d n) := rfl

/-- For these classes the rules agree. -/
theorem PyOpt.cell_cpp {o : PyOpt} (hk : o.kind ∈ [.sgd, .momentumNg, .nesterov, .rpropm]) (n : Nat) (s : Coord ℝ)
    (hs : o.kind = .rpropm → 1e-6 ≤ s.v ∧ s.v ≤ 50) (d : ℝ) :
    o.cell n s d = Coord.step Real.sqrt (|·|) o.hyper o.kind.cpp n s d := by
  obtain ⟨k, i, lr, mo, b1, b2, e, la, q1, q2, v, m, vh⟩ := o
  dsimp only at hk hs
  fin_cases hk
  · simp [PyOpt.cell, PyOptKind.cpp, Coord.step, PyOpt.hyper, mul_comm]
  · simp [PyOpt.cell, PyOptKind.cpp, Coord.step, PyOpt.hyper, mul_comm]
  · simp only [PyOpt.cell, PyOptKind.cpp, Coord.step, PyOpt.hyper]
    congr 1
    ring
  · obtain ⟨h1, h2⟩ := hs rfl
    simp only [PyOpt.cell, PyOptKind.cpp, Coord.step, againstSign_eq, py_rprop_size h1 h2]

theorem PyOpt.cells_cpp {o : PyOpt} (hk : o.kind ∈ [.sgd, .momentumNg, .nesterov, .rpropm]) (w : ℝ) (d : Nat → ℝ) (n : Nat) :
    o.cells w d n = o.cpp w d n ∧ (o.kind = .rpropm → 1e-6 ≤ (o.cells w d n).v ∧ (o.cells w d n).v ≤ 50) := by
  induction n with
  | zero =>
    constructor
    · simp only [PyOpt.cells, pyFresh, PyOpt.cpp, Coord.run, Coord.fresh]
      simp only [List.mem_cons, List.not_mem_nil, or_false] at hk
      rcases hk with hk | hk | hk | hk <;> rw [hk] <;> rfl
    · intro h
      simp only [PyOpt.cells, h, pyFresh]
      norm_num
  | succ n ih =>
    obtain ⟨ih1, ih2⟩ := ih
    have e := PyOpt.cell_cpp hk n (o.cells w d n) ih2 (d n)
    constructor
    · rw [PyOpt.cpp_succ, ← ih1, ← e]
      rfl
    · intro h
      obtain ⟨h1, h2⟩ := ih2 h
      have := py_rpropSize_bounds h1 h2 (d n) (o.cells w d n).m
      rw [PyOpt.cells, e, h]
      exact this

/-- Only some settings are read by these classes. -/
theorem Coord.run_settings (sq ab : ℝ → ℝ) {h h' : Hyper ℝ} {k : OptKind} (hk : k ∈ [.sgd, .momentumNg, .nesterov, .rpropm]) (hl : k ≠ .rpropm → h.lr = h'.lr)
    (hm : k ∈ [.momentumNg, .nesterov] → h.mom = h'.mom) (w : ℝ) (d : Nat → ℝ) (n : Nat) : Coord.run sq ab h k w d n = Coord.run sq ab h' k w d n := by
  induction n with
  | zero => rfl
  | succ n ih =>
    simp only [Coord.run, ih]
    fin_cases hk
    · simp [Coord.step, hl]
    · simp [Coord.step, hl, hm]
    · simp [Coord.step, hl, hm]
    · rfl

/-! ## Step and Momentum -/

theorem PyOpt.cells_step {o : PyOpt} (hk : o.kind = .step) (w : ℝ) (d : Nat → ℝ) (n : Nat) :
    (o.cells w d n).w = (o.cpp w d n).w + o.lr * ((range n).filter fun t => d t = 0).card := by
  induction n with
  | zero => simp [PyOpt.cells, PyOpt.cpp, Coord.run, hk, pyFresh, Coord.fresh, PyOptKind.cpp]
  | succ n ih =>
    rw [PyOpt.cells, PyOpt.cpp_succ, range_add_one, filter_insert]
    simp only [PyOpt.cell, hk, PyOptKind.cpp, Coord.step, ih, PyOpt.hyper]
    rcases lt_trichotomy (d n) 0 with h | h | h
    · rw [if_pos h, if_neg h.ne, npSign, if_neg (not_lt.mpr h.le), if_pos h]
      ring
    · rw [if_neg (by rw [h]; exact lt_irrefl _), if_pos h, npSign, if_neg (by rw [h]; exact lt_irrefl _), if_neg (by rw [h]; exact lt_irrefl _),
        card_insert_of_notMem (by simp)]
      push_cast
      ring
    · rw [if_neg (not_lt.mpr h.le), if_neg h.ne', npSign, if_pos h]
      ring

theorem PyOpt.cells_momentum {o : PyOpt} (hk : o.kind = .momentum) (w : ℝ) (d : Nat → ℝ) (n : Nat) :
    (o.cells w d n).w = (o.cpp w d n).w - (∑ t ∈ range n, o.momentum ^ (t + 1)) * d 0 ∧
      (o.cells w d n).v = (o.cpp w d n).v + o.momentum ^ n * d 0 := by
  induction n with
  | zero => simp [PyOpt.cells, PyOpt.cpp, Coord.run, hk, pyFresh, Coord.fresh, PyOptKind.cpp]
  | succ n ih =>
    rw [PyOpt.cells, PyOpt.cpp_succ, sum_range_succ]
    simp only [PyOpt.cell, hk, PyOptKind.cpp, Coord.step, ih, PyOpt.hyper]
    constructor <;> ring

/-! ## Adam and its relatives -/

/-- The root of the second moment in the C++ rule, at step `n`. -/
noncomputable def PyOpt.root (o : PyOpt) (w : ℝ) (d : Nat → ℝ) (n : Nat) : ℝ :=
  match o.kind with
  | .adam | .adamW => √((o.cpp w d (n + 1)).v / (1 - o.beta2 ^ (n + 1)))
  | .amsgrad => √(o.cpp w d (n + 1)).vh
  | _ => 0

/-- By which factor a step is smaller than in the C++ library. -/
noncomputable def PyOpt.damp (o : PyOpt) (w : ℝ) (d : Nat → ℝ) (n : Nat) : ℝ := max (o.root w d n) 1e-8 / (o.root w d n + 1e-8)

theorem damp_bounds {s : ℝ} (hs : 0 ≤ s) : 1 / 2 ≤ max s 1e-8 / (s + 1e-8) ∧ max s 1e-8 / (s + 1e-8) ≤ 1 := by
  have h : (0 : ℝ) < 1e-8 := by norm_num
  constructor
  · rw [le_div_iff₀ (by linarith)]
    have := le_max_left s 1e-8
    have := le_max_right s 1e-8
    linarith
  · rw [div_le_one (by linarith)]
    exact max_le (by linarith) (by linarith)

theorem damp_near {s δ : ℝ} (hδ : 0 < δ) (hs : δ ≤ s) : 1 - 1e-8 / δ ≤ max s 1e-8 / (s + 1e-8) := by
  have h : (0 : ℝ) < 1e-8 := by norm_num
  have h0 : 0 < s := lt_of_lt_of_le hδ hs
  have h1 : 1 - 1e-8 / δ ≤ 1 - 1e-8 / s := by
    have := div_le_div_of_nonneg_left h.le hδ hs
    linarith
  refine h1.trans ?_
  rw [le_div_iff₀ (by linarith)]
  have h2 : (1 - 1e-8 / s) * (s + 1e-8) = s - 1e-8 * 1e-8 / s := by
    field_simp
    ring
  rw [h2]
  have h3 : 0 ≤ 1e-8 * 1e-8 / s := by positivity
  have := le_max_left s 1e-8
  linarith

theorem PyOpt.root_nonneg (o : PyOpt) (w : ℝ) (d : Nat → ℝ) (n : Nat) : 0 ≤ o.root w d n := by
  unfold PyOpt.root
  split <;> first | exact Real.sqrt_nonneg _ | exact le_rfl

theorem PyOpt.cells_adam_mem {o : PyOpt} (hk : o.kind ∈ [.adam, .adamW, .amsgrad]) (w : ℝ) (d : Nat → ℝ) (n : Nat) :
    (o.cells w d n).v = (o.cpp w d n).v ∧ (o.cells w d n).m = (o.cpp w d n).m ∧ (o.cells w d n).vh = (o.cpp w d n).vh := by
  simp only [List.mem_cons, List.not_mem_nil, or_false] at hk
  induction n with
  | zero => rcases hk with hk | hk | hk <;> simp [PyOpt.cells, PyOpt.cpp, Coord.run, hk, pyFresh, Coord.fresh, PyOptKind.cpp]
  | succ n ih =>
    rw [PyOpt.cells, PyOpt.cpp_succ]
    rcases hk with hk | hk | hk <;> simp only [PyOpt.cell, hk, PyOptKind.cpp, Coord.step, ih, PyOpt.hyper, mul_comm, and_self]

theorem div_damp (a s : ℝ) : a / (s + 1e-8) = max s 1e-8 / (s + 1e-8) * (a / max s 1e-8) := by
  have h : (0 : ℝ) < max s 1e-8 := lt_of_lt_of_le (by norm_num) (le_max_right _ _)
  rw [div_mul_div_comm, mul_comm (max s 1e-8), mul_div_mul_right _ _ h.ne']

theorem PyOpt.cells_adam {o : PyOpt} (hk : o.kind ∈ [.adam, .amsgrad]) (he : o.epsilon = 1e-8) (w : ℝ) (d : Nat → ℝ) (n : Nat) :
    (o.cells w d n).w = w - ∑ t ∈ range n, o.damp w d t * ((o.cpp w d t).w - (o.cpp w d (t + 1)).w) := by
  induction n with
  | zero => simp [PyOpt.cells, pyFresh_w]
  | succ n ih =>
    have hm := PyOpt.cells_adam_mem (o := o) (by simp only [List.mem_cons, List.not_mem_nil, or_false] at hk ⊢; tauto) w d n
    rw [sum_range_succ, ← sub_sub, ← ih, PyOpt.cells]
    simp only [List.mem_cons, List.not_mem_nil, or_false] at hk
    rcases hk with hk | hk
    · simp only [PyOpt.damp, PyOpt.root, hk, PyOpt.cpp_succ, PyOpt.cell, PyOptKind.cpp, Coord.step, PyOpt.hyper, hm, he, PyOpt.p1, PyOpt.p2, PyOptKind.prod1,
        PyOptKind.prod2, if_true]
      simp only [mul_comm (o.cpp w d n).v, mul_comm (o.cpp w d n).m]
      rw [div_damp (o.lr / (1 - o.beta1 ^ (n + 1)) * _)]
      ring
    · simp only [PyOpt.damp, PyOpt.root, hk, PyOpt.cpp_succ, PyOpt.cell, PyOptKind.cpp, Coord.step, PyOpt.hyper, hm, he]
      simp only [mul_comm (o.cpp w d n).v, mul_comm (o.cpp w d n).m]
      rw [div_damp (o.lr * _)]
      ring

/-- AdamW of the C++ library: Adam, and the weights decay. -/
theorem PyOpt.cpp_adamW {o : PyOpt} (hk : o.kind = .adamW) (w : ℝ) (d : Nat → ℝ) (n : Nat) :
    ((o.cpp w d n).w = (1 - o.lambda) ^ n * w - ∑ t ∈ range n, (1 - o.lambda) ^ (n - 1 - t) *
      ((PyOpt.cpp { o with kind := .adam } w d t).w - (PyOpt.cpp { o with kind := .adam } w d (t + 1)).w)) ∧
    (o.cpp w d n).v = (PyOpt.cpp { o with kind := .adam } w d n).v ∧ (o.cpp w d n).m = (PyOpt.cpp { o with kind := .adam } w d n).m := by
  induction n with
  | zero => simp [PyOpt.cpp, Coord.run, hk, Coord.fresh, PyOptKind.cpp]
  | succ n ih =>
    obtain ⟨ih1, ih2, ih3⟩ := ih
    have hs : ∀ f : Nat → ℝ, ∑ t ∈ range n, (1 - o.lambda) ^ (n + 1 - 1 - t) * f t = (1 - o.lambda) * ∑ t ∈ range n, (1 - o.lambda) ^ (n - 1 - t) * f t := by
      intro f
      rw [mul_sum]
      refine sum_congr rfl fun t ht => ?_
      have ht := mem_range.mp ht
      rw [show n + 1 - 1 - t = (n - 1 - t) + 1 by omega, pow_succ]
      ring
    rw [sum_range_succ, hs]
    refine ⟨?_, ?_, ?_⟩
    · rw [show n + 1 - 1 - n = 0 by omega, pow_zero, one_mul, pow_succ, ← sub_sub,
        show (1 - o.lambda) ^ n * (1 - o.lambda) * w - (1 - o.lambda) * (∑ t ∈ range n, (1 - o.lambda) ^ (n - 1 - t) *
          ((PyOpt.cpp { o with kind := .adam } w d t).w - (PyOpt.cpp { o with kind := .adam } w d (t + 1)).w)) = (1 - o.lambda) * (o.cpp w d n).w by
          rw [ih1]; ring]
      simp only [PyOpt.cpp_succ, hk, PyOptKind.cpp, Coord.step, ih2, ih3, PyOpt.hyper]
      ring
    · simp only [PyOpt.cpp_succ, hk, PyOptKind.cpp, Coord.step, ih2, PyOpt.hyper]
    · simp only [PyOpt.cpp_succ, hk, PyOptKind.cpp, Coord.step, ih3, PyOpt.hyper]

theorem PyOpt.damp_adamW {o : PyOpt} (hk : o.kind = .adamW) (w : ℝ) (d : Nat → ℝ) (n : Nat) :
    o.damp w d n = PyOpt.damp { o with kind := .adam } w d n := by
  simp only [PyOpt.damp, PyOpt.root, hk, (PyOpt.cpp_adamW hk w d (n + 1)).2.1]

theorem PyOpt.cells_adamW {o : PyOpt} (hk : o.kind = .adamW) (he : o.epsilon = 1e-8) (w : ℝ) (d : Nat → ℝ) (n : Nat) :
    (o.cells w d n).w = (1 - o.lambda) ^ n * w - ∑ t ∈ range n, (1 - o.lambda) ^ (n - 1 - t) * (PyOpt.damp { o with kind := .adam } w d t *
      ((PyOpt.cpp { o with kind := .adam } w d t).w - (PyOpt.cpp { o with kind := .adam } w d (t + 1)).w)) := by
  induction n with
  | zero => simp [PyOpt.cells, pyFresh_w]
  | succ n ih =>
    have hm := PyOpt.cells_adam_mem (o := o) (by rw [hk]; simp) w d n
    have ha := (PyOpt.cpp_adamW hk w d n).2
    have hs : ∀ f : Nat → ℝ, ∑ t ∈ range n, (1 - o.lambda) ^ (n + 1 - 1 - t) * f t = (1 - o.lambda) * ∑ t ∈ range n, (1 - o.lambda) ^ (n - 1 - t) * f t := by
      intro f
      rw [mul_sum]
      refine sum_congr rfl fun t ht => ?_
      have ht := mem_range.mp ht
      rw [show n + 1 - 1 - t = (n - 1 - t) + 1 by omega, pow_succ]
      ring
    rw [sum_range_succ, hs, show n + 1 - 1 - n = 0 by omega, pow_zero, one_mul, pow_succ, ← sub_sub,
      show ∀ S : ℝ, (1 - o.lambda) ^ n * (1 - o.lambda) * w - (1 - o.lambda) * S = (1 - o.lambda) * ((1 - o.lambda) ^ n * w - S) by intro S; ring, ← ih, PyOpt.cells]
    simp only [PyOpt.damp, PyOpt.root, hk, PyOpt.cpp_succ, PyOpt.cell, PyOptKind.cpp, Coord.step, PyOpt.hyper, hm, ha, he, PyOpt.p1, PyOpt.p2, PyOptKind.prod1,
      PyOptKind.prod2, if_true]
    simp only [mul_comm (PyOpt.cpp _ w d n).v, mul_comm (PyOpt.cpp _ w d n).m]
    rw [div_damp (o.lr / (1 - o.beta1 ^ (n + 1)) * _)]
    ring

/-! ## Adamax -/

/-- By which factor a step of Adamax is smaller than in the C++ library. -/
noncomputable def PyOpt.dampMax (o : PyOpt) (w : ℝ) (d : Nat → ℝ) (n : Nat) : ℝ := max (o.cpp w d (n + 1)).v 1e-8 / (o.cells w d (n + 1)).v

theorem PyOpt.cells_adamax_mem {o : PyOpt} (hk : o.kind = .adamax) (he : o.epsilon = 1e-8) (h0 : 0 ≤ o.beta2) (h1 : o.beta2 < 1) (w : ℝ) (d : Nat → ℝ) (n : Nat) :
    (o.cells w d n).m = (o.cpp w d n).m ∧ 0 ≤ (o.cpp w d n).v ∧ (o.cpp w d n).v ≤ (o.cells w d n).v ∧
      (o.cells w d n).v ≤ (o.cpp w d n).v + 1e-8 / (1 - o.beta2) ∧ (n ≠ 0 → (o.cpp w d n).v + 1e-8 ≤ (o.cells w d n).v) := by
  have hp : 0 < 1 - o.beta2 := by linarith
  have h8 : (0 : ℝ) < 1e-8 := by norm_num
  induction n with
  | zero =>
    simp only [PyOpt.cells, PyOpt.cpp, Coord.run, hk, pyFresh, Coord.fresh, PyOptKind.cpp]
    refine ⟨trivial, le_rfl, le_rfl, ?_, fun h => absurd rfl h⟩
    rw [zero_add]
    positivity
  | succ n ih =>
    obtain ⟨i1, i2, i3, i4, -⟩ := ih
    rw [PyOpt.cells, PyOpt.cpp_succ]
    simp only [PyOpt.cell, hk, PyOptKind.cpp, Coord.step, PyOpt.hyper, i1, he]
    have hb : o.beta2 * (o.cpp w d n).v ≤ o.beta2 * (o.cells w d n).v := mul_le_mul_of_nonneg_left i3 h0
    have hmono : max (o.beta2 * (o.cpp w d n).v) |d n| ≤ max (o.beta2 * (o.cells w d n).v) |d n| := max_le_max_right _ hb
    refine ⟨by rw [mul_comm], le_trans (abs_nonneg _) (le_max_right _ _), by linarith, ?_, fun _ => by linarith⟩
    have hb' : o.beta2 * (o.cells w d n).v ≤ o.beta2 * (o.cpp w d n).v + o.beta2 * (1e-8 / (1 - o.beta2)) := by
      rw [← mul_add]
      exact mul_le_mul_of_nonneg_left i4 h0
    have hq : 0 ≤ o.beta2 * (1e-8 / (1 - o.beta2)) := by positivity
    have hm : max (o.beta2 * (o.cells w d n).v) |d n| ≤ max (o.beta2 * (o.cpp w d n).v) |d n| + o.beta2 * (1e-8 / (1 - o.beta2)) := by
      refine max_le ?_ ?_
      · exact hb'.trans (by have := le_max_left (o.beta2 * (o.cpp w d n).v) |d n|; linarith)
      · have := le_max_right (o.beta2 * (o.cpp w d n).v) |d n|
        linarith
    have hs : o.beta2 * (1e-8 / (1 - o.beta2)) + 1e-8 = 1e-8 / (1 - o.beta2) := by
      field_simp
      ring
    linarith

theorem PyOpt.dampMax_bounds {o : PyOpt} (hk : o.kind = .adamax) (he : o.epsilon = 1e-8) (h0 : 0 ≤ o.beta2) (h1 : o.beta2 < 1) (w : ℝ) (d : Nat → ℝ) (n : Nat) :
    (1 - o.beta2) / (2 - o.beta2) ≤ o.dampMax w d n ∧ o.dampMax w d n ≤ 1 := by
  obtain ⟨-, i2, i3, i4, i5⟩ := PyOpt.cells_adamax_mem hk he h0 h1 w d (n + 1)
  have i5 := i5 (Nat.succ_ne_zero n)
  have h8 : (0 : ℝ) < 1e-8 := by norm_num
  have hp : 0 < 1 - o.beta2 := by linarith
  have hv : 0 < (o.cells w d (n + 1)).v := by linarith
  unfold PyOpt.dampMax
  constructor
  · rw [div_le_div_iff₀ (by linarith) hv]
    have a := le_max_left (o.cpp w d (n + 1)).v 1e-8
    have b := le_max_right (o.cpp w d (n + 1)).v 1e-8
    have c : (1 - o.beta2) * (o.cells w d (n + 1)).v ≤ (1 - o.beta2) * (o.cpp w d (n + 1)).v + 1e-8 := by
      have := mul_le_mul_of_nonneg_left i4 hp.le
      rwa [mul_add, mul_div_cancel₀ _ hp.ne'] at this
    have e : (1 - o.beta2) * (o.cpp w d (n + 1)).v ≤ (1 - o.beta2) * max (o.cpp w d (n + 1)).v 1e-8 := mul_le_mul_of_nonneg_left a hp.le
    nlinarith
  · rw [div_le_one hv]
    exact max_le i3 (by linarith)

theorem PyOpt.cells_adamax {o : PyOpt} (hk : o.kind = .adamax) (he : o.epsilon = 1e-8) (h0 : 0 ≤ o.beta2) (h1 : o.beta2 < 1) (w : ℝ) (d : Nat → ℝ) (n : Nat) :
    (o.cells w d n).w = w - ∑ t ∈ range n, o.dampMax w d t * ((o.cpp w d t).w - (o.cpp w d (t + 1)).w) := by
  induction n with
  | zero => simp [PyOpt.cells, pyFresh_w]
  | succ n ih =>
    have hm := (PyOpt.cells_adamax_mem hk he h0 h1 w d n).1
    have hv := (PyOpt.cells_adamax_mem hk he h0 h1 w d (n + 1)).2.2.2.2 (Nat.succ_ne_zero n)
    have hu := (PyOpt.cells_adamax_mem hk he h0 h1 w d (n + 1)).2.1
    have hv0 : 0 < (o.cells w d (n + 1)).v := lt_of_lt_of_le (by norm_num at hu ⊢; linarith) hv
    have hx : 0 < max (o.cpp w d (n + 1)).v 1e-8 := lt_of_lt_of_le (by norm_num) (le_max_right _ _)
    rw [sum_range_succ, ← sub_sub, ← ih]
    have e1 : (o.cells w d (n + 1)).w = (o.cells w d n).w - o.lr / (1 - o.beta1 ^ (n + 1)) * (o.beta1 * (o.cpp w d n).m + (1 - o.beta1) * d n) / (o.cells w d (n + 1)).v := by
      simp only [PyOpt.cells, PyOpt.cell, hk, hm, PyOpt.p1, PyOptKind.prod1, if_true, mul_comm (o.cpp w d n).m]
    have e2 : (o.cpp w d (n + 1)).w = (o.cpp w d n).w - o.lr / (1 - o.beta1 ^ (n + 1)) * (o.beta1 * (o.cpp w d n).m + (1 - o.beta1) * d n) /
        max (o.cpp w d (n + 1)).v 1e-8 := by
      simp only [PyOpt.cpp_succ, hk, PyOptKind.cpp, Coord.step, PyOpt.hyper]
    rw [e1, e2, PyOpt.dampMax]
    field_simp
    ring

/-- The second moment of Adam when all gradients have some size. -/
theorem PyOpt.root_adam {o : PyOpt} (hk : o.kind = .adam) (h0 : 0 ≤ o.beta2) (h1 : o.beta2 < 1) {δ : ℝ} (hδ : 0 < δ) (w : ℝ) {d : Nat → ℝ}
    (hd : ∀ t, δ ≤ |d t|) (n : Nat) : δ ≤ o.root w d n := by
  have hv : ∀ n, (1 - o.beta2 ^ n) * δ ^ 2 ≤ (o.cpp w d n).v := by
    intro n
    induction n with
    | zero => simp [PyOpt.cpp, Coord.run, hk, Coord.fresh, PyOptKind.cpp]
    | succ n ih =>
      rw [PyOpt.cpp_succ]
      simp only [hk, PyOptKind.cpp, Coord.step, PyOpt.hyper]
      have a := mul_le_mul_of_nonneg_left ih h0
      have b : δ ^ 2 ≤ d n ^ 2 := by
        rw [← sq_abs (d n)]
        exact pow_le_pow_left₀ hδ.le (hd n) 2
      have c := mul_le_mul_of_nonneg_left b (show 0 ≤ 1 - o.beta2 by linarith)
      rw [pow_succ]
      nlinarith
  have hp : 0 < 1 - o.beta2 ^ (n + 1) := by
    have : o.beta2 ^ (n + 1) < 1 := pow_lt_one₀ h0 h1 (Nat.succ_ne_zero n)
    linarith
  simp only [PyOpt.root, hk]
  refine Real.le_sqrt_of_sq_le ?_
  rw [le_div_iff₀ hp, mul_comm]
  exact hv (n + 1)

end BeeDNN
