import Verif.Lemmas.PyOptimizer
import Verif.Props.Optimizer

/-! # The optimizers of the Python library against those of the C++ library -/

namespace BeeDNN
open Finset

/-- C137: SGD, MomentumNg, Nesterov and RPROP- of the Python library follow the rules of the C++ library, in every cell and for any number of steps. -/
theorem C137_same {o : PyOpt} (h0 : o.init = false) (hk : o.kind ∈ [.sgd, .momentumNg, .nesterov, .rpropm]) :
    o.Gives fun n w d => o.cppWeight w d n :=
  (PyOpt.gives_cells h0).congr fun n w d => by rw [(PyOpt.cells_cpp hk w d n).1]; rfl

/-- C137: both libraries, started with the same settings and weights and given the same gradients, end with the same weights. -/
theorem C137_both {o : PyOpt} (h0 : o.init = false) (hk : o.kind ∈ [.sgd, .momentumNg, .nesterov, .rpropm]) (g : Nat → ℝ) {q : Opt ℝ} (hq : q.WF)
    (hqk : q.kind = o.kind.cpp) (hl : o.kind ≠ .rpropm → (q.init g).lr = o.lr)
    (hm : o.kind ∈ [.momentumNg, .nesterov] → (q.init g).mom = o.momentum) (R C : Nat) (w : Nat → Nat → ℝ) (D : Nat → Nat → Nat → ℝ) (n : Nat)
    {r : Nat} {h : NpStore} (hr : h[r]? = some ⟨R, C, w⟩) :
    ∃ o' r' h' W, o.run r (fun t => ⟨R, C, D t⟩) n h = .ok (o', r', h') ∧ h'[r']? = some ⟨R, C, W⟩ ∧
      (q.init g).weights g Real.sqrt (|·|) (Mat.ofFn R C w) (fun t => Mat.ofFn R C (D t)) n = .ok (Mat.ofFn R C W) := by
  obtain ⟨o', r', h', a, b, -⟩ := C137_same h0 hk R C w D n r h hr
  refine ⟨o', r', h', _, a, b, ?_⟩
  rw [C64_rule g Real.sqrt (|·|) hq R C w D n, hqk]
  refine congrArg Except.ok (Mat.ofFn_congr fun i j _ _ => ?_)
  change _ = (Coord.run Real.sqrt _ o.hyper o.kind.cpp (w i j) (fun t => D t i j) n).w
  refine congrArg Coord.w (Coord.run_settings _ _ ?_ (fun h => hl fun e => h (by rw [e]; rfl)) (fun h => hm ?_) _ _ n)
  · revert hk
    cases o.kind <;> simp [PyOptKind.cpp]
  · revert h
    cases o.kind <;> simp [PyOptKind.cpp]

/-- With the default settings. -/
example (k : PyOptKind) (hk : k ∈ [.sgd, .momentumNg, .nesterov, .rpropm]) (g : Nat → ℝ) (D : Nat → Nat → Nat → ℝ) (n : Nat) :
    ∃ o' r' h' W, (PyOpt.new k).run 0 (fun t => ⟨2, 3, D t⟩) n [⟨2, 3, fun i j => i - j⟩] = .ok (o', r', h') ∧ h'[r']? = some ⟨2, 3, W⟩ ∧
      ((Opt.new k.cpp : Opt ℝ).init g).weights g Real.sqrt (|·|) (Mat.ofFn 2 3 fun i j => (i : ℝ) - j) (fun t => Mat.ofFn 2 3 (D t)) n = .ok (Mat.ofFn 2 3 W) := by
  refine C137_both (o := PyOpt.new k) rfl hk g (q := Opt.new k.cpp) ⟨rfl, rfl, rfl⟩ rfl ?_ ?_ 2 3 _ D n rfl
  · fin_cases hk <;> norm_num [PyOpt.new, Opt.new, Opt.init, PyOptKind.cpp, Opt.defaultLr, orDefault]
  · fin_cases hk <;> norm_num [PyOpt.new, Opt.new, Opt.init, PyOptKind.cpp, Opt.defaultLr, orDefault] <;> decide

/-- Two steps of RPROP-: the sign of the gradient changes, so that the second step is half of the first. -/
example : ∃ o' r' h', (PyOpt.new .rpropm).run 0 (fun t => ⟨1, 1, fun _ _ => if t = 0 then 3 else -1⟩) 2 [⟨1, 1, fun _ _ => 1⟩] = .ok (o', r', h') ∧
    ∃ W, h'[r']? = some ⟨1, 1, W⟩ ∧ W 0 0 = 1 - 0.015 + 0.0075 := by
  obtain ⟨o', r', h', a, b, -⟩ := C137_same (o := PyOpt.new .rpropm) rfl (by simp [PyOpt.new]) 1 1 (fun _ _ => 1) (fun t _ _ => if t = 0 then 3 else -1) 2 0
    [⟨1, 1, fun _ _ => 1⟩] rfl
  refine ⟨o', r', h', a, _, b, ?_⟩
  norm_num [PyOpt.cppWeight, PyOpt.new, PyOptKind.cpp, Coord.run, Coord.fresh, Coord.step, rpropSize, againstSign]

/-- C137: Step, SGD, Momentum, MomentumNg and RPROP- return a new array and leave the one they are given, and all others, as they were; the other classes write to the array they
are given and return it, and leave all others. -/
theorem C137_places {o : PyOpt} (h0 : o.init = false) (R C : Nat) (w : Nat → Nat → ℝ) (D : Nat → Nat → Nat → ℝ) (n : Nat) {r : Nat} {h : NpStore} (hr : h[r]? = some ⟨R, C, w⟩) :
    ∃ o' r' h', o.run r (fun t => ⟨R, C, D t⟩) n h = .ok (o', r', h') ∧
      (o.kind ∈ [.step, .sgd, .momentum, .momentumNg, .rpropm] → ∀ q, q < h.length → h'[q]? = h[q]?) ∧
      (o.kind ∈ [.nesterov, .adam, .adamW, .adamax, .nadam, .amsgrad] → r' = r ∧ ∀ q, q < h.length → q ≠ r → h'[q]? = h[q]?) := by
  obtain ⟨o', r', h', a, -, b, c⟩ := PyOpt.gives_cells h0 R C w D n r h hr
  refine ⟨o', r', h', a, fun hk q hq => c q hq (.inl ?_), fun hk => ⟨b ?_, fun q hq hqr => c q hq (.inr hqr)⟩⟩
  · revert hk
    cases o.kind <;> simp [PyOptKind.inPlace]
  · revert hk
    cases o.kind <;> simp [PyOptKind.inPlace]

/-- Two arrays; SGD on the second. -/
example (D : Nat → Nat → Nat → ℝ) (n : Nat) :=
  C137_places (o := PyOpt.new .sgd) rfl 1 2 (fun _ j => j) D n (r := 1) (h := [⟨1, 1, fun _ _ => 7⟩, ⟨1, 2, fun _ j => j⟩]) rfl

/-- C137: Step of the Python library does not move for a gradient 0, that of the C++ library does; otherwise they agree. -/
theorem C137_step {o : PyOpt} (h0 : o.init = false) (hk : o.kind = .step) :
    o.Gives fun n w d => o.cppWeight w d n + o.lr * ((range n).filter fun t => d t = 0).card :=
  (PyOpt.gives_cells h0).congr fun n w d => PyOpt.cells_step hk w d n

/-- C137: Momentum of the Python library starts with the first gradient as velocity, that of the C++ library with 0.  The weights differ accordingly. -/
theorem C137_momentum {o : PyOpt} (h0 : o.init = false) (hk : o.kind = .momentum) :
    o.Gives fun n w d => o.cppWeight w d n - (∑ t ∈ range n, o.momentum ^ (t + 1)) * d 0 :=
  (PyOpt.gives_cells h0).congr fun n w d => (PyOpt.cells_momentum hk w d n).1

/-- The first step of Momentum with the default settings is 91 times that of the C++ library. -/
theorem C137_momentum_first : (PyOpt.new .momentum).Gives (fun n w d => (PyOpt.new .momentum).cppWeight w d n - (∑ t ∈ range n, (0.9 : ℝ) ^ (t + 1)) * d 0) ∧
    ∀ (w : ℝ) (d : Nat → ℝ), (PyOpt.new .momentum).cppWeight w d 1 = w - 0.01 * d 0 ∧
      (PyOpt.new .momentum).cppWeight w d 1 - (∑ t ∈ range 1, (0.9 : ℝ) ^ (t + 1)) * d 0 = w - 91 * (0.01 * d 0) := by
  refine ⟨C137_momentum rfl rfl, fun w d => ?_⟩
  have : (PyOpt.new .momentum).cppWeight w d 1 = w - 0.01 * d 0 := by
    simp [PyOpt.cppWeight, PyOpt.new, PyOptKind.cpp, Coord.run, Coord.fresh, Coord.step, PyOpt.hyper]
  refine ⟨this, ?_⟩
  rw [this]
  norm_num
  ring

/-- C137: each step of Adam and Amsgrad of the Python library is the step of the C++ library, made smaller by a factor between 1/2 and 1 (1e-8 is added to the root, where the
C++ library takes the maximum). -/
theorem C137_adam {o : PyOpt} (h0 : o.init = false) (hk : o.kind ∈ [.adam, .amsgrad]) (he : o.epsilon = 1e-8) :
    ∃ θ : ℝ → (Nat → ℝ) → Nat → ℝ, (∀ w d t, 1 / 2 ≤ θ w d t ∧ θ w d t ≤ 1) ∧
      o.Gives fun n w d => w - ∑ t ∈ range n, θ w d t * (o.cppWeight w d t - o.cppWeight w d (t + 1)) :=
  ⟨o.damp, fun w d t => damp_bounds (PyOpt.root_nonneg o w d t), (PyOpt.gives_cells h0).congr fun n w d => PyOpt.cells_adam hk he w d n⟩

/-- C137: for gradients of size at least `δ` the factor of Adam is at least `1 - 1e-8/δ`. -/
theorem C137_adam_near {o : PyOpt} (h0 : o.init = false) (hk : o.kind = .adam) (he : o.epsilon = 1e-8) (hb : 0 ≤ o.beta2) (hb1 : o.beta2 < 1) {δ : ℝ} (hδ : 0 < δ) :
    ∃ θ : ℝ → (Nat → ℝ) → Nat → ℝ, (∀ w d, (∀ t, δ ≤ |d t|) → ∀ t, 1 - 1e-8 / δ ≤ θ w d t ∧ θ w d t ≤ 1) ∧
      o.Gives fun n w d => w - ∑ t ∈ range n, θ w d t * (o.cppWeight w d t - o.cppWeight w d (t + 1)) :=
  ⟨o.damp, fun w d hd t => ⟨damp_near hδ (PyOpt.root_adam hk hb hb1 hδ w hd t), (damp_bounds (PyOpt.root_nonneg o w d t)).2⟩,
    (PyOpt.gives_cells h0).congr fun n w d => PyOpt.cells_adam (by rw [hk]; simp) he w d n⟩

/-- C137: AdamW of both libraries is Adam with weights that decay by the factor `1 - lambda` before each step; with the factors of `C137_adam` for the Python library. -/
theorem C137_adamW {o : PyOpt} (h0 : o.init = false) (hk : o.kind = .adamW) (he : o.epsilon = 1e-8) :
    ∃ θ : ℝ → (Nat → ℝ) → Nat → ℝ, (∀ w d t, 1 / 2 ≤ θ w d t ∧ θ w d t ≤ 1) ∧
      (let A := PyOpt.cppWeight { o with kind := .adam }
      (o.Gives fun n w d => (1 - o.lambda) ^ n * w - ∑ t ∈ range n, (1 - o.lambda) ^ (n - 1 - t) * (θ w d t * (A w d t - A w d (t + 1)))) ∧
      ∀ w d n, o.cppWeight w d n = (1 - o.lambda) ^ n * w - ∑ t ∈ range n, (1 - o.lambda) ^ (n - 1 - t) * (A w d t - A w d (t + 1))) :=
  ⟨PyOpt.damp { o with kind := .adam }, fun w d t => damp_bounds (PyOpt.root_nonneg _ w d t),
    (PyOpt.gives_cells h0).congr fun n w d => PyOpt.cells_adamW hk he w d n, fun w d n => (PyOpt.cpp_adamW hk w d n).1⟩

/-- C137: each step of Adamax is the step of the C++ library, made smaller by a factor of at least `(1 - beta2) / (2 - beta2)`, which is 1/1001 by default: the Python
library adds 1e-8 to the infinity norm in every step, and the sum of these decays with `beta2` only. -/
theorem C137_adamax {o : PyOpt} (h0 : o.init = false) (hk : o.kind = .adamax) (he : o.epsilon = 1e-8) (hb : 0 ≤ o.beta2) (hb1 : o.beta2 < 1) :
    ∃ θ : ℝ → (Nat → ℝ) → Nat → ℝ, (∀ w d t, (1 - o.beta2) / (2 - o.beta2) ≤ θ w d t ∧ θ w d t ≤ 1) ∧
      o.Gives fun n w d => w - ∑ t ∈ range n, θ w d t * (o.cppWeight w d t - o.cppWeight w d (t + 1)) :=
  ⟨o.dampMax, fun w d t => PyOpt.dampMax_bounds hk he hb hb1 w d t, (PyOpt.gives_cells h0).congr fun n w d => PyOpt.cells_adamax hk he hb hb1 w d n⟩

/-- C137: the first step of Nadam of the Python library is twice the learning rate (up to the 1e-8), for whatever gradient; that of Adam is once the learning rate. -/
theorem C137_nadam_first {o : PyOpt} (h0 : o.init = false) (hb1 : o.beta1 ≠ 1) (hb2 : o.beta2 ≠ 1) (hk : o.kind = .nadam) :
    ∃ W A, o.Gives W ∧ PyOpt.Gives { o with kind := .adam } A ∧
      ∀ (w : ℝ) (d : Nat → ℝ), W 1 w d = w - 2 * (o.lr * d 0 / (|d 0| + o.epsilon)) ∧ A 1 w d = w - o.lr * d 0 / (|d 0| + o.epsilon) := by
  refine ⟨_, _, PyOpt.gives_cells h0, PyOpt.gives_cells (o := { o with kind := .adam }) h0, fun w d => ?_⟩
  have c1 : 1 - o.beta1 ≠ 0 := sub_ne_zero.mpr hb1.symm
  have c2 : 1 - o.beta2 ≠ 0 := sub_ne_zero.mpr hb2.symm
  have hr : √((1 - o.beta2) * d 0 ^ 2 / (1 - o.beta2)) = |d 0| := by
    rw [mul_div_cancel_left₀ _ c2, Real.sqrt_sq_eq_abs]
  constructor
  · simp only [PyOpt.cells, PyOpt.cell, hk, pyFresh, PyOpt.p1, PyOpt.p2, PyOptKind.prod1, PyOptKind.prod2, if_true, zero_mul, zero_add, pow_one, hr,
      mul_div_cancel_left₀ _ c1]
    ring
  · simp only [PyOpt.cells, PyOpt.cell, pyFresh, PyOpt.p1, PyOpt.p2, PyOptKind.prod1, PyOptKind.prod2, if_true, zero_mul, zero_add, pow_one, hr]
    field_simp

/-- C137: by default the learning rates agree but for Step, AdamW, Adamax and Nadam, the other settings agree. -/
theorem C137_defaults (g : Nat → ℝ) (k : PyOptKind) :
    let p := (PyOpt.new k).hyper
    let c := ((Opt.new k.cpp : Opt ℝ).init g).hyper
    (k ≠ .rpropm → (p.lr = c.lr ↔ k ∉ [.step, .adamW, .adamax, .nadam])) ∧ (k ∈ [.momentum, .momentumNg, .nesterov] → p.mom = c.mom) ∧
      p.b1 = c.b1 ∧ p.b2 = c.b2 ∧ p.lam = c.lam := by
  cases k <;> norm_num [PyOpt.new, PyOpt.hyper, Opt.new, Opt.init, Opt.hyper, PyOptKind.cpp, Opt.defaultLr, orDefault] <;> decide

/-- C137: an optimizer that the Python library knows is known to the C++ library by the same name, but for RPROP-; the Python library lacks five names. -/
theorem C137_names : (∀ s k, pyCreateOptimizer s = some k → s ≠ "RPROPm" → createOptimizer s = some k.cpp) ∧
    (pyCreateOptimizer "RPROPm" = some .rpropm ∧ createOptimizer "RPROP-" = some .rpropm ∧ createOptimizer "RPROPm" = none) ∧
    ∀ s ∈ optimizerNames, pyCreateOptimizer s = none ↔ s ∈ ["None", "Adagrad", "RMSProp", "RPROP-", "iRPROP-"] := by
  refine ⟨fun s k h hs => ?_, by decide, by decide⟩
  unfold pyCreateOptimizer at h
  split_ifs at h with h1 h2 h3 h4 h5 h6 h7 h8 h9 h10 h11 <;> first
    | exact absurd ‹s = "RPROPm"› hs
    | (subst s; injection h with h; subst h; decide)

end BeeDNN
