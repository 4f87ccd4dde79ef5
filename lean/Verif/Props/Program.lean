import Verif.Lemmas.Program
import Verif.Props.Linear
import Verif.Props.MlpRule

/-! # Whole training programs, from `new` to the predictions: C146 -/

namespace BeeDNN
open Finset World Trainer

section
variable {width : Nat → Nat} {kind : Nat → PlyKind} {depth N D : Nat} {x y : Nat → Row} {s : ProgramSettings} {wi bi : Nat → String}

/-- C146: a program that makes any network whose sizes fit together, trains it with any loss and optimizer on data that fit, and predicts, runs to its end. The network it ends with is what the rule of
the optimizer, with the learning rate given or the default one, makes of the described network (in the epoch that was best, if the best is kept), and it predicts what this network says. -/
theorem C146_program (hwi : ∀ i, wi i ∈ initNames) (hbi : ∀ i, bi i ∈ initNames) (hd : 0 < depth)
    (hpos : ∀ i, i ≤ depth → 0 < width i) (hk : ∀ i, i < depth → kind i ≠ .bias ∧ (kind i).Fits (width i) (width (i + 1))) (hN : 0 < N)
    (ht : TruthFits s.loss (width depth) D N y) (hl : s.loss ∈ listLoss) {k : OptKind} (ho : createOptimizer s.optimizer = some k) (hb : 0 ≤ s.batchSize)
    {eps : ℝ} (heps : 0 < eps) (g : Nat → ℝ) (env env' : Nat → Env) (e : FitEnv) :
    ∃ (w' : World) (m : Mlp) (ms : Nat → Nat → Mlp) (j : Nat),
      trainingProgram g eps e ((List.range depth).map fun i => (kind i).construct (env i) (width i) (width (i + 1)) (wi i) (bi i)) s (Mat.ofFn N (width 0) x) (Mat.ofFn N D y) = .ok w' ∧
      m.depth = depth ∧ m.width = width ∧ (∀ i, i < depth → (m.ply i).kind = kind i) ∧
      Mlp.Training (fun m => m.Regular eps s.loss) s.loss k (bookSettings s.optimizer s.learningRate (-1) (-1)) N
        (if s.batchSize = 0 then N else min s.batchSize.toNat N) s.epochs.toNat x y m ms ∧
      j ≤ s.epochs.toNat ∧ (s.keepBest = false → j = s.epochs.toNat) ∧ (ms j 0).depth = depth ∧ (ms j 0).width = width ∧ (∀ i, ((ms j 0).ply i).kind = (m.ply i).kind) ∧
      ∀ (M : Nat) (u : Nat → Row) (o : Mat ℝ), o.WF → ∃ v, w'.predict env' 0 (Mat.ofFn M (width 0) u) o = .ok (v, Mat.ofFn M (width depth) fun i => (ms j 0).out (u i)) := by
  obtain ⟨w, m, h1, rfl, rfl, h4, h5⟩ := program_setup hwi hbi hd hpos hk env
  obtain ⟨w', t', seen, ms, j, f1, f2, f3, f4, f5⟩ := C122_fit (h5 N D x y s hN ht hl hb) ho rfl heps e
  have lk : Mlp.Like m (ms j 0) := by
    rcases f4.lt_or_eq with h | h
    · exact f2.like j 0 (.inl ⟨h, Nat.zero_le _⟩)
    · exact f2.like j 0 (.inr ⟨h, rfl⟩)
  refine ⟨w', m, ms, j, ?_, rfl, rfl, h4, f2, f4, f5, lk.depth, lk.width, lk.kind, fun M u o ho => ?_⟩
  · rw [trainingProgram_eq g eps e _ _ hl h1, f1, bind_ok']
    rfl
  · obtain ⟨v, hv, -⟩ := f3.predict (e := env') M u o ho
    rw [lk.width, lk.depth] at hv
    exact ⟨v, hv⟩

/-- C146: linear regression. A program with one dense layer, a squared loss, SGD and all samples in a batch: the error of the network it ends with exceeds that of any other weights and biases by at
most their squared distance from the initial ones over twice the learning rate times the number of epochs. -/
theorem C146_regression {wInit bInit : String} (hwi : wInit ∈ initNames) (hbi : bInit ∈ initNames) {C : Nat} (hC : 0 < C) (hD : 0 < D) (hN : 0 < N) {loss : String} (hl : loss ∈ squaredLosses) {lr : ℝ}
    (h0 : 0 < lr) (h1 : lr * curvature loss N C D x ≤ 1) {eps : ℝ} (heps : 0 < eps) (g : Nat → ℝ) (env : Env) :
    ∃ m : Mlp, m.Single ∧ (m.width = fun i => if i = 0 then C else D) ∧ ∀ (epochs : Nat) (e : FitEnv), ∃ (w' : World) (m' : Mlp),
      trainingProgram g eps e [Layer.newDense env C D wInit bInit] ⟨loss, "SGD", lr, epochs, 0, false⟩ (Mat.ofFn N C x) (Mat.ofFn N D y) = .ok w' ∧ Represents w' 0 m' ∧
      ∀ o : Mlp, o.Single → o.width = m.width → (epochs : ℝ) * (m'.error loss N x y - o.error loss N x y) ≤ m.distSq o / (2 * lr) := by
  have hl1 : loss ∈ distanceLosses ∧ loss ∈ listLoss := by
    have : ∀ s ∈ squaredLosses, s ∈ distanceLosses ∧ s ∈ listLoss := by decide
    exact this _ hl
  obtain ⟨w, m, b1, b2, b3, b4, b5⟩ := program_setup (depth := 1) (width := fun i => if i = 0 then C else D) (kind := fun _ => .dense) (wi := fun _ => wInit) (bi := fun _ => bInit) (fun _ => hwi) (fun _ => hbi) one_pos
    (fun i _ => by split <;> assumption) (fun i _ => ⟨by simp, trivial⟩) fun _ => env
  have hm : m.Single := ⟨b2, b4 0 one_pos⟩
  have w0 : m.width 0 = C := by rw [b3]; rfl
  have w1 : m.width 1 = D := by rw [b3]; rfl
  refine ⟨m, hm, b3, fun epochs e => ?_⟩
  have hf := b5 N D x y ⟨loss, "SGD", lr, epochs, 0, false⟩ hN ((distanceLosses_fits hl1.1).2 _ _ _) hl1.2 le_rfl
  obtain ⟨w', t', seen, ms, c1, c2, c3, -, c5⟩ := C116_converges hf hm rfl hl (.inl rfl) rfl (lr := lr)
    (by show lr = if lr = -1 then 0.01 else lr; rw [if_neg (by linarith)]) h0 (by rw [w0, w1]; exact h1) heps e
  refine ⟨w', ms epochs, ?_, c3, c5⟩
  have := trainingProgram_eq g eps e (s := ⟨loss, "SGD", lr, epochs, 0, false⟩) (Mat.ofFn N C x) (Mat.ofFn N D y) hl1.2 b1
  refine this.trans ?_
  change (Trainer.fit _ _ _ _ _ _ _ >>= _) = _
  erw [c1]
  rfl

/-- C146: so with enough epochs the error of linear regression comes as close as wanted to that of any other weights and biases `W`, `b`, the best ones included. -/
theorem C146_regression_limit {wInit bInit : String} (hwi : wInit ∈ initNames) (hbi : bInit ∈ initNames) {C : Nat} (hC : 0 < C) (hD : 0 < D) (hN : 0 < N) {loss : String} (hl : loss ∈ squaredLosses) {lr : ℝ}
    (h0 : 0 < lr) (h1 : lr * curvature loss N C D x ≤ 1) {eps : ℝ} (heps : 0 < eps) (g : Nat → ℝ) (env : Env) {δ : ℝ} (hδ : 0 < δ) (W b : Nat → Nat → ℝ) :
    ∃ E₀ : Nat, ∀ (epochs : Nat) (e : FitEnv), E₀ ≤ epochs → ∃ (w' : World) (m' : Mlp),
      trainingProgram g eps e [Layer.newDense env C D wInit bInit] ⟨loss, "SGD", lr, epochs, 0, false⟩ (Mat.ofFn N C x) (Mat.ofFn N D y) = .ok w' ∧ Represents w' 0 m' ∧
      m'.error loss N x y ≤ (Mlp.mk 1 (fun i => if i = 0 then C else D) fun _ => { kind := .dense, weight := W, bias := b }).error loss N x y + δ := by
  obtain ⟨m, -, hw, h⟩ := C146_regression (y := y) hwi hbi hC hD hN hl h0 h1 heps g env
  set o : Mlp := Mlp.mk 1 (fun i => if i = 0 then C else D) fun _ => { kind := .dense, weight := W, bias := b } with ho
  obtain ⟨E, hE⟩ := exists_nat_gt (m.distSq o / (2 * lr) / δ)
  refine ⟨E + 1, fun epochs e he => ?_⟩
  obtain ⟨w', m', a1, a2, a3⟩ := h epochs e
  refine ⟨w', m', a1, a2, ?_⟩
  have a4 := a3 o ⟨rfl, rfl⟩ (by rw [hw])
  have hp : (E : ℝ) + 1 ≤ epochs := by exact_mod_cast he
  have hE0 : (0 : ℝ) ≤ E := Nat.cast_nonneg E
  rw [div_lt_iff₀ hδ] at hE
  by_contra hc
  rw [not_le] at hc
  have : (epochs : ℝ) * δ ≤ epochs * (m'.error loss N x y - o.error loss N x y) := mul_le_mul_of_nonneg_left (by linarith) (by linarith)
  nlinarith

end

/-! ## Instances -/

noncomputable def xorKinds : Nat → PlyKind
  | 0 => .dense
  | 1 => .act Act.tanh
  | _ => .dense

def xorWidths : Nat → Nat
  | 0 => 2
  | 1 | 2 => 4
  | _ => 1

/-- The usual network for XOR, trained by Adam with its default learning rate on the four samples in batches of 2. -/
example (g : Nat → ℝ) (env : Nat → Env) (e : FitEnv) : ∃ w',
    trainingProgram g 1 e [Layer.newDense (env 0) 2 4 "HeUniform" "Zeros", Layer.newActivation "Tanh", Layer.newDense (env 2) 4 1 "HeUniform" "Zeros"]
      ⟨"MeanSquaredError", "Adam", -1, 100, 2, true⟩ (Mat.ofFn 4 2 fun i j => if j = 0 then (i / 2 : Nat) else (i % 2 : Nat)) (Mat.ofFn 4 1 fun i _ => if i = 1 ∨ i = 2 then 1 else 0) = .ok w' := by
  obtain ⟨w', -, -, -, h, -⟩ := C146_program (wi := fun _ => "HeUniform") (bi := fun _ => "Zeros") (depth := 3) (width := xorWidths) (kind := xorKinds) (N := 4) (D := 1)
    (s := ⟨"MeanSquaredError", "Adam", -1, 100, 2, true⟩) (x := fun i j => if j = 0 then (i / 2 : Nat) else (i % 2 : Nat)) (y := fun i _ => if i = 1 ∨ i = 2 then 1 else 0)
    (by simp [initNames]) (by simp [initNames]) (by norm_num)
    (fun i hi => by interval_cases i <;> simp [xorWidths])
    (fun i hi => by
      interval_cases i <;> refine ⟨by simp [xorKinds], ?_⟩ <;> simp [xorKinds, xorWidths, PlyKind.Fits]
      exact ⟨"Tanh", by rfl⟩)
    (by norm_num) ((distanceLosses_fits (s := "MeanSquaredError") (by decide)).2 _ _ _) (by decide) (k := .adam) (by rfl) (by norm_num) (eps := 1) one_pos g env env e
  exact ⟨w', h⟩

/-- The line `2 x + 1` through the points 0, 1 and 2: with learning rate 1/4 and enough epochs the error falls below one millionth, whatever the initial weights. -/
example (g : Nat → ℝ) (env : Env) : ∃ E₀ : Nat, ∀ (epochs : Nat) (e : FitEnv), E₀ ≤ epochs → ∃ (w' : World) (m' : Mlp),
    trainingProgram g 1 e [Layer.newDense env 1 1 "GlorotUniform" "Zeros"] ⟨"MeanSquaredError", "SGD", 1 / 4, epochs, 0, false⟩ (Mat.ofFn 3 1 fun i _ => (i : ℝ))
      (Mat.ofFn 3 1 fun i _ => 2 * (i : ℝ) + 1) = .ok w' ∧ Represents w' 0 m' ∧ m'.error "MeanSquaredError" 3 (fun i _ => (i : ℝ)) (fun i _ => 2 * (i : ℝ) + 1) ≤ 1 / 1000000 := by
  obtain ⟨E₀, h⟩ := C146_regression_limit (wInit := "GlorotUniform") (bInit := "Zeros") (C := 1) (D := 1) (N := 3) (x := fun i _ => (i : ℝ)) (y := fun i _ => 2 * (i : ℝ) + 1)
    (by simp [initNames]) (by simp [initNames]) one_pos one_pos (by norm_num) (loss := "MeanSquaredError") (by decide) (lr := 1 / 4) (by norm_num)
    (by norm_num [curvature, lossScale, sum_range_succ]) one_pos g env (δ := 1 / 1000000) (by norm_num) (fun _ _ => 2) (fun _ _ => 1)
  refine ⟨E₀, fun epochs e he => ?_⟩
  obtain ⟨w', m', a1, a2, a3⟩ := h epochs e he
  refine ⟨w', m', a1, a2, a3.trans_eq ?_⟩
  rw [Mlp.Single.error_eq ⟨rfl, rfl⟩ (by decide)]
  norm_num [Linear.err, Linear.lin, sum_range_succ]

end BeeDNN
