import Verif.Lemmas.MlpGrad
import Verif.Lemmas.MlpBatch
import Verif.Props.Loss
import Verif.Props.Softmax

/-! # Training a perceptron: the losses -/

namespace BeeDNN
open Finset

/-- A distance loss: its gradient is the derivative of `pointError`. -/
theorem diffLoss_of_mem (eps : ℝ) : ∀ s ∈ distanceLosses, ∃ ψ : Nat → ℝ → ℝ,
    (∀ g, ∃ ℓ red φ, createLoss g (fun x => |x|) eps s = some ℓ ∧ IsDiffLoss ℓ red φ ψ) ∧
    ∀ K : Nat, 0 < K → ∀ z : ℝ, (s ∈ kinkAtZero → z ≠ 0) → HasDerivAt (pointError s K) (ψ K z) z := by
  intro s hs
  have hk : ∀ K : Nat, 0 < K → (K : ℝ) ≠ 0 := fun K h => Nat.cast_ne_zero.mpr h.ne'
  simp only [distanceLosses, List.mem_cons, List.not_mem_nil, or_false] at hs
  rcases hs with rfl | rfl | rfl | rfl | rfl | rfl | rfl | rfl | rfl
  · refine ⟨_, fun g => ⟨_, _, _, rfl, isDiff_MSE g⟩, fun K hK z _ => ?_⟩
    have := (hasDerivAt_mulSelf z).div_const (2 * (K : ℝ))
    have e : pointError "MeanSquaredError" K = fun y : ℝ => y * y / (2 * (K : ℝ)) := by
      funext y; simp [pointError, pow_two]
    rw [e]
    exact this.congr_deriv (by have := hk K hK; field_simp)
  · refine ⟨_, fun g => ⟨_, _, _, rfl, isDiff_MAE g _⟩, fun K hK z hz => ?_⟩
    have e : pointError "MeanAbsoluteError" K = fun y => |y| := by funext y; simp [pointError]
    rw [e]
    exact hasDerivAt_absR (hz (by decide))
  · refine ⟨_, fun g => ⟨_, _, _, rfl, isDiff_MCE g _⟩, fun K hK z _ => ?_⟩
    have e : pointError "MeanCubicError" K = fun y => |y * y * y| := by
      funext y; rw [abs_mul, abs_mul]; simp only [pointError, reduceCtorEq, String.reduceEq, if_false, if_true, true_or, or_true]; ring
    rw [e]
    exact hasDerivAt_absCube z
  · refine ⟨_, fun g => ⟨_, _, _, rfl, isDiff_L2 g⟩, fun K hK z _ => ?_⟩
    have := (hasDerivAt_mulSelf z).div_const (2 : ℝ)
    have e : pointError "L2" K = fun y => y * y / 2 := by
      funext y; simp [pointError, pow_two]
    rw [e]
    exact this.congr_deriv (by ring)
  · refine ⟨_, fun g => ⟨_, _, _, rfl, isDiff_L1 g _⟩, fun K hK z hz => ?_⟩
    have e : pointError "L1" K = fun y : ℝ => |y| / (K : ℝ) := by funext y; simp [pointError]
    rw [e]
    exact (hasDerivAt_absR (hz (by decide))).div_const _
  · refine ⟨_, fun g => ⟨_, _, _, rfl, isDiff_L3 g _⟩, fun K hK z _ => ?_⟩
    have e : pointError "L3" K = fun y => |y * y * y| := by
      funext y; rw [abs_mul, abs_mul]; simp only [pointError, reduceCtorEq, String.reduceEq, if_false, if_true, true_or, or_true]; ring
    rw [e]
    exact hasDerivAt_absCube z
  · refine ⟨_, fun g => ⟨_, _, _, rfl, isDiff_LogCosh g⟩, fun K hK z _ => ?_⟩
    have e : pointError "LogCosh" K = fun y => Real.log (Real.cosh y) := by funext y; simp [pointError]
    rw [e]
    exact hasDerivAt_logCosh z
  · refine ⟨_, fun g => ⟨_, _, _, rfl, isDiff_Huber g _⟩, fun K hK z _ => ?_⟩
    have e : pointError "Huber" K = fun x => (if |x| < 1 then 0.5 * (|x| * |x|) else 1 * |x| - 0.5 * 1 * 1 : ℝ) := by
      funext y
      simp only [pointError]
      simp only [show ¬ ("Huber" = "MeanSquaredError") by decide, show ¬ ("Huber" = "L2") by decide,
        show ¬ ("Huber" = "MeanAbsoluteError") by decide, show ¬ ("Huber" = "L1") by decide,
        show ¬ ("Huber" = "MeanCubicError" ∨ "Huber" = "L3") by decide, show ¬ ("Huber" = "LogCosh") by decide, if_false, if_true]
      split
      · rw [abs_mul_abs_self]; ring
      · ring
    rw [e]
    exact hasDerivAt_huber z
  · refine ⟨_, fun g => ⟨_, _, _, rfl, isDiff_PseudoHuber g⟩, fun K hK z _ => ?_⟩
    have e : pointError "PseudoHuber" K = fun x => (1 * (Real.sqrt (x * x * 1 + 1) - 1) : ℝ) := by
      funext y
      simp [pointError, pow_two]
    rw [e]
    exact hasDerivAt_pseudoHuber z

/-- The gradient that is computed for a prediction `p` and a truth `y`; `ψ` for the distance losses. -/
noncomputable def lossGrad (eps : ℝ) (s : String) (ψ : ℝ → ℝ) (p y : Row) : Row := fun j =>
  if s = "CategoricalCrossEntropy" then -(y j / max (p j) eps) + (1 - y j) / max (1 - p j) eps else
  if s = "SparseCategoricalCrossEntropy" then if ⌊y 0⌋₊ = j then -(1 / max (p j) eps) else 1 / max (1 - p j) eps else
  if s = "BinaryCrossEntropy" then -(y j / max (p j) eps - (1 - y j) / max (1 - p j) eps) else ψ (p j - y j)

theorem distance_of_not {s : String} (hs : s ∈ listLoss) (h1 : s ≠ "CategoricalCrossEntropy") (h2 : s ≠ "SparseCategoricalCrossEntropy")
    (h3 : s ≠ "BinaryCrossEntropy") : s ∈ distanceLosses := by
  simp only [listLoss, List.mem_cons, List.not_mem_nil, or_false] at hs
  rcases hs with rfl | rfl | rfl | rfl | rfl | rfl | rfl | rfl | rfl | rfl | rfl | rfl
  all_goals first | decide | exact absurd rfl h1 | exact absurd rfl h2 | exact absurd rfl h3

theorem distanceLosses_fits {s : String} (h : s ∈ distanceLosses) : s ∈ listLoss ∧ ∀ K N (Y : Nat → Row), TruthFits s K K N Y := by
  simp only [distanceLosses, List.mem_cons, List.not_mem_nil, or_false] at h
  rcases h with rfl | rfl | rfl | rfl | rfl | rfl | rfl | rfl | rfl <;> exact ⟨by decide, fun K N Y => by simp [TruthFits]⟩

/-- All losses are computed without fault. -/
theorem lossOk_of_mem (eps : ℝ) {s : String} (hs : s ∈ listLoss) {K : Nat} (hK : 0 < K) (D : Nat) :
    ∃ ψ : ℝ → ℝ, LossOk (fun x => |x|) eps s K D (lossGrad eps s ψ) ∧
      (s ∈ distanceLosses → ∀ z : ℝ, (s ∈ kinkAtZero → z ≠ 0) → HasDerivAt (pointError s K) (ψ z) z) := by
  have comp : ∀ (t : Trainer) (g : Nat → ℝ) (N : Nat) (P Y : Nat → Row), t.loss = s → t.lossWeight.size = 0 → TruthFits s K D N Y → ∀ o : Mat ℝ, o.WF →
      ∃ M x, t.lossCompute g (fun x => |x|) eps (Mat.ofFn N K P) (Mat.ofFn N D Y) o = .ok M ∧ M.mean = .ok x := by
    intro t g N P Y ht hw hT o ho
    obtain ⟨M, h1, -, h2⟩ := Trainer.lossCompute_fits (eps := eps) (t := t) (by rw [ht]; exact hs) hw hK (P := P) (by rw [ht]; exact hT) g ho
    exact ⟨M, _, h1, h2⟩
  by_cases h1 : s = "CategoricalCrossEntropy"
  · subst h1
    refine ⟨fun _ => 0, fun t g N P Y ht hw (hT : TruthFits _ K D N Y) o ho => ⟨comp t g N P Y ht hw hT o ho, ?_⟩, fun h => absurd h (by decide)⟩
    obtain rfl : D = K := (hT.same (by decide)).1
    unfold Trainer.lossGradient
    rw [ht]
    exact cce_gradient_ofFn g eps N D P Y _ ho
  by_cases h2 : s = "SparseCategoricalCrossEntropy"
  · subst h2
    refine ⟨fun _ => 0, fun t g N P Y ht hw (hT : TruthFits _ K D N Y) o ho => ⟨comp t g N P Y ht hw hT o ho, ?_⟩, fun h => absurd h (by decide)⟩
    rw [TruthFits, if_pos rfl] at hT
    obtain ⟨rfl, hC, hf⟩ := hT
    choose! cls hc hy using hf
    unfold Trainer.lossGradient
    rw [ht]
    refine (sparse_gradient_ofFn g eps P Y _ ho hy (fun i hi => lt_of_lt_of_le (hc i hi) hC)).trans ?_
    congr 1
    refine Mat.ofFn_congr fun i j hi hj => ?_
    simp only [lossGrad, String.reduceEq, if_false, if_true, hy i hi, Nat.floor_natCast]
  by_cases h3 : s = "BinaryCrossEntropy"
  · subst h3
    refine ⟨fun _ => 0, fun t g N P Y ht hw (hT : TruthFits _ K D N Y) o ho => ⟨comp t g N P Y ht hw hT o ho, ?_⟩, fun h => absurd h (by decide)⟩
    obtain rfl : D = K := (hT.same (by decide)).1
    unfold Trainer.lossGradient
    rw [ht]
    exact bce_gradient_ofFn g eps N D P Y _ ho
  obtain ⟨ψ, d1, d2⟩ := diffLoss_of_mem eps s (distance_of_not hs h1 h2 h3)
  refine ⟨ψ K, fun t g N P Y ht hw (hT : TruthFits _ K D N Y) o ho => ⟨comp t g N P Y ht hw hT o ho, ?_⟩, fun _ => d2 K hK⟩
  obtain rfl : D = K := (hT.same h2).1
  obtain ⟨ℓ, red, φ, c1, c2⟩ := d1 g
  unfold Trainer.lossGradient
  rw [ht, c1]
  refine (c2.gradient N D P Y _ _ hw ho).trans ?_
  congr 1
  refine Mat.ofFn_congr fun i j hi hj => ?_
  simp only [lossGrad, h1, h2, h3, if_false]

/-- A separable function. -/
theorem gradAt_sep {K : Nat} {f : Nat → ℝ → ℝ} {v g : Row} (h : ∀ j, j < K → HasDerivAt (f j) (g j) (v j)) :
    GradAt K (fun u => ∑ j ∈ range K, f j (u j)) v g := by
  intro u u' hu h0
  refine HasDerivAt.fun_sum fun j hj => ?_
  have hj := mem_range.mp hj
  exact (h j hj).comp_of_eq 0 (hu j hj) (h0 j hj).symm

/-- The cross entropy behind softmax. -/
theorem gradAt_crossEntropy {K : Nat} (hK : 0 < K) (v : Row) {y : Row} (hy : ∑ j ∈ range K, y j = 1) :
    GradAt K (fun u => ∑ j ∈ range K, -(y j * Real.log (softmaxAt K u j))) v (fun j => softmaxAt K v j - y j) := by
  intro u u' hu h0
  have e : ∀ t, (∑ j ∈ range K, -(y j * Real.log (softmaxAt K (u t) j))) =
      Real.log (∑ k ∈ range K, Real.exp (u t k)) - ∑ j ∈ range K, y j * u t j := by
    intro t
    have : ∀ j, -(y j * Real.log (softmaxAt K (u t) j)) = y j * Real.log (∑ k ∈ range K, Real.exp (u t k)) - y j * u t j := by
      intro j
      rw [softmaxAt, Real.log_div (Real.exp_ne_zero _) (softmax_den_pos hK _).ne', Real.log_exp]
      ring
    rw [sum_congr rfl fun j _ => this j, sum_sub_distrib, ← sum_mul, hy, one_mul]
  have hv : ∑ k ∈ range K, Real.exp (u 0 k) = ∑ k ∈ range K, Real.exp (v k) :=
    sum_congr rfl fun k hk => by rw [h0 k (mem_range.mp hk)]
  have d1 : HasDerivAt (fun t => ∑ k ∈ range K, Real.exp (u t k)) (∑ k ∈ range K, Real.exp (v k) * u' k) 0 := by
    refine HasDerivAt.fun_sum fun k hk => ?_
    have hk := mem_range.mp hk
    rw [← h0 k hk]
    exact (hu k hk).exp
  have d2 : HasDerivAt (fun t => ∑ j ∈ range K, y j * u t j) (∑ j ∈ range K, y j * u' j) 0 :=
    HasDerivAt.fun_sum fun k hk => (hu k (mem_range.mp hk)).const_mul (y k)
  have d3 := (d1.log (by rw [hv]; exact (softmax_den_pos hK _).ne')).sub d2
  rw [funext e]
  refine d3.congr_deriv ?_
  rw [hv, sum_div, ← sum_sub_distrib]
  refine sum_congr rfl fun k _ => ?_
  show _ = (Real.exp (v k) / _ - y k) * u' k
  ring

theorem softmax_delta {p y eps : ℝ} (heps : 0 < eps) (h1 : eps < p) (h2 : p < 1 - eps) :
    (-(y / max p eps) + (1 - y) / max (1 - p) eps) * (p * (1 - p)) = p - y := by
  rw [max_eq_left h1.le, max_eq_left (by linarith)]
  have e1 : p ≠ 0 := by linarith
  have e2 : 1 - p ≠ 0 := by linarith
  field_simp
  ring

namespace Mlp

/-- Behind this layer, the derivatives are those of the loss. -/
def level (m : Mlp) (s : String) : Nat := if s = "CategoricalCrossEntropy" ∨ s = "SparseCategoricalCrossEntropy" then m.depth - 1 else m.depth

theorem level_gradAt {m : Mlp} (hok : m.Ok) {eps : ℝ} (heps : 0 < eps) {s : String} (hs : s ∈ listLoss) {ψ : ℝ → ℝ}
    (hψ : s ∈ distanceLosses → ∀ z : ℝ, (s ∈ kinkAtZero → z ≠ 0) → HasDerivAt (pointError s (m.width m.depth)) (ψ z) z) {v y : Row} {D : Nat}
    (hT : TruthFits s (m.width m.depth) D 1 (fun _ => y)) (h : m.Regular eps s v y) :
    m.SmoothTo (m.level s) v ∧ GradAt (m.width (m.level s)) (fun h => sampleError s (m.width m.depth) (m.rest (m.depth - m.level s) (m.level s) h) y)
      (m.hidden v (m.level s)) (m.delta v (lossGrad eps s ψ (m.out v) y) (m.depth - m.level s)) := by
  have hK := hok.pos _ (Nat.le_refl m.depth)
  by_cases hc : s = "CategoricalCrossEntropy" ∨ s = "SparseCategoricalCrossEntropy"
  · have hl : m.level s = m.depth - 1 := if_pos hc
    rw [Regular, if_pos hc] at h
    obtain ⟨r1, r2, r3, r4⟩ := h
    rw [hl]
    refine ⟨r2, ?_⟩
    have hd := hok.depth
    have hfit := hok.fits (m.depth - 1) (by omega)
    rw [r1] at hfit
    have hw : m.width (m.depth - 1) = m.width m.depth := by
      have : m.width (m.depth - 1 + 1) = m.width (m.depth - 1) := hfit
      rw [← this, show m.depth - 1 + 1 = m.depth by omega]
    have e1 : m.depth - (m.depth - 1) = 1 := by omega
    have hout : m.out v = softmaxAt (m.width m.depth) (m.hidden v (m.depth - 1)) := by
      have : m.out v = m.hidden v (m.depth - 1 + 1) := by rw [show m.depth - 1 + 1 = m.depth by omega]; rfl
      rw [this, hidden, Ply.apply, r1, hw]
    have hrest : ∀ u, m.rest 1 (m.depth - 1) u = softmaxAt (m.width m.depth) u := fun u => by
      rw [rest, rest, Ply.apply, r1, hw]
    have hdel : ∀ g j, m.delta v g 1 j = g j * (m.out v j * (1 - m.out v j)) := fun g j => by
      rw [delta, delta, Nat.sub_zero, Ply.back, r1, hout, hw]
    rw [e1, hw]
    simp only [hrest]
    rcases hc with rfl | rfl
    · have ce := gradAt_crossEntropy hK (m.hidden v (m.depth - 1)) (r4 rfl)
      intro u u' hu h0
      refine (ce u u' hu h0).congr_deriv (sum_congr rfl fun j hj => ?_)
      have hj := r3 j (mem_range.mp hj)
      rw [hdel, lossGrad, if_pos rfl, softmax_delta heps hj.1 hj.2, hout]
    · rw [TruthFits, if_pos rfl] at hT
      obtain ⟨c, hc, hy⟩ := hT.2.2 0 Nat.zero_lt_one
      have ce := gradAt_crossEntropy hK (m.hidden v (m.depth - 1)) (y := fun j => if c = j then 1 else 0)
        (by rw [sum_ite_eq]; simp [hc])
      intro u u' hu h0
      refine ((ce u u' hu h0).congr_of_eventuallyEq (Filter.Eventually.of_forall fun t => ?_)).congr_deriv (sum_congr rfl fun j hj => ?_)
      · simp only [sampleError, String.reduceEq, if_false, if_true, hy, Nat.floor_natCast]
        rw [sum_eq_single c (fun j _ hj => by rw [if_neg (Ne.symm hj)]; ring) (fun h => absurd (mem_range.mpr hc) h), if_pos rfl, one_mul]
      · have hj := r3 j (mem_range.mp hj)
        have := softmax_delta (y := if c = j then 1 else 0) heps hj.1 hj.2
        rw [hdel]
        dsimp only
        rw [← hout, ← this]
        simp only [lossGrad, String.reduceEq, if_false, if_true, hy, Nat.floor_natCast]
        split <;> ring
  · have hl : m.level s = m.depth := if_neg hc
    rw [Regular, if_neg hc] at h
    obtain ⟨r1, r2, r3⟩ := h
    push Not at hc
    rw [hl, Nat.sub_self]
    refine ⟨r1, ?_⟩
    show GradAt _ (fun u => sampleError s (m.width m.depth) u y) (m.out v) (lossGrad eps s ψ (m.out v) y)
    by_cases hb : s = "BinaryCrossEntropy"
    · subst hb
      have h1 : m.width m.depth = 1 := (hT.same (by decide)).2 rfl
      rw [h1]
      have := gradAt_sep (K := 1) (v := m.out v) (f := fun _ z => -(y 0 * Real.log z + (1 - y 0) * Real.log (1 - z)))
        (g := lossGrad eps "BinaryCrossEntropy" ψ (m.out v) y) (fun j hj => by
          obtain rfl : j = 0 := by omega
          obtain ⟨ha, hb⟩ := r3 rfl
          have e1 : m.out v 0 ≠ 0 := by linarith
          have e2 : 1 - m.out v 0 ≠ 0 := by linarith
          have d := (((Real.hasDerivAt_log e1).const_mul (y 0)).add
            (((Real.hasDerivAt_log e2).comp_const_sub 1 (m.out v 0)).const_mul (1 - y 0))).neg
          refine d.congr_deriv ?_
          simp only [lossGrad, String.reduceEq, if_false, if_true]
          rw [max_eq_left ha.le, max_eq_left (by linarith)]
          field_simp
          ring)
      simpa only [sampleError, String.reduceEq, if_false, if_true, range_one, sum_singleton] using this
    · have hd := distance_of_not hs hc.1 hc.2 hb
      have := gradAt_sep (K := m.width m.depth) (v := m.out v) (f := fun j z => pointError s (m.width m.depth) (z - y j))
        (g := lossGrad eps s ψ (m.out v) y) (fun j hj => by
          have d := hψ hd (m.out v j - y j) (fun hk => sub_ne_zero.mpr (r2 (by simpa [kinkAtZero] using hk) j hj))
          simp only [lossGrad, hc.1, hc.2, hb, if_false]
          exact d.comp_sub_const (m.out v j) (y j))
      simpa only [sampleError, hc.1, hc.2, hb, if_false] using this

/-- What back-propagation computes is, up to the rates, the gradient of the error. -/
theorem grad_error {m : Mlp} (hok : m.Ok) {eps : ℝ} (heps : 0 < eps) {s : String} (hs : s ∈ listLoss) {ψ : ℝ → ℝ}
    (hψ : s ∈ distanceLosses → ∀ z : ℝ, (s ∈ kinkAtZero → z ≠ 0) → HasDerivAt (pointError s (m.width m.depth)) (ψ z) z) {D : Nat}
    (N : Nat) (x y : Nat → Row) (hT : TruthFits s (m.width m.depth) D N y) (h : ∀ i, i < N → m.Regular eps s (x i) (y i))
    (b : Bool) {i : Nat} (hi : i < m.depth) (hb : (m.ply i).has b = true) :
    IsGrad (m.shape b i).1 (m.shape b i).2 (fun P => (m.setPar b i P).error s N x y) ((m.ply i).par b)
      (m.grad N x (fun k => lossGrad eps s ψ (m.out (x k)) (y k)) b i) := by
  rcases Nat.eq_zero_or_pos N with rfl | hN
  · intro V
    have e : (fun t : ℝ => (m.setPar b i (fun p q => (m.ply i).par b p q + t * V p q)).error s 0 x y) = fun _ => 0 := by
      funext t; simp [error]
    rw [e]
    refine (hasDerivAt_const (0 : ℝ) (0 : ℝ)).congr_deriv ?_
    simp [dotM, grad]
  have hlev := fun k (hk : k < N) => level_gradAt hok heps hs hψ (hT.sub (N' := 1) fun _ _ => ⟨k, hk, rfl⟩) (h k hk)
  have hle : m.level s ≤ m.depth := by unfold level; split <;> omega
  have hi' : i < m.level s := by
    unfold level
    split
    · rename_i hc
      have h0 := h 0 hN
      rw [Regular, if_pos hc] at h0
      by_contra hlt
      obtain rfl : i = m.depth - 1 := by omega
      rw [Ply.has, h0.1] at hb
      cases hb
    · exact hi
  exact Mlp.grad_isGrad hok N x hle (Ψ := fun k u => sampleError s (m.width m.depth) u (y k)) (g := fun k => lossGrad eps s ψ (m.out (x k)) (y k)) (fun k hk => (hlev k hk).1) (fun k hk => (hlev k hk).2) b hi' hb

end Mlp

end BeeDNN
