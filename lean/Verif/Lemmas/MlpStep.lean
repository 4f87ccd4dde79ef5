import Verif.Lemmas.MlpLoss

/-! # Moving all parameters at once -/

namespace BeeDNN
open Finset

/-- Layers whose output is affine in the input. -/
def PlyKind.Affine : PlyKind → Prop
  | .act _ | .crelu | .gated .. | .softmax => False
  | _ => True

namespace Ply

theorem linIn {p : Ply} {C C' : Nat} (hf : p.kind.Fits C C') (hk : p.kind.Affine) {j : Nat} (hj : j < C') : LinIn C (fun v => p.apply C v j) := by
  obtain ⟨k, W, B⟩ := p
  dsimp only at hf hk
  cases k with
  | dense => exact (LinIn.sum fun k hk => (LinIn.coord hk).mul_const _).add (LinIn.const _)
  | dot => exact LinIn.sum fun k hk => (LinIn.coord hk).mul_const _
  | bias =>
    obtain rfl := hf
    exact (LinIn.coord hj).add (LinIn.const _)
  | channelBias R S K =>
    obtain ⟨-, rfl⟩ := hf
    exact (LinIn.coord hj).add (LinIn.const _)
  | conv R S K kR kC O rs cs =>
    obtain ⟨rfl, rfl, h1, h2, -⟩ := hf
    obtain ⟨a1, a2, a3⟩ := div_lt_planes hj
    refine LinIn.sum fun ch hch => LinIn.sum fun kr hkr => LinIn.sum fun kc hkc => LinIn.const_mul _ ?_
    exact LinIn.px hch (conv_in h1 a2 hkr) (conv_in h2 a3 hkc)
  | avgPool R S K rf cf =>
    obtain ⟨rfl, rfl, h1, h2⟩ := hf
    obtain ⟨a1, a2, a3⟩ := div_lt_planes hj
    refine LinIn.mul_const (LinIn.sum fun i hi => LinIn.sum fun j hj => LinIn.px a1 ?_ ?_) _
    · exact (idx_lt a2 hi).trans_le (Nat.div_mul_le_self _ _)
    · exact (idx_lt a3 hj).trans_le (Nat.div_mul_le_self _ _)
  | globalAvgPool R S K =>
    obtain ⟨rfl, rfl⟩ := hf
    exact LinIn.mul_const (LinIn.sum fun i hi => LinIn.sum fun c hc => LinIn.px hj hi hc) _
  | zeroPad R S K b =>
    obtain ⟨rfl, rfl⟩ := hf
    obtain ⟨a1, a2, a3⟩ := div_lt_planes hj
    exact LinIn.ite (fun hp => LinIn.px a1 (by omega) (by omega)) (LinIn.const 0)
  | tdBias T F =>
    obtain ⟨-, rfl⟩ := hf
    exact (LinIn.coord hj).add (LinIn.const _)
  | tdDot T F O =>
    obtain ⟨rfl, rfl⟩ := hf
    have : j / O < T := Nat.div_lt_of_lt_mul (by rwa [Nat.mul_comm])
    exact LinIn.sum fun k hk => (LinIn.coord (idx_lt this hk)).mul_const _
  | tdDense T F O =>
    obtain ⟨rfl, rfl⟩ := hf
    have : j / O < T := Nat.div_lt_of_lt_mul (by rwa [Nat.mul_comm])
    exact (LinIn.sum fun k hk => (LinIn.coord (idx_lt this hk)).mul_const _).add (LinIn.const _)
  | _ => exact hk.elim

/-- The output depends on the inputs `0 … C-1` only. -/
theorem input_congr {p : Ply} {C C' : Nat} (hf : p.kind.Fits C C') {u v : Row} (h : ∀ k, k < C → u k = v k) {j : Nat} (hj : j < C') :
    p.apply C u j = p.apply C v j := by
  by_cases hk : p.kind.Affine
  · exact (linIn hf hk hj).congr h
  obtain ⟨k, W, B⟩ := p
  dsimp only at hf hk
  cases k with
  | act a =>
    obtain ⟨rfl, -⟩ := hf
    simp only [apply, h j hj]
  | crelu =>
    obtain rfl := hf
    simp only [apply]
    by_cases hjC : j < C
    · simp only [hjC, if_true, h j hjC]
    · simp only [hjC, if_false, h (j - C) (by omega)]
  | gated a₁ a₂ =>
    obtain ⟨rfl, -⟩ := hf
    have h2 : 2 * C' / 2 = C' := by omega
    simp only [apply, h2, h j (by omega), h (j + C') (by omega)]
  | softmax =>
    obtain rfl := hf
    simp only [apply, softmaxAt]
    rw [h j hj, sum_congr rfl fun k hk => by rw [h k (mem_range.1 hk)]]
  | _ => exact absurd trivial hk

theorem affine_of_has {p : Ply} {b : Bool} (hb : p.has b = true) : p.kind.Affine := by
  obtain ⟨k, W, B⟩ := p
  cases k <;> first | trivial | (cases b <;> cases hb)

/-- Parameters that a layer does not have do not matter. -/
theorem setPar_not {p : Ply} {b : Bool} (hb : ¬ p.has b = true) (P : Nat → Nat → ℝ) (C : Nat) : (p.setPar b P).apply C = p.apply C := by
  obtain ⟨k, W, B⟩ := p
  funext v j
  cases k <;> cases b <;> first | rfl | exact absurd rfl hb

/-- How much output `j` grows with the parameters in the direction `V`. -/
noncomputable def dpar (C C' : Nat) (p : Ply) (b : Bool) (v : Row) (V : Nat → Nat → ℝ) (j : Nat) : ℝ :=
  if p.has b = true then dotM (p.kind.shape b C C').1 (p.kind.shape b C C').2 (p.pgrad b v (fun i => if i = j then 1 else 0)) V else 0

theorem dpar_affine {p : Ply} {C C' : Nat} (hf : p.kind.Fits C C') (b : Bool) (v : Row) (V P : Nat → Nat → ℝ) (t : ℝ) {j : Nat} (hj : j < C') :
    (p.setPar b (fun k j => P k j + t * V k j)).apply C v j = (p.setPar b P).apply C v j + t * p.dpar C C' b v V j := by
  unfold dpar
  split
  · rename_i hb
    obtain ⟨Q, h1, h2⟩ := par_affine hf hb v (fun i => if i = j then 1 else 0) V
    rw [h1 P t j hj, ← h2]
    simp [hj]
  · rename_i hb
    rw [setPar_not hb, setPar_not hb, mul_zero, add_zero]

theorem dpar_sum {p : Ply} {C C' : Nat} (hf : p.kind.Fits C C') {b : Bool} (hb : p.has b = true) (v g : Row) (V : Nat → Nat → ℝ) :
    ∑ j ∈ range C', g j * p.dpar C C' b v V j = dotM (p.kind.shape b C C').1 (p.kind.shape b C C').2 (p.pgrad b v g) V := by
  obtain ⟨Q, h1, h2⟩ := par_affine hf hb v g V
  rw [← h2]
  refine sum_congr rfl fun j hj => ?_
  have e1 := h1 (p.par b) 1 j (mem_range.1 hj)
  have e2 := dpar_affine hf b v V (p.par b) 1 (mem_range.1 hj)
  rw [e1] at e2
  have : Q j = p.dpar C C' b v V j := by linarith
  rw [this]

theorem dpar_not {p : Ply} {C C' : Nat} {b : Bool} (hb : ¬ p.has b = true) (v : Row) (V : Nat → Nat → ℝ) (j : Nat) : p.dpar C C' b v V j = 0 := if_neg hb

theorem dpar_setPar (C C' : Nat) (p : Ply) (b c : Bool) (P : Nat → Nat → ℝ) (v : Row) (V : Nat → Nat → ℝ) (j : Nat) :
    (p.setPar c P).dpar C C' b v V j = p.dpar C C' b v V j := by
  cases c <;> rfl

/-- The layer with weights and biases moved by `t` times `V`. -/
def move (V : Bool → Nat → Nat → ℝ) (t : ℝ) (p : Ply) : Ply :=
  { p with weight := fun k j => p.weight k j + t * V false k j, bias := fun k j => p.bias k j + t * V true k j }

theorem apply_move {p : Ply} {C C' : Nat} (hf : p.kind.Fits C C') (V : Bool → Nat → Nat → ℝ) (t : ℝ) (v : Row) {j : Nat} (hj : j < C') :
    (p.move V t).apply C v j = p.apply C v j + t * (p.dpar C C' false v (V false) j + p.dpar C C' true v (V true) j) := by
  have h1 := dpar_affine (p := p.setPar false (fun k j => p.weight k j + t * V false k j)) hf true v (V true) p.bias t hj
  have h2 := dpar_affine hf false v (V false) p.weight t hj
  rw [dpar_setPar] at h1
  have e1 : (p.setPar false (fun k j => p.weight k j + t * V false k j)).setPar true (fun k j => p.bias k j + t * V true k j) = p.move V t := rfl
  have e2 : (p.setPar false (fun k j => p.weight k j + t * V false k j)).setPar true p.bias = p.setPar false (fun k j => p.weight k j + t * V false k j) := rfl
  have e3 : p.setPar false p.weight = p := rfl
  rw [e1, e2, h2, e3] at h1
  rw [h1]
  ring

/-- `dpar` depends continuously on the input. -/
theorem dpar_tendsto {p : Ply} {C C' : Nat} (hf : p.kind.Fits C C') (b : Bool) (V : Nat → Nat → ℝ) {h : ℝ → Row} {h' : Row}
    (hh : ∀ j, j < C → HasDerivAt (fun t => h t j) (h' j) 0) {j : Nat} (hj : j < C') :
    ContinuousAt (fun t => p.dpar C C' b (h t) V j) 0 := by
  by_cases hb : p.has b = true
  · have hk := affine_of_has hb
    have e : (fun t => p.dpar C C' b (h t) V j) =
        fun t => (p.setPar b (fun k j => p.par b k j + 1 * V k j)).apply C (h t) j - (p.setPar b (p.par b)).apply C (h t) j := by
      funext t
      rw [dpar_affine hf b (h t) V (p.par b) 1 hj]
      ring
    have hk' : ∀ P, (p.setPar b P).kind.Affine := fun P => by cases b <;> exact hk
    have hf' : ∀ P, (p.setPar b P).kind.Fits C C' := fun P => by cases b <;> exact hf
    rw [e]
    exact (((linIn (hf' _) (hk' _) hj).deriv hh).sub ((linIn (hf' _) (hk' _) hj).deriv hh)).continuousAt
  · simp only [dpar_not hb]
    exact continuousAt_const

/-- The derivative of the output when input and parameters move. -/
theorem move_deriv {p : Ply} {C C' : Nat} (hf : p.kind.Fits C C') (V : Bool → Nat → Nat → ℝ) {h : ℝ → Row} {h' : Row}
    (hh : ∀ j, j < C → HasDerivAt (fun t => h t j) (h' j) 0) {v : Row} (h0 : ∀ j, j < C → h 0 j = v j) {j : Nat} (hj : j < C') {a : ℝ}
    (ha : HasDerivAt (fun t => p.apply C (h t) j) a 0) :
    HasDerivAt (fun t => (p.move V t).apply C (h t) j) (a + (p.dpar C C' false v (V false) j + p.dpar C C' true v (V true) j)) 0 := by
  have e : (fun t => (p.move V t).apply C (h t) j) = fun t => p.apply C (h t) j +
      t * (p.dpar C C' false (h t) (V false) j + p.dpar C C' true (h t) (V true) j) := funext fun t => apply_move hf V t (h t) hj
  rw [e]
  refine ha.add ?_
  have hc := (dpar_tendsto hf false (V false) hh hj).add (dpar_tendsto hf true (V true) hh hj)
  have hv : ∀ b, p.dpar C C' b (h 0) (V b) j = p.dpar C C' b v (V b) j := fun b => by
    have e1 := dpar_affine hf b (h 0) (V b) (p.par b) 1 hj
    have e2 := dpar_affine hf b v (V b) (p.par b) 1 hj
    have hf' : ∀ P, (p.setPar b P).kind.Fits C C' := fun P => by cases b <;> exact hf
    rw [input_congr (hf' _) h0 hj, input_congr (hf' _) h0 hj] at e1
    linarith
  rw [hasDerivAt_iff_tendsto_slope]
  have := hc.tendsto
  simp only [Pi.add_apply, hv] at this
  refine (this.mono_left nhdsWithin_le_nhds).congr' ?_
  filter_upwards [self_mem_nhdsWithin] with t ht
  have ht : t ≠ 0 := ht
  simp only [slope, vsub_eq_sub, smul_eq_mul, zero_mul, sub_zero]
  rw [← mul_assoc, inv_mul_cancel₀ ht, one_mul]
  rfl

/-- The output depends on the entries of the parameter matrices only. -/
theorem par_congr {p p' : Ply} {C C' : Nat} (hf : p.kind.Fits C C') (hk : p'.kind = p.kind)
    (h : ∀ b, p.has b = true → ∀ k j, k < (p.kind.shape b C C').1 → j < (p.kind.shape b C C').2 → p'.par b k j = p.par b k j) (v : Row) {j : Nat} (hj : j < C') :
    p'.apply C v j = p.apply C v j := by
  have e := apply_move hf (fun b k j => p'.par b k j - p.par b k j) 1 v hj
  have hz : ∀ b, p.dpar C C' b v (fun k j => p'.par b k j - p.par b k j) j = 0 := fun b => by
    unfold dpar
    split
    · rename_i hb
      unfold dotM
      refine sum_eq_zero fun a ha => sum_eq_zero fun c hc => ?_
      dsimp only
      rw [h b hb a c (mem_range.1 ha) (mem_range.1 hc), sub_self, mul_zero]
    · rfl
  rw [hz, hz, add_zero, mul_zero, add_zero] at e
  rw [← e]
  congr 1
  obtain ⟨k, W, B⟩ := p
  obtain ⟨k', W', B'⟩ := p'
  obtain rfl : k' = k := hk
  simp [move, par]

end Ply

namespace Mlp

/-- The network with all parameters moved. -/
def move (V : Nat → Bool → Nat → Nat → ℝ) (t : ℝ) (m : Mlp) : Mlp := { m with ply := fun i => (m.ply i).move (V i) t }

/-- The derivative of an output function when all parameters move. -/
theorem move_deriv {m : Mlp} (hok : m.Ok) (V : Nat → Bool → Nat → Nat → ℝ) {v : Row} {D : Nat} (hD : D ≤ m.depth) (hs : m.SmoothTo D v) {Ψ : Row → ℝ}
    {g : Row} (hΨ : GradAt (m.width D) (fun h => Ψ (m.rest (m.depth - D) D h)) (m.hidden v D) (m.delta v g (m.depth - D))) :
    ∀ k, k ≤ D → ∃ h' : Row, (∀ j, j < m.width k → HasDerivAt (fun t => (m.move V t).hidden v k j) (h' j) 0) ∧
      (∀ j, j < m.width k → (m.move V 0).hidden v k j = m.hidden v k j) ∧
      HasDerivAt (fun t => Ψ (m.rest (m.depth - k) k ((m.move V t).hidden v k)))
        (∑ i ∈ range k, ∑ b : Bool, if (m.ply i).has b = true then
          dotM (m.shape b i).1 (m.shape b i).2 ((m.ply i).pgrad b (m.hidden v i) (m.delta v g (m.depth - 1 - i))) (V i b) else 0) 0 := by
  intro k
  induction k with
  | zero => exact fun _ => ⟨fun _ => 0, fun j _ => hasDerivAt_const _ _, fun j _ => rfl, by
      rw [range_zero, sum_empty]
      exact hasDerivAt_const (0 : ℝ) (Ψ (m.rest (m.depth - 0) 0 v))⟩
  | succ k ih =>
    intro hk
    obtain ⟨h', i1, i2, i3⟩ := ih (by omega)
    have hkd : k < m.depth := by omega
    have hfit := hok.fits k hkd
    have hcoord : ∀ j, j < m.width (k + 1) → ∃ a, HasDerivAt (fun t => (m.ply k).apply (m.width k) ((m.move V t).hidden v k) j) a 0 := by
      intro j hj
      have hg : GradAt (m.width (k + 1)) (fun u => u j) ((m.ply k).apply (m.width k) (m.hidden v k)) (fun i => if i = j then 1 else 0) := by
        intro u u' hu _
        refine (hu j hj).congr_deriv ?_
        simp [hj]
      exact ⟨_, Ply.gradAt hfit (hs k hk) hg _ _ i1 i2⟩
    choose! a ha using hcoord
    have hder : ∀ j, j < m.width (k + 1) → HasDerivAt (fun t => (m.move V t).hidden v (k + 1) j)
        (a j + ((m.ply k).dpar (m.width k) (m.width (k + 1)) false (m.hidden v k) (V k false) j +
          (m.ply k).dpar (m.width k) (m.width (k + 1)) true (m.hidden v k) (V k true) j)) 0 := fun j hj =>
      Ply.move_deriv hfit (V k) i1 i2 hj (ha j hj)
    have h0 : ∀ j, j < m.width (k + 1) → (m.move V 0).hidden v (k + 1) j = m.hidden v (k + 1) j := by
      intro j hj
      show ((m.ply k).move (V k) 0).apply (m.width k) ((m.move V 0).hidden v k) j = (m.ply k).apply (m.width k) (m.hidden v k) j
      rw [Ply.apply_move hfit (V k) 0 _ hj, zero_mul, add_zero]
      exact Ply.input_congr hfit i2 hj
    refine ⟨_, hder, h0, ?_⟩
    have hrest := restGradAt hok hD hs hΨ (D - (k + 1)) (k + 1) (by omega)
    rw [show m.depth - D + (D - (k + 1)) = m.depth - (k + 1) by omega] at hrest
    have r1 := hrest _ _ hder h0
    have r2 := hrest _ _ ha (fun j hj => by
      show (m.ply k).apply (m.width k) ((m.move V 0).hidden v k) j = (m.ply k).apply (m.width k) (m.hidden v k) j
      exact Ply.input_congr hfit i2 hj)
    have e : (fun t => Ψ (m.rest (m.depth - k) k ((m.move V t).hidden v k))) =
        fun t => Ψ (m.rest (m.depth - (k + 1)) (k + 1) ((m.ply k).apply (m.width k) ((m.move V t).hidden v k))) := by
      funext t
      rw [show m.depth - k = m.depth - (k + 1) + 1 by omega, rest]
    rw [e] at i3
    refine r1.congr_deriv ?_
    rw [sum_range_succ, i3.unique r2, Fintype.sum_bool]
    simp only [mul_add, sum_add_distrib]
    congr 1
    rw [show m.depth - (k + 1) = m.depth - 1 - k by omega, add_comm]
    refine congrArg₂ (· + ·) ?_ ?_
    all_goals
      split
      · rename_i hb
        rw [Ply.dpar_sum hfit hb]
        rfl
      · rename_i hb
        simp only [Ply.dpar_not hb, mul_zero, sum_const_zero]

theorem move_rest (m : Mlp) (V : Nat → Bool → Nat → Nat → ℝ) (t : ℝ) : ∀ d k h, (∀ i, k ≤ i → i < k + d → ∀ b, (m.ply i).has b = false) →
    (m.move V t).rest d k h = m.rest d k h
  | 0, _, _, _ => rfl
  | d + 1, k, h, hn => by
    have e : ((m.move V t).ply k).apply ((m.move V t).width k) h = (m.ply k).apply (m.width k) h := by
      have n1 := hn k le_rfl (by omega) false
      have n2 := hn k le_rfl (by omega) true
      have := congrFun (Ply.setPar_not (p := m.ply k) (b := false) (by simp [n1]) (fun i j => (m.ply k).weight i j + t * V k false i j) (m.width k)) h
      rw [← this]
      have := congrFun (Ply.setPar_not (p := (m.ply k).setPar false (fun i j => (m.ply k).weight i j + t * V k false i j)) (b := true)
        (by simpa [Ply.has, Ply.setPar] using n2) (fun i j => (m.ply k).bias i j + t * V k true i j) (m.width k)) h
      rw [← this]
      rfl
    rw [rest, rest, e]
    exact move_rest m V t d (k + 1) _ (fun i h1 h2 => hn i (by omega) (by omega))

/-- The derivative of the error when all parameters move. -/
theorem error_deriv {m : Mlp} (hok : m.Ok) {eps : ℝ} (heps : 0 < eps) {s : String} (hs : s ∈ listLoss) {ψ : ℝ → ℝ}
    (hψ : s ∈ distanceLosses → ∀ z : ℝ, (s ∈ kinkAtZero → z ≠ 0) → HasDerivAt (pointError s (m.width m.depth)) (ψ z) z) {D : Nat}
    (N : Nat) (x y : Nat → Row) (hT : TruthFits s (m.width m.depth) D N y) (h : ∀ i, i < N → m.Regular eps s (x i) (y i))
    (V : Nat → Bool → Nat → Nat → ℝ) :
    HasDerivAt (fun t => (m.move V t).error s N x y) (∑ i ∈ range m.depth, ∑ b : Bool, if (m.ply i).has b = true then
      dotM (m.shape b i).1 (m.shape b i).2 (m.grad N x (fun k => lossGrad eps s ψ (m.out (x k)) (y k)) b i) (V i b) else 0) 0 := by
  rcases Nat.eq_zero_or_pos N with rfl | hN
  · have e : (fun t : ℝ => (m.move V t).error s 0 x y) = fun _ => 0 := by
      funext t; simp [error]
    rw [e]
    refine (hasDerivAt_const (0 : ℝ) (0 : ℝ)).congr_deriv ?_
    simp [dotM, grad]
  have hlev := fun k (hk : k < N) => level_gradAt hok heps hs hψ (hT.sub (N' := 1) fun _ _ => ⟨k, hk, rfl⟩) (h k hk)
  have hle : m.level s ≤ m.depth := by unfold level; split <;> omega
  have hnone : ∀ i, m.level s ≤ i → i < m.depth → ∀ b, (m.ply i).has b = false := by
    intro i h1 h2 b
    unfold level at h1
    split at h1
    · rename_i hc
      have h0 := h 0 hN
      rw [Regular, if_pos hc] at h0
      obtain rfl : i = m.depth - 1 := by omega
      rw [Ply.has, h0.1]
      cases b <;> rfl
    · omega
  have hsum : ∀ k, k < N → HasDerivAt (fun t => sampleError s (m.width m.depth) ((m.move V t).out (x k)) (y k))
      (∑ i ∈ range m.depth, ∑ b : Bool, if (m.ply i).has b = true then dotM (m.shape b i).1 (m.shape b i).2
        ((m.ply i).pgrad b (m.hidden (x k) i) (m.delta (x k) (lossGrad eps s ψ (m.out (x k)) (y k)) (m.depth - 1 - i))) (V i b) else 0) 0 := by
    intro k hk
    obtain ⟨h', -, -, d⟩ := move_deriv hok V hle (hlev k hk).1 (Ψ := fun u => sampleError s (m.width m.depth) u (y k)) (hlev k hk).2 _ le_rfl
    refine (d.congr_of_eventuallyEq (Filter.Eventually.of_forall fun t => ?_)).congr_deriv ?_
    · dsimp only
      have : (m.move V t).out (x k) = (m.move V t).rest (m.depth - m.level s) (m.level s) ((m.move V t).hidden (x k) (m.level s)) := by
        have := hidden_rest (m.move V t) (x k) (m.depth - m.level s) (m.level s)
        rw [show m.level s + (m.depth - m.level s) = m.depth by omega] at this
        exact this
      rw [this, move_rest m V t _ _ _ (fun i h1 h2 => hnone i h1 (by omega))]
    · refine sum_subset (fun i hi => mem_range.2 ((mem_range.1 hi).trans_le hle)) fun i hi hn => ?_
      refine sum_eq_zero fun b _ => ?_
      rw [if_neg (by rw [hnone i (by simpa using hn) (mem_range.1 hi) b]; decide)]
  have htot := (HasDerivAt.fun_sum (u := range N) fun k hk => hsum k (mem_range.mp hk)).const_mul (1 / (N : ℝ))
  refine htot.congr_deriv ?_
  rw [sum_comm, mul_sum]
  refine sum_congr rfl fun i _ => ?_
  rw [sum_comm, mul_sum]
  refine sum_congr rfl fun b _ => ?_
  split
  · unfold dotM grad
    simp only [sum_div, sum_mul, mul_sum]
    rw [sum_comm]
    refine sum_congr rfl fun k _ => ?_
    rw [sum_comm]
    refine sum_congr rfl fun s _ => sum_congr rfl fun j _ => ?_
    ring
  · simp

theorem hidden_congr {m m' : Mlp} (hok : m.Ok) (hl : Mlp.Like m m') (h : ∀ i, i < m.depth → ∀ b, (m.ply i).has b = true → ∀ k j, k < (m.shape b i).1 →
    j < (m.shape b i).2 → (m'.ply i).par b k j = (m.ply i).par b k j) (v : Row) : ∀ k, k ≤ m.depth → ∀ j, j < m.width k → m'.hidden v k j = m.hidden v k j
  | 0, _, _, _ => rfl
  | k + 1, hk, j, hj => by
    have ih := hidden_congr hok hl h v k (by omega)
    have hfit := hok.fits k hk
    have hfit' : (m'.ply k).kind.Fits (m.width k) (m.width (k + 1)) := by rw [hl.kind]; exact hfit
    rw [hidden, hidden, hl.width, Ply.input_congr hfit' ih hj]
    exact Ply.par_congr hfit (hl.kind k) (h k hk) (m.hidden v k) hj

theorem sampleError_congr {s : String} {K D N : Nat} (hK : 0 < K) {Y : Nat → Row} (hT : TruthFits s K D N Y) {i : Nat} (hi : i < N) {p p' : Row}
    (h : ∀ j, j < K → p' j = p j) : sampleError s K p' (Y i) = sampleError s K p (Y i) := by
  unfold sampleError
  split
  · exact sum_congr rfl fun j hj => by rw [h j (mem_range.1 hj)]
  split
  · rename_i hs
    rw [TruthFits, if_pos hs] at hT
    obtain ⟨c, hc, hy⟩ := hT.2.2 i hi
    rw [hy, Nat.floor_natCast, h c hc]
  split
  · rw [h 0 hK]
  · exact sum_congr rfl fun j hj => by rw [h j (mem_range.1 hj)]

/-- The error depends on the entries of the parameter matrices only. -/
theorem error_congr {m m' : Mlp} (hok : m.Ok) (hl : Mlp.Like m m') {s : String} {D N : Nat} {x y : Nat → Row} (hT : TruthFits s (m.width m.depth) D N y)
    (h : ∀ i, i < m.depth → ∀ b, (m.ply i).has b = true → ∀ k j, k < (m.shape b i).1 → j < (m.shape b i).2 → (m'.ply i).par b k j = (m.ply i).par b k j) :
    m'.error s N x y = m.error s N x y := by
  unfold error
  rw [hl.depth, hl.width]
  congr 1
  refine sum_congr rfl fun i hi => sampleError_congr (hok.pos _ le_rfl) hT (mem_range.1 hi) fun j hj => ?_
  unfold out
  rw [hl.depth]
  exact hidden_congr hok hl h _ _ le_rfl j hj

end Mlp

end BeeDNN
