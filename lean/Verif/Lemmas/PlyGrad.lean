import Verif.Lemmas.Ply
import Verif.Lemmas.Gradient
import Mathlib.Analysis.Calculus.Deriv.Add
import Mathlib.Analysis.Calculus.Deriv.Mul
import Mathlib.Analysis.Calculus.Deriv.Comp
import Mathlib.Analysis.Calculus.Deriv.Abs

/-! # The chain rule for each kind of layer -/

namespace BeeDNN
open Finset

/-- `g` is the gradient of `Ψ` at the first `K` entries `v`: along every curve through `v`, the derivative of `Ψ` is the
scalar product of `g` and the velocity. -/
def GradAt (K : Nat) (Ψ : Row → ℝ) (v g : Row) : Prop :=
  ∀ (h : ℝ → Row) (h' : Row), (∀ j, j < K → HasDerivAt (fun t => h t j) (h' j) 0) → (∀ j, j < K → h 0 j = v j) →
    HasDerivAt (fun t => Ψ (h t)) (∑ j ∈ range K, g j * h' j) 0

/-- `F` is affine in the first `C` entries and does not depend on others. -/
def LinIn (C : Nat) (F : Row → ℝ) : Prop := ∃ (a : Nat → ℝ) (c : ℝ), ∀ v, F v = ∑ k ∈ range C, a k * v k + c

namespace LinIn
variable {C : Nat} {F G : Row → ℝ}

theorem const (c : ℝ) : LinIn C (fun _ => c) := ⟨fun _ => 0, c, fun v => by simp⟩

theorem coord {k : Nat} (hk : k < C) : LinIn C (fun v => v k) := by
  refine ⟨fun i => if i = k then 1 else 0, 0, fun v => ?_⟩
  simp [hk]

theorem add (hF : LinIn C F) (hG : LinIn C G) : LinIn C (fun v => F v + G v) := by
  obtain ⟨a, c, h⟩ := hF
  obtain ⟨a', c', h'⟩ := hG
  refine ⟨fun k => a k + a' k, c + c', fun v => ?_⟩
  simp only [h, h', add_mul, sum_add_distrib]
  ring

theorem const_mul (r : ℝ) (hF : LinIn C F) : LinIn C (fun v => r * F v) := by
  obtain ⟨a, c, h⟩ := hF
  refine ⟨fun k => r * a k, r * c, fun v => ?_⟩
  simp only [h, mul_add, mul_sum, mul_assoc]

theorem mul_const (hF : LinIn C F) (r : ℝ) : LinIn C (fun v => F v * r) := by
  have := hF.const_mul r
  simpa only [mul_comm] using this

theorem sum {n : Nat} {H : Nat → Row → ℝ} (h : ∀ i, i < n → LinIn C (H i)) : LinIn C (fun v => ∑ i ∈ range n, H i v) := by
  induction n with
  | zero => simpa using const 0
  | succ n ih =>
    simp only [sum_range_succ]
    exact (ih fun i hi => h i (by omega)).add (h n (by omega))

theorem ite {p : Prop} [Decidable p] (hF : p → LinIn C F) (hG : LinIn C G) : LinIn C (fun v => if p then F v else G v) := by
  by_cases h : p
  · simpa [h] using hF h
  · simpa [h] using hG

theorem px {R S K k r c : Nat} (hk : k < K) (hr : r < R) (hc : c < S) : LinIn (R * S * K) (fun v => px R S v k r c) := by
  refine coord ?_
  rw [Nat.mul_comm (R * S) K]
  exact idx_lt hk (idx_lt hr hc)

theorem congr (hF : LinIn C F) {u v : Row} (h : ∀ k, k < C → u k = v k) : F u = F v := by
  obtain ⟨a, c, hF⟩ := hF
  rw [hF, hF]
  congr 1
  exact sum_congr rfl fun k hk => by rw [h k (mem_range.1 hk)]

theorem deriv (hF : LinIn C F) {h : ℝ → Row} {h' : Row} (hh : ∀ j, j < C → HasDerivAt (fun t => h t j) (h' j) 0) :
    HasDerivAt (fun t => F (h t)) (F h' - F (fun _ => 0)) 0 := by
  obtain ⟨a, c, hF⟩ := hF
  simp only [hF, mul_zero, sum_const_zero, zero_add, add_sub_cancel_right]
  exact (HasDerivAt.fun_sum fun k hk => (hh k (mem_range.1 hk)).const_mul _).add_const _

end LinIn

theorem sum_exchange (A B : Nat) (d h : Nat → ℝ) (W : Nat → Nat → ℝ) :
    ∑ j ∈ range B, d j * ∑ k ∈ range A, h k * W k j = ∑ k ∈ range A, (∑ j ∈ range B, d j * W k j) * h k := by
  simp only [mul_sum, sum_mul]
  rw [sum_comm]
  refine sum_congr rfl fun k _ => sum_congr rfl fun j _ => ?_
  ring

theorem px_planes {R S : Nat} (f : Nat → Nat → Nat → ℝ) {k r c : Nat} (hr : r < R) (hc : c < S) :
    px R S (planes R S f) k r c = f k r c := by
  have b := idx_lt hr hc
  simp only [px, planes, idx_div b, idx_mod b, idx_div hc, idx_mod hc]

theorem sum_px (R S K : Nat) (a b : Row) :
    ∑ j ∈ range (R * S * K), a j * b j = dotI 1 K R S (fun _ => px R S a) (fun _ => px R S b) := by
  rw [sum_flat3, dotI, sum_range_one]
  rfl

theorem sum_planes_right (R S K : Nat) (a : Row) (f : Nat → Nat → Nat → ℝ) :
    ∑ j ∈ range (R * S * K), a j * planes R S f j = dotI 1 K R S (fun _ => px R S a) (fun _ => f) := by
  rw [sum_px]
  exact dotI_congr fun s k r c _ _ hr hc => by rw [px_planes f hr hc]

theorem sum_planes_left (R S K : Nat) (a : Row) (f : Nat → Nat → Nat → ℝ) :
    ∑ j ∈ range (R * S * K), planes R S f j * a j = dotI 1 K R S (fun _ => f) (fun _ => px R S a) := by
  rw [sum_px]
  exact dotI_congr fun s k r c _ _ hr hc => by rw [px_planes f hr hc]

theorem avg_adjoint {K R S rf cf : Nat} (hrf : 0 < rf) (hcf : 0 < cf) (x gr : Nat → Nat → Nat → ℝ) (q : ℝ) :
    dotI 1 K (R / rf) (S / cf) (fun _ => gr) (fun _ k r c => (∑ i ∈ range rf, ∑ j ∈ range cf, x k (r * rf + i) (c * cf + j)) * q) =
      dotI 1 K R S (fun _ k r c => if r / rf < R / rf ∧ c / cf < S / cf then gr k (r / rf) (c / cf) * q else 0) (fun _ => x) := by
  unfold dotI
  refine Finset.sum_congr rfl fun s _ => Finset.sum_congr rfl fun k _ => ?_
  have e1 : ∀ ri ci : Nat, (if ri / rf < R / rf ∧ ci / cf < S / cf then gr k (ri / rf) (ci / cf) * q else 0) * x k ri ci =
      if ri / rf < R / rf then (if ci / cf < S / cf then gr k (ri / rf) (ci / cf) * q * x k ri ci else 0) else 0 := by
    intro ri ci
    by_cases h1 : ri / rf < R / rf <;> by_cases h2 : ci / cf < S / cf <;> simp [h1, h2]
  simp only [e1]
  have e2 : ∀ ri : Nat, (∑ ci ∈ range S, if ri / rf < R / rf then (if ci / cf < S / cf then
        gr k (ri / rf) (ci / cf) * q * x k ri ci else 0) else 0) =
      if ri / rf < R / rf then ∑ c ∈ range (S / cf), ∑ j ∈ range cf, gr k (ri / rf) c * q * x k ri (c * cf + j) else 0 := by
    intro ri
    by_cases h1 : ri / rf < R / rf
    · simp only [h1, if_true]
      rw [sum_windows hcf (fun ci => gr k (ri / rf) (ci / cf) * q * x k ri ci)]
      refine Finset.sum_congr rfl fun c _ => Finset.sum_congr rfl fun j hj => ?_
      rw [idx_div (mem_range.1 hj)]
    · simp [h1]
  simp only [e2]
  rw [sum_windows hrf (fun ri => ∑ c ∈ range (S / cf), ∑ j ∈ range cf, gr k (ri / rf) c * q * x k ri (c * cf + j))]
  refine Finset.sum_congr rfl fun r _ => ?_
  have e3 : ∑ i ∈ range rf, ∑ c ∈ range (S / cf), ∑ j ∈ range cf,
      gr k ((r * rf + i) / rf) c * q * x k (r * rf + i) (c * cf + j) =
      ∑ i ∈ range rf, ∑ c ∈ range (S / cf), ∑ j ∈ range cf, gr k r c * q * x k (r * rf + i) (c * cf + j) := by
    refine Finset.sum_congr rfl fun i hi => ?_
    rw [idx_div (mem_range.1 hi)]
  rw [e3, Finset.sum_comm]
  refine Finset.sum_congr rfl fun c _ => ?_
  simp only [Finset.sum_mul, Finset.mul_sum]
  refine Finset.sum_congr rfl fun i _ => Finset.sum_congr rfl fun j _ => ?_
  ring

theorem pad_adjoint {K R S b : Nat} (x gr : Nat → Nat → Nat → ℝ) :
    dotI 1 K (R + 2 * b) (S + 2 * b) (fun _ => gr)
      (fun _ k r c => if (b ≤ r ∧ r < R + b) ∧ b ≤ c ∧ c < S + b then x k (r - b) (c - b) else 0) =
      dotI 1 K R S (fun _ k r c => gr k (r + b) (c + b)) (fun _ => x) := by
  unfold dotI
  refine Finset.sum_congr rfl fun s _ => Finset.sum_congr rfl fun k _ => ?_
  have e1 : ∀ r : Nat, ∑ c ∈ range (S + 2 * b), gr k r c *
      (if (b ≤ r ∧ r < R + b) ∧ b ≤ c ∧ c < S + b then x k (r - b) (c - b) else 0) =
      if b ≤ r ∧ r < R + b then ∑ c ∈ range S, gr k r (c + b) * x k (r - b) c else 0 := by
    intro r
    by_cases h : b ≤ r ∧ r < R + b
    · rw [if_pos h]
      have := sum_shift (R := S) (b := b) (fun c => gr k r c * x k (r - b) (c - b))
      simp only [Nat.add_sub_cancel] at this
      rw [← this]
      refine Finset.sum_congr rfl fun c _ => ?_
      simp only [h, true_and, mul_ite, mul_zero]
    · rw [if_neg h]
      apply Finset.sum_eq_zero
      intro c _
      rw [if_neg (by tauto), mul_zero]
  simp only [e1]
  rw [sum_shift (fun r => ∑ c ∈ range S, gr k r (c + b) * x k (r - b) c)]
  simp only [Nat.add_sub_cancel]

theorem td_adjoint (T F O : Nat) (W : Nat → Nat → ℝ) (g v : Row) :
    ∑ j ∈ range (T * O), g j * (∑ k ∈ range F, v (j / O * F + k) * W k (j % O) - ∑ k ∈ range F, 0 * W k (j % O)) =
      ∑ k ∈ range (T * F), (∑ j ∈ range O, g (k / F * O + j) * W (k % F) j) * v k := by
  have h1 := sum_range_mul (α := ℝ) T O (fun t o => g (t * O + o) * ∑ k ∈ range F, v (t * F + k) * W k o)
  have h2 := sum_range_mul (α := ℝ) T F (fun t k => (∑ j ∈ range O, g (t * O + j) * W k j) * v (t * F + k))
  simp only [Nat.div_add_mod'] at h1 h2
  simp only [zero_mul, sum_const_zero, sub_zero]
  rw [h1, h2]
  exact sum_congr rfl fun t _ => sum_exchange F O (fun o => g (t * O + o)) (fun k => v (t * F + k)) W

theorem sum_exchange' (A B : Nat) (d h : Nat → ℝ) (V : Nat → Nat → ℝ) :
    ∑ j ∈ range B, d j * ∑ k ∈ range A, h k * V k j = ∑ k ∈ range A, ∑ j ∈ range B, h k * d j * V k j := by
  rw [sum_exchange]
  simp only [sum_mul]
  exact sum_congr rfl fun k _ => sum_congr rfl fun j _ => by ring

theorem td_bias (T F : Nat) (g : Row) (V : Nat → Nat → ℝ) :
    ∑ j ∈ range (T * F), g j * V 0 (j % F) = ∑ j ∈ range F, (∑ t ∈ range T, g (t * F + j)) * V 0 j := by
  have := sum_range_mul (α := ℝ) T F (fun t j => g (t * F + j) * V 0 j)
  simp only [Nat.div_add_mod'] at this
  rw [this, sum_comm]
  exact sum_congr rfl fun j _ => (sum_mul _ _ _).symm

theorem td_weight (T F O : Nat) (g v : Row) (V : Nat → Nat → ℝ) :
    ∑ j ∈ range (T * O), g j * ∑ k ∈ range F, v (j / O * F + k) * V k (j % O) =
      dotM F O (fun k j => ∑ t ∈ range T, v (t * F + k) * g (t * O + j)) V := by
  have := sum_range_mul (α := ℝ) T O (fun t o => g (t * O + o) * ∑ k ∈ range F, v (t * F + k) * V k o)
  simp only [Nat.div_add_mod'] at this
  rw [this, dotM]
  simp only [sum_mul]
  have h2 : ∀ t, ∑ j ∈ range O, g (t * O + j) * ∑ k ∈ range F, v (t * F + k) * V k j =
      ∑ k ∈ range F, ∑ j ∈ range O, v (t * F + k) * g (t * O + j) * V k j := fun t => sum_exchange' F O _ _ V
  simp only [h2]
  rw [sum_comm]
  exact sum_congr rfl fun k _ => sum_comm

theorem convGradW_dot {N K O oR oC kR kC rs cs : Nat} (x gr : Nat → Nat → Nat → Nat → ℝ) (V : Nat → Nat → ℝ) :
    dotI N O oR oC gr (crossCorr K kR kC rs cs V x) = dotM O (kR * kC * K) (convGradW N oR oC kR kC rs cs x gr) V := by
  simp only [dotM, convGradW, accN_eq_sum]
  rw [dotI, sum_comm]
  refine sum_congr rfl fun o _ => ?_
  simp only [sum_mul]
  conv_rhs => rw [sum_comm, sum_flat3]
  refine sum_congr rfl fun s _ => sum_congr rfl fun r hr => sum_congr rfl fun c hc => ?_
  simp only [mem_range] at hr hc
  have b := idx_lt hr hc
  rw [← crossCorr_flat oR oC V x s o hr hc, mul_sum, idx_div b, idx_mod b, idx_div hc, idx_mod hc]
  refine sum_congr rfl fun j _ => ?_
  ring

/-- The rule for an affine layer whose `back` is the adjoint. -/
theorem GradAt.affine {C C' : Nat} {A : Row → Row} {B : Row → Row} (hl : ∀ j, j < C' → LinIn C (fun v => A v j))
    (ha : ∀ g v, ∑ j ∈ range C', g j * (A v j - A (fun _ => 0) j) = ∑ k ∈ range C, B g k * v k) {Ψ : Row → ℝ} {v g : Row}
    (h : GradAt C' Ψ (A v) g) : GradAt C (fun u => Ψ (A u)) v (B g) := by
  intro c c' hc h0
  rw [← ha]
  exact h _ _ (fun j hj => (hl j hj).deriv hc) (fun j hj => (hl j hj).congr h0)

/-- The rule for a layer that works on the entries one by one. -/
theorem GradAt.pointwise {C : Nat} {a : Nat → ℝ → ℝ} {d : Row} {Ψ : Row → ℝ} {v g : Row} (hd : ∀ j, j < C → HasDerivAt (a j) (d j) (v j))
    (h : GradAt C Ψ (fun j => a j (v j)) g) : GradAt C (fun u => Ψ (fun j => a j (u j))) v (fun j => d j * g j) := by
  intro c c' hc h0
  have := h (fun t j => a j (c t j)) (fun j => d j * c' j) (fun j hj => ?_) (fun j hj => by rw [h0 j hj])
  · convert this using 2
    dsimp only
    ring
  · have h1 := hd j hj
    rw [← h0 j hj] at h1
    exact h1.comp (0 : ℝ) (hc j hj)

theorem div_lt_planes {R S K j : Nat} (hj : j < R * S * K) : j / (R * S) < K ∧ j % (R * S) / S < R ∧ j % (R * S) % S < S := by
  have h0 : 0 < R * S := Nat.pos_of_mul_pos_right (Nat.lt_of_le_of_lt (Nat.zero_le _) hj)
  have hS : 0 < S := Nat.pos_of_mul_pos_left h0
  refine ⟨Nat.div_lt_of_lt_mul hj, ?_, Nat.mod_lt _ hS⟩
  rw [Nat.div_lt_iff_lt_mul hS]
  exact Nat.mod_lt _ h0

namespace Ply

/-- The chain rule for one layer. -/
theorem gradAt {p : Ply} {C C' : Nat} (hf : p.kind.Fits C C') {v : Row} (hs : p.kind.SmoothAt C v) {Ψ : Row → ℝ} {g : Row}
    (h : GradAt C' Ψ (p.apply C v) g) : GradAt C (fun u => Ψ (p.apply C u)) v (p.back C C' v g) := by
  obtain ⟨k, W, B⟩ := p
  dsimp only at hf hs
  cases k with
  | dense =>
    refine GradAt.affine (A := fun v j => ∑ k ∈ range C, v k * W k j + B 0 j) (B := fun g k => ∑ j ∈ range C', g j * W k j)
      (fun j hj => (LinIn.sum fun k hk => (LinIn.coord hk).mul_const _).add (LinIn.const _)) (fun g v => ?_) h
    rw [← sum_exchange]
    refine sum_congr rfl fun j _ => ?_
    simp
  | dot =>
    refine GradAt.affine (A := fun v j => ∑ k ∈ range C, v k * W k j) (B := fun g k => ∑ j ∈ range C', g j * W k j)
      (fun j hj => LinIn.sum fun k hk => (LinIn.coord hk).mul_const _) (fun g v => ?_) h
    rw [← sum_exchange]
    refine sum_congr rfl fun j _ => ?_
    simp
  | bias =>
    obtain rfl := hf
    refine GradAt.affine (A := fun v j => v j + B 0 j) (B := fun g => g)
      (fun j hj => (LinIn.coord hj).add (LinIn.const _)) (fun g v => ?_) h
    exact sum_congr rfl fun j _ => by ring
  | act a =>
    obtain ⟨rfl, -⟩ := hf
    exact GradAt.pointwise (a := fun _ => a.apply) (d := fun j => a.derivation (v j)) hs h
  | channelBias R S K =>
    obtain ⟨-, rfl⟩ := hf
    refine GradAt.affine (A := fun v j => v j + B 0 (j / (R * S))) (B := fun g => g)
      (fun j hj => (LinIn.coord hj).add (LinIn.const _)) (fun g v => ?_) h
    exact sum_congr rfl fun j _ => by ring
  | conv R S K kR kC O rs cs =>
    obtain ⟨rfl, rfl, h1, h2, -⟩ := hf
    refine GradAt.affine (A := fun v => planes (convOutSize R kR rs) (convOutSize S kC cs)
        (crossCorr K kR kC rs cs W (fun _ => px R S v) 0))
      (B := fun g => planes R S (fun k y x => col2imFn 1 K (convOutSize R kR rs) (convOutSize S kC cs) kR kC rs cs
        (convGradCol O (convOutSize R kR rs) (convOutSize S kC cs) W
          (fun _ => px (convOutSize R kR rs) (convOutSize S kC cs) g)) 0 k y x)) (fun j hj => ?_) (fun g v => ?_) h
    · obtain ⟨a1, a2, a3⟩ := div_lt_planes hj
      refine LinIn.sum fun ch hch => LinIn.sum fun kr hkr => LinIn.sum fun kc hkc => LinIn.const_mul _ ?_
      exact LinIn.px hch (conv_in h1 a2 hkr) (conv_in h2 a3 hkc)
    · have z : ∀ j, planes (convOutSize R kR rs) (convOutSize S kC cs) (crossCorr K kR kC rs cs W (fun _ => px R S (fun _ => 0)) 0) j = 0 := by
        intro j
        simp [planes, crossCorr, px]
      simp only [z, sub_zero]
      rw [sum_planes_right, sum_planes_left]
      have := conv_adjoint (N := 1) (K := K) (O := O) (rs := rs) (cs := cs) h1 h2 W
        (fun _ => px (convOutSize R kR rs) (convOutSize S kC cs) g) (fun _ => px R S v)
      refine Eq.trans ?_ (this.symm.trans ?_)
      · exact dotI_congr fun s k r c hs _ _ _ => by rfl
      · refine dotI_congr fun s k r c hs _ _ _ => ?_
        obtain rfl : s = 0 := by omega
        rfl
  | avgPool R S K rf cf =>
    obtain ⟨rfl, rfl, h1, h2⟩ := hf
    refine GradAt.affine (A := fun v => planes (R / rf) (S / cf) (fun k r c =>
        (∑ i ∈ range rf, ∑ j ∈ range cf, px R S v k (r * rf + i) (c * cf + j)) * (1 / ((rf * cf : Nat) : ℝ))))
      (B := fun g => planes R S (fun k r c => if r / rf < R / rf ∧ c / cf < S / cf then
        px (R / rf) (S / cf) g k (r / rf) (c / cf) * (1 / ((rf * cf : Nat) : ℝ)) else 0)) (fun j hj => ?_) (fun g v => ?_) h
    · obtain ⟨a1, a2, a3⟩ := div_lt_planes hj
      refine LinIn.mul_const (LinIn.sum fun i hi => LinIn.sum fun j hj => LinIn.px a1 ?_ ?_) _
      · exact (idx_lt a2 hi).trans_le (Nat.div_mul_le_self _ _)
      · exact (idx_lt a3 hj).trans_le (Nat.div_mul_le_self _ _)
    · have z : ∀ j, planes (R / rf) (S / cf) (fun k r c =>
        (∑ i ∈ range rf, ∑ j ∈ range cf, px R S (fun _ => 0) k (r * rf + i) (c * cf + j)) * (1 / ((rf * cf : Nat) : ℝ))) j = 0 := by
        intro j
        simp [planes, px]
      simp only [z, sub_zero]
      rw [sum_planes_right, sum_planes_left]
      exact avg_adjoint h1 h2 _ _ _
  | globalAvgPool R S K =>
    obtain ⟨rfl, rfl⟩ := hf
    refine GradAt.affine (A := fun v k => (∑ r ∈ range R, ∑ c ∈ range S, px R S v k r c) * (1 / ((R * S : Nat) : ℝ)))
      (B := fun g => planes R S (fun k _ _ => g k * (1 / ((R * S : Nat) : ℝ)))) (fun j hj => ?_) (fun g v => ?_) h
    · exact LinIn.mul_const (LinIn.sum fun i hi => LinIn.sum fun c hc => LinIn.px hj hi hc) _
    · have z : ∀ k, (∑ r ∈ range R, ∑ c ∈ range S, px R S (fun _ => 0) k r c) * (1 / ((R * S : Nat) : ℝ)) = 0 := by
        intro j
        simp [px]
      simp only [z, sub_zero]
      rw [sum_planes_left, dotI, sum_range_one]
      refine sum_congr rfl fun k _ => ?_
      simp only [sum_mul, mul_sum]
      exact sum_congr rfl fun _ _ => sum_congr rfl fun _ _ => by ring
  | zeroPad R S K b =>
    obtain ⟨rfl, rfl⟩ := hf
    refine GradAt.affine (A := fun v => planes (R + 2 * b) (S + 2 * b) (fun k r c =>
        if (b ≤ r ∧ r < R + b) ∧ b ≤ c ∧ c < S + b then px R S v k (r - b) (c - b) else 0))
      (B := fun g => planes R S (fun k r c => px (R + 2 * b) (S + 2 * b) g k (r + b) (c + b))) (fun j hj => ?_) (fun g v => ?_) h
    · obtain ⟨a1, a2, a3⟩ := div_lt_planes hj
      exact LinIn.ite (fun hp => LinIn.px a1 (by omega) (by omega)) (LinIn.const 0)
    · have z : ∀ j, planes (R + 2 * b) (S + 2 * b) (fun k r c =>
        if (b ≤ r ∧ r < R + b) ∧ b ≤ c ∧ c < S + b then px R S (fun _ => 0) k (r - b) (c - b) else 0) j = 0 := by
        intro j
        simp [planes, px]
      simp only [z, sub_zero]
      rw [sum_planes_right, sum_planes_left]
      exact pad_adjoint _ _
  | crelu =>
    obtain rfl := hf
    intro c c' hc h0
    have e0 : ∀ j, j < C → c 0 j ≠ 0 := fun j hj => by rw [h0 j hj]; exact hs j hj
    have key := h (fun t => (⟨.crelu, W, B⟩ : Ply).apply C (c t))
      (fun j => if j < C then (if 0 < v j then c' j else 0) else (if 0 < v (j - C) then 0 else -c' (j - C))) (fun j hj => ?_) (fun j hj => ?_)
    · refine key.congr_deriv ?_
      rw [Nat.mul_two, sum_range_add, ← sum_add_distrib]
      refine sum_congr rfl fun j hj => ?_
      have hj := mem_range.1 hj
      have h3 : ¬ C + j < C := by omega
      simp only [hj, if_true, h3, if_false, Nat.add_sub_cancel_left, back, Nat.add_comm j C]
      split <;> ring
    · simp only [apply]
      by_cases hjC : j < C
      · simp only [hjC, if_true]
        have hd : HasDerivAt (fun x : ℝ => max x 0) (if 0 < v j then 1 else 0) (c 0 j) := by
          rw [h0 j hjC]
          split
          · rename_i hp
            exact (hasDerivAt_id _).congr_of_eventuallyEq ((lt_mem_nhds hp).mono fun y hy => max_eq_left hy.le)
          · rename_i hp
            have hn : v j < 0 := lt_of_le_of_ne (not_lt.1 hp) (hs j hjC)
            exact (hasDerivAt_const _ (0 : ℝ)).congr_of_eventuallyEq ((gt_mem_nhds hn).mono fun y hy => max_eq_right (le_of_lt hy))
        have := hd.comp (0 : ℝ) (hc j hjC)
        refine this.congr_deriv ?_
        split <;> simp
      · simp only [hjC, if_false]
        have hjC' : j - C < C := by omega
        have hd : HasDerivAt (fun x : ℝ => max (-x) 0) (if 0 < v (j - C) then 0 else -1) (c 0 (j - C)) := by
          rw [h0 _ hjC']
          split
          · rename_i hp
            exact (hasDerivAt_const _ (0 : ℝ)).congr_of_eventuallyEq
              ((lt_mem_nhds hp).mono fun y hy => max_eq_right (by linarith))
          · rename_i hp
            have hn : v (j - C) < 0 := lt_of_le_of_ne (not_lt.1 hp) (hs _ hjC')
            exact (hasDerivAt_neg _).congr_of_eventuallyEq ((gt_mem_nhds hn).mono fun y hy => max_eq_left (by
              have : y < 0 := hy
              linarith))
        have := hd.comp (0 : ℝ) (hc _ hjC')
        refine this.congr_deriv ?_
        split <;> simp
    · simp only [apply]
      by_cases hjC : j < C
      · simp only [hjC, if_true, h0 j hjC]
      · have hjC' : j - C < C := by omega
        simp only [hjC, if_false, h0 _ hjC']
  | gated a₁ a₂ =>
    obtain ⟨rfl, -⟩ := hf
    have h2 : 2 * C' / 2 = C' := by omega
    intro c c' hc h0
    simp only [PlyKind.SmoothAt, h2] at hs
    have key := h (fun t => (⟨.gated a₁ a₂, W, B⟩ : Ply).apply (2 * C') (c t))
      (fun j => a₁.derivation (v j) * c' j * a₂.apply (v (j + C')) + a₁.apply (v j) * (a₂.derivation (v (j + C')) * c' (j + C')))
      (fun j hj => ?_) (fun j hj => ?_)
    · refine key.congr_deriv ?_
      rw [Nat.two_mul, sum_range_add, ← sum_add_distrib]
      refine sum_congr rfl fun j hj => ?_
      have hj := mem_range.1 hj
      have h3 : ¬ j + C' < C' := by omega
      rw [Nat.add_comm C' j]
      simp only [back, hj, if_true, h3, if_false, Nat.add_sub_cancel]
      ring
    · simp only [apply, h2]
      have d1 := hs.1 j hj
      have d2 := hs.2 j hj
      rw [← h0 j (by omega)] at d1
      rw [← h0 (j + C') (by omega)] at d2
      have := (d1.comp (0 : ℝ) (hc j (by omega))).mul (d2.comp (0 : ℝ) (hc (j + C') (by omega)))
      simp only [Function.comp_apply, h0 j (by omega : j < 2 * C'), h0 (j + C') (by omega : j + C' < 2 * C')] at this
      exact this
    · simp only [apply, h2, h0 j (by omega : j < 2 * C'), h0 (j + C') (by omega : j + C' < 2 * C')]
  | tdBias T F =>
    obtain ⟨-, rfl⟩ := hf
    refine GradAt.affine (A := fun v j => v j + B 0 (j % F)) (B := fun g => g)
      (fun j hj => (LinIn.coord hj).add (LinIn.const _)) (fun g v => ?_) h
    exact sum_congr rfl fun j _ => by ring
  | tdDot T F O =>
    obtain ⟨rfl, rfl⟩ := hf
    refine GradAt.affine (A := fun v j => ∑ k ∈ range F, v (j / O * F + k) * W k (j % O))
      (B := fun g k => ∑ j ∈ range O, g (k / F * O + j) * W (k % F) j) (fun j hj => ?_) (fun g v => ?_) h
    · have : j / O < T := Nat.div_lt_of_lt_mul (by rwa [Nat.mul_comm])
      exact LinIn.sum fun k hk => (LinIn.coord (idx_lt this hk)).mul_const _
    · exact td_adjoint T F O W g v
  | tdDense T F O =>
    obtain ⟨rfl, rfl⟩ := hf
    refine GradAt.affine (A := fun v j => ∑ k ∈ range F, v (j / O * F + k) * W k (j % O) + B 0 (j % O))
      (B := fun g k => ∑ j ∈ range O, g (k / F * O + j) * W (k % F) j) (fun j hj => ?_) (fun g v => ?_) h
    · have : j / O < T := Nat.div_lt_of_lt_mul (by rwa [Nat.mul_comm])
      exact (LinIn.sum fun k hk => (LinIn.coord (idx_lt this hk)).mul_const _).add (LinIn.const _)
    · simp only [add_sub_add_right_eq_sub]
      exact td_adjoint T F O W g v
  | softmax => exact hs.elim

/-- The layer is affine in its parameters. -/
theorem par_affine {p : Ply} {C C' : Nat} (hf : p.kind.Fits C C') {b : Bool} (hb : p.has b = true) (v g : Row) (V : Nat → Nat → ℝ) :
    ∃ Q : Row, (∀ (P : Nat → Nat → ℝ) (t : ℝ) (j : Nat), j < C' →
        (p.setPar b (fun k j => P k j + t * V k j)).apply C v j = (p.setPar b P).apply C v j + t * Q j) ∧
      ∑ j ∈ range C', g j * Q j = dotM (p.kind.shape b C C').1 (p.kind.shape b C C').2 (p.pgrad b v g) V := by
  obtain ⟨k, W, B⟩ := p
  dsimp only at hf
  have hlin : ∀ (n : Nat) (u : Nat → ℝ) (P : Nat → Nat → ℝ) (t : ℝ) (j : Nat),
      ∑ k ∈ range n, u k * (P k j + t * V k j) = ∑ k ∈ range n, u k * P k j + t * ∑ k ∈ range n, u k * V k j := by
    intro n u P t j
    rw [mul_sum, ← sum_add_distrib]
    exact sum_congr rfl fun k _ => by ring
  have hone : ∀ (n : Nat) (G : Nat → ℝ), dotM 1 n (fun _ j => G j) V = ∑ j ∈ range n, G j * V 0 j := by
    intro n G
    rw [dotM, sum_range_one]
  cases k with
  | dense =>
    cases b
    · refine ⟨fun j => ∑ k ∈ range C, v k * V k j, fun P t j _ => ?_, ?_⟩
      · simp only [setPar, apply, Bool.false_eq_true, if_false, hlin]
        ring
      · rw [sum_exchange']
        simp only [dotM, pgrad, PlyKind.shape, Bool.false_eq_true, if_false]
    · refine ⟨fun j => V 0 j, fun P t j _ => ?_, ?_⟩
      · simp only [setPar, apply, if_true]
        ring
      · simp only [PlyKind.shape, pgrad, if_true, hone]
  | dot =>
    cases b
    · refine ⟨fun j => ∑ k ∈ range C, v k * V k j, fun P t j _ => ?_, ?_⟩
      · simp only [setPar, apply, Bool.false_eq_true, if_false, hlin]
      · rw [sum_exchange']
        simp only [dotM, pgrad, PlyKind.shape, Bool.false_eq_true, if_false]
    · simp [has, PlyKind.has] at hb
  | bias =>
    cases b
    · simp [has, PlyKind.has] at hb
    · refine ⟨fun j => V 0 j, fun P t j _ => ?_, ?_⟩
      · simp only [setPar, apply, if_true]
        ring
      · simp only [PlyKind.shape, pgrad, if_true, hone]
  | channelBias R S K =>
    obtain ⟨rfl, rfl⟩ := hf
    cases b
    · simp [has, PlyKind.has] at hb
    · refine ⟨fun j => V 0 (j / (R * S)), fun P t j _ => ?_, ?_⟩
      · simp only [setPar, apply, if_true]
        ring
      · simp only [PlyKind.shape, pgrad, hone]
        have := sum_range_mul (α := ℝ) K (R * S) (fun h q => g (h * (R * S) + q) * V 0 h)
        simp only [Nat.div_add_mod'] at this
        rw [Nat.mul_comm (R * S) K, this]
        exact sum_congr rfl fun h _ => (sum_mul _ _ _).symm
  | conv R S K kR kC O rs cs =>
    obtain ⟨rfl, rfl, h1, h2, -⟩ := hf
    cases b
    · refine ⟨planes (convOutSize R kR rs) (convOutSize S kC cs) (crossCorr K kR kC rs cs V (fun _ => px R S v) 0), fun P t j _ => ?_, ?_⟩
      · simp only [setPar, apply, Bool.false_eq_true, if_false, planes, crossCorr, mul_sum, ← sum_add_distrib]
        refine sum_congr rfl fun _ _ => sum_congr rfl fun _ _ => sum_congr rfl fun _ _ => ?_
        ring
      · rw [sum_planes_right]
        simp only [PlyKind.shape, pgrad]
        exact convGradW_dot _ _ _
    · simp [has, PlyKind.has] at hb
  | tdBias T F =>
    obtain ⟨rfl, rfl⟩ := hf
    cases b
    · simp [has, PlyKind.has] at hb
    · refine ⟨fun j => V 0 (j % F), fun P t j _ => ?_, ?_⟩
      · simp only [setPar, apply, if_true]
        ring
      · simp only [PlyKind.shape, pgrad, hone]
        exact td_bias T F g V
  | tdDot T F O =>
    obtain ⟨rfl, rfl⟩ := hf
    cases b
    · refine ⟨fun j => ∑ k ∈ range F, v (j / O * F + k) * V k (j % O), fun P t j _ => ?_, ?_⟩
      · simp only [setPar, apply, Bool.false_eq_true, if_false, hlin F (fun k => v (j / O * F + k))]
      · simp only [PlyKind.shape, pgrad, Bool.false_eq_true, if_false]
        exact td_weight T F O g v V
    · simp [has, PlyKind.has] at hb
  | tdDense T F O =>
    obtain ⟨rfl, rfl⟩ := hf
    cases b
    · refine ⟨fun j => ∑ k ∈ range F, v (j / O * F + k) * V k (j % O), fun P t j _ => ?_, ?_⟩
      · simp only [setPar, apply, Bool.false_eq_true, if_false, hlin F (fun k => v (j / O * F + k))]
        ring
      · simp only [PlyKind.shape, pgrad, Bool.false_eq_true, if_false]
        exact td_weight T F O g v V
    · refine ⟨fun j => V 0 (j % O), fun P t j _ => ?_, ?_⟩
      · simp only [setPar, apply, if_true]
        ring
      · simp only [PlyKind.shape, pgrad, if_true, hone]
        exact td_bias T O g V
  | _ => simp [has, PlyKind.has] at hb

theorem par_setPar (b : Bool) (V : Nat → Nat → ℝ) (p : Ply) : (p.setPar b V).par b = V := by
  cases b <;> rfl

theorem setPar_self (b : Bool) (p : Ply) : p.setPar b (p.par b) = p := by
  cases b <;> rfl

/-- The gradient with respect to the parameters of one layer. -/
theorem parGradAt {p : Ply} {C C' : Nat} (hf : p.kind.Fits C C') {b : Bool} (hb : p.has b = true) {v : Row} {Ψ : Row → ℝ} {g : Row}
    (h : GradAt C' Ψ (p.apply C v) g) :
    IsGrad (p.kind.shape b C C').1 (p.kind.shape b C C').2 (fun P => Ψ ((p.setPar b P).apply C v)) (p.par b) (p.pgrad b v g) := by
  intro V
  obtain ⟨Q, h1, h2⟩ := par_affine hf hb v g V
  rw [← h2]
  refine h (fun t => (p.setPar b (fun k j => p.par b k j + t * V k j)).apply C v) Q (fun j hj => ?_) (fun j hj => ?_)
  · have e : (fun t : ℝ => (p.setPar b (fun k j => p.par b k j + t * V k j)).apply C v j) =
        fun t => (p.setPar b (p.par b)).apply C v j + t * Q j := funext fun t => h1 _ t j hj
    rw [e]
    simpa using ((hasDerivAt_id (0 : ℝ)).mul_const (Q j)).const_add ((p.setPar b (p.par b)).apply C v j)
  · rw [h1 _ 0 j hj, zero_mul, add_zero, setPar_self]

end Ply

end BeeDNN
