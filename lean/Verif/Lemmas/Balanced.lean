import Verif.Lemmas.MlpLoss
import Verif.Lemmas.MlpRule
import Verif.Props.ClassWeight

/-! # Losses with class weights -/

namespace BeeDNN
open Finset Trainer

/-- Truths in one column are labels below `K`, and the weight of class `k` is `W k 0`. -/
def Weighing.classes (K : Nat) (W : Nat → Nat → ℝ) : Weighing where
  weights M := M = Mat.ofFn K 1 W
  truth s C D N Y := s ∈ distanceLosses ∧ C = 1 ∧ D = 1 ∧ 0 < N ∧ ∃ cls : Nat → Nat, ∀ i, i < N → Y i 0 = cls i ∧ cls i < K
  fits := by
    rintro s C D N Y ⟨h1, rfl, rfl, -⟩
    exact (distanceLosses_fits h1).2 _ _ _
  sub := by
    rintro s C D N N' Y Y' ⟨h1, h2, h3, -, cls, h4⟩ hN hs
    choose! j j1 j2 using hs
    exact ⟨h1, h2, h3, hN, fun i => cls (j i), fun i hi => by rw [j2 i hi]; exact h4 _ (j1 i hi)⟩

/-- Any weights, for the losses that do not look at them. -/
def Weighing.ignored : Weighing where
  weights _ := True
  truth s C D N Y := s ∉ distanceLosses ∧ TruthFits s C D N Y
  fits h := h.2
  sub h _ hs := ⟨h.1, h.2.sub hs⟩

theorem compute_diff (g : Nat → ℝ) (ab : ℝ → ℝ) (eps : ℝ) {s : String} (h : s ∈ distanceLosses) :
    ∃ ℓ pre red, createLoss g ab eps s = some ℓ ∧ ℓ.compute = diffCompute g pre red := by
  simp only [distanceLosses, List.mem_cons, List.not_mem_nil, or_false] at h
  rcases h with rfl | rfl | rfl | rfl | rfl | rfl | rfl | rfl | rfl <;> exact ⟨_, _, _, rfl, rfl⟩

/-- With weights, the loss is computed as without, and then balanced. -/
theorem diffCompute_weighted {g : Nat → ℝ} {pre red : Mat ℝ → Out (Mat ℝ)} {w W p t o M : Mat ℝ} (hw : w.size = 0) (hW : W.size ≠ 0)
    (h : diffCompute g pre red w p t o = .ok M) : diffCompute g pre red W p t o = balanceWithWeight W t M := by
  unfold diffCompute at h ⊢
  cases h1 : check (t.cols = p.cols) with
  | error => rw [h1] at h; cases h
  | ok => ?_
  cases h2 : check (t.rows = p.rows) with
  | error => rw [h1, h2] at h; cases h
  | ok => ?_
  cases h3 : p.sub t with
  | error => rw [h1, h2, h3] at h; cases h
  | ok d => ?_
  cases h4 : pre d with
  | error => rw [h1, h2, h3] at h; simp only [bind_ok', h4] at h; cases h
  | ok d' => ?_
  cases h5 : red d' with
  | error => rw [h1, h2, h3] at h; simp only [bind_ok', h4, h5] at h; cases h
  | ok d'' => ?_
  cases h6 : o.assign g d'' with
  | error => rw [h1, h2, h3] at h; simp only [bind_ok', h4, h5, h6] at h; cases h
  | ok L => ?_
  rw [h1, h2, h3] at h
  simp only [bind_ok', h4, h5, h6] at h ⊢
  rw [if_neg (by simp [hw]), pure_ok] at h
  injection h with h
  subst h
  rw [if_pos hW]

/-- Losses with class weights are computed without fault. -/
theorem evalOk_classes (eps : ℝ) (s : String) {K : Nat} (hK : 0 < K) (hK2 : K ≤ 2147483648) (W : Nat → Nat → ℝ) (C D : Nat) :
    EvalOkW (.classes K W) eps s C D := by
  refine ⟨fun N P Y => (∑ i ∈ range N, sampleLoss eps s 1 (P i) (Y i)) / (if s ∈ sumLosses then 1 else (N : ℝ)) * W ⌊Y 0 0⌋₊ 0,
    fun t g N P Y h1 h2 ⟨h3, hC, hD, hN, cls, hcls⟩ o ho => ?_⟩
  subst hC hD h1
  obtain ⟨hl, hT⟩ := distanceLosses_fits h3
  obtain ⟨M, m1, m2, m3⟩ := lossCompute_fits (t := { t with lossWeight := ⟨0, 0, []⟩ }) (eps := eps) (K := 1) (D := 1) (N := N) (P := P) hl rfl Nat.one_pos
    (hT 1 N Y) g ho
  obtain ⟨ℓ, pre, red, l1, l2⟩ := compute_diff g (fun x => |x|) eps h3
  unfold lossCompute at m1 ⊢
  dsimp only at m1 m3
  rw [l1] at m1 ⊢
  dsimp only at m1 ⊢
  rw [l2] at m1 ⊢
  have hW : t.lossWeight.size ≠ 0 := by rw [show t.lossWeight = _ from h2, Mat.ofFn_size]; omega
  rw [diffCompute_weighted rfl hW m1, show t.lossWeight = _ from h2]
  -- the shape of the loss
  obtain ⟨ψ, d1, -⟩ := diffLoss_of_mem eps t.loss h3
  obtain ⟨ℓ', red', φ, c1, c2⟩ := d1 g
  rw [l1] at c1
  injection c1 with c1
  subst c1
  have hc := c2.compute N 1 P Y ⟨0, 0, []⟩ o rfl ho
  rw [l2, m1] at hc
  injection hc with hc
  subst hc
  have hcls0 := hcls 0 hN
  refine ⟨_, balance_ofFn hK hK2 W _ (cls := fun _ => cls 0) (fun i hi => ?_) (fun _ _ => hcls0.2), Mat.ofFn_WF _ _ _, ?_⟩
  · obtain rfl : i = 0 := by omega
    rw [Mat.getI_ofFn_col hN, hcls0.1]
  · rw [mean_row] at m3 ⊢
    injection m3 with m3
    rw [← m3, hcls0.1, Nat.floor_natCast]
    simp only [sum_range_one]
    congr 1
    ring

theorem lossOk_classes (eps : ℝ) {s : String} (hs : s ∈ distanceLosses) {K : Nat} (hK : 0 < K) (hK2 : K ≤ 2147483648) (W : Nat → Nat → ℝ) :
    ∃ ψ : ℝ → ℝ, LossOkW (.classes K W) (fun x => |x|) eps s 1 1 (fun p y j => lossGrad eps s ψ p y j * W ⌊y 0⌋₊ 0) ∧
      (s ∈ distanceLosses → ∀ z : ℝ, (s ∈ kinkAtZero → z ≠ 0) → HasDerivAt (pointError s 1) (ψ z) z) := by
  obtain ⟨ψ, d1, d2⟩ := diffLoss_of_mem eps s hs
  refine ⟨ψ 1, fun t g N P Y ht hw hT o ho => ⟨?_, ?_⟩, fun _ => d2 1 Nat.one_pos⟩
  · obtain ⟨V, hV⟩ := evalOk_classes eps s hK hK2 W 1 1
    obtain ⟨M, m1, -, m2⟩ := hV t g N P Y ht hw hT o ho
    exact ⟨M, _, m1, m2⟩
  · obtain ⟨-, -, -, -, cls, hcls⟩ := hT
    obtain ⟨ℓ, red, φ, c1, c2⟩ := d1 g
    unfold Trainer.lossGradient
    rw [ht, c1, show t.lossWeight = _ from hw]
    refine (c2.balanced N 1 K P Y W _ ho hK hK2 cls (fun i hi => by rw [Mat.getI_ofFn_col hi, (hcls i hi).1]) fun i hi => (hcls i hi).2).trans ?_
    congr 1
    refine Mat.ofFn_congr fun i j hi hj => ?_
    dsimp only
    rw [(hcls i hi).1, Nat.floor_natCast]
    have h1 : s ≠ "CategoricalCrossEntropy" := by rintro rfl; exact absurd hs (by decide)
    have h2 : s ≠ "SparseCategoricalCrossEntropy" := by rintro rfl; exact absurd hs (by decide)
    have h3 : s ≠ "BinaryCrossEntropy" := by rintro rfl; exact absurd hs (by decide)
    simp only [lossGrad, h1, h2, h3, if_false]

theorem evalOk_ignored (eps : ℝ) (s : String) (hs : s ∈ listLoss) (K D : Nat) : EvalOkW .ignored eps s K D := by
  refine ⟨fun N P Y => (∑ i ∈ range N, sampleLoss eps s K (P i) (Y i)) / (if s ∈ sumLosses then 1 else (N : ℝ)),
    fun t g N P Y h1 h2 ⟨h3, hT⟩ o ho => ?_⟩
  subst h1
  have : t.loss = "CategoricalCrossEntropy" ∨ t.loss = "SparseCategoricalCrossEntropy" ∨ t.loss = "BinaryCrossEntropy" := by
    by_contra hc
    push Not at hc
    exact h3 (distance_of_not hs hc.1 hc.2.1 hc.2.2)
  rcases this with h | h | h
  · exact lossCompute_cce h hT g ho
  · exact lossCompute_sparse h hT g ho
  · exact lossCompute_bce h hT g ho

theorem lossOk_ignored (eps : ℝ) {s : String} (hs : s ∈ listLoss) {K : Nat} (hK : 0 < K) (D : Nat) (ψ : ℝ → ℝ) :
    LossOkW .ignored (fun x => |x|) eps s K D (lossGrad eps s ψ) := by
  intro t g N P Y ht hw hT o ho
  constructor
  · obtain ⟨V, hV⟩ := evalOk_ignored eps s hs K D
    obtain ⟨M, m1, -, m2⟩ := hV t g N P Y ht hw hT o ho
    exact ⟨M, _, m1, m2⟩
  · obtain ⟨h3, hT⟩ := hT
    have : s = "CategoricalCrossEntropy" ∨ s = "SparseCategoricalCrossEntropy" ∨ s = "BinaryCrossEntropy" := by
      by_contra hc
      push Not at hc
      exact h3 (distance_of_not hs hc.1 hc.2.1 hc.2.2)
    unfold Trainer.lossGradient
    rw [ht]
    rcases this with rfl | rfl | rfl
    · obtain rfl : D = K := (hT.same (by decide)).1
      exact cce_gradient_ofFn g eps N D P Y _ ho
    · rw [TruthFits, if_pos rfl] at hT
      obtain ⟨rfl, hC, hf⟩ := hT
      choose! cls hc hy using hf
      refine (sparse_gradient_ofFn g eps P Y _ ho hy (fun i hi => lt_of_lt_of_le (hc i hi) hC)).trans ?_
      congr 1
      refine Mat.ofFn_congr fun i j hi hj => ?_
      simp only [lossGrad, String.reduceEq, if_false, if_true, hy i hi, Nat.floor_natCast]
    · obtain rfl : D = K := (hT.same (by decide)).1
      exact bce_gradient_ofFn g eps N D P Y _ ho

/-- The gradients computed with weights `κ` are, up to the rates, those of the weighted error. -/
theorem Mlp.grad_weightedError {m : Mlp} (hok : m.Ok) {eps : ℝ} (heps : 0 < eps) {s : String} (hs : s ∈ distanceLosses) {ψ : ℝ → ℝ}
    (hψ : s ∈ distanceLosses → ∀ z : ℝ, (s ∈ kinkAtZero → z ≠ 0) → HasDerivAt (pointError s (m.width m.depth)) (ψ z) z) (κ : Row → ℝ)
    (N : Nat) (x y : Nat → Row) (h : ∀ i, i < N → m.Regular eps s (x i) (y i)) (b : Bool) {i : Nat} (hi : i < m.depth) (hb : (m.ply i).has b = true) :
    IsGrad (m.shape b i).1 (m.shape b i).2 (fun P => (m.setPar b i P).weightedError κ s N x y) ((m.ply i).par b)
      (m.grad N x (fun k j => lossGrad eps s ψ (m.out (x k)) (y k) j * κ (y k)) b i) := by
  have hlv : m.level s = m.depth := by
    rw [level, if_neg]
    rintro (rfl | rfl) <;> exact absurd hs (by decide)
  have hlev := fun k (hk : k < N) => level_gradAt hok heps (distanceLosses_fits hs).1 hψ ((distanceLosses_fits hs).2 _ 1 fun _ => y k) (h k hk)
  rw [hlv, Nat.sub_self] at hlev
  refine Mlp.grad_isGrad hok N x le_rfl (Ψ := fun k u => κ (y k) * sampleError s (m.width m.depth) u (y k)) (fun k hk => (hlev k hk).1) (fun k hk => ?_) b hi hb
  rw [Nat.sub_self]
  intro u u' hu h0
  refine (((hlev k hk).2 u u' hu h0).const_mul (κ (y k))).congr_deriv ?_
  rw [mul_sum]
  exact sum_congr rfl fun j _ => by
    show κ (y k) * (lossGrad eps s ψ (m.out (x k)) (y k) j * u' j) = lossGrad eps s ψ (m.out (x k)) (y k) j * κ (y k) * u' j
    ring

end BeeDNN
