import Verif.Spec.Robust
import Verif.Lemmas.PlyGrad
import Verif.Props.Softmax
import Mathlib.Analysis.Calculus.MeanValue

/-! # Bounds of changes -/

namespace BeeDNN
open Finset

/-- `f` changes at most by `c` times the largest change of the first `C` numbers. -/
def NearIn (C : Nat) (f : Row → ℝ) (c : ℝ) : Prop :=
  ∀ (v v' : Row) (d : ℝ), 0 ≤ d → (∀ k, k < C → |v k - v' k| ≤ d) → |f v - f v'| ≤ c * d

namespace NearIn
variable {C : Nat} {f g : Row → ℝ} {c c' : ℝ}

theorem coord {k : Nat} (h : k < C) : NearIn C (fun v => v k) 1 := fun v v' d _ hd => by
  rw [one_mul]
  exact hd k h

theorem const (a : ℝ) : NearIn C (fun _ => a) 0 := fun v v' d _ _ => by simp

theorem add (h : NearIn C f c) (h' : NearIn C g c') : NearIn C (fun v => f v + g v) (c + c') := fun v v' d h0 hd => by
  have a := h v v' d h0 hd
  have b := h' v v' d h0 hd
  calc |f v + g v - (f v' + g v')| = |(f v - f v') + (g v - g v')| := by congr 1; ring
    _ ≤ |f v - f v'| + |g v - g v'| := abs_add_le _ _
    _ ≤ (c + c') * d := by linarith

theorem add_const (h : NearIn C f c) (a : ℝ) : NearIn C (fun v => f v + a) c := by simpa using h.add (const a)

theorem mul_const (h : NearIn C f c) (a : ℝ) : NearIn C (fun v => f v * a) (c * |a|) := fun v v' d h0 hd => by
  rw [← sub_mul, abs_mul]
  have := mul_le_mul_of_nonneg_right (h v v' d h0 hd) (abs_nonneg a)
  linarith

theorem const_mul (h : NearIn C f c) (a : ℝ) : NearIn C (fun v => a * f v) (|a| * c) := by
  rw [mul_comm]
  simpa only [mul_comm] using h.mul_const a

theorem sum {n : Nat} {F : Nat → Row → ℝ} {b : Nat → ℝ} (h : ∀ k, k < n → NearIn C (F k) (b k)) :
    NearIn C (fun v => ∑ k ∈ range n, F k v) (∑ k ∈ range n, b k) := fun v v' d h0 hd => by
  rw [← sum_sub_distrib, sum_mul]
  exact (abs_sum_le_sum_abs _ _).trans (sum_le_sum fun k hk => h k (mem_range.1 hk) v v' d h0 hd)

theorem mono (h : NearIn C f c) (hc : c ≤ c') : NearIn C f c' := fun v v' d h0 hd => (h v v' d h0 hd).trans (mul_le_mul_of_nonneg_right hc h0)

theorem px {R S K k r c : Nat} (hk : k < K) (hr : r < R) (hc : c < S) : NearIn (R * S * K) (fun v => BeeDNN.px R S v k r c) 1 := by
  refine coord ?_
  rw [Nat.mul_comm (R * S) K]
  exact idx_lt hk (idx_lt hr hc)

end NearIn

/-- One entry of a softmax changes at most by half of the change. -/
theorem softmax_near {C : Nat} (hC : 0 < C) {j : Nat} (hj : j < C) : NearIn C (fun v => softmaxAt C v j) (1 / 2) := by
  intro v v' d h0 hd
  have hder : ∀ t : ℝ, HasDerivAt (fun t : ℝ => softmaxAt C (fun k => v' k + t * (v k - v' k)) j)
      (softmaxAt C (fun k => v' k + t * (v k - v' k)) j * ((v j - v' j) - ∑ k ∈ range C, softmaxAt C (fun k => v' k + t * (v k - v' k)) k * (v k - v' k))) t := by
    intro t
    have h := hasDerivAt_softmax hC (fun k => v' k + t * (v k - v' k)) (fun k => v k - v' k) j
    have h' : HasDerivAt (fun s : ℝ => softmaxAt C (fun k => (fun k => v' k + t * (v k - v' k)) k + s * (v k - v' k)) j)
        (softmaxAt C (fun k => v' k + t * (v k - v' k)) j * ((v j - v' j) - ∑ k ∈ range C, softmaxAt C (fun k => v' k + t * (v k - v' k)) k * (v k - v' k))) (t - t) := by
      rw [sub_self]; exact h
    have := h'.comp_sub_const t t
    refine this.congr_of_eventuallyEq (.of_forall fun s => ?_)
    dsimp only
    congr 1
    funext k
    ring
  have hb : ∀ t : ℝ, ‖softmaxAt C (fun k => v' k + t * (v k - v' k)) j * ((v j - v' j) - ∑ k ∈ range C, softmaxAt C (fun k => v' k + t * (v k - v' k)) k * (v k - v' k))‖ ≤
      1 / 2 * d := by
    intro t
    obtain ⟨u, hu⟩ : ∃ u : Row, u = fun k => v' k + t * (v k - v' k) := ⟨_, rfl⟩
    rw [← hu, Real.norm_eq_abs, abs_mul, abs_of_pos (softmaxAt_pos hC u j)]
    have hs := softmaxAt_sum hC u
    have e : (v j - v' j) - ∑ k ∈ range C, softmaxAt C u k * (v k - v' k) = ∑ k ∈ range C, softmaxAt C u k * ((v j - v' j) - (v k - v' k)) := by
      have : ∀ k ∈ range C, softmaxAt C u k * ((v j - v' j) - (v k - v' k)) = softmaxAt C u k * (v j - v' j) - softmaxAt C u k * (v k - v' k) :=
        fun k _ => mul_sub _ _ _
      rw [sum_congr rfl this, sum_sub_distrib, ← sum_mul, hs, one_mul]
    have hle : |(v j - v' j) - ∑ k ∈ range C, softmaxAt C u k * (v k - v' k)| ≤ (1 - softmaxAt C u j) * (2 * d) := by
      rw [e]
      calc |∑ k ∈ range C, softmaxAt C u k * ((v j - v' j) - (v k - v' k))|
          ≤ ∑ k ∈ range C, |softmaxAt C u k * ((v j - v' j) - (v k - v' k))| := abs_sum_le_sum_abs _ _
        _ ≤ ∑ k ∈ range C, (softmaxAt C u k * (2 * d) - if k = j then softmaxAt C u j * (2 * d) else 0) := by
            refine sum_le_sum fun k hk => ?_
            rw [abs_mul, abs_of_pos (softmaxAt_pos hC u k)]
            split
            · rename_i h
              rw [h]
              simp
            · rw [sub_zero]
              refine mul_le_mul_of_nonneg_left ?_ (softmaxAt_pos hC u k).le
              exact (abs_sub _ _).trans (by linarith [hd j hj, hd k (mem_range.1 hk)])
        _ = (1 - softmaxAt C u j) * (2 * d) := by
            rw [sum_sub_distrib, ← sum_mul, hs, sum_ite_eq' (range C) j, if_pos (mem_range.2 hj)]
            ring
    have hp := softmaxAt_pos hC u j
    calc softmaxAt C u j * |(v j - v' j) - ∑ k ∈ range C, softmaxAt C u k * (v k - v' k)|
        ≤ softmaxAt C u j * ((1 - softmaxAt C u j) * (2 * d)) := mul_le_mul_of_nonneg_left hle hp.le
      _ ≤ 1 / 2 * d := by nlinarith [mul_nonneg h0 (sq_nonneg (1 - 2 * softmaxAt C u j))]
  have := Convex.norm_image_sub_le_of_norm_hasDerivWithin_le (f := fun t : ℝ => softmaxAt C (fun k => v' k + t * (v k - v' k)) j) (s := Set.univ)
    (fun t _ => (hder t).hasDerivWithinAt) (fun t _ => hb t) convex_univ (Set.mem_univ 0) (Set.mem_univ 1)
  simpa using this

/-- A layer enlarges changes at most by its gain. -/
theorem Ply.Gain.near {p : Ply} {C C' : Nat} {c : ℝ} (h : p.Gain C C' c) (hf : p.kind.Fits C C') {j : Nat} (hj : j < C') : NearIn C (fun v => p.apply C v j) c := by
  obtain ⟨k, W, B⟩ := p
  obtain ⟨h0, h⟩ := h
  dsimp only at hf h
  cases k with
  | dense =>
    refine NearIn.mono ((NearIn.sum (C := C) (n := C) (F := fun k v => v k * W k j) fun k hk => (NearIn.coord hk).mul_const _).add_const (B 0 j)) ?_
    simpa using h j hj
  | dot =>
    refine NearIn.mono (NearIn.sum (C := C) (n := C) (F := fun k v => v k * W k j) fun k hk => (NearIn.coord hk).mul_const _) ?_
    simpa using h j hj
  | bias =>
    obtain rfl := hf
    exact ((NearIn.coord hj).add_const _).mono h
  | act a =>
    obtain ⟨rfl, -⟩ := hf
    exact fun v v' d _ hd => (h _ _).trans (mul_le_mul_of_nonneg_left (hd j hj) h0)
  | channelBias R S K =>
    obtain ⟨-, rfl⟩ := hf
    exact ((NearIn.coord hj).add_const _).mono h
  | conv R S K kR kC O rs cs =>
    obtain ⟨rfl, rfl, h1, h2, -⟩ := hf
    obtain ⟨a1, a2, a3⟩ := div_lt_planes hj
    refine NearIn.mono (NearIn.sum fun ch hch => NearIn.sum fun kr hkr => NearIn.sum fun kc hkc => NearIn.const_mul (NearIn.px hch (conv_in h1 a2 hkr) (conv_in h2 a3 hkc)) _) ?_
    simpa using h _ a1
  | avgPool R S K rf cf =>
    obtain ⟨rfl, rfl, h1, h2⟩ := hf
    obtain ⟨a1, a2, a3⟩ := div_lt_planes hj
    refine NearIn.mono (NearIn.mul_const (NearIn.sum (n := rf) fun i hi => NearIn.sum (n := cf) fun l hl => NearIn.px a1 ?_ ?_) _) ?_
    · exact (idx_lt a2 hi).trans_le (Nat.div_mul_le_self _ _)
    · exact (idx_lt a3 hl).trans_le (Nat.div_mul_le_self _ _)
    · refine le_trans (le_of_eq ?_) h
      have : ((rf * cf : Nat) : ℝ) ≠ 0 := by exact_mod_cast (Nat.mul_pos h1 h2).ne'
      rw [abs_of_nonneg (by positivity)]
      simp only [sum_const, card_range, nsmul_eq_mul, mul_one]
      push_cast at this ⊢
      field_simp
  | globalAvgPool R S K =>
    obtain ⟨rfl, rfl⟩ := hf
    refine NearIn.mono (NearIn.mul_const (NearIn.sum (n := R) fun i hi => NearIn.sum (n := S) fun l hl => NearIn.px hj hi hl) _) ?_
    refine le_trans ?_ h
    rw [abs_of_nonneg (by positivity)]
    simp only [sum_const, card_range, nsmul_eq_mul, mul_one]
    push_cast
    rw [mul_one_div]
    exact div_self_le_one _
  | zeroPad R S K b =>
    obtain ⟨rfl, rfl⟩ := hf
    obtain ⟨a1, a2, a3⟩ := div_lt_planes hj
    show NearIn _ (fun v => planes (R + 2 * b) (S + 2 * b) (fun k r c =>
      if (b ≤ r ∧ r < R + b) ∧ b ≤ c ∧ c < S + b then px R S v k (r - b) (c - b) else 0) j) _
    unfold planes
    dsimp only
    split
    · rename_i hh
      exact (NearIn.px a1 (by omega) (by omega)).mono h
    · exact (NearIn.const 0).mono h0
  | crelu =>
    obtain rfl := hf
    show NearIn _ (fun v => if j < C then max (v j) 0 else max (-v (j - C)) 0) _
    intro v v' d hd0 hd
    refine le_trans ?_ (mul_le_mul_of_nonneg_right h hd0)
    rw [one_mul]
    dsimp only
    split
    · rename_i hh
      exact (abs_max_sub_max_le_abs _ _ _).trans (hd j hh)
    · rename_i hh
      refine (abs_max_sub_max_le_abs _ _ _).trans ?_
      rw [neg_sub_neg, abs_sub_comm]
      exact hd (j - C) (by omega)
  | gated a₁ a₂ =>
    obtain ⟨rfl, -, -⟩ := hf
    obtain ⟨L₁, L₂, M₁, M₂, l1, l2, p1, p2, q1, q2, hc⟩ := h
    show NearIn _ (fun v => a₁.apply (v j) * a₂.apply (v (j + 2 * C' / 2))) _
    intro v v' d hd0 hd
    have e : 2 * C' / 2 = C' := by omega
    rw [e]
    refine le_trans ?_ (mul_le_mul_of_nonneg_right hc hd0)
    have b1 := (p1 (v j) (v' j)).trans (mul_le_mul_of_nonneg_left (hd j (by omega)) l1)
    have b2 := (p2 (v (j + C')) (v' (j + C'))).trans (mul_le_mul_of_nonneg_left (hd (j + C') (by omega)) l2)
    calc |a₁.apply (v j) * a₂.apply (v (j + C')) - a₁.apply (v' j) * a₂.apply (v' (j + C'))|
        = |(a₁.apply (v j) - a₁.apply (v' j)) * a₂.apply (v (j + C')) + a₁.apply (v' j) * (a₂.apply (v (j + C')) - a₂.apply (v' (j + C')))| := by congr 1; ring
      _ ≤ |a₁.apply (v j) - a₁.apply (v' j)| * |a₂.apply (v (j + C'))| + |a₁.apply (v' j)| * |a₂.apply (v (j + C')) - a₂.apply (v' (j + C'))| := by
          refine (abs_add_le _ _).trans ?_
          rw [abs_mul, abs_mul]
      _ ≤ L₁ * d * M₂ + M₁ * (L₂ * d) := by
          refine add_le_add (mul_le_mul b1 (q2 _) (abs_nonneg _) (mul_nonneg l1 hd0)) (mul_le_mul (q1 _) b2 (abs_nonneg _) ((abs_nonneg _).trans (q1 0)))
      _ = (L₁ * M₂ + M₁ * L₂) * d := by ring
  | tdBias T F =>
    obtain ⟨-, rfl⟩ := hf
    exact ((NearIn.coord hj).add_const _).mono h
  | tdDot T F O =>
    obtain ⟨rfl, rfl⟩ := hf
    have hT : j / O < T := Nat.div_lt_of_lt_mul (by rwa [Nat.mul_comm])
    refine NearIn.mono (NearIn.sum (n := F) (F := fun k v => v (j / O * F + k) * W k (j % O)) fun k hk => (NearIn.coord (idx_lt hT hk)).mul_const _) ?_
    simpa using h _ (Nat.mod_lt _ (Nat.pos_of_mul_pos_left (Nat.lt_of_le_of_lt (Nat.zero_le _) hj)))
  | tdDense T F O =>
    obtain ⟨rfl, rfl⟩ := hf
    have hT : j / O < T := Nat.div_lt_of_lt_mul (by rwa [Nat.mul_comm])
    refine NearIn.mono ((NearIn.sum (n := F) (F := fun k v => v (j / O * F + k) * W k (j % O)) fun k hk => (NearIn.coord (idx_lt hT hk)).mul_const _).add_const (B 0 (j % O))) ?_
    simpa using h _ (Nat.mod_lt _ (Nat.pos_of_mul_pos_left (Nat.lt_of_le_of_lt (Nat.zero_le _) hj)))
  | softmax =>
    obtain rfl := hf
    exact (softmax_near (by omega) hj).mono h

end BeeDNN
