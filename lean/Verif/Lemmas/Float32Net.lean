import Verif.Spec.Float32Net
import Verif.Props.Float32
import Verif.Lemmas.Float32Opt

/-! # Lemmas for prediction in float arithmetic -/

namespace BeeDNN
open Finset

theorem isFloat_zero : IsFloat 0 := ⟨0, 0, by norm_num, by norm_num, by norm_num, by norm_num⟩

theorem isFloat_neg {x : ℝ} (h : IsFloat x) : IsFloat (-x) := by
  obtain ⟨n, e, h1, h2, h3, h4⟩ := h
  exact ⟨-n, e, by rwa [abs_neg], h2, h3, by rw [h4]; push_cast; ring⟩

theorem F32.neg_fin (x : ℝ) : -F32.fin x = F32.fin (-x) := rfl

theorem floatMat_WF (R C : Nat) (v : Nat → Nat → ℝ) : (floatMat R C v).WF := Mat.ofFn_WF _ _ _

theorem sum_abs_mul_le {C : Nat} {w W : Nat → ℝ} {B M : ℝ} (hw : ∀ k, k < C → |w k| ≤ B) (hB : 0 ≤ B)
    (hM : ∑ k ∈ range C, |W k| ≤ M) : ∑ k ∈ range C, |w k * W k| ≤ M * B :=
  calc ∑ k ∈ range C, |w k * W k| ≤ ∑ k ∈ range C, B * |W k| := by
        apply sum_le_sum
        intro k hk
        rw [abs_mul]
        exact mul_le_mul_of_nonneg_right (hw k (mem_range.1 hk)) (abs_nonneg _)
    _ = B * ∑ k ∈ range C, |W k| := by rw [mul_sum]
    _ ≤ B * M := mul_le_mul_of_nonneg_left hM hB
    _ = M * B := mul_comm _ _

theorem abs_sum_mul_le {C : Nat} {w W : Nat → ℝ} {B M : ℝ} (hw : ∀ k, k < C → |w k| ≤ B) (hB : 0 ≤ B)
    (hM : ∑ k ∈ range C, |W k| ≤ M) : |∑ k ∈ range C, w k * W k| ≤ M * B :=
  (abs_sum_le_sum_abs _ _).trans (sum_abs_mul_le hw hB hM)

/-- Exact layers keep their bounds. -/
theorem Ply.Within.step {C C' : Nat} {p : Ply} {β : PlyBound} (h : p.Within C C' β) (hf : p.kind.Fits C C') {u v : Row} {V E : ℝ}
    (hV : 0 ≤ V) (hE : 0 ≤ E)
    (hv : ∀ k, k < C → |v k| ≤ V) (he : ∀ k, k < C → |u k - v k| ≤ E) {j : Nat} (hj : j < C') :
    |p.apply C v j| ≤ β.gain * V + β.shift ∧ |p.apply C u j - p.apply C v j| ≤ β.gain * E := by
  obtain ⟨h0, h1, h⟩ := h
  have hsub : ∀ k, k < C → |(fun k => u k - v k) k| ≤ E := he
  have hs : ∑ k ∈ range C, u k * p.weight k j - ∑ k ∈ range C, v k * p.weight k j =
      ∑ k ∈ range C, (fun k => u k - v k) k * p.weight k j := by
    rw [← sum_sub_distrib]
    exact sum_congr rfl fun k _ => by ring
  unfold Ply.apply
  cases hk : p.kind <;> rw [hk] at h hf <;> simp only [PlyKind.Fits] at hf <;> try exact h.elim
  · refine ⟨(abs_add_le _ _).trans (add_le_add (abs_sum_mul_le hv hV (h.1 j hj)) (h.2 j hj)), ?_⟩
    have : ∀ a b c : ℝ, a + c - (b + c) = a - b := by intros; ring
    dsimp only
    rw [this, hs]
    exact abs_sum_mul_le hsub hE (h.1 j hj)
  · refine ⟨(abs_sum_mul_le hv hV (h j hj)).trans (by linarith), ?_⟩
    dsimp only
    rw [hs]
    exact abs_sum_mul_le hsub hE (h j hj)
  · subst hf
    refine ⟨(abs_add_le _ _).trans (add_le_add ((hv j hj).trans ?_) (h.2 j hj)), ?_⟩
    · nlinarith [h.1]
    · have : ∀ a b c : ℝ, a + c - (b + c) = a - b := by intros; ring
      dsimp only
      rw [this]
      exact (he j hj).trans (by nlinarith [h.1])
  · obtain ⟨hf, -⟩ := hf
    subst hf
    constructor
    · have h2 := h.1 (v j) 0
      rw [sub_zero] at h2
      have h3 := abs_sub_abs_le_abs_sub ((‹Activation›).apply (v j)) ((‹Activation›).apply 0)
      have h4 := mul_le_mul_of_nonneg_left (hv j hj) h0
      dsimp only
      linarith [h.2]
    · exact (h.1 _ _).trans (mul_le_mul_of_nonneg_left (he j hj) h0)

/-- One layer in float arithmetic. -/
theorem NumLayer.forward_float (g : Nat → F32) {C C' : Nat} {p : Ply} {β : PlyBound} {t : ℝ} {s : NumLayer F32}
    (hs : p.FloatIs C C' β.slack t s) (h : p.Within C C' β) (hf : p.kind.Fits C C') (hC : 0 < C') (hw : C < 2 ^ 23)
    (ht : 0 ≤ t) (hfit : β.gain * t + β.shift ≤ 2 ^ 126) (N : Nat) {u : Nat → Nat → ℝ}
    (hu : ∀ i k, i < N → k < C → IsFloat (u i k) ∧ |u i k| ≤ t) {mOut : Mat F32} (ho : mOut.WF) :
    ∃ y : Nat → Nat → ℝ, s.forward g (floatMat N C u) mOut = .ok (floatMat N C' y) ∧
      ∀ i j, i < N → j < C' → IsFloat (y i j) ∧
        |y i j - p.apply C (u i) j| ≤ p.rounding C β (β.gain * t + β.shift) := by
  obtain ⟨h0, h1, h⟩ := h
  have hu' : ∀ i, i < N → ∀ k, k < C → |u i k| ≤ t := fun i hi k hk => (hu i k hi hk).2
  unfold Ply.apply Ply.rounding
  cases s with
  | dense w b =>
    obtain ⟨hk, rfl, rfl, -, hb⟩ := hs
    rw [hk] at h ⊢
    have hS : ∀ i j, i < N → j < C' → ∑ k ∈ range C, |u i k * p.weight k j| + |p.bias 0 j| ≤ β.gain * t + β.shift :=
      fun i j hi hj => add_le_add (sum_abs_mul_le (hu' i hi) ht (h.1 j hj)) (h.2 j hj)
    obtain ⟨y, e, hy⟩ := C99_dense g N C C' u p.weight p.bias mOut ho hw hb (fun i j hi hj => (hS i j hi hj).trans hfit)
    refine ⟨y, e, fun i j hi hj => ⟨(hy i j hi hj).1, (hy i j hi hj).2.trans ?_⟩⟩
    dsimp only
    have := two_zpow_pos (-23)
    exact add_le_add_left (mul_le_mul_of_nonneg_left (hS i j hi hj) (by positivity)) _
  | dot w =>
    obtain ⟨hk, rfl, -⟩ := hs
    rw [hk] at h ⊢
    have hS : ∀ i j, i < N → j < C' → ∑ k ∈ range C, |u i k * p.weight k j| ≤ β.gain * t + β.shift :=
      fun i j hi hj => (sum_abs_mul_le (hu' i hi) ht (h j hj)).trans (by linarith)
    obtain ⟨y, e, hy⟩ := C99_mul g N C C' u p.weight hw.le (fun i j hi hj => (hS i j hi hj).trans hfit)
    refine ⟨y, ?_, fun i j hi hj => ⟨(hy i j hi hj).1, (hy i j hi hj).2.trans ?_⟩⟩
    · change dotForward g _ _ _ = _
      unfold dotForward
      rw [floatMat, floatMat, Mat.ofFn_cols, Mat.ofFn_rows, check_true rfl, bind_ok', e, bind_ok', Mat.assign_ofFn g ho]
      rfl
    · dsimp only
      gcongr
      exact hS i j hi hj
  | bias b =>
    obtain ⟨hk, rfl, hb⟩ := hs
    rw [hk] at h hf ⊢
    obtain rfl : C' = C := hf
    have hS : ∀ i j, i < N → j < C' → |u i j| + |p.bias 0 j| ≤ β.gain * t + β.shift :=
      fun i j hi hj => add_le_add ((hu' i hi j hj).trans (by nlinarith [h.1])) (h.2 j hj)
    have hb2 : Bits24 ((2 : ℝ) ^ 126) := bits_npow 126
    refine ⟨fun i j => rnd (u i j + p.bias 0 j), ?_, fun i j hi hj => ⟨?_, ?_⟩⟩
    · change (do let r ← biasForward g _ _ _ _; return r.2) = _
      unfold floatMat
      rw [biasForward_ofFn g _ N C' hC _ _ ho, bind_ok']
      refine congrArg Except.ok ?_
      dsimp only
      refine Mat.ofFn_congr fun i j hi hj => ?_
      exact (F32.add_le ((hS i j hi hj).trans hfit) hb2 (by norm_num)).1
    · exact isFloat_of_bits (bits_rnd _)
        ((F32.add_le ((hS i j hi hj).trans hfit) hb2 (by norm_num)).2.trans_lt (by norm_num))
    · have h2 := abs_rnd_add' (hu i j hi hj).1.bits (hb j hj).bits
      refine h2.trans ?_
      rw [mul_comm]
      exact mul_le_mul_of_nonneg_left ((abs_add_le _ _).trans (hS i j hi hj)) uro_pos.le
  | act f =>
    obtain ⟨a, hk, ha⟩ := hs
    rw [hk] at h hf ⊢
    obtain ⟨rfl, -⟩ := hf
    obtain ⟨y, hy⟩ := choose_mat (n := N) (q := C') (fun i j hi hj => ha (u i j) (hu i j hi hj).1 (hu i j hi hj).2)
    refine ⟨y, ?_, fun i j hi hj => (hy i j hi hj).2⟩
    change activationForward g f _ _ = _
    unfold floatMat
    rw [activationForward_ofFn g f N C' _ ho]
    exact congrArg Except.ok (Mat.ofFn_congr fun i j hi hj => (hy i j hi hj).1)

theorem Ply.Within.rounding_nonneg {C C' : Nat} {p : Ply} {β : PlyBound} (h : p.Within C C' β) {t : ℝ} (ht : 0 ≤ t)
    (hs : ∀ a, p.kind = .act a → 0 ≤ β.slack) : 0 ≤ p.rounding C β t := by
  have z : ∀ e : ℤ, (0 : ℝ) ≤ 2 ^ e := fun e => (two_zpow_pos e).le
  obtain ⟨h0, h1, h⟩ := h
  unfold Ply.rounding
  cases hk : p.kind <;> rw [hk] at h <;> try exact h.elim
  · have := z (-23); have := z (-149); positivity
  · have := z (-23); have := z (-149); positivity
  · have := z (-24); positivity
  · exact hs _ hk

theorem FloatAct.slack_nonneg {t δ : ℝ} (ht : 0 ≤ t) {f a} (h : FloatAct t f a δ) : 0 ≤ δ := by
  obtain ⟨y, -, -, h⟩ := h 0 isFloat_zero (by rwa [abs_zero])
  exact (abs_nonneg _).trans h

/-- The loop of `predict` from layer `i` on. -/
theorem predictNum_float {m : Mlp} (hm : m.Ok) {β : Nat → PlyBound} {X : ℝ} (h : m.Within β X) (g : Nat → Nat → F32) (N : Nat)
    (x : Nat → Nat → ℝ) : ∀ (ss : List (NumLayer F32)) (i : Nat), i + ss.length = m.depth →
      (∀ k s, ss[k]? = some s →
        (m.ply (i + k)).FloatIs (m.width (i + k)) (m.width (i + k + 1)) (β (i + k)).slack (m.reach β X (i + k)) s) →
      0 ≤ (m.bounds β X i).1 → 0 ≤ (m.bounds β X i).2 →
      ∀ u : Nat → Nat → ℝ, (∀ s j, s < N → j < m.width i → IsFloat (u s j) ∧
        |m.hidden (x s) i j| ≤ (m.bounds β X i).1 ∧ |u s j - m.hidden (x s) i j| ≤ (m.bounds β X i).2) →
      ∀ o : Mat F32, o.WF → (ss = [] → o = floatMat N (m.width i) u) →
      ∃ y : Nat → Nat → ℝ, predictNum g i ss (floatMat N (m.width i) u) o = .ok (floatMat N (m.width m.depth) y) ∧
        ∀ s j, s < N → j < m.width m.depth → IsFloat (y s j) ∧ |y s j - m.out (x s) j| ≤ m.slip β X := by
  intro ss
  induction ss with
  | nil =>
    intro i hi _ _ _ u hu o _ ho
    obtain rfl : i = m.depth := by simpa using hi
    exact ⟨u, by rw [ho rfl]; rfl, fun s j hs hj => ⟨(hu s j hs hj).1, (hu s j hs hj).2.2⟩⟩
  | cons st ss ih =>
    intro i hi hs h1 h2 u hu o ho _
    simp only [List.length_cons] at hi
    have hid : i < m.depth := by omega
    have hst := hs 0 st rfl
    rw [Nat.add_zero] at hst
    have hr : 0 ≤ m.reach β X i := add_nonneg h1 h2
    have hw := h.ply i hid
    have hfits := hm.fits i hid
    have hur : ∀ s k, s < N → k < m.width i → IsFloat (u s k) ∧ |u s k| ≤ m.reach β X i := by
      intro s k hs hk
      obtain ⟨a, b, c⟩ := hu s k hs hk
      refine ⟨a, ?_⟩
      have h3 := abs_sub_abs_le_abs_sub (u s k) (m.hidden (x s) i k)
      unfold Mlp.reach
      linarith
    obtain ⟨y, e, hy⟩ := NumLayer.forward_float (g i) hst hw hfits (hm.pos (i + 1) (by omega)) (h.width i hid) hr (h.fit i hid) N
      hur ho
    have hsl : ∀ a, (m.ply i).kind = .act a → 0 ≤ (β i).slack := by
      intro a ha
      cases st with
      | act f =>
        obtain ⟨a', _, h'⟩ := hst
        exact h'.slack_nonneg hr
      | dense | dot | bias => exact absurd (hst.1.symm.trans ha) (by simp)
    have ht : 0 ≤ (β i).gain * m.reach β X i + (β i).shift := add_nonneg (mul_nonneg hw.1 hr) hw.2.1
    have hro := hw.rounding_nonneg ht hsl
    obtain ⟨z, e', hz⟩ := ih (i + 1) (by omega)
      (fun k s hk => by
        have := hs (k + 1) s (by simpa using hk)
        rw [show i + (k + 1) = i + 1 + k by omega] at this
        exact this)
      (add_nonneg (mul_nonneg hw.1 h1) hw.2.1) (add_nonneg (mul_nonneg hw.1 h2) hro) y
      (fun s j hs hj => by
        have a := hw.step hfits h1 h2 (fun k hk => (hu s k hs hk).2.1) (fun k hk => (hu s k hs hk).2.2) hj
        refine ⟨(hy s j hs hj).1, a.1, ?_⟩
        have b := (hy s j hs hj).2
        have : y s j - m.hidden (x s) (i + 1) j = (y s j - (m.ply i).apply (m.width i) (u s) j) +
            ((m.ply i).apply (m.width i) (u s) j - (m.ply i).apply (m.width i) (m.hidden (x s) i) j) := by
          simp only [Mlp.hidden]
          ring
        rw [this]
        refine (abs_add_le _ _).trans ?_
        rw [add_comm]
        exact add_le_add a.2 b)
      (floatMat N (m.width (i + 1)) y) (floatMat_WF _ _ _) (fun _ => rfl)
    refine ⟨z, ?_, hz⟩
    rw [predictNum, e, bind_ok', floatMat, floatMat, Mat.assign_ofFn (g i) (Mat.ofFn_WF _ _ _), bind_ok']
    exact e'

end BeeDNN
