import Verif.Lemmas.Float32Near
import Verif.Spec.Optimizer
import Verif.Lemmas.MatrixMore
import Verif.Lemmas.LayersMisc

/-! # Optimizers in `float` -/

namespace BeeDNN

/-! ## Small steps are lost -/

theorem bits_spacing {w r : ℝ} (hw : Bits24 w) (hr : Bits24 r) (h : r ≠ w) : |w| * 2 ^ (-25 : ℤ) < |r - w| := by
  by_cases h0 : w = 0
  · subst h0
    rw [abs_zero, zero_mul, sub_zero]
    exact abs_pos.2 h
  have hL := log_le h0
  have hL2 := lt_log w
  set L := Int.log 2 |w| with hLdef
  -- both are multiples of `2^q`, `q` at least `L - 24`
  have key : ∀ q : ℤ, L - 24 ≤ q → (∃ a : ℤ, w = a * 2 ^ q) → (∃ b : ℤ, r = b * 2 ^ q) →
      |w| * 2 ^ (-25 : ℤ) < |r - w| := by
    rintro q hq ⟨a, ha⟩ ⟨b, hb⟩
    have hab : b ≠ a := by
      rintro rfl
      exact h (hb.trans ha.symm)
    have h1 : (1 : ℝ) ≤ |(b : ℝ) - a| := by
      have : (1 : ℤ) ≤ |b - a| := Int.one_le_abs (by omega)
      have h' : ((1 : ℤ) : ℝ) ≤ ((|b - a| : ℤ) : ℝ) := Int.cast_le.2 this
      rw [Int.cast_abs] at h'
      push_cast at h'
      exact h'
    have h2 : |r - w| = |(b : ℝ) - a| * 2 ^ q := by
      rw [ha, hb, ← sub_mul, abs_mul, abs_of_pos (two_zpow_pos q)]
    have h3 : (2 : ℝ) ^ q ≤ |r - w| := by
      rw [h2]
      nlinarith [two_zpow_pos q]
    refine lt_of_lt_of_le ?_ ((zpow_le_zpow_two hq).trans h3)
    have : (2 : ℝ) ^ (L - 24) = 2 ^ (L + 1) * 2 ^ (-25 : ℤ) := by
      rw [← zpow_add₀ (by norm_num)]
      congr 1
      ring
    rw [this]
    exact mul_lt_mul_of_pos_right hL2 (two_zpow_pos _)
  have mult : ∀ {x : ℝ} {n e q : ℤ}, q ≤ e → x = n * 2 ^ e → ∃ a : ℤ, x = a * 2 ^ q := by
    intro x n e q hq hx
    obtain ⟨k, hk⟩ := Int.le.dest hq
    refine ⟨n * 2 ^ k, ?_⟩
    rw [hx, ← hk, zpow_add₀ (by norm_num), zpow_natCast]
    push_cast
    ring
  obtain ⟨n, e, n1, n2, n3⟩ := bits24_strict hw
  obtain ⟨n', e', m1, m2, m3⟩ := bits24_strict hr
  have expo : ∀ {x : ℝ} {n e : ℤ} {M : ℤ}, |n| < 2 ^ 24 → x = n * 2 ^ e → (2 : ℝ) ^ M ≤ |x| → M - 23 ≤ e := by
    intro x n e M hn hx hM
    have h4 : |x| < (2 : ℝ) ^ (24 + e) := by
      rw [hx, abs_mul, abs_of_pos (two_zpow_pos e), zpow_add₀ (by norm_num)]
      refine mul_lt_mul_of_pos_right ?_ (two_zpow_pos e)
      have : ((|n| : ℤ) : ℝ) < ((2 ^ 24 : ℤ) : ℝ) := Int.cast_lt.2 hn
      rw [Int.cast_abs] at this
      calc |(n : ℝ)| < ((2 ^ 24 : ℤ) : ℝ) := this
        _ = 2 ^ (24 : ℤ) := by norm_num
    have := (zpow_lt_zpow_iff_right₀ (by norm_num : (1 : ℝ) < 2)).1 (hM.trans_lt h4)
    omega
  have hwe := expo n1 n3 hL
  by_cases hrL : (2 : ℝ) ^ (L - 1) ≤ |r|
  · have hre := expo m1 m3 hrL
    exact key (L - 24) le_rfl (mult (by omega) n3) (mult (by omega) m3)
  · have h5 : |r| < 2 ^ (L - 1) := lt_of_not_ge hrL
    have h6 : |w| - |r| ≤ |r - w| := by
      have := abs_sub_abs_le_abs_sub w r
      rwa [abs_sub_comm] at this
    have h7 : (2 : ℝ) ^ (L - 1) = 2 ^ L / 2 := zpow_sub_one_two L
    have h8 : |w| * 2 ^ (-25 : ℤ) < |w| / 2 := by
      have : (2 : ℝ) ^ (-25 : ℤ) < 1 / 2 := by norm_num
      have hp := abs_pos.2 h0
      nlinarith
    refine lt_of_lt_of_le h8 ?_
    linarith

/-- A summand below `2^-26` of the first one is lost. -/
theorem rnd_absorb {w t : ℝ} (hw : Bits24 w) (h : |t| ≤ |w| * 2 ^ (-26 : ℤ)) : rnd (w - t) = w := by
  by_contra hne
  have h1 := bits_spacing hw (bits_rnd (w - t)) hne
  have h2 := rnd_nearest (x := w - t) hw
  have h3 : |w - (w - t)| = |t| := by congr 1; ring
  rw [h3] at h2
  have h4 : |rnd (w - t) - w| ≤ |rnd (w - t) - (w - t)| + |t| := by
    have : rnd (w - t) - w = (rnd (w - t) - (w - t)) + -t := by ring
    rw [this]
    refine (abs_add_le _ _).trans_eq ?_
    rw [abs_neg]
  have h5 : (2 : ℝ) ^ (-25 : ℤ) = 2 * 2 ^ (-26 : ℤ) := by norm_num
  rw [h5] at h1
  generalize (2 : ℝ) ^ (-26 : ℤ) = u at *
  linarith

/-! ## Bounds -/

/-- Rounding within a bound that is a float. -/
theorem F32.round_le {x Z : ℝ} (hx : |x| ≤ Z) (hb : Bits24 Z) (hZ : Z < 2 ^ 128) :
    F32.round x = .fin (rnd x) ∧ |rnd x| ≤ Z := by
  have h := abs_le.1 hx
  have h1 : |rnd x| ≤ Z := abs_le.2 ⟨le_rnd hb.neg h.1, rnd_le hb h.2⟩
  exact ⟨F32.round_fin (h1.trans_lt hZ), h1⟩

theorem bits_mul_pow {n : ℕ} (hn : n ≤ 2 ^ 24) (k : ℕ) : Bits24 ((n : ℝ) * 2 ^ k) := by
  refine ⟨n, k, ?_, by omega, by push_cast; rfl⟩
  rw [Nat.abs_cast]
  exact_mod_cast hn

theorem bits_npow (k : ℕ) : Bits24 ((2 : ℝ) ^ k) := by
  have := bits_mul_pow (n := 1) (by norm_num) k
  simpa using this

theorem F32.sci (m : ℕ) (s : Bool) (e : ℕ) :
    (OfScientific.ofScientific m s e : F32) = F32.round (OfScientific.ofScientific m s e : ℝ) := rfl

theorem rnd_near (x a : ℝ) (h : |x| * 2 ^ (-24 : ℤ) + 2 ^ (-150 : ℤ) ≤ a) : x - a ≤ rnd x ∧ rnd x ≤ x + a := by
  have := abs_le.1 ((abs_rnd_sub x).trans h)
  constructor <;> linarith [this.1, this.2]

theorem tiny_le : (2 : ℝ) ^ (-150 : ℤ) ≤ 1 / 2 ^ 100 := by
  have := zpow_le_zpow_two (show (-150 : ℤ) ≤ -100 by norm_num)
  refine this.trans_eq ?_
  rw [zpow_neg, one_div]
  norm_cast

/-! ## One weight under Adam -/

/-- The constants `0.9f`, `0.999f`, `1.e-8f` and the differences `1 - 0.9f`, `1 - 0.999f`. -/
structure AdamConst (b1 b2 c1 c2 eps : ℝ) : Prop where
  b1_bits : Bits24 b1
  b2_bits : Bits24 b2
  b1_pos : 0 ≤ b1
  b1_le : b1 ≤ 29 / 32
  b2_pos : 0 ≤ b2
  b2_le : b2 ≤ 1023 / 1024
  c1_eq : c1 = rnd (1 - b1)
  c2_eq : c2 = rnd (1 - b2)
  c1_ge : 1 / 16 ≤ c1
  c1_le : c1 ≤ 1 / 8
  c2_ge : 1 / 1024 ≤ c2
  c2_le : c2 ≤ 1 / 512
  eps_ge : 1 / 2 ^ 27 ≤ eps
  eps_le : eps ≤ 1

theorem adamConst : ∃ b1 b2 c1 c2 eps : ℝ, (0.9 : F32) = .fin b1 ∧ (0.999 : F32) = .fin b2 ∧ (1 : F32) - .fin b1 = .fin c1 ∧
    (1 : F32) - .fin b2 = .fin c2 ∧ (1e-8 : F32) = .fin eps ∧ AdamConst b1 b2 c1 c2 eps := by
  have ht := tiny_le
  have hu : (2 : ℝ) ^ (-24 : ℤ) = 1 / 16777216 := by norm_num
  have a1 := rnd_near 0.9 (1 / 16000000) (by rw [hu, abs_of_pos (by norm_num)]; norm_num at ht ⊢ <;> linarith)
  have a2 := rnd_near 0.999 (1 / 16000000) (by rw [hu, abs_of_pos (by norm_num)]; norm_num at ht ⊢ <;> linarith)
  have d1 : |1 - rnd 0.9| ≤ 1 / 8 := by rw [abs_le]; constructor <;> norm_num at a1 ⊢ <;> linarith [a1.1, a1.2]
  have d2 : |1 - rnd 0.999| ≤ 1 / 8 := by rw [abs_le]; constructor <;> norm_num at a2 ⊢ <;> linarith [a2.1, a2.2]
  have a3 := rnd_near (1 - rnd 0.9) (1 / 16000000) (by rw [hu]; norm_num at ht ⊢; linarith)
  have a4 := rnd_near (1 - rnd 0.999) (1 / 16000000) (by rw [hu]; norm_num at ht ⊢; linarith)
  have a5 := rnd_near 1e-8 (1 / 1000000000000) (by rw [hu, abs_of_pos (by norm_num)]; norm_num at ht ⊢ <;> linarith)
  have one : (1 : ℝ) < 2 ^ 128 := by norm_num
  have r1 := F32.round_le (x := 0.9) (Z := 1) (by rw [abs_of_pos] <;> norm_num) bits_one one
  have r2 := F32.round_le (x := 0.999) (Z := 1) (by rw [abs_of_pos] <;> norm_num) bits_one one
  have r3 := F32.round_le (x := 1 - rnd 0.9) (Z := 1) (d1.trans (by norm_num)) bits_one one
  have r4 := F32.round_le (x := 1 - rnd 0.999) (Z := 1) (d2.trans (by norm_num)) bits_one one
  have r5 := F32.round_le (x := 1e-8) (Z := 1) (by rw [abs_of_pos] <;> norm_num) bits_one one
  refine ⟨rnd 0.9, rnd 0.999, rnd (1 - rnd 0.9), rnd (1 - rnd 0.999), rnd 1e-8, ?_, ?_, ?_, ?_, ?_, ?_⟩
  · exact (F32.sci _ _ _).trans r1.1
  · exact (F32.sci _ _ _).trans r2.1
  · rw [F32.one_def, F32.fin_sub, r3.1]
  · rw [F32.one_def, F32.fin_sub, r4.1]
  · exact (F32.sci _ _ _).trans r5.1
  · have e1 := a1.1; have e2 := a1.2; have e3 := a2.1; have e4 := a2.2; have e5 := a3.1; have e6 := a3.2
    have e7 := a4.1; have e8 := a4.2; have e9 := a5.1; have e10 := a5.2
    norm_num at e1 e2 e3 e4 e5 e6 e7 e8 e9 e10
    refine ⟨bits_rnd _, bits_rnd _, rnd_nonneg (by norm_num), ?_, rnd_nonneg (by norm_num), ?_, rfl, rfl, ?_, ?_, ?_, ?_, ?_, ?_⟩ <;>
      norm_num <;> linarith

theorem F32.mul_le {x y Z : ℝ} (h : |x| * |y| ≤ Z) (hb : Bits24 Z) (hZ : Z < 2 ^ 128) :
    F32.fin x * F32.fin y = .fin (rnd (x * y)) ∧ |rnd (x * y)| ≤ Z := by
  rw [F32.fin_mul]
  exact F32.round_le (by rwa [abs_mul]) hb hZ

theorem F32.add_le {x y Z : ℝ} (h : |x| + |y| ≤ Z) (hb : Bits24 Z) (hZ : Z < 2 ^ 128) :
    F32.fin x + F32.fin y = .fin (rnd (x + y)) ∧ |rnd (x + y)| ≤ Z := by
  rw [F32.fin_add]
  exact F32.round_le ((abs_add_le _ _).trans h) hb hZ

theorem F32.div_le {x y Z : ℝ} (hy : 0 < y) (h : |x| ≤ Z * y) (hb : Bits24 Z) (hZ : Z < 2 ^ 128) :
    F32.fin x / F32.fin y = .fin (rnd (x / y)) ∧ |rnd (x / y)| ≤ Z := by
  rw [F32.fin_div hy.ne']
  refine F32.round_le ?_ hb hZ
  rw [abs_div, abs_of_pos hy, div_le_iff₀ hy]
  exact h

section
variable {b1 b2 c1 c2 eps : ℝ} (K : AdamConst b1 b2 c1 c2 eps)
include K

theorem adam_m {m d : ℝ} (hm : |m| ≤ 2 ^ 51) (hd : |d| ≤ 2 ^ 50) :
    ∃ m', F32.fin m * F32.fin b1 + F32.fin d * F32.fin c1 = .fin m' ∧ |m'| ≤ 2 ^ 51 := by
  have hc1 : |c1| ≤ 1 / 8 := by rw [abs_of_nonneg (by linarith [K.c1_ge])]; exact K.c1_le
  have hb1 : |b1| ≤ 29 / 32 := by rw [abs_of_nonneg K.b1_pos]; exact K.b1_le
  have a1 := F32.mul_le (x := m) (y := b1) (Z := (29 : ℕ) * 2 ^ 46)
    (by
      refine (mul_le_mul hm hb1 (abs_nonneg _) (by norm_num)).trans ?_
      norm_num) (bits_mul_pow (by norm_num) _) (by norm_num)
  have a2 := F32.mul_le (x := d) (y := c1) (Z := 2 ^ 47)
    (by
      refine (mul_le_mul hd hc1 (abs_nonneg _) (by norm_num)).trans ?_
      norm_num) (bits_npow _) (by norm_num)
  have a3 := F32.add_le (x := rnd (m * b1)) (y := rnd (d * c1)) (Z := 2 ^ 51)
    (by
      refine (add_le_add a1.2 a2.2).trans ?_
      norm_num) (bits_npow _) (by norm_num)
  exact ⟨_, by rw [a1.1, a2.1, a3.1], a3.2⟩

theorem adam_v {v d : ℝ} (h0 : 0 ≤ v) (hv : v ≤ 2 ^ 101) (hd : |d| ≤ 2 ^ 50) :
    ∃ v', F32.fin v * F32.fin b2 + F32.fin d * F32.fin d * F32.fin c2 = .fin v' ∧ 0 ≤ v' ∧ v' ≤ 2 ^ 101 := by
  have hc0 : 0 ≤ c2 := by linarith [K.c2_ge]
  have hc2 : |c2| ≤ 1 / 512 := by rw [abs_of_nonneg hc0]; exact K.c2_le
  have hb2 : |b2| ≤ 1023 / 1024 := by rw [abs_of_nonneg K.b2_pos]; exact K.b2_le
  have a1 := F32.mul_le (x := v) (y := b2) (Z := (1023 : ℕ) * 2 ^ 91)
    (by
      rw [abs_of_nonneg h0]
      refine (mul_le_mul hv hb2 (abs_nonneg _) (by norm_num)).trans ?_
      norm_num) (bits_mul_pow (by norm_num) _) (by norm_num)
  have a2 := F32.mul_le (x := d) (y := d) (Z := 2 ^ 100)
    (by
      refine (mul_le_mul hd hd (abs_nonneg _) (by norm_num)).trans ?_
      norm_num) (bits_npow _) (by norm_num)
  have a3 := F32.mul_le (x := rnd (d * d)) (y := c2) (Z := 2 ^ 91)
    (by
      refine (mul_le_mul a2.2 hc2 (abs_nonneg _) (by norm_num)).trans ?_
      norm_num) (bits_npow _) (by norm_num)
  have a4 := F32.add_le (x := rnd (v * b2)) (y := rnd (rnd (d * d) * c2)) (Z := 2 ^ 101)
    (by
      refine (add_le_add a1.2 a3.2).trans ?_
      norm_num) (bits_npow _) (by norm_num)
  refine ⟨_, by rw [a1.1, a2.1, a3.1, a4.1], ?_, (le_abs_self _).trans a4.2⟩
  exact rnd_nonneg (add_nonneg (rnd_nonneg (mul_nonneg h0 K.b2_pos))
    (rnd_nonneg (mul_nonneg (rnd_nonneg (mul_self_nonneg d)) hc0)))

/-- The factors computed from the powers of `beta1` and `beta2`. -/
theorem adam_pow {p1 p2 L : ℝ} (h1 : 0 ≤ p1) (h1' : p1 ≤ b1) (h2 : 0 ≤ p2) (h2' : p2 ≤ b2) (hL : |L| ≤ 1) :
    ∃ f I p1' p2', F32.fin L / ((1 : F32) - F32.fin p1) = .fin f ∧ |f| ≤ 16 ∧
      (1 : F32) / ((1 : F32) - F32.fin p2) = .fin I ∧ 0 ≤ I ∧ I ≤ 1024 ∧
      F32.fin p1 * F32.fin b1 = .fin p1' ∧ 0 ≤ p1' ∧ p1' ≤ b1 ∧
      F32.fin p2 * F32.fin b2 = .fin p2' ∧ 0 ≤ p2' ∧ p2' ≤ b2 := by
  have hb1 := K.b1_le
  have hb2 := K.b2_le
  have s1 := F32.round_le (x := 1 - p1) (Z := 1) (by rw [abs_le]; constructor <;> linarith) bits_one (by norm_num)
  have s2 := F32.round_le (x := 1 - p2) (Z := 1) (by rw [abs_le]; constructor <;> linarith) bits_one (by norm_num)
  have g1 : 1 / 16 ≤ rnd (1 - p1) := by
    refine K.c1_ge.trans ?_
    rw [K.c1_eq]
    exact rnd_mono (by linarith)
  have g2 : 1 / 1024 ≤ rnd (1 - p2) := by
    refine K.c2_ge.trans ?_
    rw [K.c2_eq]
    exact rnd_mono (by linarith)
  have b16 : Bits24 16 := by
    have := bits_npow 4
    norm_num at this
    exact this
  have b1024 : Bits24 1024 := by
    have := bits_npow 10
    norm_num at this
    exact this
  have q1 := F32.div_le (x := L) (y := rnd (1 - p1)) (Z := 16) (by linarith) (by linarith) b16 (by norm_num)
  have q2 := F32.div_le (x := 1) (y := rnd (1 - p2)) (Z := 1024) (by linarith) (by rw [abs_one]; linarith) b1024 (by norm_num)
  have m1 := F32.mul_le (x := p1) (y := b1) (Z := b1)
    (by
      rw [abs_of_nonneg h1, abs_of_nonneg K.b1_pos]
      nlinarith [K.b1_pos]) K.b1_bits (by
      have : (29 / 32 : ℝ) < 2 ^ 128 := by norm_num
      linarith)
  have m2 := F32.mul_le (x := p2) (y := b2) (Z := b2)
    (by
      rw [abs_of_nonneg h2, abs_of_nonneg K.b2_pos]
      nlinarith [K.b2_pos]) K.b2_bits (by
      have : (1023 / 1024 : ℝ) < 2 ^ 128 := by norm_num
      linarith)
  refine ⟨_, _, _, _, ?_, q1.2, ?_, ?_, (le_abs_self _).trans q2.2, m1.1, rnd_nonneg (mul_nonneg h1 K.b1_pos),
    (le_abs_self _).trans m1.2, m2.1, rnd_nonneg (mul_nonneg h2 K.b2_pos), (le_abs_self _).trans m2.2⟩
  · rw [F32.one_def, F32.fin_sub, s1.1, q1.1]
  · rw [F32.one_def, F32.fin_sub, s2.1, q2.1]
  · exact rnd_nonneg (div_nonneg zero_le_one (by linarith))

/-- The step of one weight. -/
theorem adam_step {sq : F32 → F32} (hs : SqrtFloat sq) {m v f I : ℝ} (hm : |m| ≤ 2 ^ 51) (h0 : 0 ≤ v) (hv : v ≤ 2 ^ 101)
    (hf : |f| ≤ 16) (hI : 0 ≤ I) (hI' : I ≤ 1024) :
    ∃ t, F32.fin m / (if sq (F32.fin v * F32.fin I) < F32.fin eps then F32.fin eps else sq (F32.fin v * F32.fin I)) *
      F32.fin f = .fin t ∧ |t| ≤ 2 ^ 82 := by
  have a1 := F32.mul_le (x := v) (y := I) (Z := 2 ^ 111)
    (by
      rw [abs_of_nonneg h0, abs_of_nonneg hI]
      refine (mul_le_mul hv hI' hI (by norm_num)).trans ?_
      norm_num) (bits_npow _) (by norm_num)
  obtain ⟨y, hy, hy0⟩ := hs (rnd (v * I)) (rnd_nonneg (mul_nonneg h0 hI))
  have heps := K.eps_ge
  have hz : ∃ z, (if F32.fin y < F32.fin eps then F32.fin eps else F32.fin y) = F32.fin z ∧ 1 / 2 ^ 27 ≤ z := by
    by_cases h : y < eps
    · exact ⟨eps, if_pos h, heps⟩
    · exact ⟨y, if_neg h, heps.trans (not_lt.1 h)⟩
  obtain ⟨z, hz1, hz2⟩ := hz
  rw [a1.1, hy, hz1]
  have hz0 : 0 < z := lt_of_lt_of_le (by norm_num) hz2
  have a2 := F32.div_le (x := m) (y := z) (Z := 2 ^ 78) hz0
    (by
      refine hm.trans ?_
      have : (2 : ℝ) ^ 51 = 2 ^ 78 * (1 / 2 ^ 27) := by norm_num
      rw [this]
      exact mul_le_mul_of_nonneg_left hz2 (by norm_num)) (bits_npow _) (by norm_num)
  have a3 := F32.mul_le (x := rnd (m / z)) (y := f) (Z := 2 ^ 82)
    (by
      refine (mul_le_mul a2.2 hf (abs_nonneg _) (by norm_num)).trans ?_
      norm_num) (bits_npow _) (by norm_num)
  exact ⟨_, by rw [a2.1, a3.1], a3.2⟩

end

/-- A weight that is moved by at most `2^82` never leaves `[-2^126, 2^126]`: where it is large, the step is lost. -/
theorem weight_step {w t : ℝ} (hb : Bits24 w) (hw : |w| ≤ 2 ^ 126) (ht : |t| ≤ 2 ^ 82) :
    ∃ w', F32.fin w - F32.fin t = .fin w' ∧ Bits24 w' ∧ |w'| ≤ 2 ^ 126 := by
  rw [F32.fin_sub]
  rcases le_or_gt |w| (2 ^ 125) with h | h
  · have h1 : |w - t| ≤ 2 ^ 126 := by
      refine (abs_sub _ _).trans ?_
      refine (add_le_add h ht).trans ?_
      norm_num
    have := F32.round_le h1 (bits_npow _) (by norm_num)
    exact ⟨_, this.1, bits_rnd _, this.2⟩
  · have h1 : rnd (w - t) = w := by
      apply rnd_absorb hb
      refine ht.trans ?_
      have : (2 : ℝ) ^ 82 ≤ 2 ^ 125 * 2 ^ (-26 : ℤ) := by norm_num
      refine this.trans ?_
      exact mul_le_mul_of_nonneg_right h.le (two_zpow_pos _).le
    refine ⟨w, ?_, hb, hw⟩
    rw [F32.round_fin (by rw [h1]; exact hw.trans_lt (by norm_num)), h1]

/-! ## Matrices -/

theorem zeroIf_f {g : Nat → F32} {m : Mat F32} (hm : m.WF) (R C : Nat) (e : Nat → Nat → F32) :
    zeroIf g true m (Mat.ofFn R C e) = .ok (Mat.ofFn R C (fun _ _ => 0)) := by
  unfold zeroIf
  rw [if_pos rfl, Mat.setConstantRC_ofFn g hm]
  rfl

theorem zeroIf_t {g : Nat → F32} (c : Bool) (R C : Nat) (f e : Nat → Nat → F32) (hc : c = true → R * C = 0) :
    zeroIf g c (Mat.ofFn R C f) (Mat.ofFn R C e) = .ok (Mat.ofFn R C f) := by
  unfold zeroIf
  cases c
  · rfl
  · rw [if_pos rfl, Mat.setConstantRC_ofFn g (Mat.ofFn_WF _ _ _)]
    refine congrArg Except.ok (Mat.ofFn_congr (r := R) (c := C) fun i j hi hj => ?_)
    rcases Nat.mul_eq_zero.mp (hc rfl) with h | h
    · subst h; exact absurd hi (Nat.not_lt_zero _)
    · subst h; exact absurd hj (Nat.not_lt_zero _)

/-- State of an Adam optimizer between steps. -/
structure AdamInv (g : Nat → F32) (R C : Nat) (o : Opt F32) (b1 b2 L : ℝ) : Prop where
  kind : o.kind = .adam
  lr : o.lr = .fin L
  beta1 : o.beta1 = .fin b1
  beta2 : o.beta2 = .fin b2
  p1 : ∃ p, o.p1 = .fin p ∧ 0 ≤ p ∧ p ≤ b1
  p2 : ∃ p, o.p2 = .fin p ∧ 0 ≤ p ∧ p ≤ b2
  st : ∃ V M : Nat → Nat → ℝ, (∀ i j, 0 ≤ V i j ∧ V i j ≤ 2 ^ 101 ∧ |M i j| ≤ 2 ^ 51) ∧ ∀ e : Nat → Nat → F32,
    zeroIf g (o.v.size = 0) o.v (Mat.ofFn R C e) = .ok (Mat.ofFn R C (fun i j => .fin (V i j))) ∧
    zeroIf g (o.v.size = 0) o.m (Mat.ofFn R C e) = .ok (Mat.ofFn R C (fun i j => .fin (M i j)))

theorem adam_optimize {g : Nat → F32} {sq ab : F32 → F32} (hs : SqrtFloat sq) {R C : Nat} {o : Opt F32}
    {b1 b2 c1 c2 eps L : ℝ} (K : AdamConst b1 b2 c1 c2 eps) (e1 : (1 : F32) - .fin b1 = .fin c1)
    (e2 : (1 : F32) - .fin b2 = .fin c2) (e3 : (1e-8 : F32) = .fin eps) (hL : |L| ≤ 1) (h : AdamInv g R C o b1 b2 L)
    (w d : Nat → Nat → ℝ) (hw : ∀ i j, Bits24 (w i j) ∧ |w i j| ≤ 2 ^ 126) (hd : ∀ i j, |d i j| ≤ 2 ^ 50) :
    ∃ (o' : Opt F32) (w' : Nat → Nat → ℝ),
      o.optimize g sq ab (Mat.ofFn R C (fun i j => .fin (w i j))) (Mat.ofFn R C (fun i j => .fin (d i j))) =
        .ok (o', Mat.ofFn R C (fun i j => .fin (w' i j))) ∧
      AdamInv g R C o' b1 b2 L ∧ ∀ i j, Bits24 (w' i j) ∧ |w' i j| ≤ 2 ^ 126 := by
  obtain ⟨kind, lr, mom, decay, beta1, beta2, lambda, p1, p2, v, m, vh⟩ := o
  obtain ⟨hk, hlr, hb1, hb2, ⟨q1, hp1, hq1, hq1'⟩, ⟨q2, hp2, hq2, hq2'⟩, V, M, hVM, hz⟩ := h
  dsimp only at hk hlr hb1 hb2 hp1 hp2 hz
  subst hk hlr hb1 hb2 hp1 hp2
  obtain ⟨f, I, p1', p2', f1, f2, f3, f4, f5, f6, f7, f8, f9, f10, f11⟩ := adam_pow K hq1 hq1' hq2 hq2' hL
  have hm' := fun i j => adam_m K (hVM i j).2.2 (hd i j)
  choose M' hM1 hM2 using hm'
  have hv' := fun i j => adam_v K (hVM i j).1 (hVM i j).2.1 (hd i j)
  choose V' hV1 hV2 hV3 using hv'
  have ht' := fun i j => adam_step K hs (hM2 i j) (hV2 i j) (hV3 i j) f2 f4 f5
  choose T hT1 hT2 using ht'
  have hw' := fun i j => weight_step (hw i j).1 (hw i j).2 (hT2 i j)
  choose W hW1 hW2 hW3 using hw'
  have hA : ∀ (c : Nat → Nat → F32) (e : Nat → Nat → F32), (Mat.ofFn R C c).assign g (Mat.ofFn R C e) =
      .ok (Mat.ofFn R C e) := fun c e => Mat.assign_ofFn g (Mat.ofFn_WF _ _ _) R C e
  have hc1 : ∀ a b : Nat → Nat → F32, check ((Mat.ofFn R C a).rows = (Mat.ofFn R C b).rows) = .ok () :=
    fun _ _ => check_true rfl
  have hc2 : ∀ a b : Nat → Nat → F32, check ((Mat.ofFn R C a).cols = (Mat.ofFn R C b).cols) = .ok () :=
    fun _ _ => check_true rfl
  refine ⟨{ kind := .adam, lr := .fin L, mom := mom, decay := decay, beta1 := .fin b1, beta2 := .fin b2,
            lambda := lambda, p1 := .fin p1', p2 := .fin p2', v := Mat.ofFn R C (fun i j => .fin (V' i j)),
            m := Mat.ofFn R C (fun i j => .fin (M' i j)), vh := vh }, W, ?eq, ?_, fun i j => ⟨hW2 i j, hW3 i j⟩⟩
  case eq =>
    simp only [Opt.optimize, hc1, hc2, bind_ok', (hz _).1, (hz _).2, lerpM, ratio, Mat.scale, Mat.add, Mat.sub,
      Mat.cwise_ofFn, Mat.cwise2_ofFn, hA, Mat.cwiseMaxS, Mat.cwiseQuotient, Mat.cwiseAbs2, e1, e2, e3, f1, f3, f6, f9, hM1, hV1,
      hT1, hW1, pure_ok]
  · refine ⟨rfl, rfl, rfl, rfl, ⟨p1', rfl, f7, f8⟩, ⟨p2', rfl, f10, f11⟩, V', M', fun i j => ⟨hV2 i j, hV3 i j, hM2 i j⟩, ?_⟩
    intro e
    have hc : decide ((Mat.ofFn R C (fun i j => F32.fin (V' i j))).size = 0) = true → R * C = 0 := fun h => by
      simpa using h
    exact ⟨zeroIf_t _ _ _ _ _ hc, zeroIf_t _ _ _ _ _ hc⟩

theorem adam_run {g : Nat → F32} {sq ab : F32 → F32} (hs : SqrtFloat sq) {R C : Nat} {o : Opt F32}
    {b1 b2 c1 c2 eps L : ℝ} (K : AdamConst b1 b2 c1 c2 eps) (e1 : (1 : F32) - .fin b1 = .fin c1)
    (e2 : (1 : F32) - .fin b2 = .fin c2) (e3 : (1e-8 : F32) = .fin eps) (hL : |L| ≤ 1) (h : AdamInv g R C o b1 b2 L)
    (w : Nat → Nat → ℝ) (d : Nat → Nat → Nat → ℝ) (hw : ∀ i j, Bits24 (w i j) ∧ |w i j| ≤ 2 ^ 126)
    (hd : ∀ t i j, |d t i j| ≤ 2 ^ 50) (n : Nat) :
    ∃ (o' : Opt F32) (w' : Nat → Nat → ℝ),
      o.run g sq ab (Mat.ofFn R C (fun i j => .fin (w i j))) (fun t => Mat.ofFn R C (fun i j => .fin (d t i j))) n =
        .ok (o', Mat.ofFn R C (fun i j => .fin (w' i j))) ∧
      AdamInv g R C o' b1 b2 L ∧ ∀ i j, Bits24 (w' i j) ∧ |w' i j| ≤ 2 ^ 126 := by
  induction n with
  | zero => exact ⟨o, w, rfl, h, hw⟩
  | succ n ih =>
    obtain ⟨o1, w1, h1, h2, h3⟩ := ih
    obtain ⟨o2, w2, h4, h5, h6⟩ := adam_optimize (ab := ab) hs K e1 e2 e3 hL h2 w1 (d n) h3 (hd n)
    refine ⟨o2, w2, ?_, h5, h6⟩
    unfold Opt.run at h1 ⊢
    rw [forN_succ, h1]
    exact h4

end BeeDNN
