import Verif.Lemmas.HeavyBall
import Verif.Lemmas.LeastSquares
import Verif.Props.Linear
import Verif.Props.MlpRule

/-! # Training a dense layer with momentum: C123 -/

namespace BeeDNN
open Finset Trainer

namespace Linear

/-- Weights and biases. -/
abbrev Par := (Nat → Nat → ℝ) × (Nat → Nat → ℝ)

/-- Their scalar product. -/
def dotP (C K : Nat) (a b : Par) : ℝ := dotM C K a.1 b.1 + dotM 1 K a.2 b.2

theorem dotM_add_left (R C : Nat) (a b c : Nat → Nat → ℝ) : dotM R C (a + b) c = dotM R C a c + dotM R C b c := by
  unfold dotM
  rw [← sum_add_distrib]
  refine sum_congr rfl fun i _ => ?_
  rw [← sum_add_distrib]
  exact sum_congr rfl fun j _ => add_mul ..

theorem dotM_smul_left (R C : Nat) (t : ℝ) (a b : Nat → Nat → ℝ) : dotM R C (t • a) b = t * dotM R C a b := by
  unfold dotM
  rw [mul_sum]
  refine sum_congr rfl fun i _ => ?_
  rw [mul_sum]
  exact sum_congr rfl fun j _ => mul_assoc ..

theorem dotM_symm (R C : Nat) (a b : Nat → Nat → ℝ) : dotM R C a b = dotM R C b a := by
  unfold dotM
  exact sum_congr rfl fun i _ => sum_congr rfl fun j _ => mul_comm ..

theorem dotP_form (C K : Nat) : ScalarForm (dotP C K) where
  add a b c := by
    show dotM C K (a.1 + b.1) c.1 + dotM 1 K (a.2 + b.2) c.2 = _
    rw [dotM_add_left, dotM_add_left]
    unfold dotP
    ring
  smul t a b := by
    show dotM C K (t • a.1) b.1 + dotM 1 K (t • a.2) b.2 = _
    rw [dotM_smul_left, dotM_smul_left, ← mul_add]
    rfl
  symm a b := by
    unfold dotP
    rw [dotM_symm C K, dotM_symm 1 K]
  nonneg a := add_nonneg (sum_nonneg fun _ _ => sum_nonneg fun _ _ => mul_self_nonneg _) (sum_nonneg fun _ _ => sum_nonneg fun _ _ => mul_self_nonneg _)

variable {q : ℝ} {N C K : Nat} {x y : Nat → Row}

/-- The expansion of the error. -/
theorem err_expand (P V : Par) : err q N C K x y (P + V).1 (P + V).2 = err q N C K x y P.1 P.2 + der q N C K x y P.1 P.2 V.1 V.2 + quad q N C K x V.1 V.2 := by
  have := err_add q N C K x y P.1 P.2 V.1 V.2 1
  simp only [one_mul, one_pow] at this
  exact this

theorem quad_neg (V : Par) : quad q N C K x (-V).1 (-V).2 = quad q N C K x V.1 V.2 := by
  unfold quad
  have : ∀ s j, lin C x (-V).1 (-V).2 s j = -lin C x V.1 V.2 s j := fun s j => by
    unfold lin
    rw [neg_add, ← sum_neg_distrib]
    exact congrArg₂ _ (sum_congr rfl fun k _ => mul_neg ..) rfl
  simp only [this, neg_sq]

theorem der_neg (P V : Par) : der q N C K x y P.1 P.2 (-V).1 (-V).2 = -der q N C K x y P.1 P.2 V.1 V.2 := by
  have := der_add q N C K x y P.1 P.2 V.1 V.2 (-V).1 (-V).2
  have e : der q N C K x y P.1 P.2 (fun k j => V.1 k j + (-V).1 k j) (fun k j => V.2 k j + (-V).2 k j) = 0 := by
    have : (fun k j => V.1 k j + (-V).1 k j) = fun _ _ => (0 : ℝ) := funext fun k => funext fun j => add_neg_cancel _
    rw [this]
    have : (fun k j => V.2 k j + (-V).2 k j) = fun _ _ => (0 : ℝ) := funext fun k => funext fun j => add_neg_cancel _
    rw [this]
    simp [der, lin]
  linarith

/-- The curvature bounds the second order term. -/
theorem quad_bound {loss : String} (V : Par) : quad (lossScale loss K) N C K x V.1 V.2 ≤ curvature loss N C K x / 2 * dotP C K V V :=
  quad_le _ N C K x (lossScale_nonneg loss K) V.1 V.2

theorem err_mid {loss : String} (P d : Par) : err (lossScale loss K) N C K x y (P + d).1 (P + d).2 + err (lossScale loss K) N C K x y (P - d).1 (P - d).2 ≤
    2 * err (lossScale loss K) N C K x y P.1 P.2 + curvature loss N C K x * dotP C K d d := by
  rw [sub_eq_add_neg, err_expand, err_expand, der_neg, quad_neg]
  have := quad_bound (N := N) (C := C) (K := K) (x := x) (loss := loss) d
  linarith

/-- With the gradients at `P`, the error lies between its tangent and the parabola of the curvature. -/
theorem err_bounds {loss : String} {P g : Par} (hG : IsGrad C K (fun W => err (lossScale loss K) N C K x y W P.2) P.1 g.1)
    (hg : IsGrad 1 K (fun b => err (lossScale loss K) N C K x y P.1 b) P.2 g.2) (Q : Par) :
    err (lossScale loss K) N C K x y Q.1 Q.2 ≤ err (lossScale loss K) N C K x y P.1 P.2 + dotP C K g (Q - P) + curvature loss N C K x / 2 * dotP C K (Q - P) (Q - P) ∧
    err (lossScale loss K) N C K x y P.1 P.2 + dotP C K g (Q - P) ≤ err (lossScale loss K) N C K x y Q.1 Q.2 := by
  have h1 := err_expand (q := lossScale loss K) (N := N) (C := C) (K := K) (x := x) (y := y) P (Q - P)
  rw [der_eq hG hg, add_sub_cancel] at h1
  have h2 := quad_bound (N := N) (C := C) (K := K) (x := x) (loss := loss) (Q - P)
  have h3 := quad_nonneg (lossScale loss K) N C K x (lossScale_nonneg loss K) (Q - P).1 (Q - P).2
  rw [h1]
  unfold dotP at h2 ⊢
  constructor <;> linarith

end Linear

open Linear

/-- The parameters of the layer after `i` steps of the rule of an optimizer. -/
noncomputable def rulePar (h : Hyper ℝ) (k : OptKind) (m : Mlp) (g : Nat → Par) (i : Nat) : Coord Par :=
  let r b p q := Coord.run Real.sqrt (fun x => |x|) h k ((m.ply 0).par b p q) (fun t => (if b then (g t).2 else (g t).1) p q) i
  ⟨(fun p q => (r false p q).w, fun p q => (r true p q).w), (fun p q => (r false p q).v, fun p q => (r true p q).v),
    (fun p q => (r false p q).m, fun p q => (r true p q).m), (fun p q => (r false p q).vh, fun p q => (r true p q).vh)⟩

/-- `fit` of a dense layer with all samples in one batch and a squared loss. -/
theorem fit_single {w : World} {t : Trainer} {n b : Nat} {m : Mlp} {N D : Nat} {x y : Nat → Row} (h : FitSetup w t n b m N D x y) (hm : m.Single)
    {k : OptKind} (ho : createOptimizer t.optName = some k) (hre : t.reboostEvery = -1) (hl : t.loss ∈ squaredLosses)
    (hb : t.batchSize = 0 ∨ (N : Int) ≤ t.batchSize) (hk : t.keepBest = false) {eps : ℝ} (heps : 0 < eps) (e : FitEnv) :
    ∃ (w' : World) (t' : Trainer) (seen : List (List (Option Layer))) (ms : Nat → Mlp) (g : Nat → Par), fit (fun x => |x|) eps e w t n b = .ok (w', t', seen) ∧
      ms 0 = m ∧ Represents w' n (ms t.epochs.toNat) ∧
      (∀ i, i ≤ t.epochs.toNat → (ms i).error t.loss N x y = err (lossScale t.loss (m.width 1)) N (m.width 0) (m.width 1) x y
        (rulePar (bookSettings t.optName t.lr t.mom t.decay) k m g i).w.1 (rulePar (bookSettings t.optName t.lr t.mom t.decay) k m g i).w.2) ∧
      ∀ i, i < t.epochs.toNat →
        IsGrad (m.width 0) (m.width 1) (fun W => err (lossScale t.loss (m.width 1)) N (m.width 0) (m.width 1) x y W
          (rulePar (bookSettings t.optName t.lr t.mom t.decay) k m g i).w.2) (rulePar (bookSettings t.optName t.lr t.mom t.decay) k m g i).w.1 (g i).1 ∧
        IsGrad 1 (m.width 1) (fun b => err (lossScale t.loss (m.width 1)) N (m.width 0) (m.width 1) x y
          (rulePar (bookSettings t.optName t.lr t.mom t.decay) k m g i).w.1 b) (rulePar (bookSettings t.optName t.lr t.mom t.decay) k m g i).w.2 (g i).2 := by
  have hsm : m.Smooth := fun i hi => by
    obtain rfl : i = 0 := by rw [hm.depth] at hi; omega
    rw [hm.dense]; trivial
  have hex : m.Exact := fun i hi => by
    obtain rfl : i = 0 := by rw [hm.depth] at hi; omega
    rw [hm.dense]; trivial
  have hl1 : t.loss ∈ distanceLosses ∧ t.loss ∉ kinkAtZero := by
    have : ∀ s ∈ squaredLosses, s ∈ distanceLosses ∧ s ∉ kinkAtZero := by decide
    exact this _ hl
  obtain ⟨w', t', seen, ms, j, k1, k2, k3, k4, -, k6⟩ := C122_smooth h ho hre hex hsm hl1.1 hl1.2 heps e
  rw [k6 hk] at k4
  have hB : (if t.batchSize = 0 then N else min t.batchSize.toNat N) = N := by
    split
    · rfl
    · rcases hb with hb | hb
      · contradiction
      · omega
  rw [hB] at k2 k3
  have hone := nbBatches_one h.samples (le_refl N)
  obtain ⟨σ, d, s1, s2, s3⟩ := k2.rule
  rw [hone] at s2 s3 k3
  have h0 : 0 < m.depth := by rw [hm.depth]; exact one_pos
  have lk : ∀ i, i ≤ t.epochs.toNat → Mlp.Like m (ms i 0) := fun i hi => k2.like i 0 (by omega)
  have has : ∀ b, (m.ply 0).has b = true := fun b => by rw [Ply.has, hm.dense]; cases b <;> rfl
  have sh : ∀ b, m.shape b 0 = (if b then 1 else m.width 0, m.width 1) := fun b => by rw [Mlp.shape, hm.dense]; cases b <;> rfl
  let g : Nat → Par := fun i => (d i false 0, d i true 0)
  have val : ∀ i, i ≤ t.epochs.toNat → ∀ b p q, p < (if b then 1 else m.width 0) → q < m.width 1 →
      ((ms i 0).ply 0).par b p q = (if b then (rulePar (bookSettings t.optName t.lr t.mom t.decay) k m g i).w.2 else
        (rulePar (bookSettings t.optName t.lr t.mom t.decay) k m g i).w.1) p q := fun i hi b p q hp hq => by
    have := s3 i 0 (by omega) b 0 h0 (has b) p q (by rw [sh]; exact hp) (by rw [sh]; exact hq)
    rw [this, Nat.mul_one, Nat.add_zero]
    cases b <;> rfl
  refine ⟨w', t', seen, fun i => ms i 0, g, k1, k2.first, k4, fun i hi => ?_, fun i hi => ?_⟩
  · have hs := hm.like (lk i hi)
    show (ms i 0).error _ _ _ _ = _
    rw [hs.error_eq hl, (lk i hi).width]
    exact err_congr (fun p q hp hq => val i hi false p q hp hq) (fun q hq => val i hi true 0 q one_pos hq)
  · have lki := lk i hi.le
    have hs := hm.like lki
    have dr := s2 i 0 hi one_pos (fun _ _ => trivial)
    have hsp : ∀ b V, ((ms i 0).setPar b 0 V).Single := fun b V => ⟨hs.depth, by
      show (if 0 = 0 then ((ms i 0).ply 0).setPar b V else (ms i 0).ply 0).kind = _
      rw [if_pos rfl, ← hs.dense]
      cases b <;> rfl⟩
    have key : ∀ b, IsGrad (if b then 1 else m.width 0) (m.width 1) (fun P => ((ms i 0).setPar b 0 P).error t.loss N x y) (((ms i 0).ply 0).par b) (d i b 0) := fun b => by
      obtain ⟨G, g1, g2⟩ := dr b 0 (by rw [hs.depth]; exact one_pos) (by rw [Ply.has, hs.dense]; cases b <;> rfl)
      rw [Nat.mul_one, Nat.add_zero] at g2
      have hG : d i b 0 = G := funext fun p => funext fun q => by rw [g2, k3 i 0 hi one_pos _ _ _ h0, one_mul]
      have e1 : (ms i 0).shape b 0 = (if b then 1 else m.width 0, m.width 1) := by rw [Mlp.shape, hs.dense, lki.width]; cases b <;> rfl
      rw [e1, show batchEnd N N 0 - batchStart N 0 = N by unfold batchEnd batchStart; omega] at g1
      simp only [batchStart, Nat.zero_mul, Nat.zero_add, error_perm (s1 i hi)] at g1
      rw [hG]
      exact g1
    refine ⟨fun V => ?_, fun V => ?_⟩
    · have := key false V
      simp only [(hsp false _).error_eq hl] at this
      refine (congrArg (fun F => HasDerivAt F (dotM (m.width 0) (m.width 1) (g i).1 V) 0) (funext fun τ => ?_)).mpr this
      show _ = err (lossScale t.loss ((ms i 0).width 1)) N ((ms i 0).width 0) ((ms i 0).width 1) x y _ ((ms i 0).ply 0).bias
      rw [lki.width]
      refine err_congr (fun p q hp hq => ?_) fun q hq => (val i hi.le true 0 q one_pos hq).symm
      show _ = ((ms i 0).ply 0).par false p q + τ * V p q
      rw [val i hi.le false p q hp hq]
      rfl
    · have := key true V
      simp only [(hsp true _).error_eq hl] at this
      refine (congrArg (fun F => HasDerivAt F (dotM 1 (m.width 1) (g i).2 V) 0) (funext fun τ => ?_)).mpr this
      show _ = err (lossScale t.loss ((ms i 0).width 1)) N ((ms i 0).width 0) ((ms i 0).width 1) x y ((ms i 0).ply 0).weight _
      rw [lki.width]
      refine err_congr (fun p q hp hq => (val i hi.le false p q hp hq).symm) fun q hq => ?_
      show _ = ((ms i 0).ply 0).par true 0 q + τ * V 0 q
      rw [val i hi.le true 0 q one_pos hq]
      rfl

theorem momentum_settings {s : String} (hs : s ∈ ["Momentum", "Nesterov"]) (lr mom decay : ℝ) :
    (bookSettings s lr mom decay).lr = (if lr = -1 then 0.01 else lr) ∧ (bookSettings s lr mom decay).mom = if mom = -1 then 0.9 else mom := by
  have h1 : bookRate s = some (1 / 100) ∧ bookMomentum s = some (9 / 10) := by
    unfold bookRate bookMomentum
    simp only [List.mem_cons, List.not_mem_nil, or_false] at hs
    rcases hs with rfl | rfl <;> exact ⟨by rw [if_neg (by decide), if_neg (by decide), if_pos (by decide)], by rw [if_pos (by decide)]⟩
  unfold bookSettings givenOr
  dsimp only
  rw [h1.1, h1.2, Option.getD_some, Option.getD_some]
  norm_num

theorem distSq_par (m o : Mlp) : m.distSq o = dotP (m.width 0) (m.width 1) (((m.ply 0).weight, (m.ply 0).bias) - ((o.ply 0).weight, (o.ply 0).bias))
    (((m.ply 0).weight, (m.ply 0).bias) - ((o.ply 0).weight, (o.ply 0).bias)) := distSq_eq m o

/-- C123: `fit` with `Momentum`, all samples in one batch and a squared loss trains a dense layer to the best linear model, for a momentum from 0 below 1 and a learning rate up to
one minus the momentum over the curvature of the error: the error after the last epoch is never above the first one, and exceeds that of any other weights and biases by at most a
constant over the number of epochs. -/
theorem C123_momentum {w : World} {t : Trainer} {n b : Nat} {m : Mlp} {N D : Nat} {x y : Nat → Row} (h : FitSetup w t n b m N D x y) (hm : m.Single)
    (ho : t.optName = "Momentum") (hre : t.reboostEvery = -1) (hl : t.loss ∈ squaredLosses) (hb : t.batchSize = 0 ∨ (N : Int) ≤ t.batchSize) (hk : t.keepBest = false)
    {lr mom : ℝ} (hlr : lr = if t.lr = -1 then 0.01 else t.lr) (hmom : mom = if t.mom = -1 then 0.9 else t.mom) (h0 : 0 < lr) (h1 : 0 ≤ mom) (h2 : mom < 1)
    (h3 : lr * curvature t.loss N (m.width 0) (m.width 1) x ≤ 1 - mom) {eps : ℝ} (heps : 0 < eps) (e : FitEnv) :
    ∃ (w' : World) (t' : Trainer) (seen : List (List (Option Layer))) (m' : Mlp), fit (fun x => |x|) eps e w t n b = .ok (w', t', seen) ∧ Represents w' n m' ∧
      m'.error t.loss N x y ≤ m.error t.loss N x y ∧
      ∀ o : Mlp, o.Single → o.width = m.width → o.error t.loss N x y ≤ m.error t.loss N x y →
        (t.epochs.toNat : ℝ) * (m'.error t.loss N x y - o.error t.loss N x y) ≤
          (1 - mom) / (2 * lr) * m.distSq o + (1 + 4 * mom) / (1 - mom) ^ 2 * (m.error t.loss N x y - o.error t.loss N x y) := by
  obtain ⟨w', t', seen, ms, g, k1, k2, k3, k4, k5⟩ := fit_single h hm (k := .momentum) (by rw [ho]; rfl) hre hl hb hk heps e
  have hh : (bookSettings t.optName t.lr t.mom t.decay).lr = lr ∧ (bookSettings t.optName t.lr t.mom t.decay).mom = mom := by
    rw [hlr, hmom, ho]
    exact momentum_settings (by decide) ..
  generalize hH : bookSettings t.optName t.lr t.mom t.decay = H at k4 k5 hh
  have run : ∀ i b p q, let r := fun i => Coord.run Real.sqrt (fun x => |x|) H .momentum ((m.ply 0).par b p q) (fun t => (if b then (g t).2 else (g t).1) p q) i
      (r (i + 1)).v = mom * (r i).v + lr * (if b then (g i).2 else (g i).1) p q ∧ (r (i + 1)).w = (r i).w - (r (i + 1)).v := fun i b p q => by
    refine ⟨?_, rfl⟩
    rw [← hh.1, ← hh.2]
    rfl
  obtain ⟨d1, d2⟩ := (dotP_form (m.width 0) (m.width 1)).heavyBall (f := fun P => err (lossScale t.loss (m.width 1)) N (m.width 0) (m.width 1) x y P.1 P.2) h0 h1 h2 h3
    (x := fun i => (rulePar H .momentum m g i).w) (δ := fun i => -(rulePar H .momentum m g i).v) (g := g) (T := t.epochs.toNat)
    (fun i hi Q => (err_bounds (k5 i hi).1 (k5 i hi).2 Q).1) (fun i hi Q => (err_bounds (k5 i hi).1 (k5 i hi).2 Q).2)
    neg_zero (fun i hi => by
      refine Prod.ext (funext fun p => funext fun q => ?_) (funext fun p => funext fun q => ?_)
      · have := (run i false p q).1
        show -_ = mom * -_ - lr * _
        rw [mul_neg, ← neg_add']
        exact congrArg _ this
      · have := (run i true p q).1
        show -_ = mom * -_ - lr * _
        rw [mul_neg, ← neg_add']
        exact congrArg _ this) (fun i hi => by
      refine Prod.ext (funext fun p => funext fun q => ?_) (funext fun p => funext fun q => ?_)
      · exact (run i false p q).2.trans (sub_eq_add_neg _ _)
      · exact (run i true p q).2.trans (sub_eq_add_neg _ _))
  have e0 : m.error t.loss N x y = err (lossScale t.loss (m.width 1)) N (m.width 0) (m.width 1) x y (rulePar H .momentum m g 0).w.1 (rulePar H .momentum m g 0).w.2 := by
    exact (congrArg (fun m' : Mlp => m'.error t.loss N x y) k2).symm.trans (k4 0 (Nat.zero_le _))
  refine ⟨w', t', seen, _, k1, k3, ?_, fun o o1 o2 o3 => ?_⟩
  · rw [k4 _ le_rfl, e0]
    have key : ∀ i, i ≤ t.epochs.toNat → 2 * lr * err (lossScale t.loss (m.width 1)) N (m.width 0) (m.width 1) x y (rulePar H .momentum m g i).w.1 (rulePar H .momentum m g i).w.2 +
        dotP (m.width 0) (m.width 1) (-(rulePar H .momentum m g i).v) (-(rulePar H .momentum m g i).v) ≤
        2 * lr * err (lossScale t.loss (m.width 1)) N (m.width 0) (m.width 1) x y (rulePar H .momentum m g 0).w.1 (rulePar H .momentum m g 0).w.2 := by
      intro i
      induction i with
      | zero =>
        intro _
        have : -(rulePar H .momentum m g 0).v = 0 := neg_zero
        rw [this, (dotP_form _ _).zero, add_zero]
      | succ i ih =>
        intro hi
        have a1 := ih (by omega)
        have a2 := d1 i hi
        have a3 := mul_le_mul_of_nonneg_right h2.le ((dotP_form (m.width 0) (m.width 1)).nonneg (-(rulePar H .momentum m g i).v))
        linarith
    have := key _ le_rfl
    have hp := (dotP_form (m.width 0) (m.width 1)).nonneg (-(rulePar H .momentum m g t.epochs.toNat).v)
    exact le_of_mul_le_mul_left (by linarith) (by positivity : 0 < 2 * lr)
  · have eo : o.error t.loss N x y = err (lossScale t.loss (m.width 1)) N (m.width 0) (m.width 1) x y (o.ply 0).weight (o.ply 0).bias := by rw [o1.error_eq hl, o2]
    have := d2 ((o.ply 0).weight, (o.ply 0).bias) (by rw [eo, e0] at o3; exact o3)
    dsimp only at this
    rw [← k4 _ le_rfl, ← eo, ← e0] at this
    have hd : m.distSq o = dotP (m.width 0) (m.width 1) ((rulePar H .momentum m g 0).w - ((o.ply 0).weight, (o.ply 0).bias))
      ((rulePar H .momentum m g 0).w - ((o.ply 0).weight, (o.ply 0).bias)) := distSq_par m o
    rw [← hd] at this
    have hu : 0 < 1 - mom := by linarith
    rw [← mul_le_mul_iff_right₀ (by positivity : 0 < 2 * lr * (1 - mom) ^ 2)]
    refine this.trans (le_of_eq ?_)
    field_simp

/-- C123: `fit` with `Nesterov`, all samples in one batch and a squared loss trains a dense layer to the best linear model, for a momentum from 0 below 1 and a learning rate up to
one over the curvature of the error: the error after the last epoch exceeds the least error by at most a constant over the number of epochs. -/
theorem C123_nesterov {w : World} {t : Trainer} {n b : Nat} {m : Mlp} {N D : Nat} {x y : Nat → Row} (h : FitSetup w t n b m N D x y) (hm : m.Single)
    (ho : t.optName = "Nesterov") (hre : t.reboostEvery = -1) (hl : t.loss ∈ squaredLosses) (hb : t.batchSize = 0 ∨ (N : Int) ≤ t.batchSize) (hk : t.keepBest = false)
    {lr mom : ℝ} (hlr : lr = if t.lr = -1 then 0.01 else t.lr) (hmom : mom = if t.mom = -1 then 0.9 else t.mom) (h0 : 0 < lr) (h1 : 0 ≤ mom) (h2 : mom < 1)
    (h3 : lr * curvature t.loss N (m.width 0) (m.width 1) x ≤ 1) {eps : ℝ} (heps : 0 < eps) (e : FitEnv) :
    ∃ (w' : World) (t' : Trainer) (seen : List (List (Option Layer))) (m' : Mlp), fit (fun x => |x|) eps e w t n b = .ok (w', t', seen) ∧ Represents w' n m' ∧
      ∀ o : Mlp, o.Single → o.width = m.width → (∀ o' : Mlp, o'.Single → o'.width = m.width → o.error t.loss N x y ≤ o'.error t.loss N x y) →
        (t.epochs.toNat : ℝ) * (m'.error t.loss N x y - o.error t.loss N x y) ≤
          (1 - mom) / lr * m.distSq o + 2 * (1 + mom * (1 + mom)) / (1 - mom ^ 2) * (m.error t.loss N x y - o.error t.loss N x y) := by
  obtain ⟨w', t', seen, ms, g, k1, k2, k3, k4, k5⟩ := fit_single h hm (k := .nesterov) (by rw [ho]; rfl) hre hl hb hk heps e
  have hh : (bookSettings t.optName t.lr t.mom t.decay).lr = lr ∧ (bookSettings t.optName t.lr t.mom t.decay).mom = mom := by
    rw [hlr, hmom, ho]
    exact momentum_settings (by decide) ..
  generalize hH : bookSettings t.optName t.lr t.mom t.decay = H at k4 k5 hh
  have run : ∀ i b p q, let r := fun i => Coord.run Real.sqrt (fun x => |x|) H .nesterov ((m.ply 0).par b p q) (fun t => (if b then (g t).2 else (g t).1) p q) i
      (r (i + 1)).v = mom * (r i).v - lr * (if b then (g i).2 else (g i).1) p q ∧ (r (i + 1)).w = (r i).w + ((r (i + 1)).v + mom * ((r (i + 1)).v - (r i).v)) := fun i b p q => by
    rw [← hh.1, ← hh.2]
    exact ⟨rfl, rfl⟩
  have d2 := (dotP_form (m.width 0) (m.width 1)).nesterov (f := fun P => err (lossScale t.loss (m.width 1)) N (m.width 0) (m.width 1) x y P.1 P.2) h0 h1 h2 h3
    (w := fun i => (rulePar H .nesterov m g i).w) (v := fun i => (rulePar H .nesterov m g i).v) (g := g) (T := t.epochs.toNat)
    (fun i hi Q => (err_bounds (k5 i hi).1 (k5 i hi).2 Q).1) (fun i hi Q => (err_bounds (k5 i hi).1 (k5 i hi).2 Q).2) err_mid rfl
    (fun i hi => Prod.ext (funext fun p => funext fun q => (run i false p q).1) (funext fun p => funext fun q => (run i true p q).1))
    (fun i hi => Prod.ext (funext fun p => funext fun q => (run i false p q).2) (funext fun p => funext fun q => (run i true p q).2))
  have e0 : m.error t.loss N x y = err (lossScale t.loss (m.width 1)) N (m.width 0) (m.width 1) x y (rulePar H .nesterov m g 0).w.1 (rulePar H .nesterov m g 0).w.2 := by
    exact (congrArg (fun m' : Mlp => m'.error t.loss N x y) k2).symm.trans (k4 0 (Nat.zero_le _))
  refine ⟨w', t', seen, _, k1, k3, fun o o1 o2 o3 => ?_⟩
  have eo : o.error t.loss N x y = err (lossScale t.loss (m.width 1)) N (m.width 0) (m.width 1) x y (o.ply 0).weight (o.ply 0).bias := by rw [o1.error_eq hl, o2]
  have := d2 ((o.ply 0).weight, (o.ply 0).bias) (fun P => by
    have := o3 { m with ply := fun _ => { m.ply 0 with weight := P.1, bias := P.2 } } ⟨hm.depth, hm.dense⟩ rfl
    rw [eo, Mlp.Single.error_eq (m := { m with ply := fun _ => { m.ply 0 with weight := P.1, bias := P.2 } }) ⟨hm.depth, hm.dense⟩ hl] at this
    exact this)
  dsimp only at this
  rw [← k4 _ le_rfl, ← eo, ← e0] at this
  have hd : m.distSq o = dotP (m.width 0) (m.width 1) ((rulePar H .nesterov m g 0).w - ((o.ply 0).weight, (o.ply 0).bias))
    ((rulePar H .nesterov m g 0).w - ((o.ply 0).weight, (o.ply 0).bias)) := distSq_par m o
  rw [← hd] at this
  have hu : 0 < 1 - mom ^ 2 := by nlinarith
  rw [← mul_le_mul_iff_right₀ (by positivity : 0 < lr * (1 - mom ^ 2))]
  refine this.trans (le_of_eq ?_)
  field_simp

/-- C123: there is a best linear model. -/
theorem C123_best_exists {m : Mlp} (hm : m.Single) {loss : String} (hl : loss ∈ squaredLosses) (N : Nat) (x y : Nat → Row) :
    ∃ o : Mlp, o.Single ∧ o.width = m.width ∧ ∀ o' : Mlp, o'.Single → o'.width = m.width → o.error loss N x y ≤ o'.error loss N x y := by
  obtain ⟨P, hP⟩ := exists_best (lossScale_nonneg loss (m.width 1)) N (m.width 0) (m.width 1) x y
  have hs : Mlp.Single { m with ply := fun _ => { m.ply 0 with weight := P.1, bias := P.2 } } := ⟨hm.depth, hm.dense⟩
  refine ⟨_, hs, rfl, fun o' h1 h2 => ?_⟩
  rw [h1.error_eq hl, h2, hs.error_eq hl]
  exact hP ((o'.ply 0).weight, (o'.ply 0).bias)

/-- C123: so the error gets as close to the least error of all linear models as wanted, when the number of epochs is large enough. -/
theorem C123_converges {w : World} {t : Trainer} {n b : Nat} {m : Mlp} {N D : Nat} {x y : Nat → Row} (h : FitSetup w t n b m N D x y) (hm : m.Single)
    (ho : t.optName = "SGD" ∨ t.optName = "Momentum" ∨ t.optName = "Nesterov") (hp : t.patience = -1) (hre : t.reboostEvery = -1) (hl : t.loss ∈ squaredLosses) (hb : t.batchSize = 0 ∨ (N : Int) ≤ t.batchSize)
    (hk : t.keepBest = false) {lr mom : ℝ} (hlr : lr = if t.lr = -1 then 0.01 else t.lr) (hmom : mom = if t.mom = -1 then 0.9 else t.mom) (h0 : 0 < lr) (h1 : 0 ≤ mom)
    (h2 : mom < 1) (h3 : lr * curvature t.loss N (m.width 0) (m.width 1) x ≤ 1 - mom) {δ : ℝ} (hδ : 0 < δ) :
    ∃ E₀ : Nat, ∀ E : Nat, E₀ ≤ E → ∀ {eps : ℝ}, 0 < eps → ∀ e : FitEnv, ∃ (w' : World) (t' : Trainer) (seen : List (List (Option Layer))) (m' : Mlp),
      fit (fun x => |x|) eps e w { t with epochs := E } n b = .ok (w', t', seen) ∧ Represents w' n m' ∧
      ∀ o : Mlp, o.Single → o.width = m.width → m'.error t.loss N x y ≤ o.error t.loss N x y + δ := by
  obtain ⟨o, o1, o2, o3⟩ := C123_best_exists hm hl N x y
  have bound : ∃ c : ℝ, ∀ E : Nat, ∀ {eps : ℝ}, 0 < eps → ∀ e : FitEnv, ∃ (w' : World) (t' : Trainer) (seen : List (List (Option Layer))) (m' : Mlp),
      fit (fun x => |x|) eps e w { t with epochs := E } n b = .ok (w', t', seen) ∧ Represents w' n m' ∧ (E : ℝ) * (m'.error t.loss N x y - o.error t.loss N x y) ≤ c := by
    rcases ho with ho | ho | ho
    · refine ⟨m.distSq o / (2 * lr), fun E eps heps e => ?_⟩
      obtain ⟨w', t', seen, ms, a1, -, a2, -, a3⟩ := C116_converges (t := { t with epochs := E }) { h with patience := .inl hp } hm ho hl hb hk hlr h0
        (by show lr * _ ≤ _; linarith) heps e
      exact ⟨w', t', seen, _, a1, a2, a3 o o1 o2⟩
    · refine ⟨(1 - mom) / (2 * lr) * m.distSq o + (1 + 4 * mom) / (1 - mom) ^ 2 * (m.error t.loss N x y - o.error t.loss N x y), fun E eps heps e => ?_⟩
      obtain ⟨w', t', seen, m', a1, a2, -, a3⟩ := C123_momentum (t := { t with epochs := E }) { h with patience := .inl hp } hm ho hre hl hb hk hlr hmom h0 h1 h2 h3 heps e
      exact ⟨w', t', seen, m', a1, a2, a3 o o1 o2 (o3 m hm rfl)⟩
    · refine ⟨(1 - mom) / lr * m.distSq o + 2 * (1 + mom * (1 + mom)) / (1 - mom ^ 2) * (m.error t.loss N x y - o.error t.loss N x y), fun E eps heps e => ?_⟩
      obtain ⟨w', t', seen, m', a1, a2, a3⟩ := C123_nesterov (t := { t with epochs := E }) { h with patience := .inl hp } hm ho hre hl hb hk hlr hmom h0 h1 h2 (by show lr * _ ≤ _; linarith) heps e
      exact ⟨w', t', seen, m', a1, a2, a3 o o1 o2 o3⟩
  obtain ⟨c, hc⟩ := bound
  obtain ⟨E₀, hE⟩ := exists_nat_gt (c / δ)
  refine ⟨E₀ + 1, fun E hle eps heps e => ?_⟩
  obtain ⟨w', t', seen, m', a1, a2, a3⟩ := hc E heps e
  refine ⟨w', t', seen, m', a1, a2, fun o' h1 h2 => ?_⟩
  have hEpos : (0 : ℝ) < E := by exact_mod_cast (show 0 < E by omega)
  have hlt : c < δ * E := by
    have : (E₀ : ℝ) < E := by exact_mod_cast (show E₀ < E by omega)
    rw [mul_comm]
    exact (div_lt_iff₀ hδ).1 (hE.trans this)
  have : m'.error t.loss N x y - o.error t.loss N x y < δ := by
    refine lt_of_mul_lt_mul_left ?_ hEpos.le
    linarith
  have := o3 o' h1 h2
  linarith

/-! ## A case: the straight line of C116 -/

/-- The trainer of C116 with momentum 1/2. -/
noncomputable def ballTrainer (o : String) : Trainer := { lineTrainer 3 false with optName := o, mom := 1 / 2 }

theorem ballTrainer_setup (o : String) : FitSetup lineWorld (ballTrainer o) 0 1 lineNet 3 1 (fun i _ => (i : ℝ)) (fun i _ => 2 * (i : ℝ) + 1) :=
  { lineTrainer_setup 3 (by decide) false with }

theorem line_rate_half : (1 / 8 : ℝ) * curvature "MeanSquaredError" 3 (lineNet.width 0) (lineNet.width 1) (fun i _ => (i : ℝ)) ≤ 1 - 1 / 2 := by
  norm_num [curvature, lossScale, lineNet, sum_range_succ]

example {eps : ℝ} (heps : 0 < eps) (e : FitEnv) := C123_momentum (t := { ballTrainer "Momentum" with lr := 1 / 8 }) { ballTrainer_setup "Momentum" with } lineNet_single rfl rfl
  (by show "MeanSquaredError" ∈ squaredLosses; decide) (.inl rfl) rfl (lr := 1 / 8) (mom := 1 / 2) (by norm_num) (by rw [if_neg (by show ¬ (1 / 2 : ℝ) = -1; norm_num)]; rfl)
  (by norm_num) (by norm_num) (by norm_num) line_rate_half heps e

example {eps : ℝ} (heps : 0 < eps) (e : FitEnv) := C123_nesterov (ballTrainer_setup "Nesterov") lineNet_single rfl rfl
  (by show "MeanSquaredError" ∈ squaredLosses; decide) (.inl rfl) rfl (lr := 1 / 4) (mom := 1 / 2) (by rw [if_neg (by show ¬ (1 / 4 : ℝ) = -1; norm_num)]; rfl)
  (by rw [if_neg (by show ¬ (1 / 2 : ℝ) = -1; norm_num)]; rfl) (by norm_num) (by norm_num) (by norm_num) line_rate heps e

example := C123_best_exists lineNet_single (show "MeanSquaredError" ∈ squaredLosses by decide) 3 (fun i _ => (i : ℝ)) (fun i _ => 2 * (i : ℝ) + 1)

example := C123_converges (t := { ballTrainer "Nesterov" with lr := 1 / 8 }) { ballTrainer_setup "Nesterov" with } lineNet_single (.inr (.inr rfl)) rfl rfl
  (by show "MeanSquaredError" ∈ squaredLosses; decide) (.inl rfl) rfl (lr := 1 / 8) (mom := 1 / 2) (by norm_num) (by rw [if_neg (by show ¬ (1 / 2 : ℝ) = -1; norm_num)]; rfl)
  (by norm_num) (by norm_num) (by norm_num) line_rate_half (δ := 1 / 1000) (by norm_num)

end BeeDNN
