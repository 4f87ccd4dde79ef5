import Verif.Lemmas.MlpRun
import Verif.Spec.RegTrain
import Verif.Spec.Balanced

/-! # Training a perceptron with any optimizer -/

namespace BeeDNN
open Finset HasWF

/-- Calls of `optimize` in a row are, cell by cell, a run of the scalar rule. -/
theorem Opt.chain {sq ab : ℝ → ℝ} {R C T : Nat} {o : Nat → Opt ℝ} {W D : Nat → Nat → Nat → ℝ} (hwf : (o 0).WF) (hf : (o 0).Fresh)
    (h : ∀ t, t < T → ∃ g, (o t).optimize g sq ab (Mat.ofFn R C (W t)) (Mat.ofFn R C (D t)) = .ok (o (t + 1), Mat.ofFn R C (W (t + 1)))) :
    ∀ t, t ≤ T → Mat.ofFn R C (W t) =
        Mat.ofFn R C (fun i j => (Coord.run sq ab (o 0).hyper (o 0).kind (W 0 i j) (fun t => D t i j) t).w) ∧
      (o t).WF ∧ (o t).kind = (o 0).kind ∧ (o t).hyper = (o 0).hyper ∧
      (0 < t → (o t).Tracks R C t (fun i j => Coord.run sq ab (o 0).hyper (o 0).kind (W 0 i j) (fun t => D t i j) t)) := by
  intro t
  induction t with
  | zero =>
    refine fun _ => ⟨Mat.ofFn_congr fun i j _ _ => ?_, hwf, rfl, rfl, fun h => absurd h (lt_irrefl _)⟩
    unfold Coord.run Coord.fresh
    cases (o 0).kind <;> rfl
  | succ t ih =>
    intro ht
    obtain ⟨h1, wf1, hk1, hh1, ht1⟩ := ih (by omega)
    obtain ⟨g, hg⟩ := h t (by omega)
    have hprep : Opt.Prep g (o t) R C t (D t)
        (fun i j => Coord.run sq ab (o 0).hyper (o 0).kind (W 0 i j) (fun t => D t i j) t) := by
      rcases Nat.eq_zero_or_pos t with h0 | h0
      · subst h0
        exact Opt.Fresh.prep g hwf hf R C (W 0) (D 0)
      · exact (ht1 h0).prep g (D t)
    obtain ⟨o2, h2, wf2, hk2, hh2, ht2⟩ := Opt.optimize_prep g sq ab (o t) R C t (D t) _ wf1 hprep
    rw [h1, h2] at hg
    injection hg with hg
    obtain ⟨rfl, g2⟩ := Prod.mk.inj hg
    rw [hk1, hh1] at ht2 g2
    exact ⟨g2.symm, wf2, hk2.trans hk1, hh2.trans hh1, fun _ => ht2⟩

namespace Trainer

/-- The counter before epoch `i`. -/
def boostAt (R : Int) : Nat → Int
  | 0 => 0
  | i + 1 => boostNext R (boostAt R i)

theorem boostAt_eq {R : Int} (h : R ≠ -1) (i : Nat) : boostAt R i = ((i % (R.toNat + 1) : Nat) : Int) := by
  induction i with
  | zero => simp [boostAt]
  | succ i ih =>
    rw [boostAt, ih, boostNext, if_neg h]
    have hlt : i % (R.toNat + 1) < R.toNat + 1 := Nat.mod_lt i (Nat.succ_pos R.toNat)
    have hadd : (i + 1) % (R.toNat + 1) = (i % (R.toNat + 1) + 1) % (R.toNat + 1) := (Nat.mod_add_mod i (R.toNat + 1) 1).symm
    rw [hadd]
    obtain ⟨a, ha⟩ : ∃ a, i % (R.toNat + 1) = a := ⟨_, rfl⟩
    rw [ha] at hlt ⊢
    split
    · rw [Nat.mod_eq_of_lt (by omega)]
      push_cast
      rfl
    · rw [show a + 1 = R.toNat + 1 by omega, Nat.mod_self]
      rfl

/-- The optimizers are re-initialised after the last epoch of every round of `R + 1`. -/
theorem boosts_iff {R : Int} (h : R ≠ -1) (i : Nat) : boosts R (boostAt R i) ↔ i % (R.toNat + 1) = R.toNat := by
  rw [boosts, boostAt_eq h]
  have hlt : i % (R.toNat + 1) < R.toNat + 1 := Nat.mod_lt i (Nat.succ_pos R.toNat)
  obtain ⟨a, ha⟩ : ∃ a, i % (R.toNat + 1) = a := ⟨_, rfl⟩
  rw [ha] at hlt ⊢
  constructor
  · rintro ⟨-, h2⟩
    omega
  · intro h1
    exact ⟨h, by omega⟩

/-- `fit` of a perceptron with any optimizer, in terms of calls of `optimize`; `mids i` are the
optimizers at the end of epoch `i`, before they may be re-initialised. -/
theorem fit_rule_boost_w {eps : ℝ} {e : FitEnv} {w : World} {t : Trainer} {n b : Nat} {m : Mlp} (h : Represents w n m) (ho : Owned w) (hb : b ≠ n) (hbe : (w.nets b).layers = [])
    (hi : ∀ m ∈ t.inOut, m.WF) (hg : ∀ m ∈ t.gradient, m.WF) {k : OptKind} (hk : createOptimizer t.optName = some k)
    {N D : Nat} (hN : 0 < N) (x y : Nat → Row) (hd : t.train = some (Mat.ofFn N (m.width 0) x, Mat.ofFn N D y))
    {ω : Weighing} (hT : ω.truth t.loss (m.width m.depth) D N y) (hv : ∀ d, t.valid = some d → DataOkW ω t.loss m d) (hvb : 0 < t.valBatch) (hbs : 0 ≤ t.batchSize)
    (hcw : ∃ cw, classWeights e.g e.div0 (w.nets n).classif t.balancing t.train = .ok cw ∧ ω.weights cw) (hpat : t.patience = -1 ∨ t.epochs ≤ t.patience)
    {Γ : Row → Row → Row} (hl : ∀ D, EvalOkW ω eps t.loss (m.width m.depth) D) (hlo : LossOkW ω (fun x => |x|) eps t.loss (m.width m.depth) D Γ) :
    ∃ (w' : World) (t' : Trainer) (seen : List (List (Option Layer))) (ms : Nat → Mlp) (mems mids : Nat → Bool → Nat → Opt ℝ) (j : Nat),
      fit (fun x => |x|) eps e w t n b = .ok (w', t', seen) ∧ ms 0 = m ∧ (∀ j, j ≤ t.epochs.toNat → Mlp.Like m (ms j)) ∧ j ≤ t.epochs.toNat ∧
      (t.keepBest = false → j = t.epochs.toNat) ∧ Represents w' n (ms j) ∧ mems 0 = (fun _ _ => ((Opt.new k).setParams e.g t.lr t.decay t.mom).init e.g) ∧
      (∀ i, i < t.epochs.toNat → EpochRule t.reg (fun x => |x|) Γ N (adjustBatch t.batchSize N).toNat x y (ms i) (ms (i + 1)) (mems i) (mids i) ∧
        mems (i + 1) = if boosts t.reboostEvery (boostAt t.reboostEvery i) then fun b l => (mids i b l).init e.g else mids i) := by
  obtain ⟨lr, B, s, hlrv, hlr, hB, q2, u2, ⟨⟨u3, u3'⟩, u4⟩, hfit⟩ := start_mlp (eps := eps) (e := e) h ho hb hbe hi hg hk hN x y hd hT hv hvb hbs hcw hl
  rw [hB]
  refine (forN_inv (n := t.epochs.toNat) (fun i s => ∃ (ms : Nat → Mlp) (r : Nat → Nat) (v : Nat → ℝ) (mems mids : Nat → Bool → Nat → Opt ℝ), ms 0 = m ∧
    RunInv ω eps t n b m B (w.nets n).classif (k = .sgd ∧ t.reg = none) lr N ms r v i s ∧ (s.t.reboostEvery = t.reboostEvery ∧ s.iReboost = boostAt t.reboostEvery i) ∧
    mems 0 = (fun _ _ => ((Opt.new k).setParams e.g t.lr t.decay t.mom).init e.g) ∧ s.t.Mem s.w n (mems i) ∧
    ∀ j, j < i → EpochRule t.reg (fun x => |x|) Γ N B x y (ms j) (ms (j + 1)) (mems j) (mids j) ∧
      mems (j + 1) = if boosts t.reboostEvery (boostAt t.reboostEvery j) then fun b l => (mids j b l).init e.g else mids j)
    (f := epochStep (fun x => |x|) eps e n b (Mat.ofFn N (m.width 0) x) (Mat.ofFn N D y)) (s := s)
    ⟨fun _ => m, fun _ => 0, fun _ => 0, fun _ => _, fun _ _ _ => Opt.new k, rfl, u2, ⟨u3, u3'⟩, rfl, u4, fun j hj => absurd hj (Nat.not_lt_zero j)⟩ ?_).elim ?_
  · rintro i hi s₁ ⟨ms, r, v, mems, mids, m0, v1, ⟨v3, v3'⟩, v4, v5, v2⟩
    have hpi : t.patience = -1 ∨ (i : Int) < t.patience := hpat.imp_right fun h => by omega
    obtain ⟨s₂, m', right, vl, z1, z2, z3, z4, z4', z5⟩ := epochStep_mlp (e := e) hb hN q2 hlr hl hlo hv hvb x y hT v1 (.inl hpi)
    replace z3 := z3.resolve_right fun h => h.1 hpi
    obtain ⟨mem', z6, z7⟩ := z5 _ v5
    rw [v3, v3'] at z7 z4'
    refine ⟨s₂, z1, _, _, _, fun j => if j ≤ i then mems j else if boosts t.reboostEvery (boostAt t.reboostEvery i) then fun b l => (mem' b l).init e.g else mem',
      fun j => if j < i then mids j else mem', by simp [m0], z3, ⟨z4.trans v3, z4'⟩, by simp [v4], ?_, fun j hj => ?_⟩
    · simp only [show ¬ i + 1 ≤ i by omega, if_false]
      exact z7 hpi
    by_cases hji : j < i
    · simp only [show j ≤ i by omega, show j + 1 ≤ i by omega, hji, if_true]
      exact v2 j hji
    · obtain rfl : j = i := by omega
      simp only [le_refl, lt_irrefl, show ¬ j + 1 ≤ j by omega, if_true, if_false]
      exact ⟨z6, trivial⟩
  · rintro s₁ ⟨v0, ms, r, v, mems, mids, m0, v1, -, v4, -, v2⟩
    obtain ⟨w₃, j, x1, x2, x3, x4, x5⟩ : ∃ (w₃ : World) (j : Nat), restoreBest e n b s₁ = .ok w₃ ∧ j ≤ t.epochs.toNat ∧
        (t.keepBest = false → j = t.epochs.toNat) ∧ Represents w₃ n (ms j) ∧ Owned w₃ := by
      unfold restoreBest
      by_cases hkb : t.keepBest = true
      · obtain ⟨j, j1, j2⟩ := v1.best hkb
        obtain ⟨w₃, d1, d2, d3, d4, -⟩ := j2.assign (e := e.copy (2 * s₁.t.epochs.toNat + 1)) v1.owned hb.symm
        exact ⟨w₃, j, by rw [if_pos (v1.keep.trans hkb)]; exact d1, j1, fun h => absurd (h.symm.trans hkb) (by decide), d2, d4.owned⟩
      · exact ⟨s₁.w, t.epochs.toNat, by rw [if_neg (by rw [v1.keep]; exact hkb)], le_rfl, fun _ => rfl, v1.going.rep, v1.owned⟩
    obtain ⟨w₄, y1, -⟩ := World.clear_ok x5 b
    have yf := frame_clear x5 y1
    refine ⟨w₄, s₁.t, s₁.seen, ms, mems, mids, j, ?_, m0, v1.like, x2, x3, x4.frame yf hb.symm, v4, v2⟩
    rw [hfit, v0, bind_ok', finish, x1, bind_ok', y1, bind_ok', pure_ok]
    rfl

/-- Without class weights. -/
theorem fit_rule_boost {eps : ℝ} {e : FitEnv} {w : World} {t : Trainer} {n b : Nat} {m : Mlp} (h : Represents w n m) (ho : Owned w) (hb : b ≠ n) (hbe : (w.nets b).layers = [])
    (hi : ∀ m ∈ t.inOut, m.WF) (hg : ∀ m ∈ t.gradient, m.WF) {k : OptKind} (hk : createOptimizer t.optName = some k)
    {N D : Nat} (hN : 0 < N) (x y : Nat → Row) (hd : t.train = some (Mat.ofFn N (m.width 0) x, Mat.ofFn N D y))
    (hT : TruthFits t.loss (m.width m.depth) D N y) (hv : ∀ d, t.valid = some d → DataOk t.loss m d) (hvb : 0 < t.valBatch) (hbs : 0 ≤ t.batchSize) (hbal : t.balancing = false) (hpat : t.patience = -1 ∨ t.epochs ≤ t.patience)
    {Γ : Row → Row → Row} (hl : t.loss ∈ listLoss) (hlo : LossOk (fun x => |x|) eps t.loss (m.width m.depth) D Γ) :
    ∃ (w' : World) (t' : Trainer) (seen : List (List (Option Layer))) (ms : Nat → Mlp) (mems mids : Nat → Bool → Nat → Opt ℝ) (j : Nat),
      fit (fun x => |x|) eps e w t n b = .ok (w', t', seen) ∧ ms 0 = m ∧ (∀ j, j ≤ t.epochs.toNat → Mlp.Like m (ms j)) ∧ j ≤ t.epochs.toNat ∧
      (t.keepBest = false → j = t.epochs.toNat) ∧ Represents w' n (ms j) ∧ mems 0 = (fun _ _ => ((Opt.new k).setParams e.g t.lr t.decay t.mom).init e.g) ∧
      (∀ i, i < t.epochs.toNat → EpochRule t.reg (fun x => |x|) Γ N (adjustBatch t.batchSize N).toNat x y (ms i) (ms (i + 1)) (mems i) (mids i) ∧
        mems (i + 1) = if boosts t.reboostEvery (boostAt t.reboostEvery i) then fun b l => (mids i b l).init e.g else mids i) :=
  fit_rule_boost_w (ω := .none) h ho hb hbe hi hg hk hN x y hd hT hv hvb hbs (classWeights_off hbal) hpat (EvalOkW.none hl (h.ok.pos _ (Nat.le_refl _))) hlo

/-- `fit` of a perceptron with any optimizer, without `reboost`. -/
theorem fit_rule {eps : ℝ} {e : FitEnv} {w : World} {t : Trainer} {n b : Nat} {m : Mlp} (h : Represents w n m) (ho : Owned w) (hb : b ≠ n) (hbe : (w.nets b).layers = [])
    (hi : ∀ m ∈ t.inOut, m.WF) (hg : ∀ m ∈ t.gradient, m.WF) {k : OptKind} (hk : createOptimizer t.optName = some k)
    {N D : Nat} (hN : 0 < N) (x y : Nat → Row) (hd : t.train = some (Mat.ofFn N (m.width 0) x, Mat.ofFn N D y))
    (hT : TruthFits t.loss (m.width m.depth) D N y) (hv : ∀ d, t.valid = some d → DataOk t.loss m d) (hvb : 0 < t.valBatch) (hbs : 0 ≤ t.batchSize) (hbal : t.balancing = false) (hpat : t.patience = -1 ∨ t.epochs ≤ t.patience)
    {Γ : Row → Row → Row} (hl : t.loss ∈ listLoss) (hlo : LossOk (fun x => |x|) eps t.loss (m.width m.depth) D Γ) (hre : t.reboostEvery = -1) :
    ∃ (w' : World) (t' : Trainer) (seen : List (List (Option Layer))) (ms : Nat → Mlp) (mems : Nat → Bool → Nat → Opt ℝ) (j : Nat),
      fit (fun x => |x|) eps e w t n b = .ok (w', t', seen) ∧ ms 0 = m ∧ (∀ j, j ≤ t.epochs.toNat → Mlp.Like m (ms j)) ∧ j ≤ t.epochs.toNat ∧
      (t.keepBest = false → j = t.epochs.toNat) ∧ Represents w' n (ms j) ∧ mems 0 = (fun _ _ => ((Opt.new k).setParams e.g t.lr t.decay t.mom).init e.g) ∧
      (∀ i, i < t.epochs.toNat → EpochRule t.reg (fun x => |x|) Γ N (adjustBatch t.batchSize N).toNat x y (ms i) (ms (i + 1)) (mems i) (mems (i + 1))) := by
  obtain ⟨w', t', seen, ms, mems, mids, j, h1, h2, h3, h4, h5, h6, h7, h8⟩ := fit_rule_boost (e := e) h ho hb hbe hi hg hk hN x y hd hT hv hvb hbs hbal hpat hl hlo
  refine ⟨w', t', seen, ms, mems, j, h1, h2, h3, h4, h5, h6, h7, fun i hi => ?_⟩
  obtain ⟨a1, a2⟩ := h8 i hi
  rw [a2, if_neg fun h => h.1 hre]
  exact a1

/-- Epochs of calls of `optimize`, put together. -/
theorem training_of_rules_by {r : Option Reg} {Γ : Row → Row → Row} {N B E : Nat} {x y : Nat → Row} {m : Mlp} (hnb : 0 < nbBatches N B)
    {ms : Nat → Mlp} {mems : Nat → Bool → Nat → Opt ℝ} (h0 : ms 0 = m) {kd : OptKind} {hy : Hyper ℝ}
    (hm : ∀ b l, l < m.depth → (m.ply l).has b = true → (mems 0 b l).WF ∧ (mems 0 b l).Fresh ∧ (mems 0 b l).kind = kd ∧ (mems 0 b l).hyper = hy)
    (hlike : ∀ i, i ≤ E → Mlp.Like m (ms i))
    (h : ∀ i, i < E → EpochRule r (fun x => |x|) Γ N B x y (ms i) (ms (i + 1)) (mems i) (mems (i + 1)))
    {drive : Nat → (Nat → Row) → (Nat → Row) → Mlp → (Bool → Nat → Nat → Nat → ℝ) → Prop}
    (hdrive : ∀ (m₁ : Mlp) (N' : Nat) (x' y' : Nat → Row), Mlp.Like m m₁ → (∀ i, i < N' → ∃ j, j < N ∧ x' i = x j ∧ y' i = y j) →
      drive N' x' y' m₁ (m₁.codeGrad N' x' (fun s => Γ (m₁.out (x' s)) (y' s)))) :
    ∃ M : Nat → Nat → Mlp, Mlp.TrainingBy r drive kd hy N B E x y m M ∧ (∀ i, i ≤ E → M i 0 = ms i) ∧
      ∀ b l, l < m.depth → (m.ply l).has b = true → (mems E b l).WF ∧ (mems E b l).kind = kd ∧ (mems E b l).hyper = hy := by
  have hch : ∀ i, ∃ (σ : Nat → Nat) (M : Nat → Mlp) (O : Nat → Bool → Nat → Opt ℝ), (i < E → ((List.range N).map σ).Perm (List.range N)) ∧ M 0 = ms i ∧
      (i < E → M (nbBatches N B) = ms (i + 1)) ∧ O 0 = mems i ∧ (i < E → O (nbBatches N B) = mems (i + 1)) ∧
      (i < E → ∀ k, k < nbBatches N B → Mlp.Like (ms i) (M k) ∧ Mlp.Like (M k) (M (k + 1)) ∧
        RuleStep r (fun x => |x|) Γ (batchEnd N B k - batchStart B k) (fun s => x (σ (batchStart B k + s))) (fun s => y (σ (batchStart B k + s)))
          (M k) (M (k + 1)) (O k) (O (k + 1))) := by
    intro i
    by_cases hi : i < E
    · obtain ⟨σ, M, O, r1, r2, r3, r4, r5, r6⟩ := h i hi
      exact ⟨σ, M, O, fun _ => r1, r2, fun _ => r3, r4, fun _ => r5, fun _ => r6⟩
    · exact ⟨id, fun _ => ms i, fun _ => mems i, fun h => absurd h hi, rfl, fun h => absurd h hi, rfl, fun h => absurd h hi, fun h => absurd h hi⟩
  choose σ M O c1 c2 c3 c4 c5 c6 using hch
  obtain ⟨nb, hnbe⟩ : ∃ nb, nbBatches N B = nb := ⟨_, rfl⟩
  have hlk : ∀ i j, i < E ∧ j ≤ nbBatches N B ∨ i = E ∧ j = 0 → Mlp.Like m (M i j) := by
    rintro i j (⟨hi, hj⟩ | ⟨rfl, rfl⟩)
    · rcases Nat.lt_or_eq_of_le hj with hj | rfl
      · exact (hlike i hi.le).trans (c6 i hi j hj).1
      · rw [c3 i hi]; exact hlike _ hi
    · rw [c2]; exact hlike _ le_rfl
  -- the batches in a row
  have div1 : ∀ i j, i < E → j < nbBatches N B → (i * nbBatches N B + j) / nbBatches N B = i ∧ (i * nbBatches N B + j) % nbBatches N B = j := by
    intro i j _ hj
    rw [Nat.add_comm, Nat.add_mul_div_right _ _ hnb, Nat.add_mul_mod_self_right, Nat.div_eq_of_lt hj, Nat.mod_eq_of_lt hj]
    exact ⟨Nat.zero_add _, rfl⟩
  have flat : ∀ {α : Type} (F : Nat → Nat → α) (f : Nat → α), (∀ i, F i 0 = f i) → (∀ i, i < E → F i (nbBatches N B) = f (i + 1)) →
      ∀ i j, i < E ∧ j ≤ nbBatches N B ∨ i = E ∧ j = 0 → F i j = F ((i * nbBatches N B + j) / nbBatches N B) ((i * nbBatches N B + j) % nbBatches N B) := by
    intro α F f f1 f2 i j hij
    have hz : ∀ i, F i 0 = F ((i * nbBatches N B) / nbBatches N B) ((i * nbBatches N B) % nbBatches N B) := fun i => by
      rw [Nat.mul_div_cancel _ hnb, Nat.mul_mod_left]
    rcases hij with ⟨hi, hj⟩ | ⟨rfl, rfl⟩
    · rcases Nat.lt_or_eq_of_le hj with hj | rfl
      · rw [(div1 i j hi hj).1, (div1 i j hi hj).2]
      · rw [f2 i hi, ← f1, hz (i + 1), Nat.succ_mul]
    · exact hz i
  have flatM := flat M ms c2 c3
  have flatO := flat O mems c4 c5
  obtain ⟨G, hG⟩ : ∃ G : Nat → Bool → Nat → Nat → Nat → ℝ, G = fun t => (M (t / nbBatches N B) (t % nbBatches N B)).codeGrad
    (batchEnd N B (t % nbBatches N B) - batchStart B (t % nbBatches N B)) (fun s => x (σ (t / nbBatches N B) (batchStart B (t % nbBatches N B) + s)))
    (fun s => Γ ((M (t / nbBatches N B) (t % nbBatches N B)).out (x (σ (t / nbBatches N B) (batchStart B (t % nbBatches N B) + s))))
      (y (σ (t / nbBatches N B) (batchStart B (t % nbBatches N B) + s)))) := ⟨_, rfl⟩
  have hzero : (0 : Nat) / nbBatches N B = 0 ∧ (0 : Nat) % nbBatches N B = 0 := ⟨Nat.zero_div _, Nat.zero_mod _⟩
  have hbound : ∀ i j, i < E ∧ j ≤ nbBatches N B ∨ i = E ∧ j = 0 → i * nbBatches N B + j ≤ E * nbBatches N B := by
    rintro i j (⟨hi, hj⟩ | ⟨rfl, rfl⟩)
    · calc i * nbBatches N B + j ≤ i * nbBatches N B + nbBatches N B := by omega
        _ = (i + 1) * nbBatches N B := (Nat.succ_mul _ _).symm
        _ ≤ E * nbBatches N B := Nat.mul_le_mul_right _ hi
    · omega
  have hchain := fun (b : Bool) (l : Nat) (hl : l < m.depth) (hb : (m.ply l).has b = true) =>
    Opt.chain (sq := Real.sqrt) (ab := fun x => |x|) (R := (m.shape b l).1) (C := (m.shape b l).2) (T := E * nbBatches N B)
      (o := fun t => O (t / nbBatches N B) (t % nbBatches N B) b l)
      (W := fun t => ((M (t / nbBatches N B) (t % nbBatches N B)).ply l).par b)
      (D := fun t => regGrad r (m.shape b l).1 (m.shape b l).2 (((M (t / nbBatches N B) (t % nbBatches N B)).ply l).par b) (G t b l))
      (by rw [hzero.1, hzero.2, c4]; exact (hm b l hl hb).1) (by rw [hzero.1, hzero.2, c4]; exact (hm b l hl hb).2.1) (fun t ht => by
        have hi : t / nbBatches N B < E := (Nat.div_lt_iff_lt_mul hnb).2 ht
        have hj : t % nbBatches N B < nbBatches N B := Nat.mod_lt _ hnb
        have hlt := hlk _ _ (.inl ⟨hi, hj.le⟩)
        obtain ⟨g, hg⟩ := (c6 _ hi _ hj).2.2 b l (by rw [hlt.depth]; exact hl) (by rw [Ply.has, hlt.kind]; exact hb)
        have he := Nat.div_add_mod' t (nbBatches N B)
        have e1 := flatM (t / nbBatches N B) (t % nbBatches N B + 1) (.inl ⟨hi, hj⟩)
        have e2 := flatO (t / nbBatches N B) (t % nbBatches N B + 1) (.inl ⟨hi, hj⟩)
        rw [show t / nbBatches N B * nbBatches N B + (t % nbBatches N B + 1) = t + 1 by omega] at e1 e2
        have hsh : (M (t / nbBatches N B) (t % nbBatches N B)).shape b l = m.shape b l := by
          unfold Mlp.shape; rw [hlt.width, hlt.kind]
        refine ⟨g, ?_⟩
        rw [← e1, ← e2, hG]
        rw [hsh] at hg
        exact hg)
  refine ⟨M, ⟨(c2 0).trans h0, fun i hi => by rw [c2, c3 i hi], hlk, σ, G,
    fun t b l => regGrad r (m.shape b l).1 (m.shape b l).2 (((M (t / nbBatches N B) (t % nbBatches N B)).ply l).par b) (G t b l),
    c1, fun i j hi hj => ?_, fun i j hi hj b l => ?_, fun i j hij b l hl hb p q hp hq => ?_⟩, fun i _ => c2 i, fun b l hl hb => ?_⟩
  · rw [hG]
    dsimp only
    rw [(div1 i j hi hj).1, (div1 i j hi hj).2]
    exact hdrive _ _ _ _ (hlk i j (.inl ⟨hi, hj.le⟩)) fun s hs => ⟨_, perm_lt (c1 i hi) (by unfold batchEnd batchStart at *; omega), rfl, rfl⟩
  · dsimp only
    rw [(div1 i j hi hj).1, (div1 i j hi hj).2]
  · have hch := hchain b l hl hb (i * nbBatches N B + j) (hbound i j hij)
    obtain ⟨-, -, k1, k2⟩ := hm b l hl hb
    have key := Mat.ofFn_inj hch.1 p q hp hq
    rw [← flatM i j hij, hzero.1, hzero.2, c4, c2, h0, k1, k2] at key
    exact key
  · have hch := hchain b l hl hb (E * nbBatches N B + 0) (hbound E 0 (.inr ⟨rfl, rfl⟩))
    obtain ⟨-, -, k1, k2⟩ := hm b l hl hb
    obtain ⟨-, q1, q2, q3, -⟩ := hch
    rw [← flatO E 0 (.inr ⟨rfl, rfl⟩), c4] at q1 q2 q3
    rw [hzero.1, hzero.2, c4] at q2 q3
    exact ⟨q1, q2.trans k1, q3.trans k2⟩

/-- With the gradients of the error. -/
theorem training_of_rules_from {r : Option Reg} {Γ : Row → Row → Row} {N B E : Nat} {x y : Nat → Row} {m : Mlp} (hnb : 0 < nbBatches N B)
    {ms : Nat → Mlp} {mems : Nat → Bool → Nat → Opt ℝ} (h0 : ms 0 = m) {kd : OptKind} {hy : Hyper ℝ}
    (hm : ∀ b l, l < m.depth → (m.ply l).has b = true → (mems 0 b l).WF ∧ (mems 0 b l).Fresh ∧ (mems 0 b l).kind = kd ∧ (mems 0 b l).hyper = hy)
    (hlike : ∀ i, i ≤ E → Mlp.Like m (ms i))
    (h : ∀ i, i < E → EpochRule r (fun x => |x|) Γ N B x y (ms i) (ms (i + 1)) (mems i) (mems (i + 1)))
    {ok : Mlp → Row → Row → Prop} {loss : String}
    (hdrive : ∀ (m₁ : Mlp) (N' : Nat) (x' y' : Nat → Row), Mlp.Like m m₁ → (∀ i, i < N' → ∃ j, j < N ∧ x' i = x j ∧ y' i = y j) →
      Mlp.IsDrive ok loss N' x' y' m₁ (m₁.codeGrad N' x' (fun s => Γ (m₁.out (x' s)) (y' s)))) :
    ∃ M : Nat → Nat → Mlp, Mlp.RegTraining r ok loss kd hy N B E x y m M ∧ (∀ i, i ≤ E → M i 0 = ms i) ∧
      ∀ b l, l < m.depth → (m.ply l).has b = true → (mems E b l).WF ∧ (mems E b l).kind = kd ∧ (mems E b l).hyper = hy := by
  obtain ⟨M, c1, c2, c3⟩ := training_of_rules_by hnb h0 hm hlike h hdrive
  exact ⟨M, ⟨c1.first, c1.next, c1.like, c1.rule⟩, c2, c3⟩

/-- Starting from one optimizer. -/
theorem training_of_reg_rules {r : Option Reg} {Γ : Row → Row → Row} {N B E : Nat} {x y : Nat → Row} {m : Mlp} (hnb : 0 < nbBatches N B)
    {ms : Nat → Mlp} {mems : Nat → Bool → Nat → Opt ℝ} (h0 : ms 0 = m) {o : Opt ℝ} (hm : mems 0 = fun _ _ => o) (hwf : o.WF) (hf : o.Fresh)
    (hlike : ∀ i, i ≤ E → Mlp.Like m (ms i))
    (h : ∀ i, i < E → EpochRule r (fun x => |x|) Γ N B x y (ms i) (ms (i + 1)) (mems i) (mems (i + 1)))
    {ok : Mlp → Row → Row → Prop} {loss : String}
    (hdrive : ∀ (m₁ : Mlp) (N' : Nat) (x' y' : Nat → Row), Mlp.Like m m₁ → (∀ i, i < N' → ∃ j, j < N ∧ x' i = x j ∧ y' i = y j) →
      Mlp.IsDrive ok loss N' x' y' m₁ (m₁.codeGrad N' x' (fun s => Γ (m₁.out (x' s)) (y' s)))) :
    ∃ M : Nat → Nat → Mlp, Mlp.RegTraining r ok loss o.kind o.hyper N B E x y m M ∧ ∀ i, i ≤ E → M i 0 = ms i := by
  obtain ⟨M, h1, h2, -⟩ := training_of_rules_from hnb h0 (fun b l _ _ => by rw [hm]; exact ⟨hwf, hf, rfl, rfl⟩) hlike h hdrive
  exact ⟨M, h1, h2⟩

/-- Without regularizer. -/
theorem training_of_rules {Γ : Row → Row → Row} {N B E : Nat} {x y : Nat → Row} {m : Mlp} (hnb : 0 < nbBatches N B)
    {ms : Nat → Mlp} {mems : Nat → Bool → Nat → Opt ℝ} (h0 : ms 0 = m) {o : Opt ℝ} (hm : mems 0 = fun _ _ => o) (hwf : o.WF) (hf : o.Fresh)
    (hlike : ∀ i, i ≤ E → Mlp.Like m (ms i))
    (h : ∀ i, i < E → EpochRule none (fun x => |x|) Γ N B x y (ms i) (ms (i + 1)) (mems i) (mems (i + 1)))
    {ok : Mlp → Row → Row → Prop} {loss : String}
    (hdrive : ∀ (m₁ : Mlp) (N' : Nat) (x' y' : Nat → Row), Mlp.Like m m₁ → (∀ i, i < N' → ∃ j, j < N ∧ x' i = x j ∧ y' i = y j) →
      Mlp.IsDrive ok loss N' x' y' m₁ (m₁.codeGrad N' x' (fun s => Γ (m₁.out (x' s)) (y' s)))) :
    ∃ M : Nat → Nat → Mlp, Mlp.Training ok loss o.kind o.hyper N B E x y m M ∧ ∀ i, i ≤ E → M i 0 = ms i := by
  obtain ⟨M, ht, h'⟩ := training_of_reg_rules hnb h0 hm hwf hf hlike h hdrive
  obtain ⟨σ, d, d', h1, h2, h3, h4⟩ := ht.rule
  refine ⟨M, ⟨ht.first, ht.next, ht.like, σ, d', h1, fun i j hi hj => ?_, h4⟩, h'⟩
  have : d' (i * nbBatches N B + j) = d (i * nbBatches N B + j) := by
    funext b l
    exact h3 i j hi hj b l
  rw [this]
  exact h2 i j hi hj

end Trainer

end BeeDNN
