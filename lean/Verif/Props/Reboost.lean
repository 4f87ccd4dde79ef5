import Verif.Props.RegTrain
import Verif.Spec.Reboost

/-! # Training with `reboost`: C129 -/

namespace BeeDNN
open Finset Trainer

/-- Re-initialising an optimizer keeps its settings. -/
theorem init_book {s : String} {k : OptKind} (hk : createOptimizer s = some k) (g : Nat → ℝ) {lr mom decay : ℝ} {o : Opt ℝ} (h1 : o.kind = k)
    (h2 : o.hyper = bookSettings s lr mom decay) : (o.init g).kind = k ∧ (o.init g).hyper = bookSettings s lr mom decay := by
  obtain ⟨k1, k2, -⟩ := setParams_book hk g lr decay mom
  obtain ⟨-, c2, c3⟩ := (SetAs.of (p := True) (s := s) (lr := lr) (mom := mom) (decay := decay) ⟨by rw [h1]; exact k2, h2⟩).init g
  refine ⟨by rw [Opt.init_kind]; exact h1, ?_⟩
  rw [c2, c3 trivial]

/-- `fit` with `reboost` is a training in rounds; `ok` is what is known of the samples. -/
theorem fit_rounds {w : World} {t : Trainer} {n b : Nat} {m : Mlp} {N D : Nat} {x y : Nat → Row} (h : FitSetup w t n b m N D x y) (r : Option Reg)
    {k : OptKind} (hk : createOptimizer t.optName = some k) (hre : t.reboostEvery ≠ -1) {eps : ℝ} (heps : 0 < eps) (e : FitEnv)
    {ok : Mlp → Row → Row → Prop} (hok : ∀ (m₁ : Mlp) (v : Row) (j : Nat), Mlp.Like m m₁ → j < N → ok m₁ v (y j) → m₁.Regular eps t.loss v (y j)) :
    ∃ (w' : World) (t' : Trainer) (seen : List (List (Option Layer))) (ms : Nat → Nat → Mlp) (j : Nat),
      fit (fun x => |x|) eps e w { t with reg := r } n b = .ok (w', t', seen) ∧
      Mlp.Rounds (t.reboostEvery.toNat + 1) r ok t.loss k (bookSettings t.optName t.lr t.mom t.decay) N (if t.batchSize = 0 then N else min t.batchSize.toNat N)
        t.epochs.toNat x y m ms ∧
      Represents w' n (ms j 0) ∧ j ≤ t.epochs.toNat ∧ (t.keepBest = false → j = t.epochs.toNat) := by
  obtain ⟨ψ, l1, l2⟩ := lossOk_of_mem eps h.loss (h.net.ok.pos _ (Nat.le_refl m.depth)) D
  obtain ⟨w', t', seen, ms, mems, mids, j, h1, h2, h3, h4, h5, h6, h7, h8⟩ := fit_rule_boost (e := e) (t := { t with reg := r }) h.net h.owned h.slot h.fresh h.inOut
    h.gradient hk h.samples x y h.train h.truth h.valid h.valBatch h.batchSize h.balancing h.patience h.loss l1
  dsimp only at h3 h8
  have hP := boosts_iff hre
  rw [adjustBatch_toNat h.batchSize]
  have hnb := h.nbBatches_pos
  obtain ⟨P, hPd⟩ : ∃ P, t.reboostEvery.toNat + 1 = P := ⟨_, rfl⟩
  rw [hPd] at hP ⊢
  have hP0 : 0 < P := by omega
  obtain ⟨b1, b2⟩ := started_book hk e.g t.lr t.decay t.mom
  have wf0 : ((Opt.new k : Opt ℝ).setParams e.g t.lr t.decay t.mom).WF :=
    Opt.init_WF e.g (o := { (Opt.new k : Opt ℝ) with lr := t.lr, decay := t.decay, mom := t.mom }) ⟨Mat.WF_empty, Mat.WF_empty, Mat.WF_empty⟩
  -- one round
  have one : ∀ c, c * P ≤ t.epochs.toNat → (∀ b l, l < m.depth → (m.ply l).has b = true → (mems (c * P) b l).WF ∧ (mems (c * P) b l).Fresh ∧
      (mems (c * P) b l).kind = k ∧ (mems (c * P) b l).hyper = bookSettings t.optName t.lr t.mom t.decay) →
      (∃ M : Nat → Nat → Mlp, Mlp.RegTraining r ok t.loss k (bookSettings t.optName t.lr t.mom t.decay) N (adjustBatch t.batchSize N).toNat
        (min P (t.epochs.toNat - c * P)) x y (ms (c * P)) M ∧ ∀ i, i ≤ min P (t.epochs.toNat - c * P) → M i 0 = ms (c * P + i)) ∧
      ((c + 1) * P ≤ t.epochs.toNat → ∀ b l, l < m.depth → (m.ply l).has b = true → (mems ((c + 1) * P) b l).WF ∧ (mems ((c + 1) * P) b l).Fresh ∧
        (mems ((c + 1) * P) b l).kind = k ∧ (mems ((c + 1) * P) b l).hyper = bookSettings t.optName t.lr t.mom t.decay) := by
    intro c hc hgood
    have lk := h3 (c * P) hc
    have hmod : ∀ i, i < P → (c * P + i) % P = i := fun i hi => by rw [Nat.mul_comm, Nat.mul_add_mod, Nat.mod_eq_of_lt hi]
    have hbefore : ∀ i, i < min P (t.epochs.toNat - c * P) → (if i = 0 then mems (c * P) else mids (c * P + i - 1)) = mems (c * P + i) := by
      intro i hi
      split
      · next h0 => rw [h0, Nat.add_zero]
      · next h0 =>
        obtain ⟨i, rfl⟩ : ∃ i', i = i' + 1 := ⟨i - 1, by omega⟩
        rw [← Nat.add_assoc, (h8 (c * P + i) (by omega)).2, if_neg (by rw [hP, hmod i (by omega)]; omega), Nat.add_sub_cancel]
    obtain ⟨M, c1, c2, c3⟩ := training_of_rules_from (r := r) (Γ := lossGrad eps t.loss ψ) hnb (E := min P (t.epochs.toNat - c * P)) (m := ms (c * P)) (ms := fun i => ms (c * P + i))
      (mems := fun i => if i = 0 then mems (c * P) else mids (c * P + i - 1)) (x := x) (y := y) rfl
      (kd := k) (hy := bookSettings t.optName t.lr t.mom t.decay)
      (fun b l hl hb => hgood b l (lk.depth ▸ hl) (by rw [Ply.has, ← lk.kind]; exact hb))
      (fun i hi => by
        have a := h3 (c * P + i) (by omega)
        exact ⟨a.depth.trans lk.depth.symm, a.width.trans lk.width.symm, fun l => (a.kind l).trans (lk.kind l).symm⟩)
      (fun i hi => by
        rw [hbefore i hi, if_neg (Nat.succ_ne_zero i)]
        exact (h8 (c * P + i) (by omega)).1)
      (ok := ok) (loss := t.loss) (fun m₁ N' x' y' lk' hsub hreg bb i hi hb => ⟨_, Mlp.grad_error ((lk.trans lk').ok h.net.ok) heps h.loss (ψ := ψ)
        (by rw [(lk.trans lk').depth, (lk.trans lk').width]; exact l2) _ _ _ (D := D)
        (by rw [(lk.trans lk').depth, (lk.trans lk').width]; exact h.truth.sub fun i hi => (hsub i hi).imp fun j hj => ⟨hj.1, hj.2.2⟩)
        (fun i hi => by
          obtain ⟨j, j1, -, j2⟩ := hsub i hi
          have := hreg i hi
          rw [j2] at this ⊢
          exact hok m₁ _ j (lk.trans lk') j1 this) bb hi hb, fun p q => rfl⟩)
    refine ⟨⟨M, c1, c2⟩, fun hc' b l hl hb => ?_⟩
    have hfull : min P (t.epochs.toNat - c * P) = P := by rw [Nat.succ_mul] at hc'; omega
    rw [hfull] at c3
    obtain ⟨q1, q2, q3⟩ := c3 b l (by rw [lk.depth]; exact hl) (by rw [Ply.has, lk.kind]; exact hb)
    rw [if_neg hP0.ne'] at q1 q2 q3
    have he : mems ((c + 1) * P) = fun b l => (mids (c * P + P - 1) b l).init e.g := by
      have := (h8 (c * P + (P - 1)) (by rw [Nat.succ_mul] at hc'; omega)).2
      rw [if_pos (by rw [hP, hmod _ (by omega)]; omega)] at this
      rw [Nat.succ_mul, show c * P + P = c * P + (P - 1) + 1 by omega, this]
      rfl
    rw [he]
    obtain ⟨r1, r2⟩ := init_book hk e.g q2 q3
    exact ⟨Opt.init_WF e.g q1, Opt.init_fresh e.g q1, r1, r2⟩
  have good : ∀ c, c * P ≤ t.epochs.toNat → ∀ b l, l < m.depth → (m.ply l).has b = true → (mems (c * P) b l).WF ∧ (mems (c * P) b l).Fresh ∧
      (mems (c * P) b l).kind = k ∧ (mems (c * P) b l).hyper = bookSettings t.optName t.lr t.mom t.decay := by
    intro c
    induction c with
    | zero =>
      intro _ b l _ _
      rw [Nat.zero_mul, h7]
      exact ⟨Opt.init_WF e.g wf0, Opt.init_fresh e.g wf0, b1, b2⟩
    | succ c ih =>
      intro hc
      have hc' : c * P ≤ t.epochs.toNat := by rw [Nat.succ_mul] at hc; omega
      exact (one c hc' (ih hc')).2 hc
  have all : ∀ c, ∃ M : Nat → Nat → Mlp, c * P ≤ t.epochs.toNat → Mlp.RegTraining r ok t.loss k (bookSettings t.optName t.lr t.mom t.decay) N
      (adjustBatch t.batchSize N).toNat (min P (t.epochs.toNat - c * P)) x y (ms (c * P)) M ∧
      ∀ i, i ≤ min P (t.epochs.toNat - c * P) → M i 0 = ms (c * P + i) := by
    intro c
    by_cases hc : c * P ≤ t.epochs.toNat
    · obtain ⟨M, hM⟩ := (one c hc (good c hc)).1
      exact ⟨M, fun _ => hM⟩
    · exact ⟨fun _ _ => m, fun h => absurd h hc⟩
  choose M hM using all
  have at0 : ∀ i, i ≤ t.epochs.toNat → M (i / P) (i % P) 0 = ms i := by
    intro i hi
    have := Nat.div_add_mod' i P
    have h1 := Nat.mod_lt i hP0
    rw [(hM (i / P) (by omega)).2 (i % P) (by omega), this]
  have inR : ∀ c i j, i < P → M ((c * P + i) / P) ((c * P + i) % P) j = M c i j := by
    intro c i j hi
    rw [Nat.add_comm, Nat.add_mul_div_right _ _ hP0, Nat.add_mul_mod_self_right, Nat.div_eq_of_lt hi, Nat.mod_eq_of_lt hi, Nat.zero_add]
  refine ⟨w', t', seen, fun i j => M (i / P) (i % P) j, j, h1, ⟨by rw [at0 0 (by omega), h2], fun c hc => ?_⟩, by dsimp only; rw [at0 j h4]; exact h6, h4, h5⟩
  obtain ⟨m1, m2⟩ := hM c hc
  rw [at0 _ hc]
  -- the network at the end of a round is the first one of the next
  have agree : ∀ i j, i < min P (t.epochs.toNat - c * P) ∧ j ≤ nbBatches N (adjustBatch t.batchSize N).toNat ∨ i = min P (t.epochs.toNat - c * P) ∧ j = 0 →
      M ((c * P + i) / P) ((c * P + i) % P) j = M c i j := by
    rintro i j (⟨hi, -⟩ | ⟨rfl, rfl⟩)
    · exact inR c i j (by omega)
    · rw [at0 _ (by omega), m2 _ le_rfl]
  obtain ⟨σ, d, d', a1, a2, a3, a4⟩ := m1.rule
  refine ⟨by rw [Nat.add_zero, at0 _ hc], fun i hi => ?_, fun i j hij => by rw [agree i j hij]; exact m1.like i j hij, σ, d, d', a1, fun i j hi hj => ?_, fun i j hi hj b l => ?_,
    fun i j hij b l hl hb p q hp hq => ?_⟩
  · rw [← Nat.add_assoc, show c * P + i + 1 = c * P + (i + 1) from Nat.add_assoc _ _ _, at0 _ (by omega), agree i _ (.inl ⟨hi, le_rfl⟩), ← m1.next i hi, m2 _ (by omega)]
  · rw [agree i j (.inl ⟨hi, hj.le⟩)]
    exact a2 i j hi hj
  · rw [agree i j (.inl ⟨hi, hj.le⟩)]
    exact a3 i j hi hj b l
  · rw [agree i j hij]
    exact a4 i j hij b l hl hb p q hp hq

/-- C129: `fit` with `reboost` trains in rounds, for any optimizer, loss and regularizer and any of the fifteen kinds of layers: the epochs are
grouped into rounds of one more than `reboostEvery` (of one, if that is negative), and every round is a training by itself in which the rule of the
optimizer starts afresh from the weights and biases the round before has left, with the same settings.  The run has no fault. -/
theorem C129_rounds {w : World} {t : Trainer} {n b : Nat} {m : Mlp} {N D : Nat} {x y : Nat → Row} (h : FitSetup w t n b m N D x y) {r : Option Reg} (_hr : RegFits r)
    {k : OptKind} (hk : createOptimizer t.optName = some k) (hre : t.reboostEvery ≠ -1) {eps : ℝ} (heps : 0 < eps) (e : FitEnv) :
    ∃ (w' : World) (t' : Trainer) (seen : List (List (Option Layer))) (ms : Nat → Nat → Mlp) (j : Nat),
      fit (fun x => |x|) eps e w { t with reg := r } n b = .ok (w', t', seen) ∧
      Mlp.Rounds (t.reboostEvery.toNat + 1) r (fun m => m.Regular eps t.loss) t.loss k (bookSettings t.optName t.lr t.mom t.decay) N
        (if t.batchSize = 0 then N else min t.batchSize.toNat N) t.epochs.toNat x y m ms ∧
      Represents w' n (ms j 0) ∧ j ≤ t.epochs.toNat ∧ (t.keepBest = false → j = t.epochs.toNat) :=
  fit_rounds h r hk hre heps e fun _ _ _ _ _ h => h

/-! ## Rules without memory -/

section
variable {ok : Mlp → Row → Row → Prop} {loss : String} {h : Hyper ℝ} {N B E : Nat} {x y : Nat → Row} {m : Mlp} {ms : Nat → Nat → Mlp} {r : Option Reg}

/-- Steps of plain gradient descent in a row are a training. -/
theorem Mlp.RegTraining.of_sgd (hnb : 0 < nbBatches N B) (h0 : ms 0 0 = m) (hn : ∀ i, i < E → ms (i + 1) 0 = ms i (nbBatches N B))
    (hl : ∀ i j, i < E ∧ j ≤ nbBatches N B ∨ i = E ∧ j = 0 → Mlp.Like m (ms i j)) {σ : Nat → Nat → Nat} {d : Nat → Nat → Bool → Nat → Nat → Nat → ℝ}
    (h1 : ∀ i, i < E → ((List.range N).map (σ i)).Perm (List.range N))
    (h2 : ∀ i j, i < E → j < nbBatches N B → Mlp.IsDrive ok loss (batchEnd N B j - batchStart B j) (fun s => x (σ i (batchStart B j + s)))
      (fun s => y (σ i (batchStart B j + s))) (ms i j) (d i j))
    (h3 : ∀ i j, i < E → j < nbBatches N B → ∀ b l, l < m.depth → (m.ply l).has b = true → ∀ p q, p < (m.shape b l).1 → q < (m.shape b l).2 →
      ((ms i (j + 1)).ply l).par b p q = ((ms i j).ply l).par b p q -
        h.lr * regGrad r (m.shape b l).1 (m.shape b l).2 (((ms i j).ply l).par b) (d i j b l) p q) :
    Mlp.RegTraining r ok loss .sgd h N B E x y m ms := by
  have dm : ∀ i j, j < nbBatches N B → (i * nbBatches N B + j) / nbBatches N B = i ∧ (i * nbBatches N B + j) % nbBatches N B = j := by
    intro i j hj
    rw [Nat.add_comm, Nat.add_mul_div_right _ _ hnb, Nat.add_mul_mod_self_right, Nat.div_eq_of_lt hj, Nat.mod_eq_of_lt hj]
    exact ⟨Nat.zero_add _, rfl⟩
  refine ⟨h0, hn, hl, σ, fun t => d (t / nbBatches N B) (t % nbBatches N B),
    fun t b l => regGrad r (m.shape b l).1 (m.shape b l).2 (((ms (t / nbBatches N B) (t % nbBatches N B)).ply l).par b) (d (t / nbBatches N B) (t % nbBatches N B) b l),
    h1, fun i j hi hj => ?_, fun i j hi hj b l => ?_, ?_⟩
  · dsimp only
    rw [(dm i j hj).1, (dm i j hj).2]
    exact h2 i j hi hj
  · dsimp only
    rw [(dm i j hj).1, (dm i j hj).2]
  · intro i j hij b l hl' hb p q hp hq
    obtain ⟨D, hD⟩ : ∃ D : Nat → ℝ, D = fun t => regGrad r (m.shape b l).1 (m.shape b l).2 (((ms (t / nbBatches N B) (t % nbBatches N B)).ply l).par b)
      (d (t / nbBatches N B) (t % nbBatches N B) b l) p q := ⟨_, rfl⟩
    rw [← hD]
    have inner : ∀ i, i < E → ((ms i 0).ply l).par b p q = (Coord.run Real.sqrt (fun x => |x|) h .sgd ((m.ply l).par b p q) D (i * nbBatches N B)).w →
        ∀ j, j ≤ nbBatches N B → ((ms i j).ply l).par b p q = (Coord.run Real.sqrt (fun x => |x|) h .sgd ((m.ply l).par b p q) D (i * nbBatches N B + j)).w := by
      intro i hi h0 j
      induction j with
      | zero => exact fun _ => h0
      | succ j ih =>
        intro hj
        rw [h3 i j hi (by omega) b l hl' hb p q hp hq, ih (by omega), ← Nat.add_assoc]
        show _ = _ - h.lr * D (i * nbBatches N B + j)
        rw [hD]
        dsimp only
        rw [(dm i j (by omega)).1, (dm i j (by omega)).2]
    have outer : ∀ i, i ≤ E → ((ms i 0).ply l).par b p q = (Coord.run Real.sqrt (fun x => |x|) h .sgd ((m.ply l).par b p q) D (i * nbBatches N B)).w := by
      intro i
      induction i with
      | zero => intro _; rw [h0, Nat.zero_mul]; rfl
      | succ i ih =>
        intro hi
        rw [hn i hi, inner i hi (ih (by omega)) _ le_rfl, Nat.succ_mul]
    rcases hij with ⟨hi, hj⟩ | ⟨rfl, rfl⟩
    · exact inner i hi (outer i hi.le) j hj
    · exact outer _ le_rfl

/-- Rounds in which every step is one of plain gradient descent with the rate `lr` are a training with plain gradient descent. -/
theorem Mlp.Rounds.of_steps {P : Nat} (hP : 0 < P) (hnb : 0 < nbBatches N B) {k : OptKind} {h' : Hyper ℝ} (ht : Mlp.Rounds P r ok loss k h N B E x y m ms)
    (hst : ∀ (E' : Nat) (m' : Mlp) (ms' : Nat → Nat → Mlp), E' ≤ P → Mlp.RegTraining r ok loss k h N B E' x y m' ms' →
      ∃ (σ : Nat → Nat → Nat) (d : Nat → Nat → Bool → Nat → Nat → Nat → ℝ), (∀ i, i < E' → ((List.range N).map (σ i)).Perm (List.range N)) ∧
      (∀ i j, i < E' → j < nbBatches N B → Mlp.IsDrive ok loss (batchEnd N B j - batchStart B j) (fun s => x (σ i (batchStart B j + s)))
        (fun s => y (σ i (batchStart B j + s))) (ms' i j) (d i j)) ∧
      ∀ i j, i < E' → j < nbBatches N B → ∀ b l, l < m'.depth → (m'.ply l).has b = true → ∀ p q, p < (m'.shape b l).1 → q < (m'.shape b l).2 →
        ((ms' i (j + 1)).ply l).par b p q = ((ms' i j).ply l).par b p q -
          h'.lr * regGrad r (m'.shape b l).1 (m'.shape b l).2 (((ms' i j).ply l).par b) (d i j b l) p q) :
    Mlp.RegTraining r ok loss .sgd h' N B E x y m ms := by
  have split : ∀ i, i < E → i / P * P ≤ E ∧ i % P < min P (E - i / P * P) ∧ i / P * P + i % P = i := by
    intro i hi
    have h1 := Nat.div_add_mod' i P
    have h2 := Nat.mod_lt i hP
    omega
  have startLike : ∀ c, c * P ≤ E → Mlp.Like m (ms (c * P) 0) := by
    intro c
    induction c with
    | zero => intro _; rw [Nat.zero_mul, ht.first]; exact Mlp.Like.refl m
    | succ c ih =>
      intro hc
      have hc' : c * P ≤ E := by rw [Nat.succ_mul] at hc; omega
      have := (ht.round c hc').like (min P (E - c * P)) 0 (.inr ⟨rfl, rfl⟩)
      rw [show c * P + min P (E - c * P) = (c + 1) * P by rw [Nat.succ_mul] at hc ⊢; omega] at this
      exact (ih hc').trans this
  have hsteps : ∀ c, ∃ (σ : Nat → Nat → Nat) (d : Nat → Nat → Bool → Nat → Nat → Nat → ℝ), c * P ≤ E →
      (∀ i, i < min P (E - c * P) → ((List.range N).map (σ i)).Perm (List.range N)) ∧
      (∀ i j, i < min P (E - c * P) → j < nbBatches N B → Mlp.IsDrive ok loss (batchEnd N B j - batchStart B j) (fun s => x (σ i (batchStart B j + s)))
        (fun s => y (σ i (batchStart B j + s))) (ms (c * P + i) j) (d i j)) ∧
      ∀ i j, i < min P (E - c * P) → j < nbBatches N B → ∀ b l, l < m.depth → (m.ply l).has b = true → ∀ p q, p < (m.shape b l).1 → q < (m.shape b l).2 →
        ((ms (c * P + i) (j + 1)).ply l).par b p q = ((ms (c * P + i) j).ply l).par b p q -
          h'.lr * regGrad r (m.shape b l).1 (m.shape b l).2 (((ms (c * P + i) j).ply l).par b) (d i j b l) p q := by
    intro c
    by_cases hc : c * P ≤ E
    · obtain ⟨σ, d, a1, a2, a3⟩ := hst _ _ _ (min_le_left _ _) (ht.round c hc)
      refine ⟨σ, d, fun _ => ⟨a1, a2, fun i j hi hj b l hl hb p q hp hq => ?_⟩⟩
      have lk := startLike c hc
      have hsh : (ms (c * P) 0).shape b l = m.shape b l := by
        unfold Mlp.shape
        rw [lk.kind, lk.width]
      have := a3 i j hi hj b l (by rw [lk.depth]; exact hl) (by rw [Ply.has, lk.kind]; exact hb) p q (by rw [hsh]; exact hp) (by rw [hsh]; exact hq)
      rw [hsh] at this
      exact this
    · exact ⟨fun _ => id, fun _ _ _ _ _ _ => 0, fun h => absurd h hc⟩
  choose σ d hs using hsteps
  refine Mlp.RegTraining.of_sgd hnb ht.first (fun i hi => ?_) (fun i j hij => ?_) (σ := fun i => σ (i / P) (i % P)) (d := fun i => d (i / P) (i % P)) (fun i hi => ?_) (fun i j hi hj => ?_)
    (fun i j hi hj => ?_)
  · obtain ⟨a, b, c⟩ := split i hi
    have := (ht.round _ a).next (i % P) b
    rw [← Nat.add_assoc, c] at this
    exact this
  · rcases hij with ⟨hi, hj⟩ | ⟨rfl, rfl⟩
    · obtain ⟨a, b, c⟩ := split i hi
      have := (ht.round _ a).like (i % P) j (.inl ⟨b, hj⟩)
      rw [c] at this
      exact (startLike _ a).trans this
    · have h1 := Nat.div_add_mod' i P
      have h2 := Nat.mod_lt i hP
      have := (ht.round (i / P) (by omega)).like (min P (i - i / P * P)) 0 (.inr ⟨rfl, rfl⟩)
      rw [show i / P * P + min P (i - i / P * P) = i by omega] at this
      exact (startLike _ (by omega)).trans this
  · obtain ⟨a, b, -⟩ := split i hi
    exact (hs _ a).1 _ b
  · obtain ⟨a, b, c⟩ := split i hi
    have := (hs _ a).2.1 _ j b hj
    rw [c] at this
    exact this
  · obtain ⟨a, b, c⟩ := split i hi
    have := (hs _ a).2.2 _ j b hj
    rw [c] at this
    exact this

/-- C129: plain gradient descent remembers nothing, so rounds make no difference to it. -/
theorem C129_sgd {P : Nat} (hP : 0 < P) (hnb : 0 < nbBatches N B) (ht : Mlp.Rounds P r ok loss .sgd h N B E x y m ms) :
    Mlp.RegTraining r ok loss .sgd h N B E x y m ms :=
  ht.of_steps hP hnb fun _ _ _ _ h => h.sgd

/-- C129: with all samples in one batch and rounds of one epoch, both optimizers with momentum never get to use it: they are plain gradient descent. -/
theorem C129_momentum {k : OptKind} (hk : k = .momentum ∨ k = .momentumNg) (hnb : nbBatches N B = 1) (ht : Mlp.Rounds 1 r ok loss k h N B E x y m ms) :
    Mlp.RegTraining r ok loss .sgd h N B E x y m ms := by
  refine ht.of_steps one_pos (by omega) fun E' m' ms' hE' h' => ?_
  obtain ⟨σ, d, d', h1, h2, h3, h4⟩ := h'.rule
  refine ⟨σ, fun i j => d (i * nbBatches N B + j), h1, h2, fun i j hi hj b l hl hb p q hp hq => ?_⟩
  obtain rfl : i = 0 := by omega
  obtain rfl : j = 0 := by omega
  rw [← h3 0 0 hi hj, h4 0 1 (.inl ⟨hi, hj⟩) b l hl hb p q hp hq, h4 0 0 (.inl ⟨hi, hj.le⟩) b l hl hb p q hp hq, Nat.zero_mul]
  rcases hk with rfl | rfl
  · show _ - (h.mom * 0 + h.lr * _) = _
    rw [mul_zero, zero_add]
  · show _ - h.lr * (h.mom * d' 0 b l p q + (1 - h.mom) * d' 0 b l p q) = _ - h.lr * d' 0 b l p q
    congr 1
    ring

end

/-- C129: so `fit` with plain gradient descent trains the same way with any `reboost`. -/
theorem C129_fit_sgd {w : World} {t : Trainer} {n b : Nat} {m : Mlp} {N D : Nat} {x y : Nat → Row} (h : FitSetup w t n b m N D x y) {r : Option Reg} (hr : RegFits r)
    (ho : t.optName = "SGD") {eps : ℝ} (heps : 0 < eps) (e : FitEnv) :
    ∃ (w' : World) (t' : Trainer) (seen : List (List (Option Layer))) (ms : Nat → Nat → Mlp) (j : Nat),
      fit (fun x => |x|) eps e w { t with reg := r } n b = .ok (w', t', seen) ∧
      Mlp.RegTraining r (fun m => m.Regular eps t.loss) t.loss .sgd (bookSettings t.optName t.lr t.mom t.decay) N
        (if t.batchSize = 0 then N else min t.batchSize.toNat N) t.epochs.toNat x y m ms ∧
      Represents w' n (ms j 0) ∧ j ≤ t.epochs.toNat ∧ (t.keepBest = false → j = t.epochs.toNat) := by
  have hk : createOptimizer t.optName = some .sgd := by rw [ho]; rfl
  by_cases hre : t.reboostEvery = -1
  · exact C127_fit h hr hk hre heps e
  · obtain ⟨w', t', seen, ms, j, h1, h2, h3⟩ := C129_rounds h hr hk hre heps e
    have hnb := h.nbBatches_pos
    rw [← adjustBatch_toNat h.batchSize] at hnb
    exact ⟨w', t', seen, ms, j, h1, C129_sgd (Nat.succ_pos _) hnb h2, h3⟩

/-! ## A witness -/

/-- As in C122, with `reboost`. -/
theorem boostTrainer_setup (o : String) (R : Int) :
    FitSetup mlpWorld { fitWitness with optName := o, reboostEvery := R } 0 1 mlpWitness 4 1 (fun i j => (i : ℝ) + j) (fun i _ => (i : ℝ)) :=
  { fitWitness_setup with }

/-- Adam, starting afresh after every third epoch. -/
example {eps : ℝ} (heps : 0 < eps) (e : FitEnv) := C129_rounds (boostTrainer_setup "Adam" 2) (r := some ⟨.l2, 1 / 10⟩) trivial (k := .adam) rfl (by show (2 : Int) ≠ -1; decide) heps e

example {eps : ℝ} (heps : 0 < eps) (e : FitEnv) := C129_fit_sgd (boostTrainer_setup "SGD" 2) (r := none) trivial rfl heps e

/-- Rounds with any optimizer, as the other theorems ask for. -/
theorem rounds_exist {o : String} {k : OptKind} (hk : createOptimizer o = some k) {R : Int} (hR : R ≠ -1) (e : FitEnv) :
    ∃ ms, Mlp.Rounds (R.toNat + 1) none (fun m => m.Regular 1 "MeanSquaredError") "MeanSquaredError" k (bookSettings o (-1) (-1) (-1)) 4 3 10 (fun i j => (i : ℝ) + j)
      (fun i _ => (i : ℝ)) mlpWitness ms := by
  obtain ⟨w', t', seen, ms, j, -, h2, -⟩ := C129_rounds (boostTrainer_setup o R) (r := none) trivial hk hR one_pos e
  exact ⟨ms, h2⟩

example (e : FitEnv) := C129_sgd (N := 4) (B := 3) (Nat.succ_pos _) (by decide) (rounds_exist (o := "SGD") (k := .sgd) rfl (R := 2) (by decide) e).choose_spec

/-- One batch and rounds of one epoch. -/
theorem short_rounds (e : FitEnv) : ∃ ms, Mlp.Rounds 1 none (fun m => m.Regular 1 "MeanSquaredError") "MeanSquaredError" .momentum (bookSettings "Momentum" (-1) (-1) (-1)) 4 4 10
    (fun i j => (i : ℝ) + j) (fun i _ => (i : ℝ)) mlpWitness ms := by
  have h : FitSetup mlpWorld { fitWitness with optName := "Momentum", reboostEvery := 0, batchSize := 4 } 0 1 mlpWitness 4 1 (fun i j => (i : ℝ) + j) (fun i _ => (i : ℝ)) :=
    { fitWitness_setup with batchSize := by show (0 : Int) ≤ 4; decide }
  obtain ⟨w', t', seen, ms, j, -, h2, -⟩ := C129_rounds h (r := none) trivial (k := .momentum) rfl (by show (0 : Int) ≠ -1; decide) one_pos e
  exact ⟨ms, h2⟩

example (e : FitEnv) := C129_momentum (N := 4) (B := 4) (.inl rfl) (by decide) (short_rounds e).choose_spec

end BeeDNN
