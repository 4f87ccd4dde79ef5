import Verif.Props.Reboost
import Verif.Spec.Continue

/-! # Training in several calls of `fit`: C149 -/

namespace BeeDNN
open Finset Trainer

/-- The local network of `fit` is empty again at its end. -/
theorem fit_clears {ab : ℝ → ℝ} {eps : ℝ} {e : FitEnv} {w : World} {t : Trainer} {n b : Nat} (hb : (w.nets b).layers = []) {r : World × Trainer × List (List (Option Layer))}
    (h : fit ab eps e w t n b = .ok r) : (r.1.nets b).layers = [] := by
  unfold fit at h
  obtain ⟨⟨w₁, t₁⟩, h1, h⟩ := ok_bind h
  dsimp only at h
  split at h
  · injection h with h
    subst h
    unfold setNet at h1
    obtain ⟨w₂, h2, h1⟩ := ok_bind h1
    obtain ⟨t₂, -, h1⟩ := ok_bind h1
    obtain ⟨os, -, h1⟩ := ok_bind h1
    injection h1 with h1
    injection h1 with h1 h1'
    subst h1
    show (w₂.nets b).layers = []
    rw [(markFirst_inv h2).nets]
    exact hb
  · split at h
    · exact absurd h (by simp)
    · obtain ⟨s, -, h⟩ := ok_bind h
      obtain ⟨s₁, -, h⟩ := ok_bind h
      obtain ⟨s₂, h2, h⟩ := ok_bind h
      injection h with h
      subst h
      unfold finish at h2
      obtain ⟨w₃, -, h2⟩ := ok_bind h2
      obtain ⟨w₄, h3, h2⟩ := ok_bind h2
      injection h2 with h2
      subst h2
      unfold World.clear at h3
      obtain ⟨w₅, -, h3⟩ := ok_bind h3
      injection h3 with h3
      subst h3
      show ((w₅.setNet b _).nets b).layers = []
      rw [World.setNet_same]

/-- Without keep-best and patience, `fit` leaves these settings of the trainer alone. -/
theorem fit_leaves {ab : ℝ → ℝ} {eps : ℝ} {e : FitEnv} {w w' : World} {t t' : Trainer} {n b : Nat} {seen : List (List (Option Layer))} (h : Fitted ab eps e w t n b w' t' seen)
    (hk : t.keepBest = false) (hp : t.patience = -1) :
    (t'.batchSize = t.batchSize ∧ t'.valBatch = t.valBatch ∧ t'.keepBest = t.keepBest ∧ t'.reboostEvery = t.reboostEvery ∧ t'.loss = t.loss ∧ t'.reg = t.reg ∧ t'.optName = t.optName ∧
      t'.decay = t.decay ∧ t'.mom = t.mom ∧ t'.patience = t.patience ∧ t'.balancing = t.balancing ∧ t'.train = t.train ∧ t'.valid = t.valid) ∧ t'.lr = t.lr ∧
    (∀ m ∈ t'.inOut, m.WF) ∧ ∀ m ∈ t'.gradient, m.WF := by
  obtain ⟨w₁, t₁, x, y, s₀, s, h1, h2, h3, h4, h5, h6, h7, h8, h9⟩ := fit_split h.run h.layers h.slot h.owned h.valid h.fresh h.inOut h.gradient
  have hvb : AllValid w (w.nets b).layers := by rw [h.fresh]; exact fun a ha => absurd ha List.not_mem_nil
  obtain ⟨-, -, a2, -, a4, -⟩ := setNet_inv h.slot h.owned h.valid hvb h.inOut h.gradient h1
  obtain ⟨cw, w₀, b1, b2, b3, b4, b5, -⟩ := start_inv h.slot a2 h3
  have hl : s.t.lr = t.lr := by
    refine (forN_ok_idx (P := fun i r => LoopInv ab eps e n b s₀ i r ∧ r.t.lr = t.lr) (fun i r r' hr hr' => ⟨hr.1.step h.slot hr', ?_⟩)
      ⟨LoopInv.start b5 b3 (by rw [b2]) (by rw [b2]) (by rw [b2]), by rw [b2, ← a4]⟩ h4).2
    obtain ⟨w₂, t₂, l, a, s₂, k1, k2, k3, k4, k5, k5', k5'', k6, k7, k8⟩ := epochStep_inv h.slot hr.1.inv hr'
    have e1 : t₂.keepBest = false ∧ t₂.patience = -1 := by
      rw [← k3.same, ← hr.1.settings, b2, ← a4]
      exact ⟨hk, hp⟩
    have e2 : s₂.t.lr = t.lr := by
      unfold bestStep at k7
      rw [if_neg (by show ¬ (t₂.keepBest = true ∨ t₂.patience ≠ -1); rw [e1.1, e1.2]; simp)] at k7
      injection k7 with k7
      rw [← k7]
      exact k3.lr.trans hr.2
    rw [k8]
    unfold reboostStep
    split
    · split <;> exact e2
    · exact e2
  subst h6
  refine ⟨?_, hl, h9.inv.ok.inOut, h9.inv.ok.gradient⟩
  rw [← h9.settings, b2, ← a4]
  exact ⟨rfl, rfl, rfl, rfl, rfl, rfl, rfl, rfl, rfl, rfl, rfl, rfl, rfl⟩

section
variable {ok : Mlp → Row → Row → Prop} {loss : String} {h : Hyper ℝ} {N B E E' : Nat} {x y : Nat → Row} {m : Mlp} {ms ms' : Nat → Nat → Mlp} {r : Option Reg}

/-- No epochs at all are a training. -/
theorem Mlp.RegTraining.nil (hnb : 0 < nbBatches N B) : Mlp.RegTraining r ok loss .sgd h N B 0 x y m (fun _ _ => m) :=
  Mlp.RegTraining.of_sgd hnb rfl (fun _ hi => absurd hi (Nat.not_lt_zero _)) (fun _ _ _ => Mlp.Like.refl m) (σ := fun _ => id) (d := fun _ _ _ _ _ _ => 0) (fun _ hi => absurd hi (Nat.not_lt_zero _))
    (fun _ _ hi => absurd hi (Nat.not_lt_zero _)) (fun _ _ hi => absurd hi (Nat.not_lt_zero _))

/-- C149: two trainings with plain gradient descent, the second from the network the first has left, are one. -/
theorem C149_append (hnb : 0 < nbBatches N B) (h1 : Mlp.RegTraining r ok loss .sgd h N B E x y m ms) (h2 : Mlp.RegTraining r ok loss .sgd h N B E' x y (ms E 0) ms') :
    Mlp.RegTraining r ok loss .sgd h N B (E + E') x y m (fun i j => if i < E then ms i j else ms' (i - E) j) := by
  obtain ⟨σ, d, a1, a2, a3⟩ := h1.sgd
  obtain ⟨σ', d', b1, b2, b3⟩ := h2.sgd
  have lk : Mlp.Like m (ms E 0) := h1.like E 0 (.inr ⟨rfl, rfl⟩)
  have hsh : ∀ b l, (ms E 0).shape b l = m.shape b l := fun b l => by
    unfold Mlp.shape
    rw [lk.kind, lk.width]
  refine Mlp.RegTraining.of_sgd hnb ?_ (fun i hi => ?_) (fun i j hij => ?_) (σ := fun i => if i < E then σ i else σ' (i - E)) (d := fun i => if i < E then d i else d' (i - E)) (fun i hi => ?_)
    (fun i j hi hj => ?_) (fun i j hi hj b l hl hb p q hp hq => ?_)
  · split
    · exact h1.first
    · obtain rfl : E = 0 := by omega
      exact h2.first.trans h1.first
  · by_cases hE : i < E
    · rw [if_pos hE, ← h1.next i hE]
      split
      · rfl
      · obtain rfl : E = i + 1 := by omega
        rw [Nat.sub_self]
        exact h2.first
    · rw [if_neg hE, if_neg (by omega), ← h2.next (i - E) (by omega)]
      congr 1
      omega
  · split
    · exact h1.like i j (by omega)
    · exact lk.trans (h2.like (i - E) j (by omega))
  · split
    · exact a1 i ‹_›
    · exact b1 (i - E) (by omega)
  · by_cases hE : i < E
    · simp only [if_pos hE]
      exact a2 i j hE hj
    · simp only [if_neg hE]
      exact b2 (i - E) j (by omega) hj
  · by_cases hE : i < E
    · simp only [if_pos hE]
      exact a3 i j hE hj b l hl hb p q hp hq
    · simp only [if_neg hE]
      have := b3 (i - E) j (by omega) hj b l (by rw [lk.depth]; exact hl) (by rw [Ply.has, lk.kind]; exact hb) p q (by rw [hsh]; exact hp) (by rw [hsh]; exact hq)
      rw [hsh] at this
      exact this

end

/-- C149: training can be continued.  With plain gradient descent, any regularizer and without keep-best, a program that calls `fit` any number of times with the same trainer runs to its end, and what it does is
one training: as many epochs as all calls together, one after the other, by the rule that a single call of `fit` follows (C127). -/
theorem C149_continue {n b : Nat} {N D : Nat} {x y : Nat → Row} {eps : ℝ} (heps : 0 < eps) : ∀ (calls : List (Int × FitEnv)) {w : World} {t : Trainer} {m : Mlp},
    FitSetup w { t with reg := none } n b m N D x y → RegFits t.reg → t.optName = "SGD" → t.keepBest = false → t.patience = -1 →
    ∃ (w' : World) (t' : Trainer) (ms : Nat → Nat → Mlp), fitMany eps n b calls w t = .ok (w', t') ∧
      Mlp.RegTraining t.reg (fun m => m.Regular eps t.loss) t.loss .sgd (bookSettings "SGD" t.lr t.mom t.decay) N
        (if t.batchSize = 0 then N else min t.batchSize.toNat N) (allEpochs calls) x y m ms ∧
      Represents w' n (ms (allEpochs calls) 0)
  | [], w, t, m, h, hr, ho, hkb, hp => by
    have hnb := h.nbBatches_pos
    rw [← adjustBatch_toNat h.batchSize] at hnb
    exact ⟨w, t, fun _ _ => m, rfl, .nil hnb, h.net⟩
  | (E, e) :: calls, w, t, m, h, hr, ho, hkb, hp => by
    have hnb := h.nbBatches_pos
    rw [← adjustBatch_toNat h.batchSize] at hnb
    have hs : FitSetup w { t with reg := none, epochs := E } n b m N D x y := { h with patience := .inl hp }
    obtain ⟨w₁, t₁, seen, ms, j, f1, f2, f3, -, f5⟩ := C129_fit_sgd hs hr ho heps e
    obtain rfl := f5 hkb
    dsimp only at f1 f2 f3
    obtain ⟨ψ, l1, -⟩ := lossOk_of_mem eps h.loss (h.net.ok.pos _ (Nat.le_refl m.depth)) D
    obtain ⟨w₂, t₂, seen₂, ms₂, r₂, v₂, j₂, g1, -, -, -, -, -, g7, -⟩ := fit_mlp_reg (t := { t with epochs := E }) (e := e) h.net h.owned h.slot h.fresh h.inOut h.gradient
      (k := .sgd) (by show createOptimizer t.optName = _; rw [ho]; rfl) h.samples x y h.train h.truth h.valid h.valBatch h.batchSize h.balancing (.inl hp) h.loss l1
    have e1 := f1.symm.trans g1
    injection e1 with e1
    injection e1 with e1 e2
    subst e1
    obtain ⟨⟨c1, c2, c3, c4, c5, c6, c7, c8, c9, c10, c11, c12, c13⟩, c14, c15, c16⟩ := fit_leaves (t := { t with epochs := E }) ⟨h.owned, h.net.allValid, fun hn => by
      have h1 := h.net.ok.depth
      have h2 := h.net.count
      rw [hn, List.length_nil] at h2
      omega, h.slot, h.fresh, h.inOut, h.gradient, f1⟩ hkb hp
    dsimp only at c1 c2 c3 c4 c5 c6 c7 c8 c9 c10 c11 c12 c13 c14
    have lk : Mlp.Like m (ms E.toNat 0) := f2.like _ 0 (.inr ⟨rfl, rfl⟩)
    have h' : FitSetup w₁ { t₁ with reg := none } n b (ms E.toNat 0) N D x y :=
      { net := f3
        owned := g7
        slot := h.slot
        fresh := fit_clears h.fresh f1
        inOut := c15
        gradient := c16
        samples := h.samples
        train := by rw [lk.width]; exact c12.trans h.train
        truth := by rw [lk.depth, lk.width]; show TruthFits t₁.loss _ _ _ _; rw [c5]; exact h.truth
        valid := by
          rw [lk.depth, lk.width]
          show ∀ d, t₁.valid = some d → ∃ (M E : Nat) (u v : Nat → Row), 0 < M ∧ TruthFits t₁.loss _ E M v ∧ _
          rw [c13, c5]
          exact h.valid
        valBatch := by show 0 < t₁.valBatch; rw [c2]; exact h.valBatch
        batchSize := by show 0 ≤ t₁.batchSize; rw [c1]; exact h.batchSize
        loss := by show t₁.loss ∈ _; rw [c5]; exact h.loss
        reg := rfl
        balancing := c11.trans h.balancing
        patience := .inl (c10.trans hp) }
    obtain ⟨w', t', ms', i1, i2, i3⟩ := C149_continue heps calls h' (by rw [c6]; exact hr) (c7.trans ho) (c3.trans hkb) (c10.trans hp)
    rw [c6, c5, c14, c9, c8, c1] at i2
    rw [ho] at f2
    have hE : allEpochs ((E, e) :: calls) = E.toNat + allEpochs calls := by simp [allEpochs]
    refine ⟨w', t', fun i j => if i < E.toNat then ms i j else ms' (i - E.toNat) j, ?_, ?_, ?_⟩
    · rw [fitMany, f1, bind_ok']
      exact i1
    · rw [hE]
      exact C149_append hnb f2 i2
    · rw [hE]
      dsimp only
      rw [if_neg (by omega), Nat.add_sub_cancel_left]
      exact i3

/-! ## Instances -/

example (e e' e'' : FitEnv) := C149_continue (t := { fitWitness with optName := "SGD", reboostEvery := 2, keepBest := false, reg := some ⟨.l2, 1 / 10⟩ }) one_pos
  [(3, e), (10, e'), (2, e'')] { boostTrainer_setup "SGD" 2 with } trivial rfl rfl rfl

example (e e' : FitEnv) : ∃ w' t' ms, fitMany 1 0 1 [(3, e), (4, e')] mlpWorld { fitWitness with optName := "SGD", keepBest := false } = .ok (w', t') ∧
    Mlp.RegTraining none (fun m => m.Regular 1 "MeanSquaredError") "MeanSquaredError" .sgd (bookSettings "SGD" (-1) (-1) (-1)) 4 3 7 (fun i j => (i : ℝ) + j) (fun i _ => (i : ℝ)) mlpWitness ms ∧
    Represents w' 0 (ms 7 0) :=
  C149_continue one_pos [(3, e), (4, e')] (t := { fitWitness with optName := "SGD", keepBest := false }) { fitWitness_setup with } trivial rfl rfl rfl

end BeeDNN
