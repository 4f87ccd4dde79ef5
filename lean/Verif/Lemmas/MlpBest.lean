import Verif.Spec.Reported
import Verif.Props.MlpFit
import Verif.Props.TrainFit

/-! # Training a perceptron: which network is kept -/

namespace BeeDNN
open Finset Trainer

theorem Mlp.Like.symm {m m' : Mlp} (h : Mlp.Like m m') : Mlp.Like m' m := ⟨h.depth.symm, h.width.symm, fun i => (h.kind i).symm⟩

theorem SameLayers.shows {m : Mlp} {p q : List (Option Layer)} (h : SameLayers p q) (hp : Shows m p) : Shows m q := by
  intro i hi
  obtain ⟨l, h1, h2⟩ := hp i hi
  obtain ⟨hlt, h1'⟩ := List.getElem?_eq_some_iff.1 h1
  have hlen : p.length = q.length := List.Forall₂.length_eq h
  obtain ⟨l₁, l₂, e1, e2, e3⟩ := List.Forall₂.get h hlt (by omega)
  rw [List.get_eq_getElem, h1'] at e1
  injection e1 with e1
  subst e1
  refine ⟨l₂, ?_, Ply.is_same h2 e3⟩
  rw [List.getElem?_eq_getElem (by omega)]
  exact congrArg some e2

theorem Shows.represents {w : World} {n : Nat} {m m' : Mlp} (h : Represents w n m) (hl : Mlp.Like m m') (hs : Shows m' (layersOf w n)) :
    Represents w n m' where
  ok := hl.ok h.ok
  nodup := h.nodup
  count := h.count.trans hl.depth.symm
  layer := fun i a hi => by
    obtain ⟨l, h1, h2, -, h4⟩ := h.layer i a hi
    obtain ⟨l', e1, e2⟩ := hs i (by rw [hl.depth, ← h.count]; exact lt_of_some hi)
    rw [layersOf, List.getElem?_map, hi, Option.map_some, h1] at e1
    injection e1 with e1
    injection e1 with e1
    subst e1
    exact ⟨l, h1, h2, e2, h4⟩

/-- The loss of a batch, for any of the twelve losses. -/
theorem BatchLoss.eq {eps : ℝ} {s : String} {K D N : Nat} {P Y : Nat → Row} {x : ℝ} (h : BatchLoss (fun x => |x|) eps s K D N P Y x)
    (hs : s ∈ listLoss) (hK : 0 < K) (hT : TruthFits s K D N Y) :
    x = (∑ i ∈ range N, sampleLoss eps s K (P i) (Y i)) / (if s ∈ sumLosses then 1 else (N : ℝ)) := by
  obtain ⟨t, g, M, rfl, h2, h3, h4⟩ := h
  obtain ⟨M', e1, -, e2⟩ := Trainer.lossCompute_fits (eps := eps) (P := P) hs h2 hK hT g Mat.WF_empty
  rw [h3] at e1
  injection e1 with e1
  subst e1
  rw [h4] at e2
  injection e2

theorem EvalFact.eq {eps : ℝ} {t : Trainer} {m : Mlp} {N D : Nat} {x y : Nat → Row} {l a : ℝ}
    (h : EvalFact eps t m (Mat.ofFn N (m.width 0) x, Mat.ofFn N D y) l a) (hl : t.loss ∈ listLoss) (hV : 0 < t.valBatch) (hN : 0 < N)
    (hT : TruthFits t.loss (m.width m.depth) D N y) :
    l = m.evalLoss eps t.loss t.valBatch.toNat N x y ∧ a = m.evalAcc N D x y := by
  obtain ⟨t', n, e, w, w', h1, h2, h3, h4, h5, h6⟩ := h
  obtain ⟨w₂, e1, -⟩ := computeLossAccuracy_mlp (eps := eps) (e := e) h4 h5 (by rw [h1]; exact hl) h3 t'.valBatch.toNat
    (by rw [h2]; omega) (by rw [h2]; omega) D N hN x y (by rw [h1]; exact hT)
  dsimp only at h6
  rw [h6] at e1
  injection e1 with e1
  injection e1 with _ e1
  injection e1 with e1 e2
  rw [h1, h2] at e1
  exact ⟨e1, e2⟩

/-- `fit` of a perceptron that keeps the best network: what is recorded, and which network is left. -/
theorem fit_best_mlp {w : World} {t : Trainer} {n b : Nat} {m : Mlp} {N D : Nat} {x y : Nat → Row} (h : FitSetup w t n b m N D x y)
    {k : OptKind} (hk : createOptimizer t.optName = some k) (hkb : t.keepBest = true) {eps : ℝ} (e : FitEnv) {Γ : Row → Row → Row}
    (hlo : LossOk (fun x => |x|) eps t.loss (m.width m.depth) D Γ) :
    ∃ (w' : World) (t' : Trainer) (seen : List (List (Option Layer))) (ms : Nat → Mlp) (r : Nat → Nat) (v : Nat → ℝ) (l₀ a₀ : ℝ) (j : Nat),
      fit (fun x => |x|) eps e w t n b = .ok (w', t', seen) ∧ ms 0 = m ∧ (∀ j, j ≤ t.epochs.toNat → Mlp.Like m (ms j)) ∧
      (∀ i, i < t.epochs.toNat → EpochFact (fun x => |x|) eps t.loss (k = .sgd) Γ (if t.lr = -1 then 0.01 else t.lr) N
        (adjustBatch t.batchSize N).toNat D x y (ms i) (ms (i + 1)) (r i) (v i)) ∧
      t'.trainLoss = (List.range t.epochs.toNat).map v ∧
      (∀ d, t.valid = some d → ∃ ls as : Nat → ℝ, t'.valLoss = (List.range t.epochs.toNat).map ls ∧ t'.valAcc = (List.range t.epochs.toNat).map as ∧
        ∀ i, i < t.epochs.toNat → EvalFact eps t (ms (i + 1)) d (ls i) (as i)) ∧
      EvalFact eps t m (t.valid.getD (Mat.ofFn N (m.width 0) x, Mat.ofFn N D y)) l₀ a₀ ∧ t'.valid = t.valid ∧
      IsFirstMax (t.epochs.toNat + 1) (fun i => (scoreOf (w.nets n).classif l₀ a₀ :: scoreList (w.nets n).classif t').getD i 0) j ∧
      Represents w' n (ms j) := by
  obtain ⟨w', t', seen, ms, r, v, j, h1, h2, h3, h4, h5, h6, h7, h8, h9, h10, h11, h12, h13, h14, h15, h16, h17⟩ :=
    fit_mlp (e := e) h.net h.owned h.slot h.fresh h.inOut h.gradient h.reg hk
    h.samples x y h.train h.truth h.valid h.valBatch h.batchSize h.balancing h.patience h.loss hlo
  have hne : (w.nets n).layers ≠ [] := fun h0 => by
    have := h.net.count
    rw [h0] at this
    exact absurd h.net.ok.depth (by simp at this; omega)
  have hF : Fitted (fun x => |x|) eps e w t n b w' t' seen :=
    ⟨h.owned, h.net.allValid, hne, h.slot, h.fresh, h.inOut, h.gradient, h1⟩
  obtain ⟨p₀, l₀, a₀, -, q, q1, q2, -, -, w₁, t₁, w₀, q3, q4, q5⟩ := fit_best hF hkb _ _ h.train
  obtain ⟨w₁', t₁', s1, s2, -⟩ := setNet_mlp (g := e.g) h.net h.inOut h.gradient hk
  rw [q3] at s1
  injection s1 with s1
  injection s1 with s1 _
  subst s1
  obtain ⟨w₀', l', a', d1, d2, -⟩ := eval_mlp (eps := eps) (e := e.eval 0) h14 s2.rep (ω := .none) (by rw [h15]; exact EvalOkW.none h.loss (h.net.ok.pos _ (Nat.le_refl _))) h17 (by rw [h16]; exact h.valBatch)
    (d := t.valid.getD (Mat.ofFn N (m.width 0) x, Mat.ofFn N D y)) (by
      rw [h15]
      cases hv : t.valid with
      | none => exact ⟨N, D, x, y, h.samples, h.truth, rfl⟩
      | some d => exact h.valid d hv)
  rw [q4] at d1
  injection d1 with d1
  injection d1 with d1 _
  subst d1
  have hval := (C53_lengths hF).2.2.1
  have hq : q ≤ t.epochs.toNat := by have := q1.1; rw [h8] at this; omega
  refine ⟨w', t', seen, ms, r, v, l₀, a₀, q, h1, h2, h3, h9, h11, h13, ⟨t', n, _, w₁, _, h15, h16, h17, h14, s2.rep, q4⟩, hval, by rw [← h8]; exact q1, ?_⟩
  refine Shows.represents h6 ((h3 j h4).symm.trans (h3 q hq)) (q2.shows ?_)
  match q with
  | 0 =>
    rw [h2]
    show Shows m p₀
    rw [q5]
    exact shows_layersOf (s2.rep.scratch d2)
  | q + 1 => exact h12 q (by omega)

end BeeDNN
