import Verif.Props.TrainFit
import Verif.Lemmas.TrainLoss

/-! # Training: the recorded accuracies are percentages -/

namespace BeeDNN
namespace Trainer

theorem goodOnline_le {p y : Mat ℝ} {j : Nat} (h : goodOnline p y = .ok j) : j ≤ p.rows := by
  unfold goodOnline at h
  split at h
  · obtain ⟨-, -, h⟩ := ok_bind h
    refine forN_ok_idx (P := fun i (k : Nat) => k ≤ i) (fun i s s' hs h => ?_) (Nat.le_refl 0) h
    obtain ⟨a, -, h⟩ := ok_bind h
    obtain ⟨b, -, h⟩ := ok_bind h
    injection h with h
    subst h
    split <;> omega
  · split at h
    · refine forN_ok_idx (P := fun i (k : Nat) => k ≤ i) (fun i s s' hs h => ?_) (Nat.le_refl 0) h
      obtain ⟨a, -, h⟩ := ok_bind h
      obtain ⟨b, -, h⟩ := ok_bind h
      obtain ⟨c, -, h⟩ := ok_bind h
      injection h with h
      subst h
      split <;> omega
    · obtain ⟨-, -, h⟩ := ok_bind h
      refine forN_ok_idx (P := fun i (k : Nat) => k ≤ i) (fun i s s' hs h => ?_) (Nat.le_refl 0) h
      obtain ⟨a, -, h⟩ := ok_bind h
      obtain ⟨b, -, h⟩ := ok_bind h
      obtain ⟨c, -, h⟩ := ok_bind h
      obtain ⟨d, -, h⟩ := ok_bind h
      injection h with h
      subst h
      split <;> omega

theorem trainBatch_good {ab : ℝ → ℝ} {eps : ℝ} {e : Nat → Nat → Env} {w w' : World} {t t' : Trainer} {x y : Mat ℝ} {n : Nat} (hn : t.net = some n)
    (h : trainBatch ab eps e w t x y = .ok (w', t')) : t'.net = some n ∧ t'.trainAcc = t.trainAcc ∧ t'.onlineGood ≤ t.onlineGood + y.rows := by
  unfold trainBatch at h
  rw [hn] at h
  dsimp only at h
  · obtain ⟨x0, hx0, h⟩ := ok_bind h
    obtain ⟨x1, hx1, h⟩ := ok_bind h
    obtain ⟨io, hio, h⟩ := ok_bind h
    obtain ⟨⟨w₁, io₁⟩, hf, h⟩ := ok_bind h
    obtain ⟨p, hpp, h⟩ := ok_bind h
    obtain ⟨g0, hg0, h⟩ := ok_bind h
    obtain ⟨g1, hg1, h⟩ := ok_bind h
    obtain ⟨gs, hgs, h⟩ := ok_bind h
    obtain ⟨⟨w₂, gs₁⟩, hb, h⟩ := ok_bind h
    obtain ⟨⟨w₃, os⟩, ho1, h⟩ := ok_bind h
    obtain ⟨⟨w₄, os₁⟩, ho2, h⟩ := ok_bind h
    dsimp only at h
    obtain ⟨p', hp', h⟩ := ok_bind h
    obtain ⟨t₁, ht1, h⟩ := ok_bind h
    injection h with h
    injection h with e1 e2
    subst e1 e2
    obtain ⟨z, k, e1, hr, hc, hc'⟩ := addOnline_inv ht1
    subst e1
    dsimp only at hc hc' ⊢
    refine ⟨rfl, rfl, ?_⟩
    cases hcl : (w₄.nets n).classif
    · rw [hc' hcl]; omega
    · obtain ⟨j, j1, j2⟩ := hc hcl
      have := goodOnline_le j1
      omega

theorem viewRowInt_rows {m v : Mat ℝ} {a : Nat} {b : Int} (h : m.viewRowInt a b = .ok v) : (a : Int) < b ∧ v.rows = b.toNat - a := by
  unfold Mat.viewRowInt at h
  by_cases h1 : (a : Int) < b
  swap
  · rw [check_false h1] at h; cases h
  rw [check_true h1, bind_ok'] at h
  unfold Mat.viewRow at h
  obtain ⟨-, -, h⟩ := ok_bind h
  obtain ⟨-, -, h⟩ := ok_bind h
  refine ⟨h1, ?_⟩
  injection h with h
  rw [← h]

theorem trainEpoch_good {ab : ℝ → ℝ} {eps : ℝ} {e : Nat → Nat → Nat → Env} {w w' : World} {t t' : Trainer} {x y : Mat ℝ} {n : Nat} (hn : t.net = some n)
    (h : trainEpoch ab eps e x y w t = .ok (w', t')) : t'.trainAcc = t.trainAcc ∧ t'.onlineGood ≤ t.onlineGood + x.rows := by
  unfold trainEpoch batchLoop at h
  obtain ⟨⟨k, i, w₁, t₁⟩, h1, h⟩ := ok_bind h
  injection h with h
  injection h with e1 e2
  subst e1 e2
  have key := whileF_inv (P := fun s : Nat × Nat × World × Trainer => s.2.2.2.net = some n ∧ s.2.2.2.trainAcc = t.trainAcc ∧ s.2.2.2.onlineGood ≤ t.onlineGood + s.2.1 ∧ s.2.1 ≤ x.rows)
    (fun s s' hs hc hb => by
      obtain ⟨k, i, w₂, t₂⟩ := s
      dsimp only at hs hc hb
      obtain ⟨x', hx, hb⟩ := ok_bind hb
      obtain ⟨y', hy, hb⟩ := ok_bind hb
      obtain ⟨⟨w₃, t₃⟩, hf, hb⟩ := ok_bind hb
      injection hb with hb
      subst hb
      dsimp only
      obtain ⟨c1, c2, c3⟩ := trainBatch_good hs.1 hf
      refine ⟨c1, c2.trans hs.2.1, ?_⟩
      obtain ⟨v1, v2⟩ := viewRowInt_rows hy
      have : (if (i : Int) + t.batchAdj > x.rows then (x.rows : Int) else i + t.batchAdj) ≤ x.rows := by split <;> omega
      omega) ⟨hn, rfl, by simp, by simp⟩ h1
  refine ⟨key.1.2.1, ?_⟩
  have := key.1.2.2
  dsimp only at this
  omega

theorem evalValid_trainAcc {ab : ℝ → ℝ} {eps : ℝ} {e : FitEnv} {k : Nat} {w w' : World} {t t' : Trainer} {l a : ℝ}
    (h : evalValid ab eps e k w t = .ok (w', t', l, a)) : t'.trainAcc = t.trainAcc := by
  unfold evalValid at h
  split at h
  · injection h with h
    injection h with e1 h
    injection h with e2 h
    rw [← e2]
  · obtain ⟨⟨w₁, l', a'⟩, -, h⟩ := ok_bind h
    injection h with h
    injection h with e1 h
    injection h with e2 h
    rw [← e2]

theorem bestStep_trainAcc {e : FitEnv} {k n b : Nat} {s s' : FitSt} {l a : ℝ} (h : bestStep e k n b s l a = .ok s') :
    s'.t.trainAcc = s.t.trainAcc := by
  unfold bestStep at h
  split at h
  · obtain ⟨s₁, h1, h⟩ := ok_bind h
    have e1 : s₁.t.trainAcc = s.t.trainAcc := by
      rcases keepStep_inv h1 with (⟨-, -, w, hw, rfl⟩ | ⟨-, -, w, hw, rfl⟩) | ⟨-, rfl⟩ <;> rfl
    rw [← e1]
    rcases patienceStep_inv h with ⟨-, -, w, hw, rfl⟩ | ⟨-, rfl⟩ <;> rfl
  · injection h with h; rw [h]

theorem reboostStep_trainAcc {g : Nat → ℝ} {s : FitSt} : (reboostStep g s).t.trainAcc = s.t.trainAcc := by
  unfold reboostStep
  split
  · split <;> rfl
  · rfl

/-- An epoch records at most one training accuracy, a percentage of the samples. -/
theorem epochTrain_range {ab : ℝ → ℝ} {eps : ℝ} {e : FitEnv} {n N C D : Nat} (hN : 0 < N) {x y : Nat → Nat → ℝ} {k : Nat} {w w' : World} {t t' : Trainer}
    (hn : t.net = some n) (h : epochTrain ab eps e n (Mat.ofFn N C x) (Mat.ofFn N D y) k w t = .ok (w', t')) :
    t'.trainAcc = t.trainAcc ∨ ∃ r : Nat, r ≤ N ∧ t'.trainAcc = t.trainAcc ++ [100 * (r : ℝ) / N] := by
  unfold epochTrain at h
  obtain ⟨σ, -, hσ⟩ := C50_data e.g (e.perm k) (decide (t.batchAdj < ((Mat.ofFn N C x).rows : Int))) N C D x y
  dsimp only at h
  rw [hσ, bind_ok'] at h
  obtain ⟨w₁, h1, h⟩ := ok_bind h
  obtain ⟨⟨w₂, t₂⟩, h2, h⟩ := ok_bind h
  obtain ⟨w₃, h3, h⟩ := ok_bind h
  dsimp only at h
  have q := fun hn' => trainEpoch_good (n := n) hn' h2
  obtain ⟨ta, g⟩ := q hn
  clear q h2 hσ
  rw [Mat.ofFn_rows] at g
  have ta : t₂.trainAcc = t.trainAcc := ta
  have g : t₂.onlineGood ≤ 0 + N := g
  split at h
  · injection h with h
    injection h with e1 e2
    subst e1 e2
    refine Or.inr ⟨t₂.onlineGood, by omega, ?_⟩
    simp only [fdiv, Mat.ofFn_rows, hN.ne', if_false, ta]
  · injection h with h
    injection h with e1 e2
    subst e1 e2
    exact Or.inl ta

theorem epochStep_range {ab : ℝ → ℝ} {eps : ℝ} {e : FitEnv} {n b : Nat} {N C D : Nat} (hN : 0 < N) {x y : Nat → Nat → ℝ} {k : Nat} {s s' : FitSt}
    (hn : s.t.net = some n) (h : epochStep ab eps e n b (Mat.ofFn N C x) (Mat.ofFn N D y) k s = .ok s') :
    s'.t.trainAcc = s.t.trainAcc ∨ ∃ r : Nat, r ≤ N ∧ s'.t.trainAcc = s.t.trainAcc ++ [100 * (r : ℝ) / N] := by
  unfold epochStep at h
  obtain ⟨⟨w₁, t₁⟩, h1, h⟩ := ok_bind h
  obtain ⟨⟨w₂, t₂, l, a⟩, h2, h⟩ := ok_bind h
  obtain ⟨s₃, h3, h⟩ := ok_bind h
  injection h with h
  subst h
  rw [reboostStep_trainAcc, bestStep_trainAcc h3]
  dsimp only
  rw [evalValid_trainAcc h2]
  exact epochTrain_range hN hn h1

end Trainer
end BeeDNN
