import Verif.Lemmas.TrainStep
import Verif.Lemmas.MatrixMore
import Verif.Spec.Train

/-! # The loop over the batches -/

namespace BeeDNN

theorem whileF_inv {σ : Type} {P : σ → Prop} {c : σ → Bool} {b : σ → Out σ}
    (hb : ∀ s s', P s → c s = true → b s = .ok s' → P s') :
    ∀ {k : Nat} {s s' : σ}, P s → whileF k c b s = .ok s' → P s' ∧ c s' = false
  | 0, s, s', h, hw => by
    unfold whileF at hw
    split at hw
    · cases hw
    · rename_i hc; injection hw with hw; subst hw; exact ⟨h, by simpa using hc⟩
  | k + 1, s, s', h, hw => by
    unfold whileF at hw
    split at hw
    · rename_i hc
      obtain ⟨s₁, h1, hw⟩ := ok_bind hw
      exact whileF_inv hb (hb s s₁ h hc h1) hw
    · rename_i hc; injection hw with hw; subst hw; exact ⟨h, by simpa using hc⟩

/-- A `while` loop which runs through the iterations `k`, …, `k + m - 1` of a `for` loop. -/
theorem whileF_forN {σ τ : Type} (c : τ → Bool) (b : τ → Out τ) (f : Nat → σ → Out σ) (st : Nat → σ → τ) (m : Nat)
    (hc : ∀ k s, k < m → c (st k s) = true) (hc' : ∀ s, c (st m s) = false)
    (hb : ∀ k s, k < m → b (st k s) = (f k s).bind (fun s' => .ok (st (k + 1) s'))) :
    ∀ (j fuel : Nat) (s : σ), j ≤ m → j ≤ fuel →
      whileF fuel c b (st (m - j) s) = (forN j (fun i => f (m - j + i)) s).bind (fun s' => .ok (st m s'))
  | 0, fuel, s, _, _ => by
    cases fuel <;> simp [whileF, hc' s, forN, Except.bind]
  | j + 1, 0, s, _, h => absurd h (by omega)
  | j + 1, fuel + 1, s, hj, hf => by
    have hk : m - (j + 1) < m := by omega
    have ih := fun s' => whileF_forN c b f st m hc hc' hb j fuel s' (by omega) (by omega)
    rw [whileF, if_pos (hc _ _ hk), hb _ _ hk]
    have e : m - (j + 1) + 1 = m - j := by omega
    rw [show j + 1 = 1 + j by omega, forN_add]
    simp only [forN, Nat.add_zero]
    rw [show m - (1 + j) = m - (j + 1) by omega]
    rw [show (Except.ok s : Out σ).bind (f (m - (j + 1))) = f (m - (j + 1)) s from rfl]
    cases hfs : f (m - (j + 1)) s with
    | error er => rfl
    | ok s' =>
      show whileF fuel c b (st (m - (j + 1) + 1) s') = _
      rw [e, ih s']
      have : (fun i => f (m - j + i)) = (fun i => f (m - (j + 1) + (1 + i))) := by
        funext i; congr 1; omega
      rw [this]
      rfl

theorem nbBatches_lt {n B k : Nat} (hB : 0 < B) : k < nbBatches n B ↔ k * B < n := by
  unfold nbBatches
  rw [Nat.lt_div_iff_mul_lt hB]
  constructor <;> intro h <;> (try omega)

theorem nbBatches_le {n B : Nat} (hB : 0 < B) : nbBatches n B ≤ n := by
  by_contra h
  have := (nbBatches_lt (n := n) (k := n) hB).1 (by omega)
  nlinarith

theorem Mat.viewRowInt_ofFn {R C a b : Nat} (m : Nat → Nat → ℝ) (h1 : a < b) (h2 : b ≤ R) :
    (Mat.ofFn R C m).viewRowInt a b = .ok (rowsOf C a b m) := by
  unfold Mat.viewRowInt
  rw [show check ((a : Int) < b) = .ok () from check_true (by exact_mod_cast h1)]
  exact Mat.viewRow_ofFn m h1 h2

namespace Trainer

theorem batchLoop_eq {σ : Type} (n C D B : Nat) (hB : 0 < B) (x y : Nat → Nat → ℝ) (f : Nat → Mat ℝ → Mat ℝ → σ → Out σ) (s : σ) :
    batchLoop n B (Mat.ofFn n C x) (Mat.ofFn n D y) f s =
      forN (nbBatches n B) (fun k => f k (rowsOf C (batchStart B k) (batchEnd n B k) x) (rowsOf D (batchStart B k) (batchEnd n B k) y)) s := by
  have key := whileF_forN (τ := Nat × Nat × σ) (fun s => decide (s.2.1 < n)) (fun s => do
      let iEnd : Int := if (s.2.1 : Int) + B > n then n else s.2.1 + B
      let x ← (Mat.ofFn n C x).viewRowInt s.2.1 iEnd
      let y ← (Mat.ofFn n D y).viewRowInt s.2.1 iEnd
      let st ← f s.1 x y s.2.2
      return (s.1 + 1, iEnd.toNat, st))
    (fun k => f k (rowsOf C (batchStart B k) (batchEnd n B k) x) (rowsOf D (batchStart B k) (batchEnd n B k) y))
    (fun k s => (k, min (k * B) n, s)) (nbBatches n B)
    (fun k s hk => by
      have := (nbBatches_lt hB).1 hk
      simp only [decide_eq_true_eq]; omega)
    (fun s => by
      have : ¬ nbBatches n B * B < n := fun h => absurd ((nbBatches_lt hB).2 h) (lt_irrefl _)
      simp only [decide_eq_false_iff_not]; omega)
    (fun k s hk => by
      have hk := (nbBatches_lt hB).1 hk
      have hm : min (k * B) n = k * B := by omega
      dsimp only
      rw [hm]
      have e : (if ((k * B : Nat) : Int) + B > n then (n : Int) else ((k * B : Nat) : Int) + B) = ((batchEnd n B k : Nat) : Int) := by
        unfold batchEnd
        rw [Nat.add_mul, Nat.one_mul]
        split <;> omega
      have h1 : batchStart B k < batchEnd n B k := by
        unfold batchStart batchEnd; rw [Nat.add_mul]; omega
      have h2 : batchEnd n B k ≤ n := by unfold batchEnd; omega
      rw [e]
      show (do
        let x ← (Mat.ofFn n C x).viewRowInt (batchStart B k) (batchEnd n B k)
        let y ← (Mat.ofFn n D y).viewRowInt (batchStart B k) (batchEnd n B k)
        let st ← f k x y s
        return (k + 1, ((batchEnd n B k : Nat) : Int).toNat, st)) = _
      rw [Mat.viewRowInt_ofFn x h1 h2, Mat.viewRowInt_ofFn y h1 h2]
      simp only [bind_ok', Int.toNat_natCast]
      rfl)
    (nbBatches n B) n s le_rfl (nbBatches_le hB)
  simp only [Nat.sub_self, Nat.zero_mul, Nat.zero_min, Nat.zero_add] at key
  unfold batchLoop
  rw [key]
  generalize forN (nbBatches n B) _ s = r
  cases r <;> rfl

end Trainer

end BeeDNN
