import Verif.Lemmas.TrainAcc
import Verif.Lemmas.TrainBatch
import Verif.Lemmas.Mlp

/-! # Evaluation of a network on a data set -/

namespace BeeDNN
open Finset HasWF

theorem whileF_prog {σ : Type} {c : σ → Bool} {b : σ → Out σ} (P : Nat → σ → Prop) {m : Nat} (hc : ∀ k s, P k s → (c s = true ↔ k < m))
    (hb : ∀ k s, k < m → P k s → ∃ s', b s = .ok s' ∧ P (k + 1) s') :
    ∀ (j fuel : Nat) (s : σ), j ≤ m → j ≤ fuel → P (m - j) s → ∃ s', whileF fuel c b s = .ok s' ∧ P m s'
  | 0, fuel, s, _, _, h => by
    have : c s = false := by
      have := hc _ s h
      cases hcs : c s
      · rfl
      · exact absurd (this.1 hcs) (by omega)
    cases fuel <;> exact ⟨s, by simp [whileF, this], h⟩
  | j + 1, 0, s, _, h, _ => absurd h (by omega)
  | j + 1, fuel + 1, s, hj, hf, h => by
    have hk : m - (j + 1) < m := by omega
    obtain ⟨s', h1, h2⟩ := hb _ s hk h
    obtain ⟨s'', h3, h4⟩ := whileF_prog P hc hb j fuel s' (by omega) (by omega) (by rw [show m - j = m - (j + 1) + 1 by omega]; exact h2)
    refine ⟨s'', ?_, h4⟩
    rw [whileF, if_pos ((hc _ s h).2 hk), h1]
    exact h3

theorem exists_bind {α β γ : Type} {m : Out α} {f : α → Out β} {F : γ → β} {Q : γ → Prop} (P : α → Prop) (h : ∃ s, m = .ok s ∧ P s)
    (hf : ∀ s, P s → ∃ w, f s = .ok (F w) ∧ Q w) : ∃ w, (m >>= f) = .ok (F w) ∧ Q w := by
  obtain ⟨s, h1, h2⟩ := h
  obtain ⟨w, h3, h4⟩ := hf s h2
  exact ⟨w, by rw [h1, bind_ok', h3], h4⟩

/-- Predicting changes nothing but scratch members. -/
theorem Represents.predictLoop {e : Nat → Env} {n : Nat} {m : Mlp} (N : Nat) (X : Nat → Row) :
    ∀ (as : List Nat) (k : Nat) (w : World), Represents w n m → (w.nets n).layers.drop k = as → ∀ (o : Mat ℝ), o.WF →
      (k = m.depth → o = Mat.ofFn N (m.width k) (fun s => m.hidden (X s) k)) → k ≤ m.depth →
      ∃ w' x, World.predictLoop e k as w (Mat.ofFn N (m.width k) (fun s => m.hidden (X s) k)) o =
        .ok (w', x, Mat.ofFn N (m.width m.depth) (fun s => m.out (X s))) ∧ w.Scratch w'
  | [], k, w, h, hd, o, ho, hk, hle => by
    have hl := congrArg List.length hd
    rw [List.length_drop, h.count, List.length_nil] at hl
    by_cases hkd : k = m.depth
    · subst hkd
      rw [hk rfl]
      exact ⟨_, _, rfl, .refl w⟩
    · omega
  | a :: as, k, w, h, hd, o, ho, hk, hle => by
    have hka : (w.nets n).layers[k]? = some a := by
      have := congrArg (fun l => l[0]?) hd
      simpa using this
    have hlt := h.lt hka
    obtain ⟨l, hla, hv, hIs, hf⟩ := h.layer k a hka
    have hd' : (w.nets n).layers.drop (k + 1) = as := by
      have := congrArg (List.drop 1) hd
      simpa [List.drop_drop] using this
    obtain ⟨q1, q2, q3⟩ := h.ok.fit hlt
    obtain ⟨l', f1, f2, f3, -⟩ := Ply.forward (e := e k) hIs q1 q2 q3 hv ho N (fun s => m.hidden (X s) k)
    have hs := World.Scratch.store hla f2 f3
    obtain ⟨w', x, hx, hx'⟩ := Represents.predictLoop N X as (k + 1) _ (h.scratch hs) hd' (Mat.ofFn N (m.width (k + 1)) (fun s => m.hidden (X s) (k + 1)))
      (Mat.ofFn_WF _ _ _) (fun _ => rfl) hlt
    refine ⟨w', x, ?_, hs.trans hx'⟩
    rw [World.predictLoop, World.deref_eq hla, bind_ok', f1, bind_ok']
    dsimp only
    rw [Mat.assign_eq _ (Mat.ofFn_WF _ _ _) (Mat.ofFn_WF _ _ _), bind_ok']
    exact hx

theorem Represents.predict {e : Nat → Env} {w : World} {n : Nat} {m : Mlp} (h : Represents w n m) (N : Nat) (X : Nat → Row) (o : Mat ℝ) (ho : o.WF) :
    ∃ w', w.predict e n (Mat.ofFn N (m.width 0) X) o = .ok (w', Mat.ofFn N (m.width m.depth) (fun s => m.out (X s))) ∧ w.Scratch w' := by
  obtain ⟨w', x, hx, hx'⟩ := Represents.predictLoop (e := e) N X _ 0 w h rfl o ho (fun h0 => absurd h.ok.depth (by omega)) (by omega)
  refine ⟨w', ?_, hx'⟩
  unfold World.predict
  erw [hx]
  rfl

namespace Trainer

/-- Evaluation batch by batch.  `Q` says what is needed of the world to predict. -/
theorem computeLossAccuracy_ok {ab : ℝ → ℝ} {eps : ℝ} {e : Nat → Nat → Env} {w : World} {t : Trainer} {n : Nat} (hnet : t.net = some n)
    (hne : (w.nets n).layers ≠ []) (Q : World → Prop) (hQ : Q w) (C K D : Nat) (hK : 0 < K) (hD : D = K ∨ D = 1) (φ : Row → Row)
    (hP : ∀ w e N X o, Q w → o.WF → ∃ w', w.predict e n (Mat.ofFn N C X) o = .ok (w', Mat.ofFn N K (fun s => φ (X s))) ∧ Q w')
    (B : Nat) (hB : 0 < B) (hval : t.valBatch = B) (N : Nat) (hN : 0 < N) (X Y : Nat → Row) (L : Nat → Nat → ℝ)
    (hL : ∀ g a N' o, Mat.WF o → 0 < N' → a + N' ≤ N → ∃ M, t.lossCompute g ab eps (Mat.ofFn N' K (fun i => φ (X (a + i))))
      (Mat.ofFn N' D (fun i => Y (a + i))) o = .ok M ∧ M.WF ∧ M.mean = .ok (L a N')) :
    ∃ w', computeLossAccuracy ab eps e w t (Mat.ofFn N C X) (Mat.ofFn N D Y) true = .ok (w',
      ∑ k ∈ range (nbBatches N B), L (batchStart B k) (batchEnd N B k - batchStart B k),
      100 * nbRight N K D (fun s => φ (X s)) Y / N) ∧ Q w' := by
  unfold computeLossAccuracy
  rw [hnet]
  dsimp only
  rw [if_neg (by
    rintro (h | h)
    · exact hne (List.length_eq_zero_iff.mp h)
    · rw [Mat.ofFn_rows] at h; omega)]
  rw [hval]
  have P : Nat → EvalSt → Prop := fun _ _ => True
  refine exists_bind _ (whileF_prog (fun k (s : EvalSt) => s.k = k ∧ s.iStart = k * B ∧ Q s.w ∧ s.mOut.WF ∧ s.mSamples.WF ∧ s.mTruth.WF ∧ s.mLoss.WF ∧
      s.loss = ∑ k ∈ range k, L (batchStart B k) (batchEnd N B k - batchStart B k) ∧
      s.good = nbRight (min (k * B) N) K D (fun s => φ (X s)) Y) (m := nbBatches N B) ?_ ?_ (nbBatches N B) _ _ le_rfl
      (by rw [Mat.ofFn_rows]; exact nbBatches_le hB)
      (by
        rw [Nat.sub_self]
        exact ⟨rfl, by simp, hQ, Mat.WF_empty, Mat.WF_empty, Mat.WF_empty, Mat.WF_empty, by simp, by simp [nbRight]⟩)) ?_
  rotate_right
  · rintro s ⟨-, -, h3, -, -, -, -, h4, h5⟩
    refine ⟨s.w, ?_, h3⟩
    rw [Mat.ofFn_rows, h4, h5]
    have : ¬ nbBatches N B * B < N := fun h => absurd ((nbBatches_lt hB).2 h) (lt_irrefl _)
    rw [min_eq_right (by omega)]
    rfl
  · rintro k s ⟨-, h2, -⟩
    simp only [decide_eq_true_eq, Mat.ofFn_rows, h2]
    exact (nbBatches_lt hB).symm
  · rintro k ⟨k', iStart, w₁, mOut, mS, mT, mL, loss, good⟩ hk ⟨h1, h2, h3, h4, h5, h6, h7, h8, h9⟩
    dsimp only at h1 h2 h3 h4 h5 h6 h7 h8 h9
    subst h1 h2
    have hk' := (nbBatches_lt hB).1 hk
    have ee : (if ((k' * B : Nat) : Int) + B > ((Mat.ofFn N C X).rows : Int) then ((Mat.ofFn N C X).rows : Int) else ((k' * B : Nat) : Int) + B) =
        ((batchEnd N B k' : Nat) : Int) := by
      rw [Mat.ofFn_rows]
      unfold batchEnd
      rw [Nat.add_mul, Nat.one_mul]
      split <;> omega
    have hlt : k' * B < batchEnd N B k' := by unfold batchEnd; rw [Nat.add_mul]; omega
    have hle : batchEnd N B k' ≤ N := by unfold batchEnd; omega
    dsimp only
    rw [ee, Mat.viewRowInt_ofFn _ hlt hle, bind_ok', rowsOf, Mat.assign_ofFn _ h5, bind_ok', Mat.viewRowInt_ofFn _ hlt hle, bind_ok', rowsOf,
      Mat.assign_ofFn _ h6, bind_ok']
    obtain ⟨w₂, p1, p2⟩ := hP w₁ (fun i => e k' (i + 3)) (batchEnd N B k' - k' * B) (fun i => X (k' * B + i)) mOut h3 h4
    obtain ⟨M, m1, m2, m3⟩ := hL (e k' 2).g (k' * B) (batchEnd N B k' - k' * B) mL h7 (by omega) (by omega)
    erw [p1]
    rw [bind_ok']
    dsimp only
    erw [m1]
    rw [bind_ok', m3, bind_ok', goodIf, if_pos rfl]
    rw [show (((batchEnd N B k' : Nat) : Int) - ((k' * B : Nat) : Int)).toNat = batchEnd N B k' - k' * B by omega]
    erw [goodEval_ofFn _ K D _ _ hK hD]
    rw [bind_ok']
    refine ⟨_, rfl, rfl, ?_, p2, Mat.ofFn_WF _ _ _, Mat.ofFn_WF _ _ _, Mat.ofFn_WF _ _ _, m2, ?_, ?_⟩
    · dsimp only; rw [Nat.add_mul, Nat.one_mul]; omega
    · rw [sum_range_succ, h8]; rfl
    · rw [h9]
      have e1 : min (k' * B) N = k' * B := by omega
      have e2 : min ((k' + 1) * B) N = k' * B + (batchEnd N B k' - k' * B) := by unfold batchEnd at *; omega
      rw [e1, e2, nbRight_add]

end Trainer

end BeeDNN
