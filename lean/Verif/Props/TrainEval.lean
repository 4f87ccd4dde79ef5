import Verif.Lemmas.TrainLoss
import Verif.Props.Net
import Verif.Props.Mlp

/-! # Evaluation: C54 -/

namespace BeeDNN
open Finset

/-- C54: evaluating a network on `N` samples with validation batches of `B`, for any of the twelve losses.  The loss
reported is the sum over the batches of the losses of the batches, the accuracy the percentage of right predictions. -/
theorem C54_evaluation (eps : ℝ) (e : Nat → Nat → Env) (w : World) (ho : Owned w) (t : Trainer) (n : Nat) (hnet : t.net = some n)
    (hne : (w.nets n).layers ≠ []) (C K D : Nat) (hK : 0 < K) (φ : Row → Row) (hf : NetFn w (w.nets n).layers C K φ)
    (ht : TestMode w (w.nets n).layers) (hl : t.loss ∈ listLoss) (hw : t.lossWeight.size = 0) (B : Nat) (hB : 0 < B) (hval : t.valBatch = B)
    (N : Nat) (hN : 0 < N) (X Y : Nat → Row) (hY : TruthFits t.loss K D N Y) :
    ∃ w', t.computeLossAccuracy (fun x => |x|) eps e w (Mat.ofFn N C X) (Mat.ofFn N D Y) true = .ok (w',
      ∑ k ∈ range (nbBatches N B),
        (∑ i ∈ Ico (batchStart B k) (batchEnd N B k), sampleLoss eps t.loss K (φ (X i)) (Y i)) /
          (if t.loss ∈ sumLosses then 1 else ((batchEnd N B k - batchStart B k : Nat) : ℝ)),
      100 * nbRight N K D (fun i => φ (X i)) Y / N) ∧
      NetFn w' (w'.nets n).layers C K φ ∧ w'.nets = w.nets := by
  have hD : D = K ∨ D = 1 := by
    by_cases hs : t.loss = "SparseCategoricalCrossEntropy"
    · rw [TruthFits, if_pos hs] at hY; exact .inr hY.1
    · exact .inl (hY.same hs).1
  have hY' : ∀ a N', a + N' ≤ N → TruthFits t.loss K D N' (fun i => Y (a + i)) := by
    intro a N' h
    unfold TruthFits at hY ⊢
    split at hY
    · rename_i hs
      rw [if_pos hs]
      exact ⟨hY.1, hY.2.1, fun i hi => hY.2.2 (a + i) (by omega)⟩
    · rename_i hs
      rw [if_neg hs]
      exact hY
  obtain ⟨w', h1, h2, -, -, h4⟩ := Trainer.computeLossAccuracy_ok (ab := fun x => |x|) (eps := eps) (e := e) hnet hne
    (fun w' => NetFn w' (w'.nets n).layers C K φ ∧ TestMode w' (w'.nets n).layers ∧ Owned w' ∧ w'.nets = w.nets) ⟨hf, ht, ho, rfl⟩ C K D hK hD φ
    (fun w₁ e N X o hq ho => by
      obtain ⟨q1, q2, q3, q4⟩ := hq
      obtain ⟨w', p1, p2, p3, p4, p5, -⟩ := C47_compose e w₁ q3 n (by rw [q4]; exact hne) C K φ q1 q2 N X o ho
      exact ⟨w', p1, p2, p3, p4, p5.trans q4⟩)
    B hB hval N hN X Y
    (fun a N' => (∑ i ∈ range N', sampleLoss eps t.loss K (φ (X (a + i))) (Y (a + i))) / (if t.loss ∈ sumLosses then 1 else (N' : ℝ)))
    (fun g a N' o ho _ h => Trainer.lossCompute_fits hl hw hK (hY' a N' h) g ho)
  refine ⟨w', ?_, h2, h4⟩
  rw [h1]
  congr 3
  refine sum_congr rfl fun k _ => ?_
  rw [sum_Ico_eq_sum_range]

/-- C54: the accuracy does not depend on the batch size. -/
theorem C54_accuracy (eps : ℝ) (e : Nat → Nat → Env) (w : World) (ho : Owned w) (t : Trainer) (n : Nat) (hnet : t.net = some n)
    (hne : (w.nets n).layers ≠ []) (C K D : Nat) (hK : 0 < K) (φ : Row → Row) (hf : NetFn w (w.nets n).layers C K φ)
    (ht : TestMode w (w.nets n).layers) (hl : t.loss ∈ listLoss) (hw : t.lossWeight.size = 0) (hval : 0 < t.valBatch)
    (N : Nat) (hN : 0 < N) (X Y : Nat → Row) (hY : TruthFits t.loss K D N Y) :
    ∃ w' l, t.computeLossAccuracy (fun x => |x|) eps e w (Mat.ofFn N C X) (Mat.ofFn N D Y) true =
      .ok (w', l, 100 * nbRight N K D (fun i => φ (X i)) Y / N) := by
  obtain ⟨w', h, -⟩ := C54_evaluation eps e w ho t n hnet hne C K D hK φ hf ht hl hw t.valBatch.toNat (by omega) (by omega) N hN X Y hY
  exact ⟨w', _, h⟩

theorem sum_batches (N B : Nat) (hB : 0 < B) (f : Nat → ℝ) :
    ∑ k ∈ range (nbBatches N B), ∑ i ∈ Ico (batchStart B k) (batchEnd N B k), f i = ∑ i ∈ range N, f i := by
  have key : ∀ q, q ≤ nbBatches N B → ∑ k ∈ range q, ∑ i ∈ Ico (batchStart B k) (batchEnd N B k), f i = ∑ i ∈ range (min (q * B) N), f i := by
    intro q
    induction q with
    | zero => intro _; simp
    | succ q ih =>
      intro hq
      have h1 := (nbBatches_lt hB).1 (show q < nbBatches N B by omega)
      rw [sum_range_succ, ih (by omega), show min (q * B) N = batchStart B q by unfold batchStart; omega,
        show min ((q + 1) * B) N = batchEnd N B q from rfl]
      exact sum_range_add_sum_Ico f (by unfold batchStart batchEnd; rw [Nat.add_mul]; omega)
  rw [key _ le_rfl]
  have : ¬ nbBatches N B * B < N := fun h => absurd ((nbBatches_lt hB).2 h) (lt_irrefl _)
  rw [min_eq_right (by omega)]

/-- C54, losses that sum (L1, L2, L3): the loss reported is the sum over the samples, for every batch size. -/
theorem C54_sum_loss (eps : ℝ) (e : Nat → Nat → Env) (w : World) (ho : Owned w) (t : Trainer) (n : Nat) (hnet : t.net = some n)
    (hne : (w.nets n).layers ≠ []) (C K D : Nat) (hK : 0 < K) (φ : Row → Row) (hf : NetFn w (w.nets n).layers C K φ)
    (ht : TestMode w (w.nets n).layers) (hl : t.loss ∈ sumLosses) (hw : t.lossWeight.size = 0) (hval : 0 < t.valBatch)
    (N : Nat) (hN : 0 < N) (X Y : Nat → Row) (hY : TruthFits t.loss K D N Y) :
    ∃ w' a, t.computeLossAccuracy (fun x => |x|) eps e w (Mat.ofFn N C X) (Mat.ofFn N D Y) true =
      .ok (w', ∑ i ∈ range N, sampleLoss eps t.loss K (φ (X i)) (Y i), a) := by
  have hl' : t.loss ∈ listLoss := by
    simp only [sumLosses, List.mem_cons, List.not_mem_nil, or_false] at hl
    rcases hl with h | h | h <;> rw [h] <;> decide
  obtain ⟨w', h, -⟩ := C54_evaluation eps e w ho t n hnet hne C K D hK φ hf ht hl' hw t.valBatch.toNat (by omega) (by omega) N hN X Y hY
  refine ⟨w', 100 * nbRight N K D (fun i => φ (X i)) Y / N, ?_⟩
  rw [h]
  simp only [hl, if_true, div_one]
  rw [sum_batches N _ (by omega)]

/-- C54, the other losses, if one batch holds all samples: the mean over the samples.  Missing: for more batches the
claim is false, see `C54_loss_wrong`. -/
theorem C54_mean_loss_partial (eps : ℝ) (e : Nat → Nat → Env) (w : World) (ho : Owned w) (t : Trainer) (n : Nat) (hnet : t.net = some n)
    (hne : (w.nets n).layers ≠ []) (C K D : Nat) (hK : 0 < K) (φ : Row → Row) (hf : NetFn w (w.nets n).layers C K φ)
    (ht : TestMode w (w.nets n).layers) (hl : t.loss ∈ listLoss) (hs : t.loss ∉ sumLosses) (hw : t.lossWeight.size = 0)
    (N : Nat) (hN : 0 < N) (hval : (N : Int) ≤ t.valBatch) (X Y : Nat → Row) (hY : TruthFits t.loss K D N Y) :
    ∃ w' a, t.computeLossAccuracy (fun x => |x|) eps e w (Mat.ofFn N C X) (Mat.ofFn N D Y) true =
      .ok (w', (∑ i ∈ range N, sampleLoss eps t.loss K (φ (X i)) (Y i)) / N, a) := by
  obtain ⟨w', h, -⟩ := C54_evaluation eps e w ho t n hnet hne C K D hK φ hf ht hl hw t.valBatch.toNat (by omega) (by omega) N hN X Y hY
  refine ⟨w', 100 * nbRight N K D (fun i => φ (X i)) Y / N, ?_⟩
  rw [h]
  have h1 : nbBatches N t.valBatch.toNat = 1 := by
    have a := (nbBatches_lt (n := N) (B := t.valBatch.toNat) (k := 0) (by omega)).2 (by omega)
    have b : ¬ 1 < nbBatches N t.valBatch.toNat := fun h => by
      have := (nbBatches_lt (n := N) (B := t.valBatch.toNat) (k := 1) (by omega)).1 h
      omega
    omega
  have h2 : batchEnd N t.valBatch.toNat 0 = N := by unfold batchEnd; omega
  rw [h1]
  simp only [range_one, sum_singleton, hs, if_false, h2]
  simp [batchStart]

/-- C54 is violated: if the samples fill `q` batches exactly, the loss reported is `q` times the mean. -/
theorem C54_loss_wrong (eps : ℝ) (e : Nat → Nat → Env) (w : World) (ho : Owned w) (t : Trainer) (n : Nat) (hnet : t.net = some n)
    (hne : (w.nets n).layers ≠ []) (C K D : Nat) (hK : 0 < K) (φ : Row → Row) (hf : NetFn w (w.nets n).layers C K φ)
    (ht : TestMode w (w.nets n).layers) (hl : t.loss ∈ listLoss) (hs : t.loss ∉ sumLosses) (hw : t.lossWeight.size = 0) (B : Nat) (hB : 0 < B)
    (hval : t.valBatch = B) (q : Nat) (hq : 0 < q) (X Y : Nat → Row) (hY : TruthFits t.loss K D (q * B) Y) :
    ∃ w' a, t.computeLossAccuracy (fun x => |x|) eps e w (Mat.ofFn (q * B) C X) (Mat.ofFn (q * B) D Y) true =
      .ok (w', q * ((∑ i ∈ range (q * B), sampleLoss eps t.loss K (φ (X i)) (Y i)) / ((q * B : Nat) : ℝ)), a) := by
  have hN : 0 < q * B := Nat.mul_pos hq hB
  obtain ⟨w', h, -⟩ := C54_evaluation eps e w ho t n hnet hne C K D hK φ hf ht hl hw B hB hval (q * B) hN X Y hY
  refine ⟨w', 100 * nbRight (q * B) K D (fun i => φ (X i)) Y / ((q * B : Nat) : ℝ), ?_⟩
  rw [h]
  have h1 : nbBatches (q * B) B = q := by
    have a := @nbBatches_lt (q * B) B (q - 1) hB
    have b := @nbBatches_lt (q * B) B q hB
    have : (q - 1) * B < q * B := Nat.mul_lt_mul_of_pos_right (by omega) hB
    omega
  rw [← sum_batches (q * B) B hB, h1]
  have hBr : (B : ℝ) ≠ 0 := Nat.cast_ne_zero.mpr hB.ne'
  have hqr : (q : ℝ) ≠ 0 := Nat.cast_ne_zero.mpr hq.ne'
  have e : (∑ k ∈ range q, (∑ i ∈ Ico (batchStart B k) (batchEnd (q * B) B k), sampleLoss eps t.loss K (φ (X i)) (Y i)) /
      (if t.loss ∈ sumLosses then 1 else ((batchEnd (q * B) B k - batchStart B k : Nat) : ℝ))) =
      ∑ k ∈ range q, (∑ i ∈ Ico (batchStart B k) (batchEnd (q * B) B k), sampleLoss eps t.loss K (φ (X i)) (Y i)) / (B : ℝ) := by
    refine sum_congr rfl fun k hk => ?_
    have hk := mem_range.mp hk
    have : (k + 1) * B ≤ q * B := Nat.mul_le_mul_right B hk
    rw [if_neg hs, show batchEnd (q * B) B k - batchStart B k = B by unfold batchEnd batchStart; rw [min_eq_left this, Nat.add_mul]; omega]
  rw [e, ← sum_div, Nat.cast_mul]
  congr 3
  field_simp

example : "CategoricalCrossEntropy" ∈ listLoss ∧ "CategoricalCrossEntropy" ∉ sumLosses ∧
    TruthFits "CategoricalCrossEntropy" 3 3 10 (fun i j => if i % 3 = j then 1 else 0) ∧
    TruthFits "SparseCategoricalCrossEntropy" 3 1 10 (fun i _ => ((i % 3 : Nat) : ℝ)) := by
  refine ⟨by decide, by decide, ?_, ?_⟩
  · unfold TruthFits
    rw [if_neg (by decide)]
    exact ⟨rfl, fun h => absurd h (by decide)⟩
  · unfold TruthFits
    rw [if_pos rfl]
    exact ⟨rfl, by decide, fun i _ => ⟨i % 3, Nat.mod_lt _ (by decide), rfl⟩⟩

/-- Validation batches of one sample, four samples: the loss is reported four times too large. -/
example (eps : ℝ) (e : Nat → Nat → Env) (X Y : Nat → Row) :
    ∃ (φ : Row → Row) (w' : World) (a : ℝ), Trainer.computeLossAccuracy (fun x => |x|) eps e netWitness { net := some 0, valBatch := 1 }
      (Mat.ofFn 4 2 X) (Mat.ofFn 4 1 Y) true =
        .ok (w', 4 * ((∑ i ∈ range 4, sampleLoss eps "MeanSquaredError" 1 (φ (X i)) (Y i)) / 4), a) := by
  obtain ⟨φ, hφ⟩ := netWitness_fn
  obtain ⟨w', a, h⟩ := C54_loss_wrong eps e netWitness netWitness_owned { net := some 0, valBatch := 1 } 0 rfl (by simp [netWitness]) 2 1 1
    (by decide) φ hφ netWitness_test (by decide) (by decide) rfl 1 (by decide) rfl 4 (by decide) X Y (by
      unfold TruthFits
      rw [if_neg (by decide)]
      exact ⟨rfl, fun h => absurd h (by decide)⟩)
  exact ⟨φ, w', a, by simpa using h⟩

end BeeDNN
