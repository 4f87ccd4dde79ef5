import Verif.Lemmas.Coded
import Verif.Props.TrainAny

/-! # Training with class numbers and with one-hot rows (C148) -/

namespace BeeDNN
open Trainer

/-- C148: training with class numbers and SparseCategoricalCrossEntropy is the same as training with one-hot rows and CategoricalCrossEntropy: for every network whose layers fit together, with two classes or
more, every optimizer, regularizer, batch size and all random numbers, both trainings run to the end with the same memory (all layers of all networks), the same networks seen by the callback, and the same
results in the trainer: losses, accuracies, learning rate, state of the optimizers. -/
theorem C148_same {w : World} {t : Trainer} {n b depth : Nat} {form : Nat → Form} {N : Nat} {x : Nat → Row} {c : Nat → Nat}
    (h : TrainSetup w t n b depth form N (form depth).width x (hotRows c)) (hc : ∀ i, i < N → c i < (form depth).width) (hl : t.loss = "CategoricalCrossEntropy")
    (hK : 1 < (form depth).width) (hK' : (form depth).width ≤ 2147483648) {valid : Option (Mat ℝ × Mat ℝ)} (hv : SameValid (form 0).width (form depth).width t.valid valid)
    {k : OptKind} (hk : createOptimizer t.optName = some k) (eps : ℝ) {e : FitEnv} (he : e.Exact) :
    ∃ (w' : World) (t' : Trainer) (seen : List (List (Option Layer))), fit (fun x => |x|) eps e w t n b = .ok (w', t', seen) ∧
      fit (fun x => |x|) eps e w { t with loss := "SparseCategoricalCrossEntropy", train := some (Mat.ofFn N (form 0).width x, Mat.ofFn N 1 (classRows c)), valid := valid } n b =
        .ok (w', { t' with loss := "SparseCategoricalCrossEntropy", train := some (Mat.ofFn N (form 0).width x, Mat.ofFn N 1 (classRows c)), valid := valid }, seen) := by
  obtain ⟨w', t', seen, h1, -⟩ := fit_runs' h hk eps he
  obtain ⟨kinds, hr⟩ := h.net.ready
  exact ⟨w', t', seen, h1, fit_coded ⟨he.batch, he.eval⟩ hr h.net.nonempty h.owned h.slot h.fresh h.inOut h.gradient hk h.samples hc h.train
    ⟨Mat.shape_ofFn _ _ _, fun hf => Mat.above_ofFn.2 (h.floor hf)⟩ hl hK hK' hv h.valBatch h.batchSize h.balancing h.patience h1⟩

/-- C148 for evaluation: the loss and the accuracy of a network on data given in both ways are the same. -/
theorem C148_evaluate {w : World} {t : Trainer} {n depth : Nat} {form : Nat → Form} (h : Trainable w n depth form) (hn : t.net = some n) (hl : t.loss = "CategoricalCrossEntropy")
    (hK : 1 < (form depth).width) (hK' : (form depth).width ≤ 2147483648) (hw : t.lossWeight.size = 0) (hvb : 0 < t.valBatch) {data data' : Mat ℝ × Mat ℝ}
    (hd : SameClasses (form 0).width (form depth).width data data') (acc : Bool) (eps : ℝ) {e : Nat → Nat → Env} (he : ∀ k i, (e k i).Exact) :
    ∃ w' loss accuracy, t.computeLossAccuracy (fun x => |x|) eps e w data.1 data.2 acc = .ok (w', loss, accuracy) ∧
      { t with loss := "SparseCategoricalCrossEntropy" }.computeLossAccuracy (fun x => |x|) eps e w data'.1 data'.2 acc = .ok (w', loss, accuracy) := by
  obtain ⟨N, x, c, hc, rfl, rfl⟩ := hd
  exact computeLossAccuracy_coded (T := t.train) (V := t.valid) he hn (lasting_fits form) h.nodup h.count h.nonempty h.onNet hl hK hK' hw hvb x hc

/-- C148, why two classes or more: with a single output the trainer rounds the output and compares with the truth.  Outputs of one, as softmax gives them, all count as right with one-hot rows and as wrong with
class numbers. -/
theorem C148_one_output (N : Nat) : goodOnline (Mat.ofFn N 1 fun _ _ => 1) (Mat.ofFn N 1 (hotRows fun _ => 0)) = .ok N ∧ goodOnline (Mat.ofFn N 1 fun _ _ => 1) (Mat.ofFn N 1 (classRows fun _ => 0)) = .ok 0 := by
  classical
  have hr : World.roundf 1 = 1 := by
    unfold World.roundf
    rw [if_pos zero_le_one, show ⌊(1 : ℝ) + 1 / 2⌋ = 1 by rw [Int.floor_eq_iff]; norm_num]
    norm_num
  rw [goodOnline_ofFn N 1 1 _ _ one_pos (.inl rfl), goodOnline_ofFn N 1 1 _ _ one_pos (.inl rfl)]
  constructor <;> refine congrArg Except.ok ?_ <;> unfold nbRight
  · rw [Finset.filter_true_of_mem, Finset.card_range]
    intro i _
    unfold IsRight hotRows
    rw [if_pos rfl]
    simp [hr]
  · rw [Finset.card_eq_zero, Finset.filter_eq_empty_iff]
    intro i _
    unfold IsRight classRows
    rw [if_pos rfl]
    simp [hr]

/-! ## Instances -/

/-- `cnnTrainer` with one-hot rows, keeping the best network on other images. -/
noncomputable def cnnHot : Trainer :=
  { cnnTrainer with
    loss := "CategoricalCrossEntropy", keepBest := true
    train := some (Mat.ofFn 6 16 (fun i j => (i : ℝ) - j), Mat.ofFn 6 3 (hotRows fun i => i % 3))
    valid := some (Mat.ofFn 2 16 (fun i j => (i : ℝ) * j), Mat.ofFn 2 3 (hotRows fun i => i)) }

theorem cnnHot_valid : SameValid (cnnForm 0).width (cnnForm 5).width cnnHot.valid (some (Mat.ofFn 2 16 (fun i j => (i : ℝ) * j), Mat.ofFn 2 1 (classRows fun i => i))) :=
  .inr ⟨_, _, rfl, rfl, 2, _, fun i => i, fun i hi => lt_of_lt_of_le hi (by decide), rfl, rfl⟩

example {w : World} (h : Trainable w 0 5 cnnForm) (ho : Owned w) (hn : (w.nets 1).layers = []) (eps : ℝ) {e : FitEnv} (he : e.Exact) :
    ∃ (w' : World) (t' : Trainer) (seen : List (List (Option Layer))), fit (fun x => |x|) eps e w cnnHot 0 1 = .ok (w', t', seen) ∧
      fit (fun x => |x|) eps e w { cnnHot with
          loss := "SparseCategoricalCrossEntropy", train := some (Mat.ofFn 6 16 (fun i j => (i : ℝ) - j), Mat.ofFn 6 1 (classRows fun i => i % 3))
          valid := some (Mat.ofFn 2 16 (fun i j => (i : ℝ) * j), Mat.ofFn 2 1 (classRows fun i => i)) } 0 1 =
        .ok (w', { t' with
          loss := "SparseCategoricalCrossEntropy", train := some (Mat.ofFn 6 16 (fun i j => (i : ℝ) - j), Mat.ofFn 6 1 (classRows fun i => i % 3))
          valid := some (Mat.ofFn 2 16 (fun i j => (i : ℝ) * j), Mat.ofFn 2 1 (classRows fun i => i)) }, seen) :=
  C148_same (form := cnnForm) (depth := 5) (N := 6) (c := fun i => i % 3)
    { net := h
      owned := ho
      slot := by decide
      fresh := hn
      inOut := fun _ h => absurd h List.not_mem_nil
      gradient := fun _ h => absurd h List.not_mem_nil
      samples := by decide
      train := rfl
      floor := fun h => by cases h
      truth := by
        show TruthFits "CategoricalCrossEntropy" 3 3 6 _
        exact hot_fits _
      valid := fun d h => by
        injection h with h
        subst h
        exact ⟨2, 3, _, _, by show TruthFits "CategoricalCrossEntropy" 3 3 2 _; exact hot_fits fun i => i, rfl⟩
      valBatch := by decide
      batchSize := by decide
      loss := by show "CategoricalCrossEntropy" ∈ listLoss; decide
      balancing := rfl
      patience := .inl rfl }
    (fun i _ => Nat.mod_lt _ (by decide)) rfl (by decide) (by decide) cnnHot_valid (k := .adam) rfl eps he

example {w : World} (h : Trainable w 0 5 cnnForm) (eps : ℝ) {e : Nat → Nat → Env} (he : ∀ k i, (e k i).Exact) :
    ∃ w' loss accuracy,
      { cnnHot with net := some 0 }.computeLossAccuracy (fun x => |x|) eps e w (Mat.ofFn 7 16 fun i j => (i : ℝ) * j) (Mat.ofFn 7 3 (hotRows fun i => i % 3)) true = .ok (w', loss, accuracy) ∧
      { cnnHot with net := some 0, loss := "SparseCategoricalCrossEntropy" }.computeLossAccuracy (fun x => |x|) eps e w (Mat.ofFn 7 16 fun i j => (i : ℝ) * j)
        (Mat.ofFn 7 1 (classRows fun i => i % 3)) true = .ok (w', loss, accuracy) :=
  C148_evaluate (t := { cnnHot with net := some 0 }) (form := cnnForm) h rfl rfl (by decide) (by decide) rfl (by decide)
    (data := (Mat.ofFn 7 16 fun i j => (i : ℝ) * j, Mat.ofFn 7 3 (hotRows fun i => i % 3))) (data' := (Mat.ofFn 7 16 fun i j => (i : ℝ) * j, Mat.ofFn 7 1 (classRows fun i => i % 3)))
    ⟨7, _, fun i => i % 3, fun i _ => Nat.mod_lt _ (by decide), rfl, rfl⟩ true eps he

end BeeDNN
