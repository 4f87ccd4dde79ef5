import Verif.Spec.Program
import Verif.Props.Build
import Verif.Props.MlpFit
import Verif.Props.Loss

/-! # Lemmas: whole training programs -/

namespace BeeDNN
open Finset World Trainer

theorem World.addAll_owned {n : Nat} : ∀ {ls : List (Out Layer)} {w w' : World}, Owned w → World.addAll n ls w = .ok w' → Owned w'
  | [], w, w', ho, h => by
    cases h
    exact ho
  | .error f :: ls, w, w', ho, h => by cases h
  | .ok l :: ls, w, w', ho, h => World.addAll_owned (frame_add ho n l).owned (show World.addAll n ls ((w.alloc l).add n w.heap.length) = .ok w' from h)

/-- The trainer of the program, before `fit`. -/
noncomputable def ProgramSettings.trainer (s : ProgramSettings) (x y : Mat ℝ) : Trainer :=
  { loss := s.loss, optName := s.optimizer, lr := s.learningRate, epochs := s.epochs, batchSize := s.batchSize, keepBest := s.keepBest, train := some (x, y) }

theorem trainingProgram_eq (g : Nat → ℝ) (eps : ℝ) (e : FitEnv) {layers : List (Out Layer)} {s : ProgramSettings} (x y : Mat ℝ) (hs : s.loss ∈ listLoss) {w : World}
    (hw : World.addAll 0 layers ⟨[], fun _ => {}⟩ = .ok w) :
    trainingProgram g eps e layers s x y = (do
      let (w, _, _) ← Trainer.fit (fun x => |x|) eps e w (s.trainer x y) 0 1
      return w) := by
  obtain ⟨ℓ, hℓ⟩ := Option.isSome_iff_exists.1 (((C62_loss g (fun x => |x|) eps).1 s.loss).2 hs)
  have hn : ℓ.name = s.loss := (C62_loss g (fun x => |x|) eps).2.1 _ _ hℓ
  unfold trainingProgram
  rw [hw, bind_ok']
  dsimp only
  rw [show Trainer.setLoss g (fun x => |x|) eps {} s.loss = .ok { loss := s.loss } by rw [Trainer.setLoss, hℓ]; dsimp only; rw [hn], bind_ok']
  rfl

theorem program_setup {width : Nat → Nat} {kind : Nat → PlyKind} {depth : Nat} {wi bi : Nat → String} (hwi : ∀ i, wi i ∈ initNames) (hbi : ∀ i, bi i ∈ initNames) (hd : 0 < depth)
    (hpos : ∀ i, i ≤ depth → 0 < width i) (hk : ∀ i, i < depth → kind i ≠ .bias ∧ (kind i).Fits (width i) (width (i + 1))) (env : Nat → Env) :
    ∃ (w : World) (m : Mlp), World.addAll 0 ((List.range depth).map fun i => (kind i).construct (env i) (width i) (width (i + 1)) (wi i) (bi i)) ⟨[], fun _ => {}⟩ = .ok w ∧
      m.depth = depth ∧ m.width = width ∧ (∀ i, i < depth → (m.ply i).kind = kind i) ∧
      ∀ (N D : Nat) (x y : Nat → Row) (s : ProgramSettings), 0 < N → TruthFits s.loss (width depth) D N y → s.loss ∈ listLoss → 0 ≤ s.batchSize →
        FitSetup w (s.trainer (Mat.ofFn N (width 0) x) (Mat.ofFn N D y)) 0 1 m N D x y := by
  obtain ⟨w, m, h1, h2, rfl, rfl, h5, h6, -⟩ := C145_build env hwi hbi hd hpos hk (w := ⟨[], fun _ => {}⟩) (n := 0) rfl
  refine ⟨w, m, h1, rfl, rfl, h5, fun N D x y s hN ht hl hb => ?_⟩
  exact
    { net := h2
      owned := addAll_owned ⟨fun n a ha => absurd ha List.not_mem_nil, fun _ => List.nodup_nil, fun n k a ha => absurd ha List.not_mem_nil⟩ h1
      slot := by decide
      fresh := by rw [h6 1 (by decide)]
      inOut := fun _ h => absurd h List.not_mem_nil
      gradient := fun _ h => absurd h List.not_mem_nil
      samples := hN
      train := rfl
      truth := ht
      valid := fun d h => by cases h
      valBatch := by show (0 : Int) < 128; decide
      batchSize := hb
      loss := hl
      reg := rfl
      balancing := rfl
      patience := .inl rfl }

end BeeDNN
