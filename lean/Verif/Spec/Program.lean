import Verif.Spec.Build
import Verif.Model.Train

/-! # Specification: a whole training program -/

namespace BeeDNN

/-- What a program sets before it calls `fit`; all else is as the constructor of the trainer left it. -/
structure ProgramSettings where
  loss : String
  optimizer : String
  learningRate : ℝ
  epochs : Int
  batchSize : Int
  keepBest : Bool

/-- A program like the samples: make a network and add the layers, make a trainer, set loss, optimizer and so on, give it the data, and call `fit`. -/
noncomputable def trainingProgram (g : Nat → ℝ) (eps : ℝ) (e : Trainer.FitEnv) (layers : List (Out Layer)) (s : ProgramSettings) (x y : Mat ℝ) : Out World := do
  let w ← World.addAll 0 layers ⟨[], fun _ => {}⟩
  let t : Trainer := {}
  let t ← t.setLoss g (fun x => |x|) eps s.loss
  let t := t.setOptimizer s.optimizer
  let t := t.setLearningRate g s.learningRate
  let t := { t with epochs := s.epochs, batchSize := s.batchSize, keepBest := s.keepBest, train := some (x, y) }
  let (w, _, _) ← Trainer.fit (fun x => |x|) eps e w t 0 1
  return w

end BeeDNN
