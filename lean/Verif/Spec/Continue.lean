import Verif.Model.Train

/-! # Specification: training in several calls of `fit` -/

namespace BeeDNN
open Trainer

/-- A program that trains network `n` several times, one after the other, with the same trainer: each time it sets the number of epochs and calls `fit`. -/
noncomputable def fitMany (eps : ℝ) (n b : Nat) : List (Int × FitEnv) → World → Trainer → Out (World × Trainer)
  | [], w, t => .ok (w, t)
  | (E, e) :: calls, w, t => do
    let r ← fit (fun x => |x|) eps e w { t with epochs := E } n b
    fitMany eps n b calls r.1 r.2.1

/-- The number of epochs of all calls. -/
def allEpochs (calls : List (Int × FitEnv)) : Nat := (calls.map fun c => c.1.toNat).sum

end BeeDNN
