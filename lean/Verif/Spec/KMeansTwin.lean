import Verif.Spec.KMeans

/-! # Specification: runs of KMeans training that differ in uninitialised memory -/

namespace BeeDNN

/-- Two runs with the same random numbers; fresh memory may differ. -/
structure KmEnv.Twin (e f : KmEnv) : Prop where
  ab : f.ab = e.ab
  eps : f.eps = e.eps
  pick : f.pick = e.pick
  shuffle : f.shuffle = e.shuffle

/-- The model has `n` references with `C` inputs and this loss; nothing is said about its references. -/
structure KmSized (k : KMeans) (n C : Nat) (loss : String) : Prop where
  refs : ∃ V : Nat → Row, k.refs = Mat.ofFn n C V
  cls : ∃ c : Nat → ℝ, k.cls = Mat.ofFn n 1 (fun r _ => c r)
  loss : k.loss = loss
  nbRef : k.nbRef = n
  inputSize : k.inputSize = C

end BeeDNN
