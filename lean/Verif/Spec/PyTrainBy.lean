import Verif.Model.PyTrainBy
import Verif.Spec.PyTrain
import Verif.Spec.PyOptimizer

/-! # Specification: training with the Python library and any optimizer -/

namespace BeeDNN

/-- No two parameters of the model are in one array. -/
def PyApart (ls : List PyLayer) : Prop := (ls.flatMap PyLayer.params).Nodup

/-- A model that is ready to be trained: its layers are the network `m`, in training mode, of kinds that learn, no layer behind Exponential keeps the array it is
given, and each parameter is in an array of its own. -/
structure PyTrainState.Ready (s : PyTrainState) (m : Mlp) : Prop where
  rep : PyRep s.h s.ls m
  training : ∀ l ∈ s.ls, l.training = true
  learns : ∀ l ∈ s.ls, l.Learns
  exp : ∀ i l l', s.ls[i]? = some l → l.kind = .exponential → s.ls[i + 1]? = some l' → l'.keeps = false
  apart : PyApart s.ls

/-- `ms 0`, `ms 1`, … are networks trained with the optimizers `o`: the rule of the optimizer, applied to a parameter's initial value and to the gradients of the error of
each batch, gives its value after each batch.  The gradients are those of the error of the network before the batch, times `pyRate` for time distributed layers, unless a sample of the batch is
at a kink; batch `t` has the samples `x t` and truths `y t`. -/
structure Mlp.TrainedBy (o : Nat → Bool → PyOpt) (loss : String) (N : Nat → Nat) (x y : Nat → Nat → Row) (ms : Nat → Mlp) : Prop where
  like : ∀ t, Like (ms 0) (ms t)
  rule : ∀ b i, i < (ms 0).depth → ((ms 0).ply i).has b = true → ∃ G : Nat → Nat → Nat → ℝ,
    (∀ t, (∀ s, s < N t → (ms t).Regular 1e-8 loss (x t s) (y t s)) → ∃ G', IsGrad ((ms 0).shape b i).1 ((ms 0).shape b i).2 (fun P => ((ms t).setPar b i P).error loss (N t) (x t) (y t))
      (((ms t).ply i).par b) G' ∧ ∀ k j, k < ((ms 0).shape b i).1 → j < ((ms 0).shape b i).2 → G t k j = ((ms 0).ply i).kind.pyRate b (N t) * G' k j) ∧
    ∀ W, (o i b).Gives W → ∀ t k j, k < ((ms 0).shape b i).1 → j < ((ms 0).shape b i).2 → ((ms t).ply i).par b k j = W t (((ms 0).ply i).par b k j) fun u => G u k j

end BeeDNN
