import Verif.Props.Loss
import Verif.Props.Regularizer
import Verif.Props.MlpFit
import Verif.Lemmas.TrainOnce

/-! # Settings of a trainer (C58), which parameters are trained (C59) -/

namespace BeeDNN
open Finset Trainer HasWF

/-! ## C58 -/

/-- The trainers a program can make: the loss and the regularizer are only changed by their setters. -/
inductive Trainer.Built : Trainer → Prop
  | new : Built {}
  | loss {g : Nat → ℝ} {ab : ℝ → ℝ} {eps : ℝ} {t t' : Trainer} {s : String} : Built t → setLoss g ab eps t s = .ok t' → Built t'
  | reg {t t' : Trainer} {s : String} {p : ℝ} : Built t → setRegularizer t s p = .ok t' → Built t'
  | other {t t' : Trainer} : Built t → t'.loss = t.loss → t'.reg = t.reg → Built t'

theorem Trainer.Built.ok {t : Trainer} (h : t.Built) : t.loss ∈ listLoss ∧ ∀ r, t.reg = some r → ∃ p, r = (Reg.new r.kind).setParameter p := by
  induction h with
  | new => exact ⟨by decide, fun r h => by cases h⟩
  | @loss g ab eps _ _ s _ hs ih =>
    unfold setLoss at hs
    split at hs
    · rename_i ℓ hc
      injection hs with hs
      subst hs
      refine ⟨?_, ih.2⟩
      have := (C62_loss g ab eps).2.1 _ _ hc
      dsimp only
      rw [this]
      exact ((C62_loss g ab eps).1 s).1 (by rw [hc]; rfl)
    · cases hs
  | reg _ hs ih =>
    unfold setRegularizer at hs
    split at hs
    · split at hs
      · injection hs with hs
        subst hs
        refine ⟨ih.1, fun r hr => ?_⟩
        injection hr with hr
        subst hr
        exact ⟨_, rfl⟩
      · cases hs
    · injection hs with hs
      subst hs
      exact ⟨ih.1, fun r hr => by cases hr⟩
  | other _ h1 h2 ih => rw [h1, h2]; exact ih

theorem Reg.setParameter_param (k : RegKind) (p : ℝ) :
    (Reg.new k).setParameter ((Reg.new k).setParameter p).param = (Reg.new k).setParameter p := by
  cases k <;> simp only [Reg.new, Reg.setParameter] <;> by_cases h : p = -1 <;> simp [h] <;> norm_num

theorem RegKind.name_ne (k : RegKind) : k.name ≠ "" := by cases k <;> decide

/-- C58, partial: assigning a trainer always succeeds, and the copy has all the settings, the statistics and the data of
the source, except the validation batch size.  Missing: that one, see `C58_validation_batch_wrong`.  (The optimizers are
copied without their state; `set_net` has to be called again.) -/
theorem C58_copy_partial (g : Nat → ℝ) (ab : ℝ → ℝ) (eps : ℝ) (t other : Trainer) (h : other.Built) :
    ∃ t', assign g ab eps t other = .ok t' ∧
      t'.batchSize = other.batchSize ∧ t'.keepBest = other.keepBest ∧ t'.epochs = other.epochs ∧ t'.reboostEvery = other.reboostEvery ∧
      t'.loss = other.loss ∧ t'.getRegularizer = other.getRegularizer ∧ t'.getRegularizerParameter = other.getRegularizerParameter ∧
      t'.reg = other.reg ∧ t'.optName = other.optName ∧ t'.lr = other.lr ∧ t'.decay = other.decay ∧ t'.mom = other.mom ∧
      t'.patience = other.patience ∧ t'.curPatience = other.curPatience ∧ t'.balancing = other.balancing ∧
      t'.train = other.train ∧ t'.valid = other.valid ∧
      t'.trainLoss = other.trainLoss ∧ t'.trainAcc = other.trainAcc ∧ t'.valLoss = other.valLoss ∧ t'.valAcc = other.valAcc ∧
      t'.curTrainLoss = other.curTrainLoss ∧ t'.curTrainAcc = other.curTrainAcc ∧ t'.curValLoss = other.curValLoss ∧ t'.curValAcc = other.curValAcc ∧
      t'.opts.length = other.opts.length ∧ t'.net = none := by
  obtain ⟨h1, h2⟩ := h.ok
  obtain ⟨ℓ, hℓ⟩ := Option.isSome_iff_exists.mp (((C62_loss g ab eps).1 other.loss).2 h1)
  have hn := (C62_loss g ab eps).2.1 _ _ hℓ
  unfold assign setLoss
  simp only [hℓ, bind_ok']
  cases hr : other.reg with
  | none =>
    refine ⟨_, by simp only [setRegularizer, getRegularizer, hr, ne_eq, not_true_eq_false, if_false, bind_ok']; rfl, ?_⟩
    simp [hn, getRegularizer, getRegularizerParameter, hr]
  | some r =>
    obtain ⟨p, hp⟩ := h2 r hr
    have hk : createRegularizer r.kind.name = some r.kind := C62_regularizer.2.2.1 r.kind
    have hrr : (Reg.new r.kind).setParameter r.param = r := by
      conv_lhs => rw [hp]
      rw [show ((Reg.new r.kind).setParameter p).kind = r.kind from rfl, Reg.setParameter_param, ← hp]
    refine ⟨_, by
      simp only [setRegularizer, getRegularizer, getRegularizerParameter, hr, ne_eq, RegKind.name_ne, not_false_eq_true, if_true, hk, bind_ok']; rfl, ?_⟩
    simp [hn, getRegularizer, getRegularizerParameter, hr, hrr]

theorem assign_valBatch {g : Nat → ℝ} {ab : ℝ → ℝ} {eps : ℝ} {t other t' : Trainer} (h : assign g ab eps t other = .ok t') : t'.valBatch = t.valBatch := by
  unfold assign at h
  obtain ⟨t₁, h1, h⟩ := ok_bind h
  obtain ⟨t₂, h2, h⟩ := ok_bind h
  injection h with h
  subst h
  unfold setLoss at h1
  split at h1
  · injection h1 with h1
    subst h1
    unfold setRegularizer at h2
    split at h2
    · split at h2
      · injection h2 with h2; subst h2; rfl
      · cases h2
    · injection h2 with h2; subst h2; rfl
  · cases h1

/-- C58 does not hold: the copy keeps its own validation batch size, so that it differs from the source whenever it
differed before. -/
theorem C58_validation_batch_wrong (g : Nat → ℝ) (ab : ℝ → ℝ) (eps : ℝ) (t other : Trainer) (h : other.Built) (hne : t.valBatch ≠ other.valBatch) :
    ∃ t', assign g ab eps t other = .ok t' ∧ t'.valBatch ≠ other.valBatch := by
  obtain ⟨t', h1, -⟩ := C58_copy_partial g ab eps t other h
  exact ⟨t', h1, by rw [assign_valBatch h1]; exact hne⟩

/-- A new trainer and one with another validation batch size. -/
example : ({ valBatch := 64 } : Trainer).Built ∧ ({} : Trainer).valBatch ≠ ({ valBatch := 64 } : Trainer).valBatch :=
  ⟨.other .new rfl rfl, by decide⟩

/-- A trainer with a loss, a regularizer and other settings of its own. -/
example : ∃ t : Trainer, t.Built ∧ t.loss = "MeanAbsoluteError" ∧ t.getRegularizer = "L2" ∧ t.epochs = 7 := by
  have h1 : setLoss (fun _ => 0) (fun x => |x|) 0 {} "MeanAbsoluteError" = .ok { loss := "MeanAbsoluteError" } := rfl
  exact ⟨{ loss := "MeanAbsoluteError", reg := some ((Reg.new .l2).setParameter 3), epochs := 7 },
    .other (.reg (.loss .new h1) (s := "L2") (p := 3) rfl) rfl rfl, rfl, rfl, rfl⟩

/-! ## C59 -/

theorem has_iff (b : Bool) (w : World) (a : Nat) : has b w a = true ↔ ∃ l : Layer, w.heap[a]? = some (some l) ∧ (l.par b).size ≠ 0 := by
  unfold has
  constructor
  · intro h
    split at h
    · rename_i l hl
      refine ⟨l, hl, ?_⟩
      cases b <;> simpa [Layer.par, Layer.hasWeights, Layer.hasBiases] using h
    · cases h
  · rintro ⟨l, hl, h⟩
    rw [hl]
    dsimp only
    cases b <;> simpa [Layer.par, Layer.hasWeights, Layer.hasBiases] using h

theorem has_markFirst {w w' : World} {n : Nat} (h : markFirst w (w.nets n).layers = .ok w') (b : Bool) (a : Nat) : has b w' a = has b w a := by
  cases hl : (w.nets n).layers with
  | nil => rw [hl] at h; injection h with h; subst h; rfl
  | cons c cs =>
    rw [hl] at h
    obtain ⟨l, h1, h⟩ := ok_bind h
    injection h with h
    subst h
    have h1 := World.deref_inv h1
    unfold has
    by_cases hac : a = c
    · subst hac
      rw [World.store_same h1, h1]
      rfl
    · rw [World.store_other _ hac]

/-- What `set_net` has recorded: the layers of network `n` with a weight matrix and those with a bias, each once, with
its own gradient, and as many optimizers. -/
structure Trainer.Collected (w : World) (n : Nat) (t : Trainer) : Prop where
  net : t.net = some n
  weights : ∀ a, a ∈ t.pWeights ↔ a ∈ (w.nets n).layers ∧ ∃ l : Layer, w.heap[a]? = some (some l) ∧ l.weight.size ≠ 0
  biases : ∀ a, a ∈ t.pBiases ↔ a ∈ (w.nets n).layers ∧ ∃ l : Layer, w.heap[a]? = some (some l) ∧ l.bias.size ≠ 0
  nodupWeights : t.pWeights.Nodup
  nodupBiases : t.pBiases.Nodup
  gradWeights : t.pGradWeights = t.pWeights
  gradBiases : t.pGradBiases = t.pBiases
  opts : t.opts.length = t.pWeights.length + t.pBiases.length

/-- C59, first part: `set_net` records every weight matrix and every bias that exists when it is called. -/
theorem C59_collected {g : Nat → ℝ} {w w' : World} {t t' : Trainer} {n : Nat} (ho : Owned w) (h : setNet g w t n = .ok (w', t')) :
    t'.Collected w n ∧ t'.nbLayers = (w.nets n).layers.length := by
  unfold setNet at h
  dsimp only at h
  obtain ⟨w₁, h1, h⟩ := ok_bind h
  have hev := markFirst_inv h1
  have hlive : ∀ a ∈ (w.nets n).layers, ∃ l, w₁.heap[a]? = some (some l) := fun a ha => by
    obtain ⟨l, hl⟩ := ho.live n a ha
    exact hev.touch.live a l hl
  rw [collect_eq _ _ _ hlive, bind_ok'] at h
  simp only [List.nil_append] at h
  obtain ⟨os, h2, h⟩ := ok_bind h
  injection h with h
  injection h with e1 e2
  subst e1 e2
  have hb : ∀ b a, a ∈ (w.nets n).layers.filter (has b w₁) ↔ a ∈ (w.nets n).layers ∧ ∃ l : Layer, w.heap[a]? = some (some l) ∧ (l.par b).size ≠ 0 := by
    intro b a
    rw [List.mem_filter, has_markFirst h1, has_iff]
  refine ⟨⟨rfl, hb false, hb true, (ho.nodup n).filter _, (ho.nodup n).filter _, rfl, rfl, ?_⟩, rfl⟩
  rcases makeOpts_inv h2 with ⟨h0, rfl⟩ | ⟨o, -, rfl⟩
  · simpa using h0.symm
  · simp

theorem trainBatch_ptrs {ab : ℝ → ℝ} {eps : ℝ} {e : Nat → Nat → Env} {w w' : World} {t t' : Trainer} {x y : Mat ℝ}
    (h : trainBatch ab eps e w t x y = .ok (w', t')) :
    t'.net = t.net ∧ t'.pWeights = t.pWeights ∧ t'.pBiases = t.pBiases ∧ t'.pGradWeights = t.pGradWeights ∧ t'.pGradBiases = t.pGradBiases ∧ t'.reg = t.reg ∧
      t'.nbLayers = t.nbLayers := by
  unfold trainBatch at h
  split at h
  · cases h
  rename_i n hn
  dsimp only at h
  obtain ⟨x0, hx0, h⟩ := ok_bind h
  obtain ⟨x1, hx1, h⟩ := ok_bind h
  obtain ⟨io, hio, h⟩ := ok_bind h
  obtain ⟨⟨w₁, io₁⟩, hf, h⟩ := ok_bind h
  obtain ⟨p, hpp, h⟩ := ok_bind h
  obtain ⟨g0, hg0, h⟩ := ok_bind h
  obtain ⟨g1, hg1, h⟩ := ok_bind h
  obtain ⟨gs, hgs, h⟩ := ok_bind h
  obtain ⟨⟨w₂, gs₁⟩, hbw, h⟩ := ok_bind h
  obtain ⟨⟨w₃, os⟩, ho1, h⟩ := ok_bind h
  obtain ⟨⟨w₄, os₁⟩, ho2, h⟩ := ok_bind h
  dsimp only at h ho1 ho2
  obtain ⟨p', hp', h⟩ := ok_bind h
  obtain ⟨t₁, ht1, h⟩ := ok_bind h
  injection h with h
  injection h with e1 e2
  subst e1 e2
  obtain ⟨x, k, e1, -, -, -⟩ := addOnline_inv ht1
  subst e1
  exact ⟨rfl, rfl, rfl, rfl, rfl, rfl, rfl⟩

/-- C59, second part: after `set_net`, each of any number of batches updates each recorded parameter exactly once: its
own optimizer is given the parameter and the gradient as they are after the backward pass (changed by the regularizer, if
there is one), and what the optimizer returns is the new parameter.  No other parameter is changed after the backward pass. -/
theorem C59_once {g : Nat → ℝ} {ab : ℝ → ℝ} {eps : ℝ} {e : Nat → Nat → Nat → Env} {w w₀ w' w'' : World} {t t₀ t' t'' : Trainer} {n K : Nat}
    {x y : Nat → Mat ℝ} (ho : Owned w) (h0 : setNet g w t n = .ok (w₀, t₀))
    (hK : forN K (fun k s => trainBatch ab eps (e k) s.1 s.2 (x k) (y k)) (w₀, t₀) = .ok (w', t'))
    (h : trainBatch ab eps (e K) w' t' (x K) (y K) = .ok (w'', t'')) :
    ∃ (w₁ w₂ : World) (io gs gs' : List (Mat ℝ)), bwdLoop (e K 1) n t₀.nbLayers io (w₁, gs) = .ok (w₂, gs') ∧
      (∀ (j a : Nat), t₀.pWeights[j]? = some a → ∃ (l l' : Layer) (o o' : Opt ℝ), w₂.heap[a]? = some (some l) ∧ w''.heap[a]? = some (some l') ∧
        t'.opts[j]? = some o ∧ t''.opts[j]? = some o' ∧ ∃ g p d, Regularized t.reg g l.weight l.gradWeight p d ∧
          o.optimize g Real.sqrt ab p d = .ok (o', l'.weight)) ∧
      (∀ (j a : Nat), t₀.pBiases[j]? = some a → ∃ (l l' : Layer) (o o' : Opt ℝ), w₂.heap[a]? = some (some l) ∧ w''.heap[a]? = some (some l') ∧
        t'.opts[t₀.pWeights.length + j]? = some o ∧ t''.opts[t₀.pWeights.length + j]? = some o' ∧ ∃ g p d, Regularized t.reg g l.bias l.gradBias p d ∧
          o.optimize g Real.sqrt ab p d = .ok (o', l'.bias)) ∧
      (∀ (a : Nat) (l : Layer), w₂.heap[a]? = some (some l) → a ∉ t₀.pWeights → ∃ l' : Layer, w''.heap[a]? = some (some l') ∧ l'.weight = l.weight) ∧
      (∀ (a : Nat) (l : Layer), w₂.heap[a]? = some (some l) → a ∉ t₀.pBiases → ∃ l' : Layer, w''.heap[a]? = some (some l') ∧ l'.bias = l.bias) := by
  obtain ⟨hc, -⟩ := C59_collected ho h0
  have hreg : t₀.reg = t.reg := by
    unfold setNet at h0
    dsimp only at h0
    obtain ⟨w₁, h1, h0⟩ := ok_bind h0
    have hev := markFirst_inv h1
    have hlive : ∀ a ∈ (w.nets n).layers, ∃ l, w₁.heap[a]? = some (some l) := fun a ha => by
      obtain ⟨l, hl⟩ := ho.live n a ha
      exact hev.touch.live a l hl
    rw [collect_eq _ _ _ hlive, bind_ok'] at h0
    obtain ⟨os, h2, h0⟩ := ok_bind h0
    injection h0 with h0
    injection h0 with e1 e2
    subst e1 e2
    rfl
  have key := forN_ok_idx (P := fun _ (s : World × Trainer) => s.2.net = t₀.net ∧ s.2.pWeights = t₀.pWeights ∧ s.2.pBiases = t₀.pBiases ∧
      s.2.pGradWeights = t₀.pGradWeights ∧ s.2.pGradBiases = t₀.pGradBiases ∧ s.2.reg = t₀.reg ∧ s.2.nbLayers = t₀.nbLayers)
    (fun i s s' hs hf => by
      obtain ⟨a1, a2, a3, a4, a5, a6, a7⟩ := trainBatch_ptrs (w' := s'.1) (t' := s'.2) hf
      obtain ⟨b1, b2, b3, b4, b5, b6, b7⟩ := hs
      exact ⟨a1.trans b1, a2.trans b2, a3.trans b3, a4.trans b4, a5.trans b5, a6.trans b6, a7.trans b7⟩)
    ⟨rfl, rfl, rfl, rfl, rfl, rfl, rfl⟩ hK
  obtain ⟨b1, b2, b3, b4, b5, b6, b7⟩ := key
  dsimp only at b1 b2 b3 b4 b5 b6 b7
  have := trainBatch_once (n := n) (by rw [b1, hc.net]) (by rw [b4, b2, hc.gradWeights]) (by rw [b5, b3, hc.gradBiases]) (by rw [b2]; exact hc.nodupWeights)
    (by rw [b3]; exact hc.nodupBiases) h
  rw [b2, b3, b6, b7, hreg] at this
  simpa only [Nat.add_comm] using this

/-! ### A layer that makes its bias in the first forward pass is not trained -/

/-- The program state while a network of one `LayerBias` is trained. -/
structure LazySt (C n a : Nat) (s : World × Trainer) : Prop where
  layers : (s.1.nets n).layers = [a]
  layer : ∃ l : Layer, s.1.heap[a]? = some (some l) ∧ l.kind = .bias ∧ l.bInit = "Zeros" ∧ (l.bias = ⟨0, 0, []⟩ ∨ l.bias = Mat.ofFn 1 C (fun _ _ => 0)) ∧ l.gradBias.WF ∧
    l.first = true
  net : s.2.net = some n
  nb : s.2.nbLayers = 1
  inOut : s.2.inOut.length = 2 ∧ ∀ m ∈ s.2.inOut, m.WF
  gradient : s.2.gradient.length = 2 ∧ ∀ m ∈ s.2.gradient, m.WF
  pw : s.2.pWeights = []
  pb : s.2.pBiases = []
  lw : s.2.lossWeight.size = 0
  loss : s.2.loss = "MeanSquaredError"

theorem lazy_lazyBias {e : Env} {l : Layer} {C : Nat} (hi : l.bInit = "Zeros") (hb : l.bias = ⟨0, 0, []⟩ ∨ l.bias = Mat.ofFn 1 C (fun _ _ => 0)) (hC : 0 < C) :
    Layer.lazyBias e l C = .ok (Mat.ofFn 1 C (fun _ _ => 0)) := by
  unfold Layer.lazyBias
  rcases hb with hb | hb
  · rw [hb, if_pos (show (⟨0, 0, []⟩ : Mat ℝ).size = 0 from rfl), hi]
    simp [initCompute, Mat.setConstantRC_ofFn e.g (m := ⟨0, 0, []⟩) rfl]
  · rw [hb, if_neg (by simp; omega)]

theorem lazy_batch {ab : ℝ → ℝ} {eps : ℝ} {e : Nat → Nat → Env} {C n a : Nat} {s : World × Trainer} (hC : 0 < C) (h : LazySt C n a s) (N : Nat)
    (X Y : Nat → Row) :
    ∃ s', trainBatch ab eps e s.1 s.2 (Mat.ofFn N C X) (Mat.ofFn N C Y) = .ok s' ∧ LazySt C n a s' ∧
      ∃ l : Layer, s'.1.heap[a]? = some (some l) ∧ l.bias = Mat.ofFn 1 C (fun _ _ => 0) ∧
        l.gradBias = Mat.ofFn 1 C (fun _ j => (∑ i ∈ range N, (X i j - Y i j) / C) / N) := by
  obtain ⟨w, t⟩ := s
  obtain ⟨hl, ⟨l, l1, l2, l3, l4, l5, l6⟩, hn, hnb, ⟨i1, i2⟩, ⟨g1, g2⟩, hpw, hpb, hlw, hlo⟩ := h
  dsimp only at hl l1 hn hnb i1 i2 g1 g2 hpw hpb hlw hlo ⊢
  obtain ⟨m0, m1, hio⟩ := List.length_eq_two.mp i1
  obtain ⟨d0, d1, hgr⟩ := List.length_eq_two.mp g1
  have w0 : m0.WF := i2 _ (by rw [hio]; simp)
  have w1 : m1.WF := i2 _ (by rw [hio]; simp)
  have v0 : d0.WF := g2 _ (by rw [hgr]; simp)
  have v1 : d1.WF := g2 _ (by rw [hgr]; simp)
  have f1 : l.forward (e 0 0) (Mat.ofFn N C X) m1 = .ok ({ l with bias := Mat.ofFn 1 C (fun _ _ => 0) }, Mat.ofFn N C X) := by
    unfold Layer.forward
    rw [l2]
    dsimp only
    rw [Mat.ofFn_cols, lazy_lazyBias l3 l4 hC, bind_ok', biasForward_ofFn _ _ _ _ hC _ _ w1, bind_ok']
    simp only [add_zero]
    rfl
  obtain ⟨l', hl'⟩ : ∃ l' : Layer, l' = { l with bias := Mat.ofFn 1 C (fun _ _ => 0) } := ⟨_, rfl⟩
  rw [← hl'] at f1
  have hf : fwdLoop (e 0) n 1 (w, [Mat.ofFn N C X, m1]) = .ok (w.store a l', [Mat.ofFn N C X, Mat.ofFn N C X]) := by
    unfold fwdLoop
    rw [forN_succ]
    show (Except.bind (.ok _) _) = _
    simp only [Except.bind, layerAt_some (show (w.nets n).layers[0]? = some a by rw [hl]; rfl), World.deref_eq l1, bind_ok']
    rw [rd_some (x := Mat.ofFn N C X) rfl, bind_ok', rd_some (x := m1) rfl, bind_ok', f1, bind_ok']
    rfl
  have hl1 : (w.store a l').heap[a]? = some (some l') := World.store_same l1
  obtain ⟨ℓ, hℓ, hd⟩ : ∃ ℓ, createLoss (e 4 1).g ab eps t.loss = some ℓ ∧ IsDiffLoss ℓ (fun N => (N : ℝ)) (fun x => x * x) (fun C x => x / C) := by
    rw [hlo]; exact ⟨_, rfl, isDiff_MSE _⟩
  have hlok : LossOk ab eps t.loss C C (fun p y j => (p j - y j) / C) := fun t' g N P Y ht hw _ o ho => by
    have hd' := isDiff_MSE g
    unfold lossCompute lossGradient
    rw [ht, hlo]
    exact ⟨⟨_, _, hd'.compute N C P Y _ _ hw ho, Mat.mean_ofFn _ _ _⟩, hd'.gradient N C P Y _ _ hw ho⟩
  have lg := hd.gradient N C X Y t.lossWeight d1 hlw v1
  obtain ⟨D, hD⟩ : ∃ D : Mat ℝ, D = Mat.ofFn N C (fun i j => (X i j - Y i j) / C) := ⟨_, rfl⟩
  obtain ⟨l'', hl''⟩ : ∃ l'' : Layer, l'' = { l' with gradBias := Mat.ofFn 1 C (fun _ j => accN N (fun i => (X i j - Y i j) / C) / (N : ℝ)) } := ⟨_, rfl⟩
  have b1 : Layer.backprop (e 1 0) l' (Mat.ofFn N C X) D d0 = .ok (l'', d0) := by
    unfold Layer.backprop
    rw [show l'.kind = .bias by rw [hl']; exact l2]
    dsimp only
    rw [hD, biasBackward_ofFn _ _ _ _ _ (show (l'.grads d0).gB.WF by rw [hl']; exact l5) v0, bind_ok', show l'.first = true by rw [hl']; exact l6, hl'']
    rfl
  have hb : bwdLoop (e 1) n 1 [Mat.ofFn N C X, Mat.ofFn N C X] (w.store a l', [d0, D]) = .ok ((w.store a l').store a l'', [d0, D]) := by
    unfold bwdLoop
    rw [forN_succ]
    show (Except.bind (.ok _) _) = _
    simp only [Except.bind, Nat.sub_self, layerAt_some (w := w.store a l') (show (w.nets n).layers[0]? = some a by rw [hl]; rfl), World.deref_eq hl1, bind_ok']
    rw [rd_some (x := Mat.ofFn N C X) rfl, bind_ok', rd_some (x := D) rfl, bind_ok', rd_some (x := d0) rfl, bind_ok', b1, bind_ok']
    rfl
  obtain ⟨v, ha, -⟩ := addOnline_mlp (g := (e 4 2).g) (c := (w.nets n).classif) (t := { t with inOut := [Mat.ofFn N C X, Mat.ofFn N C X], gradient := [d0, D] })
    (N := N) hlok hlw hC X Y (by rw [hlo]; exact (distanceLosses_fits (s := "MeanSquaredError") (by decide)).2 C N Y)
  have hrun : trainBatch ab eps e w t (Mat.ofFn N C X) (Mat.ofFn N C Y) = .ok ((w.store a l').store a l'',
      { t with inOut := [Mat.ofFn N C X, Mat.ofFn N C X], gradient := [d0, D], onlineLoss := t.onlineLoss + v,
               onlineGood := t.onlineGood + if (w.nets n).classif then nbRight N C C X Y else 0 }) := by
    unfold trainBatch
    rw [hn]
    dsimp only
    rw [hio, rd_some (x := m0) rfl, bind_ok', Mat.assign_ofFn _ w0, bind_ok']
    rw [show wr [m0, m1] 0 (Mat.ofFn N C X) = .ok [Mat.ofFn N C X, m1] from rfl, bind_ok', hnb, hf, bind_ok']
    dsimp only
    rw [rd_some (x := Mat.ofFn N C X) rfl, bind_ok', hgr, rd_some (x := d1) rfl, bind_ok']
    unfold lossGradient
    rw [hℓ]
    dsimp only
    rw [lg, bind_ok', ← hD, show wr [d0, d1] 1 D = .ok [d0, D] from rfl, bind_ok', hb, bind_ok']
    dsimp only
    rw [hpw, hpb]
    unfold optLoop
    simp only [List.length_nil, forN_zero, bind_ok']
    simp only [hpw, hpb, hnb, hn] at ha ⊢
    erw [ha]
    rfl
  have hst : ((w.store a l').store a l'').heap[a]? = some (some l'') := World.store_same hl1
  refine ⟨_, hrun, ⟨hl, ⟨l'', hst, ?_, ?_, ?_, ?_, ?_⟩, hn, hnb, ⟨rfl, ?_⟩, ⟨rfl, ?_⟩, hpw, hpb, hlw, hlo⟩, l'', hst, ?_, ?_⟩
  · rw [hl'', hl']; exact l2
  · rw [hl'', hl']; exact l3
  · right; rw [hl'', hl']
  · rw [hl'']; exact Mat.ofFn_WF _ _ _
  · rw [hl'', hl']; exact l6
  · intro m hm
    dsimp only at hm
    simp only [List.mem_cons, List.not_mem_nil, or_false, or_self] at hm
    rw [hm]; exact Mat.ofFn_WF _ _ _
  · intro m hm
    dsimp only at hm
    simp only [List.mem_cons, List.not_mem_nil, or_false] at hm
    rcases hm with rfl | rfl
    · exact v0
    · rw [hD]; exact Mat.ofFn_WF _ _ _
  · rw [hl'', hl']
  · rw [hl'']
    simp only [accN_eq_sum]

/-- C59 does not hold for layers that make their parameters in the first forward pass: a network of one new `LayerBias` for
`C` columns.  `set_net` finds no parameter, and after any number `K > 0` of batches the bias still has its initial value 0,
whatever the data, although the last batch has computed the gradient, which is the mean difference between sample and truth
divided by `C`. -/
theorem C59_lazy_wrong (ab : ℝ → ℝ) (eps : ℝ) (g : Nat → ℝ) (e : Nat → Nat → Nat → Env) (e₀ : Env) {w : World} {n a : Nat} {l : Layer}
    (hl : Layer.newBias e₀ "Zeros" = .ok l) (hn : (w.nets n).layers = [a]) (ha : w.heap[a]? = some (some l)) (optName : String) (lr : ℝ)
    {C : Nat} (hC : 0 < C) (N : Nat → Nat) (x y : Nat → Nat → Row) (K : Nat) :
    ∃ (w₀ w' : World) (t₀ t' : Trainer) (l' : Layer), setNet g w { optName := optName, lr := lr } n = .ok (w₀, t₀) ∧ t₀.pWeights = [] ∧ t₀.pBiases = [] ∧
      forN (K + 1) (fun k s => trainBatch ab eps (e k) s.1 s.2 (Mat.ofFn (N k) C (x k)) (Mat.ofFn (N k) C (y k))) (w₀, t₀) = .ok (w', t') ∧
      w'.heap[a]? = some (some l') ∧ l'.bias = Mat.ofFn 1 C (fun _ _ => 0) ∧
      l'.gradBias = Mat.ofFn 1 C (fun _ j => (∑ i ∈ range (N K), (x K i j - y K i j) / C) / N K) := by
  have hl' : l = { kind := .bias, bInit := "Zeros" } := by
    unfold Layer.newBias Layer.init at hl
    injection hl with hl
    rw [← hl]
    rfl
  subst hl'
  obtain ⟨l1, hl1⟩ : ∃ l1 : Layer, l1 = ({ kind := .bias, bInit := "Zeros" } : Layer).setFirst true := ⟨_, rfl⟩
  have hs1 : (w.store a l1).heap[a]? = some (some l1) := World.store_same ha
  have hset : setNet g w { optName := optName, lr := lr } n = .ok (w.store a l1, { optName, lr, net := some n, nbLayers := 1, gradient := [⟨0, 0, []⟩, ⟨0, 0, []⟩], inOut := [⟨0, 0, []⟩, ⟨0, 0, []⟩] }) := by
    unfold setNet
    rw [hn]
    dsimp only
    rw [markFirst, World.deref_eq ha, bind_ok', pure_ok, bind_ok', ← hl1, collect, World.deref_eq hs1, bind_ok']
    rw [if_neg (show ¬ l1.hasWeights = true by rw [hl1]; decide)]
    dsimp only
    rw [if_neg (show ¬ l1.hasBiases = true by rw [hl1]; decide), collect, bind_ok']
    rfl
  refine (forN_inv (fun i s => LazySt C n a s ∧ ∀ k, i = k + 1 → ∃ l' : Layer, s.1.heap[a]? = some (some l') ∧ l'.bias = Mat.ofFn 1 C (fun _ _ => 0) ∧
      l'.gradBias = Mat.ofFn 1 C (fun _ j => (∑ i ∈ range (N k), (x k i j - y k i j) / C) / N k)) (n := K + 1)
      (f := fun k s => trainBatch ab eps (e k) s.1 s.2 (Mat.ofFn (N k) C (x k)) (Mat.ofFn (N k) C (y k)))
      (s := (w.store a l1, { optName := optName, lr := lr, net := some n, nbLayers := 1, gradient := [⟨0, 0, []⟩, ⟨0, 0, []⟩], inOut := [⟨0, 0, []⟩, ⟨0, 0, []⟩] })) ?_ ?_).elim ?_
  · refine ⟨⟨hn, ⟨l1, hs1, ?_, ?_, ?_, ?_, ?_⟩, rfl, rfl, ⟨rfl, ?_⟩, ⟨rfl, ?_⟩, rfl, rfl, rfl, rfl⟩, fun k hk => by omega⟩
    · rw [hl1]; rfl
    · rw [hl1]; rfl
    · left; rw [hl1]; rfl
    · rw [hl1]; exact Mat.WF_empty
    · rw [hl1]; rfl
    · intro m hm
      simp only [List.mem_cons, List.not_mem_nil, or_false, or_self] at hm
      rw [hm]; exact Mat.WF_empty
    · intro m hm
      simp only [List.mem_cons, List.not_mem_nil, or_false, or_self] at hm
      rw [hm]; exact Mat.WF_empty
  · intro i hi s hs
    obtain ⟨s', h1, h2, h3⟩ := lazy_batch (ab := ab) (eps := eps) (e := e i) hC hs.1 (N i) (x i) (y i)
    refine ⟨s', h1, h2, fun k hk => ?_⟩
    obtain rfl : i = k := by omega
    exact h3
  · rintro ⟨w', t'⟩ ⟨h1, h2, h3⟩
    obtain ⟨l', c1, c2, c3⟩ := h3 K rfl
    exact ⟨_, w', _, t', l', hset, rfl, rfl, h1, c1, c2, c3⟩

/-- A network of one new `LayerBias`, and samples whose gradient is not 0. -/
example (e₀ : Env) : ∃ (w : World) (l : Layer), Layer.newBias e₀ "Zeros" = .ok l ∧ (w.nets 0).layers = [0] ∧ w.heap[0]? = some (some l) ∧
    (∑ i ∈ range 1, ((fun _ _ => 3 : Nat → Row) i 0 - (fun _ _ => 1 : Nat → Row) i 0) / (1 : ℝ)) / (1 : ℝ) ≠ 0 :=
  ⟨⟨[some { kind := .bias, bInit := "Zeros" }], fun _ => { layers := [0] }⟩, _, rfl, rfl, rfl, by norm_num⟩

/-- `set_net` and a batch, with the perceptron of C91: its weight matrix is recorded. -/
example (eps : ℝ) (g : Nat → ℝ) (e : Nat → Nat → Env) : ∃ w₀ t₀ w' t', Owned mlpWorld ∧ setNet g mlpWorld {} 0 = .ok (w₀, t₀) ∧ 0 ∈ t₀.pWeights ∧
    trainBatch (fun x => |x|) eps e w₀ t₀ (Mat.ofFn 4 2 (fun _ _ => 3)) (Mat.ofFn 4 1 (fun _ _ => 1)) = .ok (w', t') := by
  obtain ⟨w₀, t₀, h1, h2, h3, -, h4⟩ := setNet_mlp (g := g) (t := {}) (k := .adam) mlpWorld_represents (fun _ h => absurd h List.not_mem_nil)
    (fun _ h => absurd h List.not_mem_nil) rfl
  obtain ⟨ψ, l1, -⟩ := lossOk_of_mem eps (s := "MeanSquaredError") (by decide) (K := 1) (by decide) 1
  have hl : t₀.loss = "MeanSquaredError" := by rw [← h4]
  obtain ⟨w', t', m', h5, -⟩ := trainBatch_mlp (e := e) (ω := .none) h2 (by rw [hl]; exact l1) (by rw [← h4]; rfl) 4 (fun _ _ => 3) (fun _ _ => 1)
    (by rw [hl]; exact (distanceLosses_fits (s := "MeanSquaredError") (by decide)).2 1 4 fun _ _ => 1) False 0 (fun h => h.elim) (fun h => h.elim)
  refine ⟨w₀, t₀, w', t', mlpWorld_owned, h1, ?_, h5⟩
  exact ((C59_collected mlpWorld_owned h1).1.weights 0).2 ⟨by simp [mlpWorld], denseWitness, rfl, by decide⟩

end BeeDNN
