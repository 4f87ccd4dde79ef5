import Verif.Spec.Settings
import Verif.Props.TrainSchedule
import Verif.Props.Optimizer
import Verif.Props.TrainSettings

/-! # The settings of a trainer are those that training uses (C110) -/

namespace BeeDNN
open Trainer

theorem setParams_book {s : String} {k : OptKind} (hk : createOptimizer s = some k) (g : Nat → ℝ) (lr decay mom : ℝ) :
    ((Opt.new k).setParams g lr decay mom).kind = k ∧ k.name = s ∧ ((Opt.new k).setParams g lr decay mom).hyper = bookSettings s lr mom decay := by
  obtain rfl := C62_optimizer.2.1 s k hk
  refine ⟨Opt.init_kind .., rfl, ?_⟩
  cases k
  all_goals
    simp only [Opt.setParams, Opt.init, Opt.hyper, Opt.new, Opt.defaultLr, orDefault, bookSettings, givenOr, bookRate, bookMomentum, bookDecay, OptKind.name,
      Hyper.mk.injEq]
    norm_num
    try simp_all

/-- The optimizer of a name with the settings given; its learning rate may differ unless `fixed`. -/
def SetAs (s : String) (lr mom decay : ℝ) (fixed : Prop) (o : Opt ℝ) : Prop :=
  o.kind.name = s ∧ o.hyper = { bookSettings s lr mom decay with lr := o.lr } ∧ (fixed → o.lr = (bookSettings s lr mom decay).lr)

theorem SetAs.same {s : String} {lr mom decay : ℝ} {p : Prop} {o o' : Opt ℝ} (h : SetAs s lr mom decay p o) (h1 : o'.kind = o.kind)
    (h2 : o'.hyper = o.hyper) : SetAs s lr mom decay p o' := by
  have h3 := Opt.hyper_lr h2
  exact ⟨by rw [h1]; exact h.1, by rw [h2, h3]; exact h.2.1, by rw [h3]; exact h.2.2⟩

theorem SetAs.opts {s : String} {lr mom decay : ℝ} {p : Prop} {os os' : List (Opt ℝ)} (h : ∀ o ∈ os, SetAs s lr mom decay p o) (hs : OptsSame os os') :
    ∀ o ∈ os', SetAs s lr mom decay p o := by
  induction hs with
  | nil => exact fun o ho => absurd ho List.not_mem_nil
  | cons h1 _ ih =>
    intro o ho
    rcases List.mem_cons.mp ho with rfl | ho
    · exact (h _ List.mem_cons_self).same h1.1 h1.2
    · exact ih (fun o ho => h o (List.mem_cons_of_mem _ ho)) o ho

theorem init_hyper (g : Nat → ℝ) (o : Opt ℝ) : (o.init g).hyper = { o.hyper with
    lr := givenOr o.lr (bookRate o.kind.name), mom := givenOr o.mom (bookMomentum o.kind.name), decay := givenOr o.decay (bookDecay o.kind.name) } := by
  obtain ⟨k, a1, a2, a3, a4, a5, a6, a7, a8, a9, a10, a11⟩ := o
  cases k
  all_goals
    simp only [Opt.init, Opt.hyper, Opt.defaultLr, orDefault, givenOr, bookRate, bookMomentum, bookDecay, OptKind.name, Hyper.mk.injEq]
    norm_num
    try simp_all

theorem givenOr_idem (x : ℝ) (d : Option ℝ) : givenOr (givenOr x d) d = givenOr x d := by
  unfold givenOr
  split
  · split <;> rfl
  · rfl

theorem SetAs.init {s : String} {lr mom decay : ℝ} {p : Prop} {o : Opt ℝ} (g : Nat → ℝ) (h : SetAs s lr mom decay p o) :
    SetAs s lr mom decay p (o.init g) := by
  have hh := init_hyper g o
  have h2 := h.2.1
  simp only [Opt.hyper, bookSettings, Hyper.mk.injEq] at hh h2
  obtain ⟨c1, c2, c3, c4, c5, c6⟩ := hh
  obtain ⟨-, d2, d3, d4, d5, d6⟩ := h2
  refine ⟨by rw [Opt.init_kind]; exact h.1, ?_, fun hp => ?_⟩
  · rw [h.1] at c2 c3
    simp only [Opt.hyper, bookSettings, Hyper.mk.injEq]
    exact ⟨trivial, by rw [c2, d2, givenOr_idem], by rw [c3, d3, givenOr_idem], by rw [c4, d4], by rw [c5, d5], by rw [c6, d6]⟩
  · rw [c1, h.1, h.2.2 hp]
    exact givenOr_idem _ _

/-- C110: what `set_net` gives to every weight and bias matrix is an optimizer of the name chosen, with the settings of the
trainer, or the defaults of that optimizer for those that are −1. -/
theorem C110_set_net {g : Nat → ℝ} {w w₁ : World} {t t₁ : Trainer} {n b : Nat} (hb : b ≠ n) (ho : Owned w) (hv : AllValid w (w.nets n).layers)
    (hvb : AllValid w (w.nets b).layers) (hi : ∀ m ∈ t.inOut, m.WF) (hg : ∀ m ∈ t.gradient, m.WF) (h : setNet g w t n = .ok (w₁, t₁)) :
    t₁.opts.length = t₁.pWeights.length + t₁.pBiases.length ∧
    ∀ o ∈ t₁.opts, o.kind.name = t.optName ∧ o.hyper = bookSettings t.optName t.lr t.mom t.decay := by
  obtain ⟨-, -, -, -, -, -, -, -, -, h1⟩ := setNet_inv hb ho hv hvb hi hg h
  rcases h1 with ⟨h0, h1⟩ | ⟨k, h2, h1⟩
  · rw [h1, h0]; exact ⟨rfl, fun o ho => absurd ho List.not_mem_nil⟩
  · obtain ⟨c1, c2, c3⟩ := setParams_book h2 g t.lr t.decay t.mom
    rw [h1]
    refine ⟨List.length_replicate, fun o ho => ?_⟩
    rw [List.eq_of_mem_replicate ho, c1]
    exact ⟨c2, c3⟩

theorem SetAs.of {s : String} {lr mom decay : ℝ} {p : Prop} {o : Opt ℝ} (h : o.kind.name = s ∧ o.hyper = bookSettings s lr mom decay) :
    SetAs s lr mom decay p o := by
  refine ⟨h.1, ?_, fun _ => ?_⟩
  · rw [h.2, show o.lr = (bookSettings s lr mom decay).lr by rw [← h.2]; rfl]
  · rw [← h.2]; rfl

/-- The optimizers have the settings, and the patience is unchanged. -/
structure SetInv (s : String) (lr mom decay : ℝ) (p : Int) (t : Trainer) : Prop where
  opts : ∀ o ∈ t.opts, SetAs s lr mom decay (p = -1) o
  patience : t.patience = p

theorem SetInv.step {ab : ℝ → ℝ} {eps : ℝ} {e : FitEnv} {n b : Nat} {x y : Mat ℝ} {k : Nat} {s s' : FitSt} {name : String} {lr mom decay : ℝ} {p : Int}
    (hb : b ≠ n) (hi : Inv n b s.w s.t) (h : SetInv name lr mom decay p s.t) (hs : epochStep ab eps e n b x y k s = .ok s') : SetInv name lr mom decay p s'.t := by
  obtain ⟨w₁, t₁, l, a, s₂, k1, k2, k3, k4, k5, k5', k5'', k6, k7, k8⟩ := epochStep_inv hb hi hs
  have h1 : SetInv name lr mom decay p t₁ := ⟨SetAs.opts h.opts k3.opts, by rw [← h.patience, ← k3.same]⟩
  have h2 : SetInv name lr mom decay p s₂.t := by
    unfold bestStep at k7
    split at k7
    · obtain ⟨s₃, h3, h4⟩ := ok_bind k7
      have h3' : SetInv name lr mom decay p s₃.t := by
        rcases keepStep_inv h3 with (⟨-, -, w, hw, rfl⟩ | ⟨-, -, w, hw, rfl⟩) | ⟨-, rfl⟩ <;> exact ⟨h1.opts, h1.patience⟩
      unfold patienceStep at h4
      split at h4
      · rename_i hp
        obtain ⟨w, hw, h4⟩ := ok_bind h4
        injection h4 with h4
        subst h4
        refine ⟨fun o ho => ?_, h3'.patience⟩
        obtain ⟨o', ho', rfl⟩ := List.mem_map.mp ho
        have := h3'.opts o' ho'
        unfold Opt.setLearningRate
        refine SetAs.init e.g ⟨this.1, ?_, fun hq => absurd (h3'.patience.trans hq) hp.2⟩
        have h5 := this.2.1
        simp only [Opt.hyper, bookSettings, Hyper.mk.injEq] at h5 ⊢
        exact ⟨trivial, h5.2⟩
      · injection h4 with h4
        exact h4 ▸ h3'
    · injection k7 with k7
      exact k7 ▸ h1
  rw [k8]
  obtain ⟨e1, -, -, e4 | e4⟩ := reboostStep_same e.g s₂
  · exact ⟨by rw [e4]; exact h2.opts, e1.trans h2.patience⟩
  · refine ⟨fun o ho => ?_, e1.trans h2.patience⟩
    rw [e4] at ho
    obtain ⟨o', ho', rfl⟩ := List.mem_map.mp ho
    exact (h2.opts o' ho').init e.g

/-- C110: after any training every weight and bias matrix has an optimizer of the name chosen, with the momentum, decays and
weight decay that were set (or the defaults of that optimizer).  With the patience off this includes the learning
rate (otherwise it is halved as C57 says). -/
theorem C110_fit {ab : ℝ → ℝ} {eps : ℝ} {e : FitEnv} {w w' : World} {t t' : Trainer} {n b : Nat} {seen : List (List (Option Layer))}
    (h : Fitted ab eps e w t n b w' t' seen) :
    ∀ o ∈ t'.opts, o.kind.name = t.optName ∧ o.hyper = { bookSettings t.optName t.lr t.mom t.decay with lr := o.lr } ∧
      (t.patience = -1 → o.hyper = bookSettings t.optName t.lr t.mom t.decay) := by
  obtain ⟨w₁, t₁, x, y, s₀, s, h1, h2, h3, h4, h5, h6, h7, h8, h9⟩ := fit_split h.run h.layers h.slot h.owned h.valid h.fresh h.inOut h.gradient
  have hvb : AllValid w (w.nets b).layers := by rw [h.fresh]; exact fun a ha => absurd ha List.not_mem_nil
  obtain ⟨-, -, a2, -, a4, -⟩ := setNet_inv h.slot h.owned h.valid hvb h.inOut h.gradient h1
  obtain ⟨-, c2⟩ := C110_set_net h.slot h.owned h.valid hvb h.inOut h.gradient h1
  obtain ⟨cw, w₀, b1, b2, b3, b4, b5, b6, b7, b8, b9, -⟩ := start_inv h.slot a2 h3
  have h0 : SetInv t.optName t.lr t.mom t.decay t.patience s₀.t := by
    rw [b2]
    refine ⟨fun o ho => ?_, by rw [← a4]⟩
    obtain ⟨o', ho', rfl⟩ := List.mem_map.mp ho
    exact SetAs.init e.g (SetAs.of (c2 o' ho'))
  have key := forN_ok_idx (P := fun i r => LoopInv ab eps e n b s₀ i r ∧ SetInv t.optName t.lr t.mom t.decay t.patience r.t)
    (fun i r r' hr hr' => ⟨hr.1.step h.slot hr', hr.2.step h.slot hr.1.inv hr'⟩)
    ⟨LoopInv.start b5 b3 (by rw [b2]) (by rw [b2]) (by rw [b2]), h0⟩ h4
  intro o ho
  rw [← h6] at ho
  obtain ⟨d1, d2, d3⟩ := key.2.opts o ho
  exact ⟨d1, d2, fun hp => by rw [d2, d3 hp]⟩

example {ab : ℝ → ℝ} {eps : ℝ} {e : FitEnv} {w w' : World} {t t' : Trainer} {n b : Nat} {seen : List (List (Option Layer))}
    (h : Fitted ab eps e w { t with optName := "Adam", lr := -1, patience := -1 } n b w' t' seen) : ∀ o ∈ t'.opts, o.lr = 1 / 1000 ∧ o.beta2 = 999 / 1000 := by
  intro o ho
  have := (C110_fit h o ho).2.2 rfl
  simp [Opt.hyper, bookSettings, givenOr, bookRate] at this
  exact ⟨by rw [this.1]; norm_num, this.2.2.2.2.1⟩

example (eps : ℝ) (e : FitEnv) : ∃ w' t' seen, Fitted (fun x => |x|) eps e mlpWorld fitWitness 0 1 w' t' seen ∧
    ∀ o ∈ t'.opts, o.hyper = bookSettings fitWitness.optName fitWitness.lr fitWitness.mom fitWitness.decay := by
  obtain ⟨w', t', seen, h, -⟩ := fitWitness_fitted eps e
  exact ⟨w', t', seen, h, fun o ho => (C110_fit h o ho).2.2 rfl⟩

/-- C110: a learning rate set later is in force at once for all optimizers, is what `get_learningrate` returns, and leaves
the other settings alone. -/
theorem C110_set_rate (g : Nat → ℝ) (t : Trainer) {s : String} {lr mom decay : ℝ} (h : ∀ o ∈ t.opts, o.kind.name = s ∧ o.hyper = bookSettings s lr mom decay)
    {r : ℝ} (hr : r ≠ -1) :
    (t.setLearningRate g r).getLearningRate = r ∧ (t.setLearningRate g r).lr = r ∧ (t.setLearningRate g r).opts.length = t.opts.length ∧
    ∀ o ∈ (t.setLearningRate g r).opts, o.kind.name = s ∧ o.hyper = bookSettings s r mom decay := by
  have ho : ∀ o ∈ (t.setLearningRate g r).opts, o.kind.name = s ∧ o.hyper = bookSettings s r mom decay := by
    intro o ho
    obtain ⟨o', ho', rfl⟩ := List.mem_map.mp ho
    obtain ⟨c1, c2⟩ := h o' ho'
    unfold Opt.setLearningRate
    refine ⟨by rw [Opt.init_kind]; exact c1, ?_⟩
    rw [init_hyper]
    simp only [Opt.hyper, bookSettings, Hyper.mk.injEq] at c2 ⊢
    obtain ⟨-, d2, d3, d4, d5, d6⟩ := c2
    rw [c1]
    exact ⟨rfl, by rw [d2, givenOr_idem], by rw [d3, givenOr_idem], d4, d5, d6⟩
  refine ⟨?_, rfl, List.length_map .., ho⟩
  unfold getLearningRate
  cases hl : (t.setLearningRate g r).opts with
  | nil => rfl
  | cons o os =>
    have := (ho o (by rw [hl]; exact List.mem_cons_self)).2
    have h1 : o.lr = (bookSettings s r mom decay).lr := by rw [← this]; rfl
    dsimp only
    rw [h1]
    exact if_neg hr

example (g : Nat → ℝ) : (({ opts := [(Opt.new .sgd).setParams g (-1) (-1) (-1)] } : Trainer).setLearningRate g 0.5).getLearningRate = 0.5 :=
  (C110_set_rate g _ (s := "SGD") (lr := -1) (mom := -1) (decay := -1) (fun o ho => by
    obtain rfl := List.mem_singleton.mp ho
    obtain ⟨c1, c2, c3⟩ := setParams_book (s := "SGD") rfl g (-1) (-1) (-1)
    exact ⟨by rw [c1]; exact c2, c3⟩) (by norm_num)).1

/-- C110: choosing an optimizer, also on a trainer that already has others, makes the next `set_net` create it; the other
settings are kept. -/
theorem C110_set_optimizer {g : Nat → ℝ} {w w₁ : World} {t t₁ : Trainer} {n b : Nat} (s : String) (hb : b ≠ n) (ho : Owned w)
    (hv : AllValid w (w.nets n).layers) (hvb : AllValid w (w.nets b).layers) (hi : ∀ m ∈ t.inOut, m.WF) (hg : ∀ m ∈ t.gradient, m.WF)
    (h : setNet g w (t.setOptimizer s) n = .ok (w₁, t₁)) :
    ∀ o ∈ t₁.opts, o.kind.name = s ∧ o.hyper = bookSettings s t.lr t.mom t.decay :=
  (C110_set_net hb ho hv hvb (t := t.setOptimizer s) hi hg h).2

/-- C110: a regularizer that was set is reported by its name and with its parameter, or the default of that name for −1; an
empty name turns regularisation off; an unknown name is a null pointer that is used. -/
theorem C110_regularizer (t : Trainer) (s : String) (p : ℝ) :
    (s = "" → ∃ t', t.setRegularizer s p = .ok t' ∧ t'.reg = none ∧ t'.getRegularizer = "") ∧
    (s ∈ regularizerNames → ∃ t', t.setRegularizer s p = .ok t' ∧ t' = { t with reg := t'.reg } ∧ t'.getRegularizer = s ∧
      t'.getRegularizerParameter = givenOr p (bookParameter s)) ∧
    (s ≠ "" → s ∉ regularizerNames → t.setRegularizer s p = .error .nullDeref) := by
  refine ⟨fun h => ⟨{ t with reg := none }, by simp [setRegularizer, h], rfl, rfl⟩, fun h => ?_, fun h0 h => ?_⟩
  · obtain ⟨k, hk⟩ := Option.isSome_iff_exists.mp ((C62_regularizer.1 s).2 h)
    obtain rfl := C62_regularizer.2.1 s k hk
    refine ⟨{ t with reg := some ((Reg.new k).setParameter p) }, by simp only [setRegularizer, ne_eq, RegKind.name_ne, not_false_eq_true, if_true, hk], rfl, rfl, ?_⟩
    cases k
    all_goals
      simp only [getRegularizerParameter, Reg.setParameter, Reg.new, givenOr, bookParameter, RegKind.name]
      norm_num
      try simp_all
  · have : createRegularizer s = none := by
      rw [← Option.not_isSome_iff_eq_none]
      exact fun hh => h ((C62_regularizer.1 s).1 hh)
    simp only [setRegularizer, if_pos h0, this]

example (t : Trainer) : ∃ t', t.setRegularizer "L2" 0.5 = .ok t' ∧ t'.getRegularizerParameter = 0.5 := by
  obtain ⟨t', h1, -, -, h2⟩ := (C110_regularizer t "L2" 0.5).2.1 (by decide)
  exact ⟨t', h1, by rw [h2]; exact if_neg (by norm_num)⟩

/-- C110: a loss that was set has its name and no class weights of an earlier training; an unknown name fails at once. -/
theorem C110_loss (g : Nat → ℝ) (ab : ℝ → ℝ) (eps : ℝ) (t : Trainer) (s : String) :
    (s ∈ listLoss → ∃ t', t.setLoss g ab eps s = .ok t' ∧ t'.loss = s ∧ t'.lossWeight.size = 0 ∧ t' = { t with loss := t'.loss, lossWeight := t'.lossWeight }) ∧
    (s ∉ listLoss → t.setLoss g ab eps s = .error .assertFail) := by
  refine ⟨fun h => ?_, fun h => ?_⟩
  · obtain ⟨ℓ, hl⟩ := Option.isSome_iff_exists.mp (((C62_loss g ab eps).1 s).2 h)
    exact ⟨{ t with loss := ℓ.name, lossWeight := ⟨0, 0, []⟩ }, by simp only [setLoss, hl], (C62_loss g ab eps).2.1 s ℓ hl, rfl, rfl⟩
  · have : createLoss g ab eps s = none := by
      rw [← Option.not_isSome_iff_eq_none]
      exact fun hh => h (((C62_loss g ab eps).1 s).1 hh)
    simp only [setLoss, this]

example (g : Nat → ℝ) (ab : ℝ → ℝ) (eps : ℝ) (t : Trainer) : ∃ t', t.setLoss g ab eps "Huber" = .ok t' ∧ t'.loss = "Huber" := by
  obtain ⟨t', h1, h2, -⟩ := (C110_loss g ab eps t "Huber").1 (by decide)
  exact ⟨t', h1, h2⟩

end BeeDNN
