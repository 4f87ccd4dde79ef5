import Verif.Lemmas.OptimizerWF
import Verif.Lemmas.LayerClone
import Verif.Model.Train

/-! # Every operation keeps matrices well-formed

`Safe x`: if the computation `x` succeeds, all matrices in its result own a buffer of their size. -/

namespace BeeDNN

/-- Types whose values contain matrices. -/
class HasWF (σ : Type) where
  wf : σ → Prop

open HasWF

instance {α : Type} : HasWF (Mat α) := ⟨Mat.WF⟩
instance {σ τ : Type} [HasWF σ] [HasWF τ] : HasWF (σ × τ) := ⟨fun p => wf p.1 ∧ wf p.2⟩
instance {σ : Type} [HasWF σ] : HasWF (List σ) := ⟨fun l => ∀ x ∈ l, wf x⟩
instance : HasWF ℝ := ⟨fun _ => True⟩
instance : HasWF Int := ⟨fun _ => True⟩
instance : HasWF Nat := ⟨fun _ => True⟩
instance : HasWF Unit := ⟨fun _ => True⟩
instance : HasWF Activation := ⟨fun _ => True⟩
instance {α : Type} : HasWF (Grads α) := ⟨fun r => r.gW.WF ∧ r.gB.WF ∧ r.gIn.WF⟩
instance {α : Type} : HasWF (ConvState α) :=
  ⟨fun r => r.im2colT.WF ∧ r.tempImg.WF ∧ r.weight.WF ∧ r.gradientWeight.WF⟩
instance {α : Type} : HasWF (SimpleW α) := ⟨fun r => r.whh.WF ∧ r.wxh.WF ∧ r.bh.WF⟩

/-- Types without matrices. -/
class TrivWF (σ : Type) [HasWF σ] : Prop where
  triv : ∀ a : σ, wf a
instance : TrivWF ℝ := ⟨fun _ => trivial⟩
instance : TrivWF Int := ⟨fun _ => trivial⟩
instance : TrivWF Nat := ⟨fun _ => trivial⟩
instance : TrivWF Unit := ⟨fun _ => trivial⟩
instance : TrivWF Activation := ⟨fun _ => trivial⟩
instance {σ τ : Type} [HasWF σ] [HasWF τ] [TrivWF σ] [TrivWF τ] : TrivWF (σ × τ) :=
  ⟨fun _ => ⟨TrivWF.triv _, TrivWF.triv _⟩⟩

/-- A successful result is well-formed. -/
def Safe {σ : Type} [HasWF σ] (x : Out σ) : Prop := ∀ a, x = .ok a → wf a

variable {σ τ υ ρ : Type} [HasWF σ] [HasWF τ] [HasWF υ] [HasWF ρ]

theorem Safe.triv [TrivWF σ] (x : Out σ) : Safe x := fun _ _ => TrivWF.triv _
theorem Safe.ok {a : σ} (h : wf a) : Safe (.ok a) := fun b hb => by injection hb with hb; exact hb ▸ h
theorem Safe.pure {a : σ} (h : wf a) : Safe (Pure.pure a : Out σ) := Safe.ok h
theorem Safe.error (f : Fault) : Safe (.error f : Out σ) := fun _ h => by cases h
theorem Safe.bind {x : Out σ} {f : σ → Out τ} (hx : Safe x) (hf : ∀ a, wf a → Safe (f a)) : Safe (x >>= f) := by
  intro b hb
  obtain ⟨a, ha, hb⟩ := ok_bind hb
  exact hf a (hx a ha) b hb
theorem Safe.bind_any {κ : Type} {x : Out κ} {f : κ → Out τ} (hf : ∀ a, Safe (f a)) : Safe (x >>= f) := by
  intro b hb
  obtain ⟨a, ha, hb⟩ := ok_bind hb
  exact hf a b hb
theorem Safe.bind2 {x : Out (σ × τ)} {f : σ × τ → Out υ} (hx : Safe x) (hf : ∀ a b, wf a → wf b → Safe (f (a, b))) :
    Safe (x >>= f) := Safe.bind hx fun a ha => hf a.1 a.2 ha.1 ha.2
theorem Safe.bind3 {x : Out (σ × τ × υ)} {f : σ × τ × υ → Out ρ} (hx : Safe x)
    (hf : ∀ a b c, wf a → wf b → wf c → Safe (f (a, b, c))) :
    Safe (x >>= f) := Safe.bind hx fun a ha => hf a.1 a.2.1 a.2.2 ha.1 ha.2.1 ha.2.2
theorem Safe.forN {n : Nat} {f : Nat → σ → Out σ} {s : σ} (hs : wf s) (hf : ∀ i s, wf s → Safe (f i s)) :
    Safe (forN n f s) := fun a ha => forN_ok_inv (P := fun s => wf s) (fun i s s' h h' => hf i s h s' h') hs ha
theorem Safe.forN2 {n : Nat} {f : Nat → σ × τ → Out (σ × τ)} {s : σ × τ} (hs : wf s)
    (hf : ∀ i a b, wf a → wf b → Safe (f i (a, b))) : Safe (BeeDNN.forN n f s) :=
  Safe.forN hs fun i s h => hf i s.1 s.2 h.1 h.2

/-- Known operations; extended below with every new lemma. -/
syntax "safe_lemma" : tactic
macro_rules | `(tactic| safe_lemma) => `(tactic| exact Safe.triv _)

/-- One step: a bind, a loop, a branch, or a known operation. -/
macro "safe_step" : tactic => `(tactic| first
  | with_reducible_and_instances assumption
  | exact Safe.error _
  | safe_lemma
  | (refine Safe.bind3 ?_ (fun _ _ _ _ _ _ => ?_) <;> try dsimp only)
  | (refine Safe.bind2 ?_ (fun _ _ _ _ => ?_) <;> try dsimp only)
  | (refine Safe.bind ?_ (fun _ _ => ?_) <;> try dsimp only)
  | refine Safe.pure ?_
  | refine Safe.ok ?_
  | (refine Safe.forN2 ?_ (fun _ _ _ _ _ => ?_) <;> try dsimp only)
  | (refine Safe.forN ?_ (fun _ _ _ => ?_) <;> try dsimp only)
  | exact Mat.WF_empty
  | (refine Mat.resize_WF ?_ _ _)
  | exact Mat.alloc_WF _ _ _
  | (refine And.intro ?_ ?_)
  | exact True.intro
  | split)

macro "safe" : tactic => `(tactic| (try dsimp only) <;> repeat' safe_step)

namespace Mat
variable {α : Type} [Inhabited α]

theorem set_safe {m : Mat α} {r c : Nat} {x : α} (hm : m.WF) : Safe (m.set r c x) := by
  intro a h
  unfold set at h
  obtain ⟨_, -, h⟩ := ok_bind h
  obtain ⟨_, -, h⟩ := ok_bind h
  obtain ⟨d, hd, h⟩ := ok_bind h
  injection h with h
  subst h
  unfold wr at hd
  split at hd
  · injection hd with hd
    subst hd
    show (List.set _ _ _).length = _
    rw [List.length_set]; exact hm
  · cases hd
theorem setI_safe {m : Mat α} {i : Nat} {x : α} (hm : m.WF) : Safe (m.setI i x) := fun _ h => setI_WF hm h
theorem setRaw_safe {m : Mat α} {i : Nat} {x : α} (hm : m.WF) : Safe (m.setRaw i x) := fun _ h => setRaw_WF hm h
theorem cwise_safe {m : Mat α} {f : α → α} (hm : m.WF) : Safe (m.cwise f) := fun _ h => cwise_WF hm h
theorem cwise2_safe {m a : Mat α} {f : α → α → α} (hm : m.WF) : Safe (cwise2 f m a) := fun _ h => cwise2_WF hm h
theorem setConstant_safe {m : Mat α} {b : α} (hm : m.WF) : Safe (m.setConstant b) := fun _ h => setConstant_WF hm h
theorem assign_safe {g : Nat → α} {m b : Mat α} (hm : m.WF) : Safe (m.assign g b) := fun _ h => assign_WF hm h

end Mat

macro_rules | `(tactic| safe_lemma) => `(tactic| with_reducible_and_instances refine Mat.set_safe ?_)
macro_rules | `(tactic| safe_lemma) => `(tactic| with_reducible_and_instances refine Mat.setI_safe ?_)
macro_rules | `(tactic| safe_lemma) => `(tactic| with_reducible_and_instances refine Mat.setRaw_safe ?_)
macro_rules | `(tactic| safe_lemma) => `(tactic| with_reducible_and_instances refine Mat.cwise_safe ?_)
macro_rules | `(tactic| safe_lemma) => `(tactic| with_reducible_and_instances refine Mat.cwise2_safe ?_)
macro_rules | `(tactic| safe_lemma) => `(tactic| with_reducible_and_instances refine Mat.setConstant_safe ?_)
macro_rules | `(tactic| safe_lemma) => `(tactic| with_reducible_and_instances refine Mat.assign_safe ?_)

namespace Mat

theorem setConstantRC_safe {g : Nat → ℝ} {m : Mat ℝ} {r c : Nat} {b : ℝ} (hm : m.WF) : Safe (m.setConstantRC g r c b) := by
  unfold setConstantRC; safe
theorem add_safe {m a : Mat ℝ} (hm : m.WF) : Safe (m.add a) := cwise2_safe hm
theorem sub_safe {m a : Mat ℝ} (hm : m.WF) : Safe (m.sub a) := cwise2_safe hm
theorem cwiseProduct_safe {m a : Mat ℝ} (hm : m.WF) : Safe (m.cwiseProduct a) := cwise2_safe hm
theorem scale_safe {m : Mat ℝ} {b : ℝ} (hm : m.WF) : Safe (m.scale b) := cwise_safe hm
theorem divScalar_safe {m : Mat ℝ} {b : ℝ} (hm : m.WF) : Safe (m.divScalar b) := cwise_safe hm
theorem neg_safe {m : Mat ℝ} (hm : m.WF) : Safe m.neg := cwise_safe hm
theorem addScalar_safe {m : Mat ℝ} {b : ℝ} (hm : m.WF) : Safe (m.addScalar b) := cwise_safe hm

end Mat

macro_rules | `(tactic| safe_lemma) => `(tactic| with_reducible_and_instances refine Mat.setConstantRC_safe ?_)
macro_rules | `(tactic| safe_lemma) => `(tactic| with_reducible_and_instances refine Mat.add_safe ?_)
macro_rules | `(tactic| safe_lemma) => `(tactic| with_reducible_and_instances refine Mat.sub_safe ?_)
macro_rules | `(tactic| safe_lemma) => `(tactic| with_reducible_and_instances refine Mat.cwiseProduct_safe ?_)
macro_rules | `(tactic| safe_lemma) => `(tactic| with_reducible_and_instances refine Mat.scale_safe ?_)
macro_rules | `(tactic| safe_lemma) => `(tactic| with_reducible_and_instances refine Mat.divScalar_safe ?_)
macro_rules | `(tactic| safe_lemma) => `(tactic| with_reducible_and_instances refine Mat.neg_safe ?_)
macro_rules | `(tactic| safe_lemma) => `(tactic| with_reducible_and_instances refine Mat.addScalar_safe ?_)

namespace Mat

theorem mul_safe {g : Nat → ℝ} {a b : Mat ℝ} (ha : a.WF) : Safe (mul g a b) := by unfold mul; safe
theorem transpose_safe {g : Nat → ℝ} {a : Mat ℝ} : Safe (transpose g a) := by unfold transpose; safe
theorem asDiagonal_safe {g : Nat → ℝ} {a : Mat ℝ} : Safe (asDiagonal g a) := by unfold asDiagonal; safe
theorem copy_safe {g : Nat → ℝ} {a : Mat ℝ} : Safe (copy g a) := by unfold copy; safe
theorem row_safe {m : Mat ℝ} {i : Nat} (hm : m.WF) : Safe (m.row i) := by
  intro a h
  unfold row at h
  obtain ⟨_, hi, h⟩ := ok_bind h
  injection h with h
  subst h
  have hi : i < m.rows := by
    by_contra hn
    simp [check, hn] at hi
  show (List.take _ _).length = 1 * m.cols
  rw [List.length_take, List.length_drop, hm, one_mul]
  apply Nat.min_eq_left
  have : (i + 1) * m.cols ≤ m.rows * m.cols := Nat.mul_le_mul_right _ hi
  rw [Nat.add_mul] at this
  omega
theorem rowWiseAdd_safe {m a : Mat ℝ} (hm : m.WF) : Safe (m.rowWiseAdd a) := by unfold rowWiseAdd; safe
theorem colWiseMean_safe {g : Nat → ℝ} {a : Mat ℝ} : Safe (colWiseMean g a) := by unfold colWiseMean colWiseAcc; safe
theorem colExtract_safe {g : Nat → ℝ} {m : Mat ℝ} {a b : Nat} : Safe (colExtract g m a b) := by unfold colExtract; safe
theorem rowAssign_safe {m b : Mat ℝ} {i : Nat} (hm : m.WF) : Safe (m.rowAssign i b) := by unfold rowAssign; safe
theorem channelWiseAdd_safe {m b : Mat ℝ} {S H R C : Nat} (hm : m.WF) : Safe (m.channelWiseAdd S H R C b) := by
  unfold channelWiseAdd; safe
theorem channelWiseMean_safe {g : Nat → ℝ} {m : Mat ℝ} {S H R C : Nat} : Safe (channelWiseMean g m S H R C) := by
  unfold channelWiseMean; safe
theorem setDraws_safe {m : Mat ℝ} {d : Nat → ℝ} (hm : m.WF) : Safe (m.setDraws d) := by unfold setDraws; safe
theorem setQuickBernoulli_safe {m : Mat ℝ} {l : Nat} {d : Nat → Nat} (hm : m.WF) : Safe (setQuickBernoulli m l d) := by
  unfold setQuickBernoulli; safe
theorem viewResize_safe {m : Mat ℝ} {r c : Nat} (hm : m.WF) : Safe (m.viewResize r c) := by
  intro a h
  unfold viewResize at h
  obtain ⟨_, hi, h⟩ := ok_bind h
  injection h with h
  subst h
  have hi : m.size = r * c := by
    by_contra hn
    simp [check, hn] at hi
  exact (show m.data.length = m.rows * m.cols from hm).trans hi
theorem setRandom_safe {g : Nat → ℝ} {m : Mat ℝ} {r c : Nat} {d : Nat → ℝ} (hm : m.WF) : Safe (m.setRandom g r c d) := by
  unfold setRandom; safe
theorem setRawInt_safe {m : Mat ℝ} {i : Int} {x : ℝ} (hm : m.WF) : Safe (m.setRawInt i x) := by
  unfold setRawInt; safe
end Mat

macro_rules | `(tactic| safe_lemma) => `(tactic| with_reducible_and_instances refine Mat.mul_safe ?_)
macro_rules | `(tactic| safe_lemma) => `(tactic| with_reducible_and_instances exact Mat.transpose_safe)
macro_rules | `(tactic| safe_lemma) => `(tactic| with_reducible_and_instances exact Mat.asDiagonal_safe)
macro_rules | `(tactic| safe_lemma) => `(tactic| with_reducible_and_instances exact Mat.copy_safe)
macro_rules | `(tactic| safe_lemma) => `(tactic| with_reducible_and_instances refine Mat.row_safe ?_)
macro_rules | `(tactic| safe_lemma) => `(tactic| with_reducible_and_instances refine Mat.rowWiseAdd_safe ?_)
macro_rules | `(tactic| safe_lemma) => `(tactic| with_reducible_and_instances exact Mat.colWiseMean_safe)
macro_rules | `(tactic| safe_lemma) => `(tactic| with_reducible_and_instances exact Mat.colExtract_safe)
macro_rules | `(tactic| safe_lemma) => `(tactic| with_reducible_and_instances refine Mat.rowAssign_safe ?_)
macro_rules | `(tactic| safe_lemma) => `(tactic| with_reducible_and_instances refine Mat.channelWiseAdd_safe ?_)
macro_rules | `(tactic| safe_lemma) => `(tactic| with_reducible_and_instances exact Mat.channelWiseMean_safe)
macro_rules | `(tactic| safe_lemma) => `(tactic| with_reducible_and_instances refine Mat.setDraws_safe ?_)
macro_rules | `(tactic| safe_lemma) => `(tactic| with_reducible_and_instances refine Mat.setQuickBernoulli_safe ?_)
macro_rules | `(tactic| safe_lemma) => `(tactic| with_reducible_and_instances refine Mat.viewResize_safe ?_)
macro_rules | `(tactic| safe_lemma) => `(tactic| with_reducible_and_instances refine Mat.setRandom_safe ?_)
macro_rules | `(tactic| safe_lemma) => `(tactic| with_reducible_and_instances refine Mat.setRawInt_safe ?_)

end BeeDNN
