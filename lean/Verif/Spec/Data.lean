import Verif.Model.Data

/-! # Specification: trainers that own copies of their data -/

namespace BeeDNN

/-- What a user may think: `set_train_data` and `set_validation_data` copy the matrices. -/
def byCopy : Keeping (Mat ℝ) where
  keep mats a := match mats a with
    | some m => .ok m
    | none => .error .useAfterFree
  read _ m := .ok m

variable {ω τ κ : Type}

/-- A step that gives the matrix at this address to a trainer. -/
def DataOp.Gives (a : Nat) : DataOp ω τ κ → Prop
  | .setTrain _ b c => a = b ∨ a = c
  | .setValid _ b c => a = b ∨ a = c
  | _ => False

/-- A step that changes or destroys the matrix at this address. -/
def DataOp.Spoils (a : Nat) : DataOp ω τ κ → Prop
  | .write b _ => a = b
  | .destroy b => a = b
  | _ => False

/-- The trainer keeps this address. -/
def DataHolder.Holds (h : DataHolder τ Nat) (a : Nat) : Prop :=
  (∃ p, h.train = some p ∧ (a = p.1 ∨ a = p.2)) ∨ ∃ p, h.valid = some p ∧ (a = p.1 ∨ a = p.2)

/-- The same trainer with the contents in place of the addresses. -/
def DataHolder.owned (f : Nat → Mat ℝ) (h : DataHolder τ Nat) : DataHolder τ (Mat ℝ) :=
  { obj := h.obj, train := h.train.map fun p => (f p.1, f p.2), valid := h.valid.map fun p => (f p.1, f p.2) }

namespace DataState

/-- Some trainer keeps this address. -/
def Held (s : DataState ω τ Nat) (a : Nat) : Prop := ∃ i h, s.trainers i = some h ∧ h.Holds a

/-- All matrices kept exist. -/
def Sound (s : DataState ω τ Nat) : Prop := ∀ a, s.Held a → (s.mats a).isSome

/-- The program changes and destroys no matrix while a trainer keeps its address. -/
def Careful (C : TrainerClass ω τ κ) : DataState ω τ Nat → List (DataOp ω τ κ) → Prop
  | _, [] => True
  | s, o :: os => (∀ a, o.Spoils a → ¬ s.Held a) ∧ ∀ s', s.step byAddress C o = .ok s' → s'.Careful C os

/-- What a pointer means. -/
noncomputable def deref (s : DataState ω τ Nat) (a : Nat) : Mat ℝ := (s.mats a).getD ⟨0, 0, []⟩

/-- The same state with the contents in place of the addresses. -/
noncomputable def owned (s : DataState ω τ Nat) : DataState ω τ (Mat ℝ) where
  mats := s.mats
  world := s.world
  trainers i := (s.trainers i).map (DataHolder.owned s.deref)

end DataState


end BeeDNN
