import Verif.Lemmas.Initializers
import Mathlib.Data.Real.Sqrt

/-! # Properties of the initializers: C85, and the initializer part of C62 -/

namespace BeeDNN

/-- The names Initializers.h announces. -/
def initializerNames : List String :=
  ["GlorotUniform", "GlorotNormal", "HeUniform", "HeNormal", "LecunUniform", "LecunNormal", "Uniform", "Normal",
   "Zeros", "Ones"]

/-- The bound of a uniform initializer for a matrix of `i` inputs and `o` outputs. -/
noncomputable def uniformBound (i o : Nat) : String → Option ℝ
  | "GlorotUniform" => some (√(6 / ((i : ℝ) + o)))
  | "HeUniform" => some (√(6 / (i : ℝ)))
  | "LecunUniform" => some (√(3 / (i : ℝ)))
  | "Uniform" => some 1
  | _ => none

/-- The standard deviation of a normal initializer. -/
noncomputable def normalDev (i o : Nat) : String → Option ℝ
  | "GlorotNormal" => some (√(2 / ((i : ℝ) + o)))
  | "HeNormal" => some (√(2 / (i : ℝ)))
  | "LecunNormal" => some (√(1 / (i : ℝ)))
  | "Normal" => some 1
  | _ => none

/-- C85, uniform initializers: the matrix is the stream of draws scaled by the bound; when the draws are in [-1,1]
every entry is within the bound. -/
theorem C85_uniform (g draw : Nat → ℝ) (m : Mat ℝ) (hm : m.WF) (i o : Nat) (s : String) (a : ℝ)
    (hs : uniformBound i o s = some a) :
    initCompute g draw s m i o = .ok (Mat.ofFn i o (fun r c => draw (r * o + c) * a)) ∧
    ((∀ k < i * o, |draw k| ≤ 1) → ∀ r < i, ∀ c < o, |draw (r * o + c) * a| ≤ a) := by
  have ha : 0 ≤ a := by
    unfold uniformBound at hs
    split at hs <;> injection hs <;> subst_vars <;> first | exact Real.sqrt_nonneg _ | exact zero_le_one
  refine ⟨?_, ?_⟩
  · unfold uniformBound at hs
    split at hs <;> injection hs <;> subst_vars <;>
      simp [initCompute, initUniform_ofFn g draw _ hm, setRandom_ofFn g hm]
  · intro hd r hr c hc
    have := hd _ (idx_lt hr hc)
    rw [abs_mul, abs_of_nonneg ha]
    nlinarith [abs_nonneg (draw (r * o + c))]

example : uniformBound 3 2 "Uniform" = some 1 := by simp [uniformBound]

/-- C85, normal initializers: entry `k` is the `k`-th standard normal draw times the standard deviation. -/
theorem C85_normal (g draw : Nat → ℝ) (m : Mat ℝ) (hm : m.WF) (i o : Nat) (s : String) (a : ℝ)
    (hs : normalDev i o s = some a) :
    initCompute g draw s m i o = .ok (Mat.ofFn i o (fun r c => a * draw (r * o + c))) := by
  unfold normalDev at hs
  split at hs <;> injection hs <;> subst_vars <;> simp [initCompute, initNormal_ofFn g draw _ hm]

example : normalDev 2 3 "HeNormal" = some (√(2 / 2)) := by simp [normalDev]

/-- C85, constants. -/
theorem C85_constant (g draw : Nat → ℝ) (m : Mat ℝ) (hm : m.WF) (i o : Nat) :
    initCompute g draw "Zeros" m i o = .ok (Mat.ofFn i o (fun _ _ => 0)) ∧
    initCompute g draw "Ones" m i o = .ok (Mat.ofFn i o (fun _ _ => 1)) := by
  constructor <;> simp [initCompute, Mat.setConstantRC_ofFn g hm]

/-- C85: every announced name yields an `i × o` matrix that depends neither on the earlier matrix nor on what fresh
memory contains. -/
theorem C85_shape (s : String) (hs : s ∈ initializerNames) (draw : Nat → ℝ) (i o : Nat) :
    ∃ x, ∀ (g : Nat → ℝ) (m : Mat ℝ), m.WF → initCompute g draw s m i o = .ok (Mat.ofFn i o x) := by
  simp only [initializerNames, List.mem_cons, List.not_mem_nil, or_false] at hs
  rcases hs with rfl | rfl | rfl | rfl | rfl | rfl | rfl | rfl | rfl | rfl
  · exact ⟨_, fun g m hm => (C85_uniform g draw m hm i o _ _ (by rw [uniformBound])).1⟩
  · exact ⟨_, fun g m hm => C85_normal g draw m hm i o _ _ (by rw [normalDev])⟩
  · exact ⟨_, fun g m hm => (C85_uniform g draw m hm i o _ _ (by rw [uniformBound])).1⟩
  · exact ⟨_, fun g m hm => C85_normal g draw m hm i o _ _ (by rw [normalDev])⟩
  · exact ⟨_, fun g m hm => (C85_uniform g draw m hm i o _ _ (by rw [uniformBound])).1⟩
  · exact ⟨_, fun g m hm => C85_normal g draw m hm i o _ _ (by rw [normalDev])⟩
  · exact ⟨_, fun g m hm => (C85_uniform g draw m hm i o _ _ (by rw [uniformBound])).1⟩
  · exact ⟨_, fun g m hm => C85_normal g draw m hm i o _ _ (by rw [normalDev])⟩
  · exact ⟨_, fun g m hm => (C85_constant g draw m hm i o).1⟩
  · exact ⟨_, fun g m hm => (C85_constant g draw m hm i o).2⟩

example : "HeUniform" ∈ initializerNames := by decide

/-- C62, initializers: the announced names are distinct; a listed name gives the matrix the requested shape, any
other string leaves the matrix untouched (no error is reported, Initializers.cpp:120). -/
theorem C62_initializers (s : String) (g draw : Nat → ℝ) (m : Mat ℝ) (hm : m.WF) (i o : Nat) :
    initializerNames.Nodup ∧
    (s ∈ initializerNames → ∃ x, initCompute g draw s m i o = .ok (Mat.ofFn i o x)) ∧
    (s ∉ initializerNames → initCompute g draw s m i o = .ok m) := by
  refine ⟨by decide, fun hs => ?_, fun hs => ?_⟩
  · obtain ⟨x, hx⟩ := C85_shape s hs draw i o
    exact ⟨x, hx g m hm⟩
  · simp only [initializerNames, List.mem_cons, List.not_mem_nil, or_false, not_or] at hs
    simp [initCompute, hs]

example : "glorotuniform" ∉ initializerNames := by decide

/-- C85 and C62, where a wrong name goes: a dense layer created with an unknown initializer has an empty weight
matrix instead of an `i × o` one. -/
theorem C85_unknown_dense (e : Env) (i o : Nat) (hi : 0 < i) (ho : 0 < o) (s t : String) (hs : s ∉ initializerNames) :
    ∃ l, Layer.newDense e i o s t = .ok l ∧ l.weight = ⟨0, 0, []⟩ := by
  have h0 : ¬ (i = 0 ∨ o = 0) := by omega
  have h1 := (C62_initializers s e.g e.draw ⟨0, 0, []⟩ rfl i o).2.2 hs
  obtain ⟨b, hb, -⟩ := initCompute_WF e.g e.drawX t (m := ⟨0, 0, []⟩) rfl 1 o
  refine ⟨{ kind := .dense i o, wInit := s, bInit := t, bias := b }, ?_, rfl⟩
  simp only [Layer.newDense, Layer.init, if_neg h0, h1, hb, bind_ok', pure_ok]

example : (0 : Nat) < 2 ∧ "" ∉ initializerNames := by decide

end BeeDNN
