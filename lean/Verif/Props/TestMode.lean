import Verif.Lemmas.FitsEpoch
import Verif.Props.LayerPass

/-! # Switching a network between training and inference: C38 -/

namespace BeeDNN

/-- C38: `set_train_mode` gives the mode to the network and to each of its layers, and changes nothing else in them; it has no fault if no layer has been deleted. -/
theorem C38_set_mode {w : World} {n : Nat} (hl : ∀ a ∈ (w.nets n).layers, ∃ l, w.heap[a]? = some (some l)) (b : Bool) :
    ∃ w', w.setTrain n b = .ok w' ∧ w'.nets n = { w.nets n with train := b } ∧ (∀ m, m ≠ n → w'.nets m = w.nets m) ∧
      ∀ (a : Nat) (l : Layer), a ∈ (w.nets n).layers → w.heap[a]? = some (some l) → w'.heap[a]? = some (some { l with train := b }) := by
  obtain ⟨w', h1, h2, h3⟩ := World.setTrainAll_all b (w.nets n).layers (w.setNet n { w.nets n with train := b }) hl
  refine ⟨w', h1, ?_, fun m hm => ?_, fun a l ha h => h3 a l ha h⟩
  · rw [h2, World.setNet_same]
  · rw [h2, World.setNet_other _ _ hm]

/-- C38: after `set_train_mode(false)` the noise layers of a network do nothing, whatever mode they were in and whatever the random numbers. -/
theorem C38_noise_off {w w' : World} {n a : Nat} {l : Layer} (hl : ∀ a ∈ (w.nets n).layers, ∃ l, w.heap[a]? = some (some l)) (ha : a ∈ (w.nets n).layers) (h : w.heap[a]? = some (some l)) {r : ℝ}
    (hk : l.kind = .gaussianNoise r ∨ l.kind = .uniformNoise r ∨ l.kind = .gaussianDropout r) (hs : w.setTrain n false = .ok w') :
    ∃ l', w'.heap[a]? = some (some l') ∧ ∀ (e : Env) (N C : Nat) (x : Nat → Row) (o : Mat ℝ), o.WF → l'.forward e (Mat.ofFn N C x) o = .ok (l', Mat.ofFn N C x) := by
  obtain ⟨w₁, h1, -, -, h4⟩ := C38_set_mode hl false
  obtain rfl : w' = w₁ := by rw [hs] at h1; injection h1
  exact ⟨_, h4 a l ha h, fun e N C x o ho => C38_noise_object hk rfl ho⟩

/-! ## Instances -/

/-- A network of one noise layer, in training mode. -/
noncomputable def noisyWorld : World where
  heap := [some { kind := .gaussianNoise 1, train := true }]
  nets := fun n => if n = 0 then { layers := [0], train := true } else {}

theorem noisyWorld_live : ∀ a ∈ (noisyWorld.nets 0).layers, ∃ l, noisyWorld.heap[a]? = some (some l) := by
  intro a ha
  obtain rfl : a = 0 := by simpa [noisyWorld] using ha
  exact ⟨_, rfl⟩

example : ∃ w', noisyWorld.setTrain 0 false = .ok w' ∧ ∃ l', w'.heap[0]? = some (some l') ∧
    ∀ (e : Env) (N C : Nat) (x : Nat → Row) (o : Mat ℝ), o.WF → l'.forward e (Mat.ofFn N C x) o = .ok (l', Mat.ofFn N C x) := by
  obtain ⟨w', h, -⟩ := C38_set_mode noisyWorld_live false
  exact ⟨w', h, C38_noise_off noisyWorld_live (by simp [noisyWorld]) rfl (.inl rfl) h⟩

end BeeDNN
