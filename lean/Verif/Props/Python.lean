import Verif.Lemmas.Python

/-! # C105: the Python binding (python_binding/BeeDNNLib.cpp) -/

namespace BeeDNN
open Py

/-- C105: for samples of one entry and every network built from layers that need no sizes, any number of calls of `predict` with any buffers of sufficient
length fill output number `i` with the functions of the layers one after the other applied to input number `i`, leave the rest of the output buffer as it is
and do not depend on what memory or earlier calls held. -/
theorem C105_predict_partial {ss : List String} {fs : List (ℝ → ℝ)} (hf : List.Forall₂ (NameFn 1) ss fs) (hne : ss ≠ []) (e : Nat → Env) (rs : List Request)
    (hr : ∀ r ∈ rs, r.nb ≤ r.input.length ∧ r.nb ≤ r.output.length) :
    ∃ h, build e 0 ss (create 1) = .ok h ∧
      predictAll rs h = .ok (rs.map fun r => (r.input.take r.nb).map (chain fs) ++ r.output.drop r.nb) := by
  obtain ⟨h, h1, h2, h3, h4⟩ := build_entry (C := 1) (by omega) e ss fs hf 0 (entry_create 1)
  refine ⟨h, h1, ?_⟩
  have hn := h3 hne
  have hs : h.inputSize = 1 := h2
  clear h1 h2 h3
  induction rs generalizing h with
  | nil => rfl
  | cons r rs ih =>
    obtain ⟨r1, r2⟩ := hr r List.mem_cons_self
    obtain ⟨h', out, a1, -, a3, a4, a5, a6⟩ := h4.predict (by omega) hs hn r.e r.g (pIn := r.input) (pOut := r.output) (N := r.nb) (by omega) r2
    rw [predictAll, a1, bind_ok']
    dsimp only
    rw [ih (fun x hx => hr x (List.mem_cons_of_mem _ hx)) h' a4 a6 a5, bind_ok', out_eq (C := 1) (by omega) (by omega) r2 a3]
    rfl

/-- Tanh and then a gain; two calls. -/
example (e : Nat → Env) (a : Activation) (ha : getActivation "Tanh" = some a) : ∃ h, build e 0 ["Tanh", "Gain"] (create 1) = .ok h ∧
    predictAll [⟨[1, 2, 3], [0, 0, 0, 7], 3, e, fun _ => 5⟩, ⟨[4], [0], 1, e, fun _ => 6⟩] h = .ok [[a.apply 1, a.apply 2, a.apply 3, 7], [a.apply 4]] :=
  C105_predict_partial (ss := ["Tanh", "Gain"]) (.cons (.activation "Tanh" a (by decide +kernel) ha) (.cons .gain .nil)) (by simp) e _ (by simp)

/-- C105, why the claim is partial: with more than one entry the output buffer gets the first entries of the result in the order of memory, one for each sample,
instead of the results of the samples. -/
theorem C105_wide_actual {C : Nat} (hC : 0 < C) {ss : List String} {fs : List (ℝ → ℝ)} (hf : List.Forall₂ (NameFn C) ss fs) (hne : ss ≠ []) (e e' : Nat → Env) (g : Nat → ℝ)
    {pIn pOut : List ℝ} {N : Nat} (hi : N * C ≤ pIn.length) (ho : N ≤ pOut.length) :
    ∃ h h', build e 0 ss (create C) = .ok h ∧ Py.predict e' g h pIn pOut N = .ok (h', (pIn.take N).map (chain fs) ++ pOut.drop N) := by
  obtain ⟨h, h1, h2, h3, h4⟩ := build_entry hC e ss fs hf 0 (entry_create C)
  obtain ⟨h', out, a1, -, a3, -⟩ := h4.predict hC h2 (h3 hne) e' g hi ho
  refine ⟨h, h', h1, ?_⟩
  rw [a1, out_eq hC hi ho a3]

/-- C105: two samples of two entries and a layer that changes nothing: the output for the second sample is an entry of the first one. -/
theorem C105_wide_wrong (e e' : Nat → Env) (g : Nat → ℝ) : ∃ h h', build e 0 ["Gain"] (create 2) = .ok h ∧
    Py.predict e' g h [1, 2, 3, 4] [0, 0] 2 = .ok (h', [1, 2]) :=
  C105_wide_actual (by norm_num) (.cons .gain .nil) (by simp) e e' g (by simp) (by simp)

/-- C105: a network without layers gives what the memory held. -/
theorem C105_empty (e : Nat → Env) (g : Nat → ℝ) (C : Nat) (pIn : List ℝ) {N : Nat} (hi : N * C ≤ pIn.length) :
    Py.predict e g (create C) pIn (List.replicate N 0) N = .ok (create C, tab N g) := by
  obtain ⟨out, b1, b2, b3⟩ := copy_out (N := N) (K := 1) (by norm_num) (fun i _ => g i) (out := List.replicate N 0) le_rfl (by simp)
  have hm : Mat.alloc g N 1 = Mat.ofFn N 1 (fun i _ => g i) := by rw [Mat.alloc_eq, Mat.ofFn_eq_flat]; simp only [Nat.div_one]
  have ho : out = tab N g := by
    apply List.ext_getElem?
    intro i
    rw [b3 i, tab_getElem?, Nat.div_one]
    split
    · rfl
    · rw [List.getElem?_eq_none (by rw [List.length_replicate]; omega)]
  rw [Py.predict]
  simp only [create]
  rw [fromBuffer_ofFn hi, bind_ok', World.predict]
  simp only [World.predictLoop, bind_ok', pure_ok, hm]
  rw [b1, bind_ok', ho]

/-- C105: a dense layer gets no sizes, so that no prediction is possible: the assertion on the number of columns fails. -/
theorem C105_dense (e e' : Nat → Env) (g : Nat → ℝ) {C : Nat} (hC : 0 < C) {pIn pOut : List ℝ} {N : Nat} (hi : N * C ≤ pIn.length) {s : String} (hs : s = "Dense" ∨ s = "Dot") :
    ∃ h, build e 0 [s] (create C) = .ok h ∧ Py.predict e' g h pIn pOut N = .error .assertFail := by
  have hz : Factory.castIndex 0 = .ok 0 := Factory.castIndex_size ⟨by norm_num, by norm_num, by norm_num⟩
  rcases hs with rfl | rfl
  · refine ⟨{ w := ((create C).w.alloc { kind := .dense 0 0, wInit := "GlorotUniform", bInit := "Zeros" }).add 0 0, inputSize := C }, ?_, ?_⟩
    · simp only [build, addLayer, Factory.create, if_true, hz, bind_ok']
      rfl
    · rw [Py.predict, fromBuffer_ofFn hi, bind_ok']
      simp [World.predict, World.predictLoop, World.add, World.alloc, World.setNet, create, World.deref, Layer.forward, denseForward, check, hC.ne']
  · refine ⟨{ w := ((create C).w.alloc { kind := .dot 0 0, wInit := "GlorotUniform" }).add 0 0, inputSize := C }, ?_, ?_⟩
    · simp only [build, addLayer, Factory.create, String.reduceEq, if_true, if_false, hz, bind_ok']
      rfl
    · rw [Py.predict, fromBuffer_ofFn hi, bind_ok']
      simp [World.predict, World.predictLoop, World.add, World.alloc, World.setNet, create, World.deref, Layer.forward, dotForward, check, hC.ne']

/-- C105: an unknown name stops the program. -/
theorem C105_unknown {s : String} (h1 : s ∉ Factory.names) (h2 : s ∉ availableActivations) (e : Env) (h : Handle) : addLayer e h s = .error .assertFail := by
  rw [addLayer, C86_unknown h1 h2]
  rfl

example : "Convolution2D" ∉ Factory.names ∧ "Convolution2D" ∉ availableActivations := by decide +kernel

/-- C105: too small buffers are read and written outside of their bounds. -/
theorem C105_short (e : Nat → Env) (g : Nat → ℝ) {ss : List String} {fs : List (ℝ → ℝ)} (hf : List.Forall₂ (NameFn 1) ss fs) (hne : ss ≠ []) {pIn pOut : List ℝ} {N : Nat}
    (h : pIn.length < N ∨ pOut.length < N) : ∃ h, build e 0 ss (create 1) = .ok h ∧ Py.predict e g h pIn pOut N = .error .outOfBounds := by
  obtain ⟨p, h1, h2, h3, h4⟩ := build_entry (C := 1) (by omega) e ss fs hf 0 (entry_create 1)
  refine ⟨p, h1, ?_⟩
  by_cases hi : N * 1 ≤ pIn.length
  · exact h4.short (by omega) h2 (h3 hne) e g hi (by omega)
  · rw [Py.predict, show p.inputSize = 1 from h2, fromBuffer, if_neg hi]
    rfl

example (e : Nat → Env) (g : Nat → ℝ) : ∃ h, build e 0 ["Gain"] (create 1) = .ok h ∧ Py.predict e g h [1, 2, 3] [0, 0] 3 = .error .outOfBounds :=
  C105_short e g (.cons .gain .nil) (by simp) (.inr (by simp))

/-- C105: the three networks of `plot_tanh_vs_hardtanh.py`, each with the 100 numbers that it plots, run to their end. -/
theorem C105_sample {s : String} (hs : s = "Tanh" ∨ s = "SmoothTanh" ∨ s = "HardTanh") (e e' : Nat → Env) (g : Nat → ℝ) {x y : List ℝ} (hx : x.length = 100) (hy : y.length = 100) :
    ∃ a h h', getActivation s = some a ∧ build e 0 [s] (create 1) = .ok h ∧ Py.predict e' g (setClassif h 0) x y 100 = .ok (h', x.map a.apply) := by
  have hs' : s ∈ availableActivations := by rcases hs with rfl | rfl | rfl <;> decide +kernel
  obtain ⟨a, ha⟩ := (C25_known_iff s).2 hs'
  obtain ⟨p, h1, h2, h3, h4⟩ := build_entry (C := 1) (by omega) e [s] [a.apply] (.cons (.activation s a hs' ha) .nil) 0 (entry_create 1)
  obtain ⟨p', out, b1, -, b3, -⟩ := (h4.setClassif 0).predict (by omega) h2 (by simpa [setClassif, World.setNet] using h3) e' g (pIn := x) (pOut := y) (N := 100) (by omega) (by omega)
  refine ⟨a, p, p', ha, h1, ?_⟩
  rw [b1, out_eq (C := 1) (by omega) (by omega) (by omega) b3, List.take_of_length_le (by omega), List.drop_of_length_le (by omega), List.append_nil]
  rfl

/-- C105: `set_classification_mode` stores whether its argument is different from 0; layers, input size and all else stay, so that predictions do too. -/
theorem C105_mode (h : Handle) (mode : Int) :
    (((setClassif h mode).w.nets 0).classif = true ↔ mode ≠ 0) ∧ ((setClassif h mode).w.nets 0).layers = (h.w.nets 0).layers ∧ (setClassif h mode).w.heap = h.w.heap ∧
      (setClassif h mode).inputSize = h.inputSize ∧ ∀ k, k ≠ 0 → (setClassif h mode).w.nets k = h.w.nets k := by
  refine ⟨?_, ?_, rfl, rfl, fun k hk => ?_⟩
  · simp [setClassif, World.setNet]
  · simp [setClassif, World.setNet]
  · simp [setClassif, World.setNet, hk]

example : ((setClassif (create 1) 2).w.nets 0).classif = true ∧ ((setClassif (create 1) 0).w.nets 0).classif = false :=
  ⟨(C105_mode (create 1) 2).1.2 (by decide), by simpa using (not_congr (C105_mode (create 1) 0).1).2 (by simp)⟩

end BeeDNN
