import Verif.Lemmas.Build
import Verif.Lemmas.TrainEval
import Verif.Props.LayerPass

/-! # Networks that a program builds layer by layer: C145 -/

namespace BeeDNN
open Finset World

/-- C145: a program that makes layers whose sizes fit together and adds them to an empty network gets the network it describes: the same layers in the same order with the sizes of the arguments,
weights and biases ready for use. Nothing else changes. -/
theorem C145_build (e : Nat → Env) {wi bi : Nat → String} (hwi : ∀ i, wi i ∈ initNames) (hbi : ∀ i, bi i ∈ initNames) {depth : Nat} {width : Nat → Nat} {kind : Nat → PlyKind} (hd : 0 < depth)
    (hpos : ∀ i, i ≤ depth → 0 < width i) (hk : ∀ i, i < depth → kind i ≠ .bias ∧ (kind i).Fits (width i) (width (i + 1))) {w : World} {n : Nat} (hw : (w.nets n).layers = []) :
    ∃ (w' : World) (m : Mlp), World.addAll n ((List.range depth).map fun i => (kind i).construct (e i) (width i) (width (i + 1)) (wi i) (bi i)) w = .ok w' ∧ Represents w' n m ∧
      m.depth = depth ∧ m.width = width ∧ (∀ i, i < depth → (m.ply i).kind = kind i) ∧ (∀ k, k ≠ n → w'.nets k = w.nets k) ∧ ∀ a, a < w.heap.length → w'.heap[a]? = w.heap[a]? := by
  have h : ∀ i, ∃ (l : Layer) (p : Ply), i < depth → (kind i).construct (e i) (width i) (width (i + 1)) (wi i) (bi i) = .ok l ∧ p.kind = kind i ∧ l.Valid ∧
      p.Is (width i) (width (i + 1)) l ∧ l.first = false := fun i => by
    by_cases hi : i < depth
    · obtain ⟨l, p, h⟩ := Ply.construct_ok (e i) (hk i hi).1 (hk i hi).2 (hpos i (by omega)) (hpos (i + 1) (by omega)) (hwi i) (hbi i)
      exact ⟨l, p, fun _ => h⟩
    · exact ⟨{ kind := .softmax }, { kind := .softmax }, fun h => absurd h hi⟩
  choose l p h using h
  obtain ⟨w', h1, h2, h3, h4⟩ := addAll_ok n ((List.range depth).map l) w
  rw [hw, List.nil_append, List.length_map, List.length_range] at h2
  have hl : ((List.range depth).map fun i => (kind i).construct (e i) (width i) (width (i + 1)) (wi i) (bi i)) = ((List.range depth).map l).map .ok := by
    rw [List.map_map]
    exact List.map_congr_left fun i hi => (h i (List.mem_range.mp hi)).1
  refine ⟨w', ⟨depth, width, p⟩, by rw [hl, h1], ⟨⟨hd, hpos, fun i hi => ?_⟩, ?_, ?_, fun i a ha => ?_⟩, rfl, rfl, fun i hi => (h i hi).2.1, h4, fun a ha => ?_⟩
  · change (p i).kind.Fits _ _
    rw [(h i hi).2.1]
    exact (hk i hi).2
  · rw [h2]
    exact List.nodup_range.map fun a b hab => by omega
  · rw [h2, List.length_map, List.length_range]
  · rw [h2, List.getElem?_map] at ha
    obtain ⟨j, hj, rfl⟩ := Option.map_eq_some_iff.mp ha
    obtain ⟨hi, rfl⟩ := List.getElem?_eq_some_iff.mp hj
    rw [List.length_range] at hi
    rw [List.getElem_range]
    refine ⟨l i, ?_, (h i hi).2.2.1, (h i hi).2.2.2.1, fun _ => (h i hi).2.2.2.2⟩
    rw [h3, List.getElem?_append_right (by omega), Nat.add_sub_cancel_left]
    simp [hi]
  · rw [h3, List.getElem?_append_left ha]

/-- C145: and its predictions are those of the described network: the layers applied one after the other. -/
theorem C145_predict (e e' : Nat → Env) {wi bi : Nat → String} (hwi : ∀ i, wi i ∈ initNames) (hbi : ∀ i, bi i ∈ initNames) {depth : Nat} {width : Nat → Nat} {kind : Nat → PlyKind} (hd : 0 < depth)
    (hpos : ∀ i, i ≤ depth → 0 < width i) (hk : ∀ i, i < depth → kind i ≠ .bias ∧ (kind i).Fits (width i) (width (i + 1))) {w : World} {n : Nat} (hw : (w.nets n).layers = []) :
    ∃ (w' : World) (p : Nat → Ply), World.addAll n ((List.range depth).map fun i => (kind i).construct (e i) (width i) (width (i + 1)) (wi i) (bi i)) w = .ok w' ∧
      (∀ i, i < depth → (p i).kind = kind i) ∧ ∀ (N : Nat) (x : Nat → Row) (o : Mat ℝ), o.WF →
        ∃ v, w'.predict e' n (Mat.ofFn N (width 0) x) o = .ok (v, Mat.ofFn N (width depth) fun s => (Mlp.mk depth width p).out (x s)) := by
  obtain ⟨w', m, h1, h2, rfl, rfl, h3, -, -⟩ := C145_build e hwi hbi hd hpos hk hw
  refine ⟨w', m.ply, h1, h3, fun N x o ho => ?_⟩
  obtain ⟨v, hv, -⟩ := h2.predict (e := e') N x o ho
  exact ⟨v, hv⟩

/-- C145: a dropout layer made with a rate drops by that rate in training: an entry stays where the draw is below the limit for `1 - rate`, and is divided by `1 - rate`. -/
theorem C145_dropout (e e' : Env) {rate : ℝ} (hr : rate ≠ 0) {N C : Nat} {x d : Nat → Nat → ℝ} {o gi : Mat ℝ} (ho : o.WF) (hg : gi.WF) :
    ∃ (l l' : Layer) (gi' : Mat ℝ), Layer.newDropout rate = .ok l ∧ ({ l with train := true } : Layer).pass e e' (Mat.ofFn N C x) (Mat.ofFn N C d) o gi = .ok (l',
      Mat.ofFn N C (fun i j => if e.rng (i * C + j) % 65536 < e.lim (1 - rate) then x i j / (1 - rate) else 0), gi') := by
  obtain ⟨m, hm⟩ := C37_dropout_pass (l := { kind := .dropout rate, train := true }) (e := e) (e' := e') (x := x) (d := d) (N := N) (C := C) rfl hr rfl Mat.WF_empty ho hg
  exact ⟨_, _, _, rfl, hm⟩

/-- C145: a noise layer made with a positive noise adds its draws in training. -/
theorem C145_noise (e e' : Env) {noise : ℝ} (hr : 0 < noise) {N C : Nat} {x d : Nat → Nat → ℝ} {o gi : Mat ℝ} (ho : o.WF) (hg : gi.WF) :
    ∀ c ∈ [Layer.newGaussianNoise noise, Layer.newUniformNoise noise], ∃ l l' : Layer, ∃ gi', c = .ok l ∧
      ({ l with train := true } : Layer).pass e e' (Mat.ofFn N C x) (Mat.ofFn N C d) o gi = .ok (l', Mat.ofFn N C (fun i j => x i j + e.draw (i * C + j)), gi') := by
  intro c hc
  simp only [List.mem_cons, List.not_mem_nil, or_false] at hc
  rcases hc with rfl | rfl
  · exact ⟨_, _, _, rfl, C38_noise_pass (l := { kind := .gaussianNoise noise, train := true }) (.inl rfl) hr rfl ho hg⟩
  · exact ⟨_, _, _, rfl, C38_noise_pass (l := { kind := .uniformNoise noise, train := true }) (.inr rfl) hr rfl ho hg⟩

/-! ## Instances -/

/-- A convolution network: 6×6 pixels, 3×3 kernels with 2 channels, ReLU, pooling, dense layer, softmax. -/
noncomputable def convKinds : Nat → PlyKind
  | 0 => .conv 6 6 1 3 3 2 1 1
  | 1 => .act Act.relu
  | 2 => .avgPool 4 4 2 2 2
  | 3 => .dense
  | _ => .softmax

def convWidths : Nat → Nat
  | 0 => 36
  | 1 | 2 => 32
  | 3 => 8
  | _ => 3

example (e : Nat → Env) : ∃ (w' : World) (m : Mlp), World.addAll 0
      [Layer.newConv (e 0) 6 6 1 3 3 2 1 1, Layer.newActivation "Relu", Layer.newAvgPool 4 4 2 2 2, Layer.newDense (e 3) 8 3 "GlorotUniform" "Zeros", Layer.newSoftmax] ⟨[], fun _ => {}⟩ = .ok w' ∧
    Represents w' 0 m ∧ m.depth = 5 ∧ m.width = convWidths := by
  obtain ⟨w', m, h1, h2, h3, h4, -⟩ := C145_build e (wi := fun _ => "GlorotUniform") (bi := fun _ => "Zeros") (by simp [initNames]) (by simp [initNames]) (depth := 5) (width := convWidths)
    (kind := convKinds) (by norm_num)
    (fun i hi => by interval_cases i <;> simp [convWidths])
    (fun i hi => by
      interval_cases i <;> refine ⟨by simp [convKinds], ?_⟩ <;> simp [convKinds, convWidths, PlyKind.Fits, convOutSize]
      exact ⟨"Relu", by rfl⟩)
    (w := ⟨[], fun _ => {}⟩) (n := 0) rfl
  exact ⟨w', m, h1, h2, h3, h4⟩

example (e e' : Env) : ∃ (l l' : Layer) (gi' : Mat ℝ), Layer.newDropout (1 / 5) = .ok l ∧
    ({ l with train := true } : Layer).pass e e' (Mat.ofFn 2 3 fun _ _ => 4) (Mat.ofFn 2 3 fun _ _ => 1) ⟨0, 0, []⟩ ⟨0, 0, []⟩ = .ok (l',
      Mat.ofFn 2 3 (fun i j => if e.rng (i * 3 + j) % 65536 < e.lim (4 / 5) then 5 else 0), gi') := by
  obtain ⟨l, l', gi', h1, h2⟩ := C145_dropout e e' (rate := 1 / 5) (by norm_num) (N := 2) (C := 3) (x := fun _ _ => 4) (d := fun _ _ => 1) (o := ⟨0, 0, []⟩) (gi := ⟨0, 0, []⟩) Mat.WF_empty Mat.WF_empty
  norm_num at h2
  exact ⟨l, l', gi', by simpa using h1, h2⟩

example (e : Env) : ∃ l l' : Layer, ∃ gi', Layer.newGaussianNoise 2 = .ok l ∧ ({ l with train := true } : Layer).pass e e (Mat.ofFn 2 3 fun _ _ => 4) (Mat.ofFn 2 3 fun _ _ => 1) ⟨0, 0, []⟩ ⟨0, 0, []⟩ =
    .ok (l', Mat.ofFn 2 3 (fun i j => 4 + e.draw (i * 3 + j)), gi') :=
  C145_noise e e (noise := 2) (by norm_num) Mat.WF_empty Mat.WF_empty _ (by simp)

end BeeDNN
