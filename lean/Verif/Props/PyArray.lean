import Verif.Lemmas.PyArray
import Verif.Props.Readers

/-! # `LayerFlatten` and the data import of the Python library: C143, C144 -/

namespace BeeDNN
open Data

/-- C143: `forward` makes one row of each sample, for samples of any number of dimensions: the entry at an index of a sample gets to the place that counts the last index fastest.
Missing: batches without samples raise an exception (`C143_empty`). -/
theorem C143_forward_partial (l : PyFlatten) {x : NdArr} (hx : x.Ok) {n : Nat} {rest : List Nat} (hs : x.shape = n :: rest) (hn : 0 < n) :
    ∃ l' y, l.forward x = .ok (l', y) ∧ y.Ok ∧ y.shape = [n, rest.prod] ∧
      ∀ i idx, i < n → Inside rest idx → Inside y.shape [i, place rest idx] ∧ y.at [i, place rest idx] = x.at (i :: idx) := by
  have hl : x.data.length = n * rest.prod := by rw [show x.data.length = _ from hx, hs, List.prod_cons]
  refine ⟨{ inputShape := some rest }, { x with shape := [n, rest.prod] }, ?_, ?_, rfl, fun i idx hi hidx => ⟨⟨hi, place_lt hidx, trivial⟩, ?_⟩⟩
  · unfold PyFlatten.forward
    rw [hs]
    dsimp only
    rw [reshape_rest hn hl]
    rfl
  · show x.data.length = [n, rest.prod].prod
    simpa using hl
  · show x.data[place [n, rest.prod] [i, place rest idx]]? = x.data[place x.shape (i :: idx)]?
    rw [hs]
    simp [place]

/-- C143: after `forward` of images, `backpropagation` puts the gradient at place `i * b + j` of a row to row `i` and column `j` of the image, for any number of rows.
Missing: samples with other than two dimensions (`C143_flat`, `C143_channels`). -/
theorem C143_backward_partial (l : PyFlatten) {x : NdArr} {n a b : Nat} (hs : x.shape = [n, a, b]) {l' : PyFlatten} {y : NdArr} (hf : l.forward x = .ok (l', y)) (ha : 0 < a) (hb : 0 < b)
    {g : NdArr} (hg : g.Ok) {N : Nat} (hgs : g.shape = [N, a * b]) :
    ∃ d, l'.backward g = .ok d ∧ d.Ok ∧ d.shape = [N, a, b] ∧ ∀ s i j, s < N → i < a → j < b → d.at [s, i, j] = g.at [s, i * b + j] := by
  have hl : g.data.length = N * (a * b) := by rw [show g.data.length = _ from hg, hgs]; simp
  have hl' : l' = { inputShape := some [a, b] } := by
    unfold PyFlatten.forward at hf
    rw [hs] at hf
    dsimp only at hf
    cases hr : x.reshape [some n, none] with
    | error e => rw [hr] at hf; cases hf
    | ok z => rw [hr] at hf; cases hf; rfl
  subst hl'
  refine ⟨{ g with shape := [N, a, b] }, reshape_first ha hb hl, ?_, rfl, fun s i j _ _ _ => ?_⟩
  · show g.data.length = [N, a, b].prod
    simpa using hl
  · show g.data[place [N, a, b] [s, i, j]]? = g.data[place g.shape [s, i * b + j]]?
    rw [hgs]
    simp [place]

/-- C143: `backpropagation` undoes `forward`. -/
theorem C143_inverse (l : PyFlatten) {x : NdArr} (hx : x.Ok) {n a b : Nat} (hs : x.shape = [n, a, b]) (hn : 0 < n) (ha : 0 < a) (hb : 0 < b) :
    ∃ l' y, l.forward x = .ok (l', y) ∧ l'.backward y = .ok x := by
  have hl : x.data.length = n * (a * b) := by rw [show x.data.length = _ from hx, hs]; simp
  refine ⟨{ inputShape := some [a, b] }, { x with shape := [n, a * b] }, ?_, ?_⟩
  · unfold PyFlatten.forward
    rw [hs]
    dsimp only
    rw [reshape_rest hn hl]
    rfl
  · show NdArr.reshape { x with shape := [n, a * b] } [none, some a, some b] = _
    rw [reshape_first (g := { x with shape := [n, a * b] }) (n := n) ha hb hl]
    show Except.ok { x with shape := [n, a, b] } = _
    rw [← hs]

/-- C143 as claimed fails: a batch without samples raises an exception. -/
theorem C143_empty (l : PyFlatten) {x : NdArr} {rest : List Nat} (hs : x.shape = 0 :: rest) : l.forward x = .error .exception := by
  unfold PyFlatten.forward
  rw [hs]
  dsimp only
  rw [reshape_zero]
  rfl

/-- C143 as claimed fails: samples that are rows already pass `forward` unchanged, but every `backpropagation` raises an exception. -/
theorem C143_flat (l : PyFlatten) {x : NdArr} (hx : x.Ok) {n a : Nat} (hs : x.shape = [n, a]) (hn : 0 < n) :
    ∃ l', l.forward x = .ok (l', x) ∧ ∀ g, l'.backward g = .error .exception := by
  have hl : x.data.length = n * a := by rw [show x.data.length = _ from hx, hs]; simp
  refine ⟨{ inputShape := some [a] }, ?_, fun g => rfl⟩
  unfold PyFlatten.forward
  rw [hs]
  dsimp only
  rw [reshape_rest hn hl]
  show Except.ok (_, { x with shape := [n, a] }) = _
  rw [← hs]

/-- C143: a gradient that does not consist of whole samples is refused. -/
theorem C143_refuses (l : PyFlatten) {x y : NdArr} {l' : PyFlatten} {n a b : Nat} {rest : List Nat} (hs : x.shape = n :: a :: b :: rest) (hf : l.forward x = .ok (l', y)) {g : NdArr}
    (hg : ¬ a * b ∣ g.data.length) : l'.backward g = .error .exception := by
  have hl : l'.inputShape = some (a :: b :: rest) := by
    unfold PyFlatten.forward at hf
    rw [hs] at hf
    dsimp only at hf
    rcases hr : x.reshape [some n, none] with _ | y'
    · rw [hr] at hf
      cases hf
    · rw [hr] at hf
      cases hf
      rfl
  have hm : g.data.length % (a * b) ≠ 0 := fun h => hg (Nat.dvd_of_mod_eq_zero h)
  unfold PyFlatten.backward NdArr.reshape npShape
  rw [hl]
  simp [List.count_cons, hm]

example : ∃ l' y, ({} : PyFlatten).forward ⟨[1, 2, 2], [1, 2, 3, 4]⟩ = .ok (l', y) ∧ l'.backward ⟨[1, 5], [1, 2, 3, 4, 5]⟩ = .error .exception := by
  obtain ⟨l', y, h⟩ : ∃ l' y, ({} : PyFlatten).forward ⟨[1, 2, 2], [1, 2, 3, 4]⟩ = .ok (l', y) := by
    exact ⟨_, _, rfl⟩
  exact ⟨l', y, h, C143_refuses _ rfl h (by norm_num)⟩

/-- C143 as claimed fails: for images with `c` channels the gradient gets a shape of `c` times as many samples, without an exception. -/
theorem C143_channels (l : PyFlatten) {x : NdArr} (hx : x.Ok) {n a b c : Nat} (hs : x.shape = [n, a, b, c]) (hn : 0 < n) (ha : 0 < a) (hb : 0 < b) :
    ∃ l' y d, l.forward x = .ok (l', y) ∧ l'.backward y = .ok d ∧ d.shape = [n * c, a, b] := by
  have hl : x.data.length = n * (a * (b * c)) := by rw [show x.data.length = _ from hx, hs]; simp
  refine ⟨{ inputShape := some [a, b, c] }, { x with shape := [n, a * (b * c)] }, { x with shape := [n * c, a, b] }, ?_, ?_, rfl⟩
  · unfold PyFlatten.forward
    rw [hs]
    dsimp only
    rw [reshape_rest hn (show x.data.length = n * [a, b, c].prod by rw [hl]; simp)]
    simp only [List.prod_cons, List.prod_nil, mul_one]
    rfl
  · show NdArr.reshape { x with shape := [n, a * (b * c)] } [none, some a, some b] = _
    rw [reshape_first (g := { x with shape := [n, a * (b * c)] }) (n := n * c) ha hb (show x.data.length = _ by rw [hl]; ring)]

/-! ## `MNIST_import` -/

theorem idxImages_drop (n r c : Nat) (px : List Byte) : (idxImages n r c px).drop 16 = px := rfl

theorem idxLabels_drop (n : Nat) (lab : List Byte) : (idxLabels n lab).drop 8 = lab := rfl

theorem idxImages_length (n r c : Nat) (px : List Byte) : (idxImages n r c px).length - 16 = px.length := by
  rw [← List.length_drop, idxImages_drop]

theorem idxLabels_length (n : Nat) (lab : List Byte) : (idxLabels n lab).length - 8 = lab.length := by
  rw [← List.length_drop, idxLabels_drop]

/-- C144: for the four files of MNIST, with complete bodies, `load` gives the pixels of all images, and all labels.
Missing: files that are not such files are not always rejected (`C144_short_labels`, `C144_header`). -/
theorem C144_load_partial (fs : String → Option (List Byte)) {px lab px' lab' : List Byte}
    (f1 : fs "train-images.idx3-ubyte" = some (idxImages 60000 28 28 px)) (l1 : 60000 * (28 * 28) ≤ px.length)
    (f2 : fs "train-labels.idx1-ubyte" = some (idxLabels 60000 lab)) (l2 : 60000 ≤ lab.length)
    (f3 : fs "t10k-images.idx3-ubyte" = some (idxImages 10000 28 28 px')) (l3 : 10000 * (28 * 28) ≤ px'.length)
    (f4 : fs "t10k-labels.idx1-ubyte" = some (idxLabels 10000 lab')) (l4 : 10000 ≤ lab'.length) :
    ∃ d, pyMnist fs = .ok d ∧
      (d.trainData.Ok ∧ d.trainData.shape = [60000, 28, 28] ∧ ∀ s i j, s < 60000 → i < 28 → j < 28 → d.trainData.at [s, i, j] = some (byteAt px (s * 784 + i * 28 + j))) ∧
      (d.trainLabel.Ok ∧ d.trainLabel.shape = [60000] ∧ ∀ s, s < 60000 → d.trainLabel.at [s] = some (byteAt lab s)) ∧
      (d.testData.Ok ∧ d.testData.shape = [10000, 28, 28] ∧ ∀ s i j, s < 10000 → i < 28 → j < 28 → d.testData.at [s, i, j] = some (byteAt px' (s * 784 + i * 28 + j))) ∧
      d.testLabel.Ok ∧ d.testLabel.shape = [10000] ∧ ∀ s, s < 10000 → d.testLabel.at [s] = some (byteAt lab' s) := by
  have img : ∀ {n : Nat} {px : List Byte}, n * (28 * 28) ≤ px.length → ∃ a : NdArr, pyImages n (some (idxImages n 28 28 px)) = .ok a ∧ a.Ok ∧ a.shape = [n, 28, 28] ∧
      ∀ s i j, s < n → i < 28 → j < 28 → a.at [s, i, j] = some (byteAt px (s * 784 + i * 28 + j)) := by
    intro n px hl
    rw [pyImages_some, idxImages_length, idxImages_drop, if_pos (by omega)]
    refine ⟨_, rfl, ?_, rfl, fun s i j hs hi hj => ?_⟩
    · show (List.map _ _).length = [n, 28, 28].prod
      simp only [List.length_map, List.length_take, List.prod_cons, List.prod_nil]
      omega
    · show (List.map _ _)[place [n, 28, 28] [s, i, j]]? = _
      rw [show place [n, 28, 28] [s, i, j] = s * 784 + i * 28 + j by simp only [place, List.prod_cons, List.prod_nil]; omega]
      exact byte_take (by omega) (by omega)
  have lbl : ∀ {n : Nat} {lab : List Byte}, n ≤ lab.length → ∃ a : NdArr, pyLabels n (some (idxLabels n lab)) = .ok a ∧ a.Ok ∧ a.shape = [n] ∧
      ∀ s, s < n → a.at [s] = some (byteAt lab s) := by
    intro n lab hl
    rw [pyLabels_some, idxLabels_length, idxLabels_drop, min_eq_left hl]
    refine ⟨_, rfl, ?_, rfl, fun s hs => ?_⟩
    · show (List.map _ _).length = [n].prod
      simp only [List.length_map, List.length_take, List.prod_cons, List.prod_nil]
      omega
    · show (List.map _ _)[place [n] [s]]? = _
      rw [show place [n] [s] = s by simp [place]]
      exact byte_take hs hl
  obtain ⟨a1, e1, r1⟩ := img l1
  obtain ⟨a2, e2, r2⟩ := lbl l2
  obtain ⟨a3, e3, r3⟩ := img l3
  obtain ⟨a4, e4, r4⟩ := lbl l4
  refine ⟨⟨a1, a2, a3, a4⟩, ?_, r1, r2, r3, r4⟩
  unfold pyMnist
  rw [f1, f2, f3, f4, e1, e2, e3, e4]
  rfl

/-- C144: the flattened images of the Python library, divided by 256 as its sample does, are the numbers that the C++ reader delivers for the same files. -/
theorem C144_same_as_cpp (fs cfs : String → Option (List Byte)) (name : String)
    (h1 : cfs (name ++ "/train-images.idx3-ubyte") = fs "train-images.idx3-ubyte") (h2 : cfs (name ++ "/train-labels.idx1-ubyte") = fs "train-labels.idx1-ubyte")
    (h3 : cfs (name ++ "/t10k-images.idx3-ubyte") = fs "t10k-images.idx3-ubyte") (h4 : cfs (name ++ "/t10k-labels.idx1-ubyte") = fs "t10k-labels.idx1-ubyte") {px lab px' lab' : List Byte}
    (f1 : fs "train-images.idx3-ubyte" = some (idxImages 60000 28 28 px)) (l1 : 60000 * (28 * 28) ≤ px.length)
    (f2 : fs "train-labels.idx1-ubyte" = some (idxLabels 60000 lab)) (l2 : 60000 ≤ lab.length)
    (f3 : fs "t10k-images.idx3-ubyte" = some (idxImages 10000 28 28 px')) (l3 : 10000 * (28 * 28) ≤ px'.length)
    (f4 : fs "t10k-labels.idx1-ubyte" = some (idxLabels 10000 lab')) (l4 : 10000 ≤ lab'.length)
    (u : Nat → Nat → Nat → Byte) (g : Nat → ℝ) {c : DataSource} (hc : c.WF) (l : PyFlatten) :
    ∃ d l' y v c', pyMnist fs = .ok d ∧ l.forward d.trainData = .ok (l', y) ∧ mnistLoad u g cfs name c = .ok (true, c') ∧ c'.trainData = Mat.ofFn 60000 784 v ∧ y.shape = [60000, 784] ∧
      ∀ s k, s < 60000 → k < 784 → ∃ p, y.at [s, k] = some p ∧ p / 256 = v s k := by
  obtain ⟨d, e, ⟨a1, a2, a3⟩, -⟩ := C144_load_partial fs f1 l1 f2 l2 f3 l3 f4 l4
  obtain ⟨l', y, b1, b2, b3, b4⟩ := C143_forward_partial l a1 a2 (by omega)
  have hc' := C80_decode_partial u g cfs name hc (n := 60000) (r := 28) (c := 28) (n' := 10000) (k := 60000) (r' := 28) (c' := 28) (k' := 10000)
    (by norm_num) (by norm_num) (by norm_num) (by norm_num) (by norm_num) (by norm_num) (by norm_num) (by norm_num) (by norm_num) (by norm_num)
    (h1.trans f1) l1 (h2.trans f2) l2 (h3.trans f3) l3 (h4.trans f4) l4
  rw [show 28 * 28 = 784 from rfl] at hc'
  obtain ⟨c', k1, k2⟩ : ∃ c', mnistLoad u g cfs name c = .ok (true, c') ∧ c'.trainData = Mat.ofFn 60000 784 fun i j => byteAt px (i * 784 + j) / 256 := ⟨_, hc', by dsimp only⟩
  refine ⟨d, l', y, _, c', e, b1, k1, k2, b3, fun s k hs hk => ⟨byteAt px (s * 784 + k), ?_, rfl⟩⟩
  have hi : Inside [28, 28] [k / 28, k % 28] := ⟨by omega, Nat.mod_lt _ (by norm_num), trivial⟩
  have h0 := (b4 s _ hs hi).2
  have hk' : place [28, 28] [k / 28, k % 28] = k := by simp only [place, List.prod_cons, List.prod_nil]; omega
  rw [hk'] at h0
  rw [h0, a3 s _ _ hs hi.1 hi.2.1, show s * 784 + k / 28 * 28 + k % 28 = s * 784 + k by omega]

/-- C144: files of images that are missing or too short are rejected. -/
theorem C144_short_images (fs : String → Option (List Byte))
    (h : (∀ f, fs "train-images.idx3-ubyte" = some f → f.length < 16 + 60000 * (28 * 28)) ∨ (∀ f, fs "t10k-images.idx3-ubyte" = some f → f.length < 16 + 10000 * (28 * 28))) :
    pyMnist fs = .error .exception := by
  have key : ∀ n f, (∀ g, f = some g → g.length < 16 + n * (28 * 28)) → 0 < n → pyImages n f = .error .exception := by
    intro n f hf hn
    match f with
    | none => rfl
    | some g =>
      have := hf g rfl
      rw [pyImages_some, if_neg (by omega)]
  have any : ∀ n f, (∃ a, pyImages n f = .ok a) ∨ pyImages n f = .error .exception := by
    intro n f
    match f with
    | none => exact .inr rfl
    | some g =>
      rw [pyImages_some]
      split
      · exact .inl ⟨_, rfl⟩
      · exact .inr rfl
  have anyL : ∀ n f, (∃ a, pyLabels n f = .ok a) ∨ pyLabels n f = .error .exception := by
    intro n f
    match f with
    | none => exact .inr rfl
    | some g => exact .inl ⟨_, rfl⟩
  unfold pyMnist
  rcases any 60000 (fs "train-images.idx3-ubyte") with ⟨a, e1⟩ | e1
  · rw [e1]
    rcases anyL 60000 (fs "train-labels.idx1-ubyte") with ⟨b, e2⟩ | e2
    · rw [e2]
      rcases h with h | h
      · rw [key 60000 _ h (by norm_num)] at e1
        cases e1
      · rw [key 10000 _ h (by norm_num)]
        rfl
    · rw [e2]
      rfl
  · rw [e1]
    rfl

/-- C144 as claimed fails: a file of labels that is too short is accepted, with fewer labels than images. -/
theorem C144_short_labels (n : Nat) (f : List Byte) (hf : f.length < 8 + n) : ∃ a, pyLabels n (some f) = .ok a ∧ a.Ok ∧ a.shape = [f.length - 8] ∧ (0 < n → f.length - 8 < n) := by
  refine ⟨_, pyLabels_some f, ?_, ?_, fun h => by omega⟩
  · show (List.map _ _).length = List.prod [_]
    simp
  · show [min n (f.length - 8)] = _
    rw [min_eq_right (by omega)]

/-- C144 as claimed fails: the header (magic number, number and size of the images) does not matter at all, so that other files are taken for images of 28 by 28 pixels. -/
theorem C144_header (n : Nat) (h h' body : List Byte) :
    (h.length = 16 → h'.length = 16 → pyImages n (some (h ++ body)) = pyImages n (some (h' ++ body))) ∧
      (h.length = 8 → h'.length = 8 → pyLabels n (some (h ++ body)) = pyLabels n (some (h' ++ body))) := by
  constructor
  · intro e e'
    rw [pyImages_some, pyImages_some, List.drop_left' e, List.drop_left' e', List.length_append, List.length_append, e, e']
  · intro e e'
    rw [pyLabels_some, pyLabels_some, List.drop_left' e, List.drop_left' e', List.length_append, List.length_append, e, e']

/-! ## Witnesses -/

/-- Two images of 2 by 3 numbers. -/
def twoImages : NdArr := { shape := [2, 2, 3], data := [1, 2, 3, 4, 5, 6, 7, 8, 9, 10, 11, 12] }

theorem twoImages_ok : twoImages.Ok := by simp [NdArr.Ok, twoImages]

example := C143_forward_partial {} twoImages_ok rfl Nat.two_pos

example := C143_inverse {} twoImages_ok rfl Nat.two_pos Nat.two_pos (Nat.succ_pos 2)

example : ∃ l' y d, ({} : PyFlatten).forward twoImages = .ok (l', y) ∧ l'.backward y = .ok d ∧ d.shape = [2, 2, 3] := by
  obtain ⟨l', y, h1, h2, h3, -⟩ := C143_forward_partial {} twoImages_ok rfl Nat.two_pos
  obtain ⟨d, h4, -, h5, -⟩ := C143_backward_partial {} (x := twoImages) rfl h1 Nat.two_pos (Nat.succ_pos 2) h2 (N := 2) (by rw [h3]; rfl)
  exact ⟨l', y, d, h1, h4, h5⟩

example := C143_empty {} (x := { shape := [0, 28, 28], data := [] }) rfl

example := C143_flat {} (x := { shape := [1, 3], data := [1, 2, 3] }) (by simp [NdArr.Ok]) rfl Nat.one_pos

example := C143_channels {} (x := { shape := [1, 2, 1, 2], data := [1, 2, 3, 4] }) (by simp [NdArr.Ok]) rfl Nat.one_pos Nat.two_pos Nat.one_pos

/-- The four files with all bytes 0, as the directory of both programs. -/
def blankFiles : String → Option (List Byte) := fun s =>
  if s = "train-images.idx3-ubyte" then some (idxImages 60000 28 28 (List.replicate (60000 * (28 * 28)) 0)) else
  if s = "train-labels.idx1-ubyte" then some (idxLabels 60000 (List.replicate 60000 0)) else
  if s = "t10k-images.idx3-ubyte" then some (idxImages 10000 28 28 (List.replicate (10000 * (28 * 28)) 0)) else
  if s = "t10k-labels.idx1-ubyte" then some (idxLabels 10000 (List.replicate 10000 0)) else none

example := C144_load_partial blankFiles rfl (by rw [List.length_replicate]) rfl (by rw [List.length_replicate]) rfl (by rw [List.length_replicate]) rfl (by rw [List.length_replicate])

example (u : Nat → Nat → Nat → Byte) (g : Nat → ℝ) {c : DataSource} (hc : c.WF) := C144_same_as_cpp blankFiles (fun s => blankFiles (String.ofList (s.toList.drop 2))) "m"
  (by simp) (by simp) (by simp) (by simp) rfl (by rw [List.length_replicate]) rfl (by rw [List.length_replicate]) rfl (by rw [List.length_replicate]) rfl (by rw [List.length_replicate]) u g hc {}

example := C144_short_images (fun _ => none) (.inl fun f h => by cases h)

example := C144_short_labels 60000 (List.replicate 100 0) (by rw [List.length_replicate]; norm_num)

example (body : List Byte) := (C144_header 60000 [0, 0, 8, 3, 0, 0, 234, 96, 0, 0, 0, 28, 0, 0, 0, 28] (List.replicate 16 7) body).1 rfl rfl

end BeeDNN
