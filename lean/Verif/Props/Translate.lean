import Verif.Spec.Translate
import Verif.Lemmas.PlyGrad
import Verif.Lemmas.TrainEval
import Verif.Props.Pooling
import Verif.Props.Mlp

/-! # Moved images: C132 -/

namespace BeeDNN
open Finset

/-- C132: when the input of an image layer moves by multiples of its stride, its output moves by these multiples. -/
theorem C132_layer {p : Ply} {i o : ImageSize} {rs cs : Nat} (hp : p.kind.Images i o rs cs) (hf : p.kind.Fits (i.rows * i.cols * i.channels) (o.rows * o.cols * o.channels))
    {a b : Nat} {v v' : Row} (h : Moved i.rows i.cols i.channels (a * rs) (b * cs) v v') :
    Moved o.rows o.cols o.channels a b (p.apply (i.rows * i.cols * i.channels) v) (p.apply (i.rows * i.cols * i.channels) v') := by
  obtain ⟨k, W, B⟩ := p
  cases k with
  | conv R S K kR kC O rs' cs' =>
    obtain ⟨rfl, rfl, rfl, rfl⟩ := hp
    obtain ⟨-, -, h1, h2, -⟩ := hf
    intro o r c _ hr hc
    dsimp only at hr hc h ⊢
    unfold Ply.apply
    dsimp only
    rw [px_planes _ hr hc, px_planes _ (show r < _ by omega) (show c < _ by omega)]
    refine sum_congr rfl fun ch hch => sum_congr rfl fun kr hkr => sum_congr rfl fun kc hkc => ?_
    have hi := conv_in h1 hr (mem_range.1 hkr)
    have hj := conv_in h2 hc (mem_range.1 hkc)
    have e1 : (r + a) * rs' + kr = (r * rs' + kr) + a * rs' := by ring
    have e2 : (c + b) * cs' + kc = (c * cs' + kc) + b * cs' := by ring
    rw [e1] at hi ⊢
    rw [e2] at hj ⊢
    rw [h ch _ _ (mem_range.1 hch) hi hj]
  | avgPool R S K rf cf =>
    obtain ⟨rfl, rfl, rfl, rfl⟩ := hp
    intro o r c ho hr hc
    dsimp only at ho hr hc h ⊢
    unfold Ply.apply
    dsimp only
    rw [px_planes _ hr hc, px_planes _ (show r < _ by omega) (show c < _ by omega)]
    congr 1
    refine sum_congr rfl fun i hi => sum_congr rfl fun j hj => ?_
    have hi := (idx_lt hr (mem_range.1 hi)).trans_le (Nat.div_mul_le_self _ _)
    have hj := (idx_lt hc (mem_range.1 hj)).trans_le (Nat.div_mul_le_self _ _)
    have e1 : (r + a) * rf + i = (r * rf + i) + a * rf := by ring
    have e2 : (c + b) * cf + j = (c * cf + j) + b * cf := by ring
    rw [e1] at hi ⊢
    rw [e2] at hj ⊢
    exact h o _ _ ho hi hj
  | channelBias R S K =>
    obtain ⟨rfl, rfl, rfl, rfl⟩ := hp
    rw [Nat.mul_one, Nat.mul_one] at h
    intro o r c ho hr hc
    dsimp only at ho hr hc h ⊢
    have := h o r c ho hr hc
    unfold px at this ⊢
    unfold Ply.apply
    dsimp only
    rw [this, idx_div (idx_lt hr hc), idx_div (idx_lt (show r < R by omega) (show c < S by omega))]
  | act f =>
    obtain ⟨rfl, rfl, rfl⟩ := hp
    rw [Nat.mul_one, Nat.mul_one] at h
    intro o r c ho hr hc
    have := h o r c ho hr hc
    unfold px at this ⊢
    unfold Ply.apply
    dsimp only
    rw [this]
  | _ => exact hp.elim

section
variable {m : Mlp} {z : Nat → ImageSize} {rs cs : Nat → Nat}

/-- C132: in a network of image layers, when the image moves by multiples of the product of all strides, the output moves by these multiples. -/
theorem C132_network (hm : m.Ok) (hw : ∀ i, i ≤ m.depth → m.width i = (z i).rows * (z i).cols * (z i).channels)
    (hp : ∀ i, i < m.depth → (m.ply i).kind.Images (z i) (z (i + 1)) (rs i) (cs i)) {a b : Nat} {v v' : Row}
    (h : Moved (z 0).rows (z 0).cols (z 0).channels (a * ∏ i ∈ range m.depth, rs i) (b * ∏ i ∈ range m.depth, cs i) v v') :
    Moved (z m.depth).rows (z m.depth).cols (z m.depth).channels a b (m.out v) (m.out v') := by
  have key : ∀ i, i ≤ m.depth → Moved (z i).rows (z i).cols (z i).channels (a * ∏ k ∈ range (m.depth - i), rs (i + k)) (b * ∏ k ∈ range (m.depth - i), cs (i + k))
      (m.hidden v i) (m.hidden v' i) := by
    intro i
    induction i with
    | zero =>
      intro _
      simp only [Nat.zero_add, Nat.sub_zero]
      exact h
    | succ i ih =>
      intro hi
      have e := ih (by omega)
      have s : m.depth - i = m.depth - (i + 1) + 1 := by omega
      rw [s, prod_range_succ', prod_range_succ', Nat.add_zero, ← Nat.mul_assoc, ← Nat.mul_assoc] at e
      have f := hm.fits i hi
      rw [hw i (by omega), hw (i + 1) hi] at f
      have := C132_layer (hp i hi) f e
      rw [← hw i (by omega)] at this
      have s2 : ∀ f : Nat → Nat, ∏ k ∈ range (m.depth - (i + 1)), f (i + (k + 1)) = ∏ k ∈ range (m.depth - (i + 1)), f (i + 1 + k) :=
        fun f => prod_congr rfl fun k _ => by congr 1; omega
      rw [s2 rs, s2 cs] at this
      exact this
  have := key m.depth le_rfl
  simp only [Nat.sub_self, range_zero, prod_empty, Nat.mul_one] at this
  exact this

/-- C132: so what `predict` returns for moved images are the moved results. -/
theorem C132_predict {w : World} {n : Nat} (hr : Represents w n m) (hw : ∀ i, i ≤ m.depth → m.width i = (z i).rows * (z i).cols * (z i).channels)
    (hp : ∀ i, i < m.depth → (m.ply i).kind.Images (z i) (z (i + 1)) (rs i) (cs i)) (e e' : Nat → Env) (N : Nat) {a b : Nat} {x x' : Nat → Row}
    (h : ∀ s, s < N → Moved (z 0).rows (z 0).cols (z 0).channels (a * ∏ i ∈ range m.depth, rs i) (b * ∏ i ∈ range m.depth, cs i) (x s) (x' s))
    {o o' : Mat ℝ} (ho : o.WF) (ho' : o'.WF) :
    ∃ (w₁ w₂ : World) (y y' : Nat → Row), w.predict e n (Mat.ofFn N (m.width 0) x) o = .ok (w₁, Mat.ofFn N (m.width m.depth) y) ∧
      w.predict e' n (Mat.ofFn N (m.width 0) x') o' = .ok (w₂, Mat.ofFn N (m.width m.depth) y') ∧
      ∀ s, s < N → Moved (z m.depth).rows (z m.depth).cols (z m.depth).channels a b (y s) (y' s) := by
  obtain ⟨w₁, h1, -⟩ := hr.predict (e := e) N x o ho
  obtain ⟨w₂, h2, -⟩ := hr.predict (e := e') N x' o' ho'
  exact ⟨w₁, w₂, _, _, h1, h2, fun s hs => C132_network hr.ok hw hp (h s hs)⟩

end

/-- C132: the maximum pooling layer does the same, in training and in test mode. -/
theorem C132_maxPool [LinearOrder α] [Inhabited α] (g : Nat → α) (gi : Nat → Int) (fl : Int → Int) (low : α) (train : Bool) {N K R C rf cf : Nat} (hrf : 0 < rf) (hcf : 0 < cf)
    (x x' : Nat → Nat → Nat → Nat → α) (hlow : ∀ s k r c, s < N → k < K → r < R → c < C → low < x s k r c) (hlow' : ∀ s k r c, s < N → k < K → r < R → c < C → low < x' s k r c)
    {a b : Nat} (h : ∀ s k r c, s < N → k < K → r + a * rf < R → c + b * cf < C → x' s k (r + a * rf) (c + b * cf) = x s k r c)
    {mOut : Mat α} {mMax : Mat Int} (hO : mOut.WF) (hM : mMax.WF) :
    ∃ p y y' q q', Pool.create R C K rf cf = .ok p ∧
      maxPoolForward g gi fl low p train (imgMat N K R C x) mOut mMax = .ok (imgMat N K (R / rf) (C / cf) y, q) ∧
      maxPoolForward g gi fl low p train (imgMat N K R C x') mOut mMax = .ok (imgMat N K (R / rf) (C / cf) y', q') ∧
      ∀ s k r c, s < N → k < K → r + a < R / rf → c + b < C / cf → y' s k (r + a) (c + b) = y s k r c := by
  obtain ⟨p, y, q, p1, p2, p3⟩ := C28_maxpool g gi fl low train hrf hcf x hlow hO hM
  obtain ⟨p', y', q', p1', p2', p3'⟩ := C28_maxpool g gi fl low train hrf hcf x' hlow' hO hM
  rw [p1] at p1'
  obtain rfl : p = p' := Except.ok.inj p1'
  refine ⟨p, y, y', q, q', p1, p2, p2', fun s k r c hs hk hr hc => ?_⟩
  have hx : ∀ i j, i < rf → j < cf → x' s k ((r + a) * rf + i) ((c + b) * cf + j) = x s k (r * rf + i) (c * cf + j) := by
    intro i j hi hj
    have b1 := (idx_lt hr hi).trans_le (Nat.div_mul_le_self R rf)
    have b2 := (idx_lt hc hj).trans_le (Nat.div_mul_le_self C cf)
    have e1 : (r + a) * rf + i = (r * rf + i) + a * rf := by ring
    have e2 : (c + b) * cf + j = (c * cf + j) + b * cf := by ring
    rw [e1] at b1 ⊢
    rw [e2] at b2 ⊢
    exact h s k _ _ hs hk b1 b2
  obtain ⟨⟨i, j, hi, hj, h1⟩, h2⟩ := p3 s k r c hs hk (by omega) (by omega)
  obtain ⟨⟨i', j', hi', hj', h1'⟩, h2'⟩ := p3' s k (r + a) (c + b) hs hk hr hc
  refine le_antisymm ?_ ?_
  · rw [h1', hx i' j' hi' hj']
    exact h2 i' j' hi' hj'
  · rw [h1, ← hx i j hi hj]
    exact h2' i j hi hj

/-! ## An edge detector on rows of four pixels -/

/-- The kernel -1, 0, 1. -/
noncomputable def edgeWitness : Mlp :=
  { depth := 1, width := fun i => if i = 0 then 4 else 2, ply := fun _ => { kind := .conv 1 4 1 1 3 1 1 1, weight := fun _ c => (c : ℝ) - 1 } }

/-- The geometry of this layer. -/
def edgeGeometry : Conv :=
  { inRows := 1, inCols := 4, inCh := 1, kRows := 1, kCols := 3, outCh := 1, rowStride := 1, colStride := 1, outRows := 1, outCols := 2, lut := [0, 1, 2] }

theorem edgeGeometry_eq : Conv.create 1 4 1 1 3 1 1 1 = .ok edgeGeometry := by decide

/-- Network 0 is this network. -/
noncomputable def edgeWorld : World :=
  { heap := [some { kind := .conv edgeGeometry, weight := Mat.ofFn 1 3 (fun _ c => (c : ℝ) - 1), wInit := "HeUniform" }]
    nets := fun n => if n = 0 then { layers := [0] } else {} }

theorem edgeWorld_represents : Represents edgeWorld 0 edgeWitness where
  ok :=
    { depth := by decide
      pos := fun i _ => by by_cases h : i = 0 <;> simp [edgeWitness, h]
      fits := fun i hi => by
        obtain rfl : i = 0 := by simpa [edgeWitness] using hi
        simp [edgeWitness, PlyKind.Fits, convOutSize] }
  nodup := by simp [edgeWorld]
  count := rfl
  layer := fun i a hi => by
    match i with
    | 0 =>
      obtain rfl : 0 = a := by simpa [edgeWorld] using hi
      exact ⟨_, rfl, ⟨Mat.ofFn_WF .., rfl, rfl, rfl, rfl, rfl, rfl, rfl, rfl, rfl, rfl, rfl,
        fun m hm => absurd hm List.not_mem_nil, by simp [LayerKind.usesWeight], fun _ => rfl, fun _ => ⟨rfl, rfl, rfl⟩, ⟨1, 4, 1, 1, 3, 1, 1, 1, edgeGeometry_eq⟩⟩,
        ⟨⟨edgeGeometry, edgeGeometry_eq, rfl⟩, fun _ => rfl, fun h => (by cases h)⟩, fun h => absurd h (by decide)⟩
    | i + 1 => simp [edgeWorld] at hi

/-- Moving `p, q, r` one pixel to the right moves the edges one pixel to the right. -/
example (e e' : Nat → Env) (p q r t u : ℝ) :
    ∃ (w₁ w₂ : World) (y y' : Nat → Row),
      edgeWorld.predict e 0 (Mat.ofFn 1 (edgeWitness.width 0) fun _ j => if j = 0 then p else if j = 1 then q else if j = 2 then r else t) ⟨0, 0, []⟩ =
        .ok (w₁, Mat.ofFn 1 (edgeWitness.width 1) y) ∧
      edgeWorld.predict e' 0 (Mat.ofFn 1 (edgeWitness.width 0) fun _ j => if j = 0 then u else if j = 1 then p else if j = 2 then q else r) ⟨0, 0, []⟩ =
        .ok (w₂, Mat.ofFn 1 (edgeWitness.width 1) y') ∧
      ∀ s, s < 1 → Moved 1 2 1 0 1 (y s) (y' s) :=
  C132_predict (z := fun i => if i = 0 then ⟨1, 4, 1⟩ else ⟨1, 2, 1⟩) (rs := fun _ => 1) (cs := fun _ => 1) edgeWorld_represents
    (fun i _ => by by_cases h : i = 0 <;> simp [edgeWitness, h])
    (fun i hi => by
      obtain rfl : i = 0 := by simpa [edgeWitness] using hi
      simp [edgeWitness, PlyKind.Images, convOutSize])
    e e' 1
    (fun s _ => by
      intro k r c hk hr hc
      have h0 : k = 0 := by simpa using hk
      have h1 : r = 0 := by simp at hr; omega
      have h2 : c < 3 := by simp [edgeWitness] at hc; omega
      subst h0 h1
      interval_cases c <;> simp [px, edgeWitness])
    rfl rfl

/-- The maximum over pairs, in rows of six pixels moved by two pixels. -/
example (g : Nat → Int) (gi : Nat → Int) (fl : Int → Int) (f : Nat → Nat) :
    ∃ p y y' q q', Pool.create 1 6 1 1 2 = .ok p ∧
      maxPoolForward g gi fl (-1) p true (imgMat 1 1 1 6 fun _ _ _ c => (f c : Int)) ⟨0, 0, []⟩ ⟨0, 0, []⟩ = .ok (imgMat 1 1 (1 / 1) (6 / 2) y, q) ∧
      maxPoolForward g gi fl (-1) p true (imgMat 1 1 1 6 fun _ _ _ c => (f (c - 2) : Int)) ⟨0, 0, []⟩ ⟨0, 0, []⟩ = .ok (imgMat 1 1 (1 / 1) (6 / 2) y', q') ∧
      ∀ s k r c, s < 1 → k < 1 → r + 0 < 1 / 1 → c + 1 < 6 / 2 → y' s k (r + 0) (c + 1) = y s k r c :=
  C132_maxPool (a := 0) (b := 1) g gi fl (-1) true (by decide) (by decide) (fun _ _ _ c => (f c : Int)) (fun _ _ _ c => (f (c - 2) : Int))
    (fun _ _ _ _ _ _ _ _ => by omega) (fun _ _ _ _ _ _ _ _ => by omega) (fun _ _ _ c _ _ _ _ => by simp) rfl rfl

end BeeDNN
