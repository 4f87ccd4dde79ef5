import Verif.Spec.Mlp
import Verif.Lemmas.TrainFit
import Verif.Lemmas.Optimizer
import Verif.Lemmas.LossDiff
import Verif.Lemmas.LayersBasic
import Verif.Lemmas.Layer
import Verif.Lemmas.LayerValid

/-! # Forward and backward pass of each kind of layer, computed -/

namespace BeeDNN
open Finset HasWF

namespace Ply

/-- The gradient at the input of a layer with `C` inputs and `C'` outputs (for a softmax layer, what the code takes for it). -/
noncomputable def back (C C' : Nat) (p : Ply) (v g : Row) : Row :=
  match p.kind with
  | .dense | .dot => fun k => ∑ j ∈ range C', g j * p.weight k j
  | .bias | .channelBias .. | .tdBias .. => g
  | .act a => fun j => a.derivation (v j) * g j
  | .conv R S K kR kC O rs cs => planes R S (fun k y x => col2imFn 1 K (convOutSize R kR rs) (convOutSize S kC cs) kR kC rs cs
      (convGradCol O (convOutSize R kR rs) (convOutSize S kC cs) p.weight
        (fun _ => px (convOutSize R kR rs) (convOutSize S kC cs) g)) 0 k y x)
  | .avgPool R S _ rf cf => planes R S (fun k r c => if r / rf < R / rf ∧ c / cf < S / cf then
      px (R / rf) (S / cf) g k (r / rf) (c / cf) * (1 / ((rf * cf : Nat) : ℝ)) else 0)
  | .globalAvgPool R S _ => planes R S (fun k _ _ => g k * (1 / ((R * S : Nat) : ℝ)))
  | .zeroPad R S _ b => planes R S (fun k r c => px (R + 2 * b) (S + 2 * b) g k (r + b) (c + b))
  | .crelu => fun j => if 0 < v j then g j else -g (j + C)
  | .gated a₁ a₂ => fun j => if j < C' then g j * a₂.apply (v (j + C')) * a₁.derivation (v j)
      else g (j - C') * a₁.apply (v (j - C')) * a₂.derivation (v j)
  | .tdDot _ F O | .tdDense _ F O => fun k => ∑ j ∈ range O, g (k / F * O + j) * p.weight (k % F) j
  | .softmax => fun j => g j * (softmaxAt C v j * (1 - softmaxAt C v j))

/-- The gradient of the biases or of the weights of a layer for one sample. -/
noncomputable def pgrad (b : Bool) (p : Ply) (v g : Row) : Nat → Nat → ℝ :=
  match p.kind with
  | .dense | .dot | .bias => if b then fun _ j => g j else fun k j => v k * g j
  | .channelBias R S _ => fun _ h => ∑ q ∈ range (R * S), g (h * (R * S) + q)
  | .conv R S _ kR kC _ rs cs => convGradW 1 (convOutSize R kR rs) (convOutSize S kC cs) kR kC rs cs
      (fun _ => px R S v) (fun _ => px (convOutSize R kR rs) (convOutSize S kC cs) g)
  | .tdBias T F => fun _ j => ∑ t ∈ range T, g (t * F + j)
  | .tdDot T F O | .tdDense T F O => if b then fun _ j => ∑ t ∈ range T, g (t * O + j)
      else fun k j => ∑ t ∈ range T, v (t * F + k) * g (t * O + j)
  | _ => fun _ _ => 0

/-- The gradient that is computed for a batch. -/
noncomputable def batchGrad (b : Bool) (N : Nat) (p : Ply) (X D : Nat → Row) : Nat → Nat → ℝ :=
  fun k j => p.kind.parRate b N * ((∑ s ∈ range N, p.pgrad b (X s) (D s) k j) / N)

theorem batchGrad_eq (b : Bool) (N : Nat) (p : Ply) (X D : Nat → Row) :
    p.batchGrad b N X D = fun k j => p.kind.parRate b N * ((∑ s ∈ range N, p.pgrad b (X s) (D s) k j) / N) := rfl

/-- The layer has seen the batch `X` in its last forward pass. -/
def Primed (N : Nat) (p : Ply) (X : Nat → Row) (l : Layer) : Prop :=
  match p.kind with
  | .conv R S K kR kC _ rs cs => l.samples = N ∧
      l.im2colT = Mat.ofFn (convOutSize R kR rs * convOutSize S kC cs * N) (kR * kC * K)
        (colFn (convOutSize R kR rs) (convOutSize S kC cs) kR kC rs cs (fun s => px R S (X s)))
  | _ => True

end Ply

/-- `l'` is `l` with other scratch members. -/
def Layer.Scratch (l l' : Layer) : Prop := ∃ s c t, l' = { l with samples := s, im2colT := c, tempImg := t }

theorem Layer.Scratch.refl (l : Layer) : l.Scratch l := ⟨_, _, _, rfl⟩

theorem Ply.Is.scratch {p : Ply} {C C' : Nat} {l l' : Layer} (h : p.Is C C' l) (hs : l.Scratch l') : p.Is C C' l' := by
  obtain ⟨s, c, t, rfl⟩ := hs
  exact ⟨h.kind, h.weight, h.bias⟩

theorem Layer.Scratch.first {l l' : Layer} (hs : l.Scratch l') : l'.first = l.first := by
  obtain ⟨s, c, t, rfl⟩ := hs
  rfl

theorem Layer.Scratch.train {l l' : Layer} (hs : l.Scratch l') : l'.train = l.train := by
  obtain ⟨s, c, t, rfl⟩ := hs
  rfl

theorem Layer.Scratch.trans {l l' l'' : Layer} (h : l.Scratch l') (h' : l'.Scratch l'') : l.Scratch l'' := by
  obtain ⟨s, c, t, rfl⟩ := h
  obtain ⟨s, c, t, rfl⟩ := h'
  exact ⟨_, _, _, rfl⟩

theorem Ply.Is.grads {p : Ply} {C C' : Nat} {l : Layer} (h : p.Is C C' l) (a b : Mat ℝ) :
    p.Is C C' { l with gradWeight := a, gradBias := b } := ⟨h.kind, h.weight, h.bias⟩

/-- The forward pass of a layer computes its function for every sample. -/
theorem Ply.forward {p : Ply} {C C' : Nat} {l : Layer} (h : p.Is C C' l) (hf : p.kind.Fits C C') (hC : 0 < C) (hC' : 0 < C') (hv : l.Valid)
    {e : Env} {o : Mat ℝ} (ho : o.WF) (N : Nat) (X : Nat → Row) :
    ∃ l', l.forward e (Mat.ofFn N C X) o = .ok (l', Mat.ofFn N C' (fun s => p.apply C (X s))) ∧ l.Scratch l' ∧ l'.Valid ∧
      p.Primed N X l' := by
  have key : ∃ l', l.forward e (Mat.ofFn N C X) o = .ok (l', Mat.ofFn N C' (fun s => p.apply C (X s))) ∧ l.Scratch l' ∧
      p.Primed N X l' := by
    obtain ⟨k, W, B⟩ := p
    obtain ⟨hk, hw, hb⟩ := h
    simp only [Ply.has] at hw hb hk hf
    cases k with
    | dense =>
      obtain ⟨i, o', hk⟩ := hk
      refine ⟨l, ?_, .refl l, trivial⟩
      simp only [Layer.forward, hk, hw rfl, hb rfl, PlyKind.shape, if_true, Bool.false_eq_true, if_false,
        denseForward_ofFn e.g N _ _ X W B ho, bind_ok', pure_ok, accN_eq_sum, Ply.apply]
    | dot =>
      obtain ⟨i, o', hk⟩ := hk
      refine ⟨l, ?_, .refl l, trivial⟩
      simp only [Layer.forward, hk, hw rfl, PlyKind.shape, Bool.false_eq_true, if_false,
        dotForward_ofFn e.g N _ _ X W ho, bind_ok', pure_ok, accN_eq_sum, Ply.apply]
    | bias =>
      obtain rfl := hf
      refine ⟨l, ?_, .refl l, trivial⟩
      have hb := hb rfl
      simp only [PlyKind.shape, if_true] at hb
      have hk : l.kind = .bias := hk
      have h0 : ¬ (Mat.ofFn 1 C' B).size = 0 := by simp; omega
      simp only [Layer.forward, hk, Layer.lazyBias, hb, if_neg h0, bind_ok', biasForward_ofFn e.g _ N C' hC X B ho, pure_ok,
        Ply.apply]
      rw [← hb, ← hk]
    | act a =>
      obtain ⟨rfl, s, ha⟩ := hf
      refine ⟨l, ?_, .refl l, trivial⟩
      have hk : l.kind = .activation a := hk
      simp only [Layer.forward, hk, activationForward_ofFn e.g a.apply N C' X ho, bind_ok', pure_ok, Ply.apply]
    | channelBias R S K =>
      obtain ⟨rfl, rfl⟩ := hf
      refine ⟨l, ?_, .refl l, trivial⟩
      have hk : l.kind = .channelBias R S K := hk
      have hb := hb rfl
      simp only [PlyKind.shape] at hb
      rw [Nat.mul_comm (R * S) K]
      simp only [Layer.forward, hk, hb, channelBiasForward_ofFn e.g N K R S X B ho, bind_ok', pure_ok, Ply.apply]
    | conv R S K kR kC O rs cs =>
      obtain ⟨rfl, rfl, -⟩ := hf
      obtain ⟨pc, hp, hk⟩ := hk
      have hw := hw rfl
      simp only [PlyKind.shape] at hw
      obtain ⟨c1, c2, rfl⟩ := Conv.create_inv hp
      obtain ⟨st', hok, hs, hcol, hgw, hf⟩ := convForward_eq (N := N) (rs := rs) (cs := cs) e.g l.fastLUT c1 c2
        (fun s => px R S (X s)) W (st := ⟨l.samples, l.im2colT, l.tempImg, l.weight, l.gradWeight⟩)
        ⟨hv.im2colT, hv.tempImg, hw, hv.gradWeight⟩ ho
      refine ⟨{ l with samples := st'.samples, im2colT := st'.im2colT, tempImg := st'.tempImg }, ?_, ⟨_, _, _, rfl⟩, hs, hcol⟩
      have e1 : st'.weight = l.weight := hok.weight.trans hw.symm
      rw [ofFn_px]
      simp only [Layer.forward, hk, hf, bind_ok', pure_ok, e1, hgw]
      congr 2
      show _ = Mat.ofFn N _ (fun s => planes (convOutSize R kR rs) (convOutSize S kC cs) (crossCorr K kR kC rs cs W (fun s => px R S (X s)) s))
      refine Eq.trans ?_ (ofFn_planes N O (convOutSize R kR rs) (convOutSize S kC cs) _)
      apply imgMat_congr
      intro s o r c _ _ hr hc
      rw [accN_eq_sum]
      exact crossCorr_flat _ _ W _ s o hr hc
    | avgPool R S K rf cf =>
      obtain ⟨rfl, rfl, -⟩ := hf
      obtain ⟨pc, hp, hk⟩ := hk
      obtain ⟨h1, h2, rfl⟩ := Pool.create_inv hp
      refine ⟨l, ?_, .refl l, trivial⟩
      rw [ofFn_px]
      simp only [Layer.forward, hk, avgPoolForward_imgMat e.g (fun s => px R S (X s)) ho, bind_ok', pure_ok, avg_sum]
      rfl
    | globalAvgPool R S K =>
      obtain ⟨rfl, rfl⟩ := hf
      have hk : l.kind = .globalAvgPool R S C' := hk
      refine ⟨l, ?_, .refl l, trivial⟩
      rw [ofFn_px]
      simp only [Layer.forward, hk, globalAvgPoolForward_imgMat e.g (fun s => px R S (X s)) ho, bind_ok', pure_ok, Ply.apply]
      congr 3
      funext s k
      rw [accN_eq_sum, ← sum_range_mul R S (fun r c => px R S (X s) k r c)]
    | zeroPad R S K b =>
      obtain ⟨rfl, rfl⟩ := hf
      have hk : l.kind = .zeroPad R S K b := hk
      refine ⟨l, ?_, .refl l, trivial⟩
      rw [ofFn_px]
      simp only [Layer.forward, hk, zeroPadForward_imgMat e.g (fun s => px R S (X s)) ho, bind_ok', pure_ok, Ply.apply]
      rfl
    | crelu =>
      obtain rfl := hf
      have hk : l.kind = .crelu := hk
      refine ⟨l, ?_, .refl l, trivial⟩
      have := C40_forward e.g o ho N C X
      simp only [Layer.forward, hk, this, bind_ok', pure_ok, Ply.apply]
    | gated a1 a2 =>
      obtain ⟨rfl, -⟩ := hf
      have hk : l.kind = .gated (some a1) (some a2) := hk
      refine ⟨l, ?_, .refl l, trivial⟩
      have hc : (Mat.ofFn N (2 * C') X).cols % 2 = 0 := by rw [Mat.ofFn_cols]; omega
      have h2 : 2 * C' / 2 = C' := by omega
      simp only [Layer.forward, hk, Layer.gatedFwd, check_true hc, bind_ok', Layer.gatedFns,
        gatedForward_ofFn e.g _ _ ho, Ply.apply, h2]
      split
      · rename_i h0
        simp only [bind_ok', pure_ok]
        congr 2
        apply Mat.ofFn_congr
        intro i j hi hj
        exfalso
        have : N * (2 * C') = 0 := by simpa using h0
        rcases Nat.mul_eq_zero.1 this with h | h <;> omega
      · rfl
    | tdBias T F =>
      obtain ⟨rfl, rfl⟩ := hf
      have hF : 0 < F := Nat.pos_of_mul_pos_left hC
      have hk : l.kind = .tdBias F := hk
      have hb := hb rfl
      simp only [PlyKind.shape] at hb
      refine ⟨l, ?_, .refl l, trivial⟩
      simp only [Layer.forward, hk, hb, tdBiasForward_ofFn e.g ho N T F hF B X, bind_ok', pure_ok, Ply.apply]
    | tdDot T F O =>
      obtain ⟨rfl, rfl⟩ := hf
      have hF : 0 < F := Nat.pos_of_mul_pos_left hC
      have hk : l.kind = .tdDot F O := hk
      have hw := hw rfl
      simp only [PlyKind.shape, Bool.false_eq_true, if_false] at hw
      refine ⟨l, ?_, .refl l, trivial⟩
      simp only [Layer.forward, hk, hw, tdDotForward_ofFn e.g ho N T F O hF W X, bind_ok', pure_ok, accN_eq_sum, Ply.apply]
    | tdDense T F O =>
      obtain ⟨rfl, rfl⟩ := hf
      have hF : 0 < F := Nat.pos_of_mul_pos_left hC
      have hk : l.kind = .tdDense F O := hk
      have hw := hw rfl
      have hb := hb rfl
      simp only [PlyKind.shape, Bool.false_eq_true, if_false, if_true] at hw hb
      refine ⟨l, ?_, .refl l, trivial⟩
      simp only [Layer.forward, hk, hw, hb, tdDenseForward_ofFn e.g ho N T F O hF W B X, bind_ok', pure_ok, accN_eq_sum, Ply.apply]
    | softmax =>
      obtain rfl := hf
      have hk : l.kind = .softmax := hk
      refine ⟨l, ?_, .refl l, trivial⟩
      simp only [Layer.forward, hk, softmaxForward_ofFn e.g N C' X ho, bind_ok', pure_ok, Ply.apply]
  obtain ⟨l', h1, h2, h3⟩ := key
  exact ⟨l', h1, h2, (Layer.forward_safe _ hv (Mat.ofFn_WF _ _ _) ho _ h1).1.valid, h3⟩

theorem col2im_single {N K O oR oC kR kC rs cs : Nat} (w : Nat → Nat → ℝ) (D : Nat → Nat → Nat → Nat → ℝ) {s : Nat} (hs : s < N) (k y x : Nat) :
    col2imFn N K oR oC kR kC rs cs (convGradCol O oR oC w D) s k y x =
      col2imFn 1 K oR oC kR kC rs cs (convGradCol O oR oC w (fun _ => D s)) 0 k y x := by
  unfold col2imFn
  rw [sum_range_one, sum_eq_single s]
  · refine sum_congr rfl fun r hr => sum_congr rfl fun c hc => sum_congr rfl fun ch _ => sum_congr rfl fun kr _ =>
      sum_congr rfl fun kc _ => ?_
    have b := idx_lt (mem_range.1 hr) (mem_range.1 hc)
    simp only [true_and, convGradCol, idx_div b, idx_mod b, Nat.zero_mul, Nat.zero_add, Nat.mod_eq_of_lt b]
  · intro s' _ hne
    refine sum_eq_zero fun r _ => sum_eq_zero fun c _ => sum_eq_zero fun ch _ => sum_eq_zero fun kr _ => sum_eq_zero fun kc _ => ?_
    rw [if_neg]
    rintro ⟨rfl, -⟩
    exact hne rfl
  · intro h
    exact absurd (mem_range.2 hs) h

theorem convGradW_sum {N oR oC kR kC rs cs : Nat} (x D : Nat → Nat → Nat → Nat → ℝ) (o q : Nat) :
    convGradW N oR oC kR kC rs cs x D o q =
      ∑ s ∈ range N, convGradW 1 oR oC kR kC rs cs (fun _ => x s) (fun _ => D s) o q := by
  simp only [convGradW, accN_eq_sum, Nat.mul_one]
  rw [Nat.mul_comm (oR * oC) N]
  refine (sum_range_mul N (oR * oC) (fun s i => D s o (i / oC) (i % oC) *
    x s (q / (kR * kC)) (i / oC * rs + q % (kR * kC) / kC) (i % oC * cs + q % (kR * kC) % kC))).trans ?_
  refine sum_congr rfl fun s _ => sum_congr rfl fun i hi => ?_
  simp only [colFn, Nat.mod_eq_of_lt (mem_range.1 hi)]

theorem sum_pieces (N T : Nat) (f : Nat → Nat → ℝ) : ∑ p ∈ range (T * N), f (p / T) (p % T) = ∑ s ∈ range N, ∑ t ∈ range T, f s t := by
  rw [Nat.mul_comm, sum_range_mul]

theorem Ply.Is.out {p : Ply} {C C' : Nat} {l : Layer} (h : p.Is C C' l) {r : Grads ℝ} {M : Mat ℝ} {G : Bool → Mat ℝ} (hM : r.gIn = M)
    (hG : ∀ b, p.has b = true → (if b then r.gB else r.gW) = G b) :
    ∃ l', (pure (l.setGrads r) : Out (Layer × Mat ℝ)) = .ok (l', M) ∧ p.Is C C' l' ∧ l'.first = l.first ∧
      ∀ b, p.has b = true → l'.grad b = G b := by
  subst hM
  exact ⟨_, rfl, h.grads _ _, rfl, fun b hb => by rw [← hG b hb]; cases b <;> rfl⟩

/-- The backward pass of a layer computes these gradients. -/
theorem Ply.backward {p : Ply} {C C' : Nat} {l : Layer} (h : p.Is C C' l) (hf : p.kind.Fits C C') (hC : 0 < C) (hC' : 0 < C') (hv : l.Valid)
    {e : Env} {gi : Mat ℝ} (hg : gi.WF) (N : Nat) (X D : Nat → Row) (hp : p.Primed N X l) :
    ∃ l' : Layer, l.backprop e (Mat.ofFn N C X) (Mat.ofFn N C' D) gi =
        .ok (l', if l.first then gi else Mat.ofFn N C (fun s k => p.kind.inRate * p.back C C' (X s) (D s) k)) ∧
      p.Is C C' l' ∧ l'.Valid ∧ l'.first = l.first ∧
      ∀ b, p.has b = true → l'.grad b = Mat.ofFn (p.kind.shape b C C').1 (p.kind.shape b C C').2 (p.batchGrad b N X D) := by
  have key : ∃ l' : Layer, l.backprop e (Mat.ofFn N C X) (Mat.ofFn N C' D) gi =
        .ok (l', if l.first then gi else Mat.ofFn N C (fun s k => p.kind.inRate * p.back C C' (X s) (D s) k)) ∧
      p.Is C C' l' ∧ l'.first = l.first ∧
      ∀ b, p.has b = true → l'.grad b = Mat.ofFn (p.kind.shape b C C').1 (p.kind.shape b C C').2 (p.batchGrad b N X D) := by
    have hIs := h
    obtain ⟨k, W, B⟩ := p
    obtain ⟨hk, hw, hb⟩ := h
    simp only [Ply.has] at hw hb hk hf
    unfold Layer.backprop
    cases k with
    | dense =>
      obtain ⟨i, o', hk⟩ := hk
      have hw := hw rfl
      simp only [PlyKind.shape, Bool.false_eq_true, if_false] at hw
      rw [hk, hw]
      dsimp only
      rw [denseBackward_ofFn _ _ _ _ _ _ _ _ hv.gradWeight hv.gradBias hg, bind_ok']
      simp only [accN_eq_sum]
      refine hIs.out ?_ fun b _ => ?_
      · simp [PlyKind.inRate, Ply.back, Layer.grads]
      · cases b <;> simp [Ply.batchGrad_eq, Ply.pgrad, PlyKind.parRate, PlyKind.shape, div_eq_mul_inv]
    | dot =>
      obtain ⟨i, o', hk⟩ := hk
      have hw := hw rfl
      simp only [PlyKind.shape, Bool.false_eq_true, if_false] at hw
      rw [hk, hw]
      dsimp only
      rw [dotBackward_ofFn _ _ _ _ _ _ _ _ hv.gradWeight hg, bind_ok']
      simp only [accN_eq_sum]
      refine hIs.out ?_ fun b hb' => ?_
      · simp [PlyKind.inRate, Ply.back, Layer.grads]
      · cases b <;> simp [Ply.batchGrad_eq, Ply.pgrad, PlyKind.parRate, PlyKind.shape, div_eq_mul_inv,
          Ply.has, PlyKind.has] at hb' ⊢
    | bias =>
      obtain rfl := hf
      have hk : l.kind = .bias := hk
      rw [hk]
      dsimp only
      rw [biasBackward_ofFn _ _ _ _ _ hv.gradBias hg, bind_ok']
      simp only [accN_eq_sum]
      refine hIs.out ?_ fun b hb' => ?_
      · simp [PlyKind.inRate, Ply.back, Layer.grads]
      · cases b <;> simp [Ply.batchGrad_eq, Ply.pgrad, PlyKind.parRate, PlyKind.shape,
          Ply.has, PlyKind.has] at hb' ⊢
    | act a =>
      obtain ⟨rfl, s, ha⟩ := hf
      have hk : l.kind = .activation a := hk
      rw [hk]
      dsimp only
      rw [activationBackward_ofFn _ _ _ _ _ _ _ hg, bind_ok']
      refine ⟨l, ?_, hIs, rfl, fun b hb' => by simp [Ply.has, PlyKind.has] at hb'⟩
      simp [PlyKind.inRate, Ply.back]
    | channelBias R S K =>
      obtain ⟨rfl, rfl⟩ := hf
      have hk : l.kind = .channelBias R S K := hk
      rw [hk]
      dsimp only
      rw [Nat.mul_comm (R * S) K, channelBiasBackward_ofFn _ _ _ _ _ _ _ hv.gradBias hg, bind_ok']
      simp only [accN_eq_sum]
      rw [Nat.mul_comm (R * S) K] at hIs
      refine hIs.out ?_ fun b hb' => ?_
      · simp [PlyKind.inRate, Ply.back, Layer.grads]
      · cases b
        · simp [Ply.has, PlyKind.has] at hb'
        · simp only [Ply.batchGrad_eq, Ply.pgrad, PlyKind.parRate, PlyKind.shape, if_true]
          congr 1
          funext _ h'
          rw [sum_range_mul N (R * S) (fun s q => D s (h' * (R * S) + q))]
          push_cast
          ring
    | conv R S K kR kC O rs cs =>
      obtain ⟨rfl, rfl, -⟩ := hf
      obtain ⟨pc, hpc, hk⟩ := hk
      have hw := hw rfl
      simp only [PlyKind.shape] at hw
      obtain ⟨c1, c2, rfl⟩ := Conv.create_inv hpc
      obtain ⟨st', hok, hgw, hf⟩ := convBackward_eq (N := N) (rs := rs) (cs := cs) (mGI := gi) e.g l.fastLUT l.first c1 c2
        (fun s => px R S (X s)) (fun s => px (convOutSize R kR rs) (convOutSize S kC cs) (D s)) W
        (st := ⟨l.samples, l.im2colT, l.tempImg, l.weight, l.gradWeight⟩)
        ⟨hv.im2colT, hv.tempImg, hw, hv.gradWeight⟩ hp.1 hp.2 hg
      rw [hk]
      dsimp only
      rw [ofFn_px, ofFn_px, hf, bind_ok']
      refine ⟨{ l with samples := st'.samples, im2colT := st'.im2colT, tempImg := st'.tempImg
                       weight := st'.weight, gradWeight := st'.gradientWeight }, ?_,
        ⟨⟨_, hpc, hk⟩, fun _ => hok.weight, fun h => by cases h⟩, rfl, fun b hb' => ?_⟩
      · simp only [pure_ok]
        rw [← hk]
        congr 2
        split
        · rfl
        · rw [ofFn_planes]
          apply Mat.ofFn_congr
          intro s j hs hj
          simp only [planes, PlyKind.inRate, Ply.back]
          rw [col2im_single W (fun s => px (convOutSize R kR rs) (convOutSize S kC cs) (D s)) hs, mul_comm]
      · cases b
        · simp only [Layer.grad, hgw, Ply.batchGrad_eq, Ply.pgrad, PlyKind.parRate, PlyKind.shape, Bool.false_eq_true, if_false]
          congr 1
          funext o' q
          rw [convGradW_sum]
          rcases Nat.eq_zero_or_pos N with rfl | hN
          · simp
          · have : (N : ℝ) ≠ 0 := by exact_mod_cast hN.ne'
            field_simp
        · simp [Ply.has, PlyKind.has] at hb'
    | avgPool R S K rf cf =>
      obtain ⟨rfl, rfl, -⟩ := hf
      obtain ⟨pc, hpc, hk⟩ := hk
      obtain ⟨h1, h2, rfl⟩ := Pool.create_inv hpc
      rw [hk]
      dsimp only
      rw [ofFn_px N K (R / rf) (S / cf) D]
      refine ⟨l, ?_, hIs, rfl, fun b hb' => by simp [Ply.has, PlyKind.has] at hb'⟩
      cases hfi : l.first
      · rw [avgPoolBackward_imgMat _ h1 h2 _ hg, bind_ok', ofFn_planes]
        simp [PlyKind.inRate, Ply.back]
      · simp [avgPoolBackward]
    | globalAvgPool R S K =>
      obtain ⟨rfl, rfl⟩ := hf
      have hk : l.kind = .globalAvgPool R S C' := hk
      rw [hk]
      dsimp only
      refine ⟨l, ?_, hIs, rfl, fun b hb' => by simp [Ply.has, PlyKind.has] at hb'⟩
      cases hfi : l.first
      · rw [globalAvgPoolBackward_imgMat _ _ hg, bind_ok', ofFn_planes]
        simp [PlyKind.inRate, Ply.back]
      · simp [globalAvgPoolBackward]
    | zeroPad R S K b =>
      obtain ⟨rfl, rfl⟩ := hf
      have hk : l.kind = .zeroPad R S K b := hk
      rw [hk]
      dsimp only
      rw [ofFn_px N K (R + 2 * b) (S + 2 * b) D]
      refine ⟨l, ?_, hIs, rfl, fun b hb' => by simp [Ply.has, PlyKind.has] at hb'⟩
      cases hfi : l.first
      · rw [zeroPadBackward_imgMat _ _ hg, bind_ok', ofFn_planes]
        simp [PlyKind.inRate, Ply.back]
      · simp [zeroPadBackward]
    | crelu =>
      obtain rfl := hf
      have hk : l.kind = .crelu := hk
      rw [hk]
      dsimp only
      refine ⟨l, ?_, hIs, rfl, fun b hb' => by simp [Ply.has, PlyKind.has] at hb'⟩
      cases hfi : l.first
      · rw [creluBackward_ofFn _ hg, bind_ok']
        simp [PlyKind.inRate, Ply.back]
      · simp [creluBackward]
    | gated a1 a2 =>
      obtain ⟨rfl, -⟩ := hf
      have hk : l.kind = .gated (some a1) (some a2) := hk
      rw [hk]
      dsimp only
      refine ⟨l, ?_, hIs, rfl, fun b hb' => by simp [Ply.has, PlyKind.has] at hb'⟩
      cases hfi : l.first
      · simp only [Layer.gatedBwd, Bool.false_eq_true, if_false, Layer.gatedFns, bind_ok']
        split
        · rename_i h0
          rw [gatedBackward_ofFn _ _ _ _ _ hg, bind_ok']
          have : N * (2 * C') = 0 := by simpa using h0
          simp only [pure_ok]
          congr 2
          apply Mat.ofFn_congr
          intro i j hi hj
          rcases Nat.mul_eq_zero.1 this with h | h <;> omega
        · rw [gatedBackward_ofFn _ _ _ _ _ hg, bind_ok']
          simp [PlyKind.inRate, Ply.back]
      · simp [Layer.gatedBwd]
    | tdBias T F =>
      obtain ⟨rfl, rfl⟩ := hf
      have hF : 0 < F := Nat.pos_of_mul_pos_left hC
      have hk : l.kind = .tdBias F := hk
      rw [hk]
      dsimp only
      rw [tdBiasBackward_ofFn _ _ _ _ _ hF _ hv.gradBias hg, bind_ok']
      simp only [accN_eq_sum]
      refine hIs.out ?_ fun b hb' => ?_
      · simp [PlyKind.inRate, Ply.back, Layer.grads]
      · cases b
        · simp [Ply.has, PlyKind.has] at hb'
        · simp only [Ply.batchGrad_eq, Ply.pgrad, PlyKind.parRate, PlyKind.shape, if_true]
          congr 1
          funext _ j
          rw [sum_range_mul N T (fun s t => D s (t * F + j))]
          push_cast
          rw [← div_div, div_div, div_eq_mul_inv, mul_inv]
          ring
    | tdDot T F O =>
      obtain ⟨rfl, rfl⟩ := hf
      have hF : 0 < F := Nat.pos_of_mul_pos_left hC
      have hO : 0 < O := Nat.pos_of_mul_pos_left hC'
      have hk : l.kind = .tdDot F O := hk
      have hw := hw rfl
      simp only [PlyKind.shape, Bool.false_eq_true, if_false] at hw
      rw [hk, hw]
      dsimp only
      rw [tdDenseBackward_ofFn _ _ _ _ _ _ _ hF hO _ _ _ hv.gradWeight hv.gradBias hg, bind_ok']
      simp only [accN_eq_sum]
      refine hIs.out ?_ fun b hb' => ?_
      · simp [PlyKind.inRate, Ply.back, Layer.grads]
      · cases b
        · simp only [Ply.batchGrad_eq, Ply.pgrad, PlyKind.parRate, PlyKind.shape, Bool.false_eq_true, if_false]
          congr 1
          funext k j
          rw [sum_pieces N T (fun s t => X s (t * F + k) * D s (t * O + j))]
          ring
        · simp [Ply.has, PlyKind.has] at hb'
    | tdDense T F O =>
      obtain ⟨rfl, rfl⟩ := hf
      have hF : 0 < F := Nat.pos_of_mul_pos_left hC
      have hO : 0 < O := Nat.pos_of_mul_pos_left hC'
      have hk : l.kind = .tdDense F O := hk
      have hw := hw rfl
      simp only [PlyKind.shape, Bool.false_eq_true, if_false] at hw
      rw [hk, hw]
      dsimp only
      rw [tdDenseBackward_ofFn _ _ _ _ _ _ _ hF hO _ _ _ hv.gradWeight hv.gradBias hg, bind_ok']
      simp only [accN_eq_sum]
      refine hIs.out ?_ fun b hb' => ?_
      · simp [PlyKind.inRate, Ply.back, Layer.grads]
      · cases b
        · simp only [Ply.batchGrad_eq, Ply.pgrad, PlyKind.parRate, PlyKind.shape, Bool.false_eq_true, if_false]
          congr 1
          funext k j
          rw [sum_pieces N T (fun s t => X s (t * F + k) * D s (t * O + j))]
          ring
        · simp only [Ply.batchGrad_eq, Ply.pgrad, PlyKind.parRate, PlyKind.shape, if_true]
          congr 1
          funext k j
          rw [sum_pieces N T (fun s t => D s (t * O + j))]
          push_cast
          rw [← div_div, div_div, div_eq_mul_inv, mul_inv]
          ring
    | softmax =>
      obtain rfl := hf
      have hk : l.kind = .softmax := hk
      rw [hk]
      dsimp only
      refine ⟨l, ?_, hIs, rfl, fun b hb' => by simp [Ply.has, PlyKind.has] at hb'⟩
      cases hfi : l.first
      · rw [softmaxBackward_ofFn _ _ _ _ _ hg, bind_ok']
        simp [PlyKind.inRate, Ply.back]
      · simp [softmaxBackward]
  obtain ⟨l', h1, h2, h3, h4⟩ := key
  exact ⟨l', h1, h2, (Layer.backprop_safe _ hv (Mat.ofFn_WF _ _ _) (Mat.ofFn_WF _ _ _) hg _ h1).1.valid, h3, h4⟩

end BeeDNN
