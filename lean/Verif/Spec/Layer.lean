import Verif.Model.Layer
import Verif.Spec.Conv
import Verif.Spec.Softmax
import Verif.Spec.LayersMisc

/-! # Specification: what each layer computes on one sample in test mode -/

namespace BeeDNN
open Finset

/-- One sample: its features by position. -/
abbrev Row := Nat → ℝ

/-- Pixel `(r,c)` of channel `k` in a sample made of `R × C` planes. -/
def px (R C : Nat) (v : Row) (k r c : Nat) : ℝ := v (k * (R * C) + (r * C + c))

/-- The sample made of the `R × C` planes `f 0`, `f 1`, … -/
def planes (R C : Nat) (f : Nat → Nat → Nat → ℝ) : Row := fun j => f (j / (R * C)) (j % (R * C) / C) (j % (R * C) % C)

/-- The largest of `low, f 0, …, f (n-1)`. -/
noncomputable def maxFrom (low : ℝ) (n : Nat) (f : Nat → ℝ) : ℝ := (List.range n).foldl (fun a t => max a (f t)) low

/-- `LayerRow l C C' φ`: the layer `l` accepts samples with `C` features, and in test mode turns a sample `v` into
the sample `φ v` with `C'` features. -/
inductive LayerRow (l : Layer) : Nat → Nat → (Row → Row) → Prop
  | dense (i o C C' : Nat) (w b : Nat → Nat → ℝ) (hk : l.kind = .dense i o) (hw : l.weight = Mat.ofFn C C' w)
      (hb : l.bias = Mat.ofFn 1 C' b) :
      LayerRow l C C' (fun v j => ∑ k ∈ range C, v k * w k j + b 0 j)
  | dot (i o C C' : Nat) (w : Nat → Nat → ℝ) (hk : l.kind = .dot i o) (hw : l.weight = Mat.ofFn C C' w) :
      LayerRow l C C' (fun v j => ∑ k ∈ range C, v k * w k j)
  | bias (C : Nat) (hC : 0 < C) (b : Nat → Nat → ℝ) (hk : l.kind = .bias) (hb : l.bias = Mat.ofFn 1 C b) :
      LayerRow l C C (fun v j => v j + b 0 j)
  | biasNew (C : Nat) (hC : 0 < C) (c : ℝ) (hk : l.kind = .bias) (hb : l.bias = ⟨0, 0, []⟩)
      (hi : l.bInit = "Zeros" ∧ c = 0 ∨ l.bInit = "Ones" ∧ c = 1) : LayerRow l C C (fun v j => v j + c)
  | gain (C : Nat) (hC : 0 < C) (w : Nat → Nat → ℝ) (hk : l.kind = .gain) (hw : l.weight = Mat.ofFn 1 C w) :
      LayerRow l C C (fun v j => v j * w 0 j)
  | gainNew (C : Nat) (hC : 0 < C) (hk : l.kind = .gain) (hw : l.weight = ⟨0, 0, []⟩) : LayerRow l C C (fun v j => v j * 1)
  | affine (C : Nat) (hC : 0 < C) (w b : Nat → Nat → ℝ) (hk : l.kind = .affine) (hw : l.weight = Mat.ofFn 1 C w)
      (hb : l.bias = Mat.ofFn 1 C b) : LayerRow l C C (fun v j => v j * w 0 j + b 0 j)
  | affineNew (C : Nat) (hC : 0 < C) (hk : l.kind = .affine) (hw : l.weight = ⟨0, 0, []⟩) (hb : l.bias = ⟨0, 0, []⟩) :
      LayerRow l C C (fun v j => v j * 1 + 0)
  | globalBias (C : Nat) (b : Nat → Nat → ℝ) (hk : l.kind = .globalBias) (hb : l.bias = Mat.ofFn 1 1 b) :
      LayerRow l C C (fun v j => v j + b 0 0)
  | globalGain (C : Nat) (w : Nat → Nat → ℝ) (hk : l.kind = .globalGain) (hw : l.weight = Mat.ofFn 1 1 w) :
      LayerRow l C C (fun v j => v j * w 0 0)
  | globalAffine (C : Nat) (w b : Nat → Nat → ℝ) (hk : l.kind = .globalAffine) (hw : l.weight = Mat.ofFn 1 1 w)
      (hb : l.bias = Mat.ofFn 1 1 b) : LayerRow l C C (fun v j => v j * w 0 0 + b 0 0)
  | channelBias (R C K : Nat) (b : Nat → Nat → ℝ) (hk : l.kind = .channelBias R C K) (hb : l.bias = Mat.ofFn 1 K b) :
      LayerRow l (K * (R * C)) (K * (R * C)) (fun v j => v j + b 0 (j / (R * C)))
  | activation (C : Nat) (a : Activation) (hk : l.kind = .activation a) (s : String)
      (ha : getActivation s = some a) : LayerRow l C C (fun v j => a.apply (v j))
  | softmax (C : Nat) (hk : l.kind = .softmax) : LayerRow l C C (fun v => softmaxAt C v)
  | softmin (C : Nat) (hk : l.kind = .softmin) : LayerRow l C C (fun v => softmaxAt C (fun k => -v k))
  | maxPool (R C K rf cf : Nat) (p : Pool) (hk : l.kind = .maxPool p) (hp : Pool.create R C K rf cf = .ok p)
      (hm : l.maxIndex.WF) :
      LayerRow l (R * C * K) ((R / rf) * (C / cf) * K) (fun v => planes (R / rf) (C / cf) (fun k r c =>
        maxFrom Layer.low (rf * cf) (fun t => px R C v k (r * rf + t / cf) (c * cf + t % cf))))
  | globalMaxPool (R C K : Nat) (hk : l.kind = .globalMaxPool R C K) (hm : l.maxIndex.WF) :
      LayerRow l (R * C * K) K (fun v k => maxFrom Layer.low (R * C) (fun t => px R C v k (t / C) (t % C)))
  | avgPool (R C K rf cf : Nat) (p : Pool) (hk : l.kind = .avgPool p) (hp : Pool.create R C K rf cf = .ok p) :
      LayerRow l (R * C * K) ((R / rf) * (C / cf) * K) (fun v => planes (R / rf) (C / cf) (fun k r c =>
        (∑ i ∈ range rf, ∑ j ∈ range cf, px R C v k (r * rf + i) (c * cf + j)) * (1 / ((rf * cf : Nat) : ℝ))))
  | globalAvgPool (R C K : Nat) (hk : l.kind = .globalAvgPool R C K) :
      LayerRow l (R * C * K) K (fun v k =>
        (∑ r ∈ range R, ∑ c ∈ range C, px R C v k r c) * (1 / ((R * C : Nat) : ℝ)))
  | zeroPad (R C K b : Nat) (hk : l.kind = .zeroPad R C K b) :
      LayerRow l (R * C * K) ((R + 2 * b) * (C + 2 * b) * K) (fun v => planes (R + 2 * b) (C + 2 * b) (fun k r c =>
        if (b ≤ r ∧ r < R + b) ∧ b ≤ c ∧ c < C + b then px R C v k (r - b) (c - b) else 0))
  | conv (R C K kR kC O rs cs : Nat) (p : Conv) (w : Nat → Nat → ℝ) (hk : l.kind = .conv p)
      (hp : Conv.create R C K kR kC O rs cs = .ok p) (hw : l.weight = Mat.ofFn O (kR * kC * K) w)
      (h1 : l.im2colT.WF) (h2 : l.tempImg.WF) (h3 : l.gradWeight.WF) :
      LayerRow l (R * C * K) (p.outRows * p.outCols * O) (fun v => planes p.outRows p.outCols (fun o r c =>
        ∑ ch ∈ range K, ∑ kr ∈ range kR, ∑ kc ∈ range kC,
          w o (ch * (kR * kC) + (kr * kC + kc)) * px R C v ch (r * rs + kr) (c * cs + kc)))
  | dropout (C : Nat) (rate : ℝ) (hk : l.kind = .dropout rate) : LayerRow l C C (fun v => v)
  | gaussianDropout (C : Nat) (p : ℝ) (hk : l.kind = .gaussianDropout p) : LayerRow l C C (fun v => v)
  | gaussianNoise (C : Nat) (n : ℝ) (hk : l.kind = .gaussianNoise n) : LayerRow l C C (fun v => v)
  | uniformNoise (C : Nat) (n : ℝ) (hk : l.kind = .uniformNoise n) : LayerRow l C C (fun v => v)
  | crelu (n : Nat) (hk : l.kind = .crelu) :
      LayerRow l n (n * 2) (fun v j => if j < n then max (v j) 0 else max (-v (j - n)) 0)
  | gated (n : Nat) (a1 a2 : Activation) (hk : l.kind = .gated (some a1) (some a2)) (s1 s2 : String)
      (h1 : getActivation s1 = some a1) (h2 : getActivation s2 = some a2) :
      LayerRow l (2 * n) n (fun v j => a1.apply (v j) * a2.apply (v (j + n)))
  | prelu (C : Nat) (hC : 0 < C) (w : Nat → Nat → ℝ) (hk : l.kind = .prelu) (hw : l.weight = Mat.ofFn 1 C w) :
      LayerRow l C C (fun v j => preluFn (w 0 j) (v j))
  | preluNew (C : Nat) (hC : 0 < C) (hk : l.kind = .prelu) (hw : l.weight = ⟨0, 0, []⟩) :
      LayerRow l C C (fun v j => preluFn 0.25 (v j))
  | pelu (C : Nat) (hC : 0 < C) (w : Nat → Nat → ℝ) (hk : l.kind = .pelu) (hw : l.weight = Mat.ofFn 2 C w) :
      LayerRow l C C (fun v j => peluFn (w 0 j) (w 1 j) (v j))
  | peluNew (C : Nat) (hC : 0 < C) (hk : l.kind = .pelu) (hw : l.weight = ⟨0, 0, []⟩) :
      LayerRow l C C (fun v j => peluFn 1 1 (v j))
  | terelu (C : Nat) (hC : 0 < C) (w : Nat → Nat → ℝ) (hk : l.kind = .terelu) (hw : l.weight = Mat.ofFn 1 C w) :
      LayerRow l C C (fun v j => tereluFn 1 1 (w 0 j) (v j))
  | tereluNew (C : Nat) (hC : 0 < C) (hk : l.kind = .terelu) (hw : l.weight = ⟨0, 0, []⟩) :
      LayerRow l C C (fun v j => tereluFn 1 1 1 (v j))
  | rrelu (C : Nat) (a1 a2 : ℝ) (hk : l.kind = .rrelu a1 a2) :
      LayerRow l C C (fun v j => preluFn ((1 / a1 + 1 / a2) * 0.5) (v j))
  | tdBias (T F : Nat) (hF : 0 < F) (b : Nat → Nat → ℝ) (hk : l.kind = .tdBias F) (hb : l.bias = Mat.ofFn 1 F b) :
      LayerRow l (T * F) (T * F) (fun v j => v j + b 0 (j % F))
  | tdDot (T F O : Nat) (hF : 0 < F) (w : Nat → Nat → ℝ) (hk : l.kind = .tdDot F O) (hw : l.weight = Mat.ofFn F O w) :
      LayerRow l (T * F) (T * O) (fun v j => ∑ k ∈ range F, v (j / O * F + k) * w k (j % O))
  | tdDense (T F O : Nat) (hF : 0 < F) (w b : Nat → Nat → ℝ) (hk : l.kind = .tdDense F O)
      (hw : l.weight = Mat.ofFn F O w) (hb : l.bias = Mat.ofFn 1 O b) :
      LayerRow l (T * F) (T * O) (fun v j => ∑ k ∈ range F, v (j / O * F + k) * w k (j % O) + b 0 (j % O))

/-! ## Layers made by the constructors -/

/-- The arguments are those some constructor call accepts. -/
def LayerKind.Made : LayerKind → Prop
  | .activation a => ∃ s, getActivation s = some a
  | .gated a1 a2 => ∃ s1 s2 b1 b2, getActivation s1 = some b1 ∧ getActivation s2 = some b2 ∧ a1 = some b1 ∧ a2 = some b2
  | .maxPool p => ∃ r c k rf cf, Pool.create r c k rf cf = .ok p
  | .avgPool p => ∃ r c k rf cf, Pool.create r c k rf cf = .ok p
  | .conv p => ∃ r c k kr kc o rs cs, Conv.create r c k kr kc o rs cs = .ok p
  | _ => True

/-- Classes with a parameter in `_weight`. -/
def LayerKind.usesWeight : LayerKind → Bool
  | .dense .. | .dot .. | .gain | .affine | .globalGain | .globalAffine | .conv _ | .prelu | .pelu | .terelu
  | .tdDot .. | .tdDense .. | .simplestRNN _ => true
  | _ => false

/-- Classes with a parameter in `_bias`. -/
def LayerKind.usesBias : LayerKind → Bool
  | .dense .. | .bias | .affine | .globalBias | .globalAffine | .channelBias .. | .tdBias _ | .tdDense .. => true
  | _ => false

/-- The class with parameters `_whh`, `_wxh`, `_bh`. -/
def LayerKind.usesRec : LayerKind → Bool
  | .simpleRNN .. => true
  | _ => false

/-- Well-formed layer objects: matrices own buffers of their size, members that a class lacks are empty. -/
structure Layer.Valid (l : Layer) : Prop where
  weight : l.weight.WF
  gradWeight : l.gradWeight.WF
  bias : l.bias.WF
  gradBias : l.gradBias.WF
  maxIndex : l.maxIndex.WF
  mask : l.mask.WF
  im2colT : l.im2colT.WF
  tempImg : l.tempImg.WF
  whh : l.whh.WF
  wxh : l.wxh.WF
  bh : l.bh.WF
  h : l.h.WF
  saved : ∀ m ∈ l.saved, m.WF
  noWeight : l.kind.usesWeight = false → l.weight = ⟨0, 0, []⟩
  noBias : l.kind.usesBias = false → l.bias = ⟨0, 0, []⟩
  noRec : l.kind.usesRec = false → l.whh = ⟨0, 0, []⟩ ∧ l.wxh = ⟨0, 0, []⟩ ∧ l.bh = ⟨0, 0, []⟩
  made : l.kind.Made

/-- Two layers have the same class, constructor arguments and trained values. -/
structure Layer.SameParams (l l' : Layer) : Prop where
  kind : l'.kind = l.kind
  weight : l'.weight = l.weight
  bias : l'.bias = l.bias
  whh : l'.whh = l.whh
  wxh : l'.wxh = l.wxh
  bh : l'.bh = l.bh

end BeeDNN
