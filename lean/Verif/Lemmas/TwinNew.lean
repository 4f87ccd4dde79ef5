import Verif.Lemmas.TwinFit
import Verif.Props.TrainAny

/-! # Two runs: new layers -/

namespace BeeDNN
open Finset HasWF

theorem Mat.resize_empty_twin (g g' : Nat → ℝ) : (⟨0, 0, []⟩ : Mat ℝ).resize g 0 0 = (⟨0, 0, []⟩ : Mat ℝ).resize g' 0 0 := Mat.resize_zero_twin Mat.WF_empty

/-- New layers in two runs. -/
theorem Layer.make_twin {e f : Env} (hef : e.Twin f) {wi bi : String} (hwi : wi ∈ initNames) (hbi : bi ∈ initNames) {k : LayerKind} {first : Bool} {s s' : Form}
    (ht : k.Takes first s s') {l m : Layer} (h1 : k.make e wi bi = .ok l) (h2 : k.make f wi bi = .ok m) : m.core = l.core := by
  obtain ⟨g, gi, rfl⟩ := hef
  have same : ∀ {x : Out Layer}, x = .ok l → x = .ok m → m.core = l.core := by
    intro x h1 h2
    rw [h1] at h2
    injection h2 with h2
    rw [h2]
  have al : ∀ g : Nat → ℝ, (Mat.alloc g 1 1).Shape 1 1 := fun g => ⟨Mat.alloc_WF .., rfl, rfl⟩
  cases k
  case dense i o =>
    obtain ⟨x, hx⟩ := initCompute_twin e.draw hwi i o
    obtain ⟨y, hy⟩ := initCompute_twin e.drawX hbi 1 o
    simp only [LayerKind.make, newDense, init, hx _ _ Mat.WF_empty, hy _ _ Mat.WF_empty, bind_ok'] at h1 h2
    exact same h1 h2
  case dot i o =>
    obtain ⟨x, hx⟩ := initCompute_twin e.draw hwi i o
    simp only [LayerKind.make, newDot, init, hx _ _ Mat.WF_empty, bind_ok'] at h1 h2
    exact same h1 h2
  case bias =>
    simp only [LayerKind.make, newBias, init, Mat.resize_empty_twin g e.g] at h1 h2
    exact same h1 h2
  case gain =>
    simp only [LayerKind.make, newGain, init, Mat.resize_empty_twin g e.g] at h1 h2
    exact same h1 h2
  case affine =>
    simp only [LayerKind.make, newAffine, init, Mat.resize_empty_twin g e.g] at h1 h2
    exact same h1 h2
  case prelu =>
    simp only [LayerKind.make, newPRelu, init, Mat.resize_empty_twin g e.g] at h1 h2
    exact same h1 h2
  case pelu =>
    simp only [LayerKind.make, newPELU, init, Mat.resize_empty_twin g e.g] at h1 h2
    exact same h1 h2
  case terelu =>
    simp only [LayerKind.make, newTERELU, init, Mat.resize_empty_twin g e.g] at h1 h2
    exact same h1 h2
  case globalBias =>
    obtain ⟨x, hx⟩ := (al e.g).exists_ofFn
    obtain ⟨y, hy⟩ := (al g).exists_ofFn
    simp only [LayerKind.make, newGlobalBias, init, hx, hy, Mat.setConstant_ofFn, bind_ok', pure_ok] at h1 h2
    injection h1 with h1
    injection h2 with h2
    subst h1 h2
    rfl
  case globalGain =>
    obtain ⟨x, hx⟩ := (al e.g).exists_ofFn
    obtain ⟨y, hy⟩ := (al g).exists_ofFn
    simp only [LayerKind.make, newGlobalGain, init, hx, hy, Mat.setConstant_ofFn, bind_ok', pure_ok] at h1 h2
    injection h1 with h1
    injection h2 with h2
    subst h1 h2
    rfl
  case globalAffine =>
    obtain ⟨x, hx⟩ := (al e.g).exists_ofFn
    obtain ⟨y, hy⟩ := (al g).exists_ofFn
    simp only [LayerKind.make, newGlobalAffine, init, hx, hy, Mat.setConstant_ofFn, bind_ok', pure_ok] at h1 h2
    injection h1 with h1
    injection h2 with h2
    subst h1 h2
    rfl
  case channelBias r c ch =>
    obtain ⟨x, hx⟩ := initCompute_twin e.draw hbi 1 ch
    simp only [LayerKind.make, newChannelBias, init, hx _ _ Mat.WF_empty, bind_ok'] at h1 h2
    exact same h1 h2
  case tdBias f =>
    obtain ⟨x, hx⟩ := initCompute_twin e.draw hbi 1 f
    simp only [LayerKind.make, newTDBias, init, hx _ _ Mat.WF_empty, bind_ok'] at h1 h2
    exact same h1 h2
  case tdDot f o =>
    obtain ⟨x, hx⟩ := initCompute_twin e.draw hwi f o
    simp only [LayerKind.make, newTDDot, init, hx _ _ Mat.WF_empty, bind_ok'] at h1 h2
    exact same h1 h2
  case tdDense f o =>
    obtain ⟨x, hx⟩ := initCompute_twin e.draw hwi f o
    obtain ⟨y, hy⟩ := initCompute_twin e.drawX hbi 1 o
    simp only [LayerKind.make, newTDDense, init, hx _ _ Mat.WF_empty, hy _ _ Mat.WF_empty, bind_ok'] at h1 h2
    exact same h1 h2
  case conv p =>
    have hlt : ¬ ((1 : ℝ) < -1) := by norm_num
    obtain ⟨c, c1, c2⟩ := ok_bind h1
    obtain ⟨c', c1', c2'⟩ := ok_bind h2
    obtain rfl : c = c' := by rw [c1] at c1'; injection c1'
    simp only [init, setRandomUniform, if_neg hlt, setDraws_resize _ e.draw Mat.WF_empty, Mat.scale_ofFn, bind_ok', pure_ok, Mat.ofFn_rows, Mat.ofFn_cols] at c2 c2'
    obtain ⟨gw, -, h1⟩ := ok_bind c2
    obtain ⟨gw', -, h2⟩ := ok_bind c2'
    injection h1 with h1
    injection h2 with h2
    subst h1 h2
    rfl
  all_goals first
    | exact same h1 h2
    | exact (show False from ht).elim

/-- Networks of new layers in two runs. -/
theorem build_twin {e f : Nat → Env} (hef : ∀ i, (e i).Twin (f i)) {wi bi : String} (hwi : wi ∈ initNames) (hbi : bi ∈ initNames) {n : Nat} {form : Nat → Form} :
    ∀ (ks : List LayerKind) (i : Nat) {w v w' v' : World}, v.core = w.core →
    (∀ (j : Nat) (k : LayerKind), ks[j]? = some k → k.Takes (decide (i + j = 0)) (form (i + j)) (form (i + j + 1))) →
    w.build e wi bi n i ks = .ok w' → v.build f wi bi n i ks = .ok v' → v'.core = w'.core
  | [], i, w, v, w', v', h, _, h1, h2 => by
    injection h1 with h1
    injection h2 with h2
    subst h1 h2
    exact h
  | k :: ks, i, w, v, w', v', h, ht, h1, h2 => by
    obtain ⟨l, a1, a2⟩ := ok_bind h1
    obtain ⟨m, b1, b2⟩ := ok_bind h2
    have hc := Layer.make_twin (hef i) hwi hbi (ht 0 k rfl) a1 b1
    refine build_twin (form := form) hef hwi hbi ks (i + 1) ?_ (fun j k' hj => ?_) a2 b2
    · refine World.core_inj ?_ ?_
      · simp only [World.add, World.setNet, World.alloc, World.core_nets h, World.core_length h]
      · simp only [World.add, World.setNet, World.alloc, List.map_append, List.map_cons, List.map_nil, Option.map_some, hc, World.core_map h]
    · have := ht (j + 1) k' hj
      rwa [show i + (j + 1) = i + 1 + j by omega] at this

end BeeDNN
