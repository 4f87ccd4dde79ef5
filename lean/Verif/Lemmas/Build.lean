import Verif.Spec.Build
import Verif.Lemmas.FitsNew
import Verif.Lemmas.Mlp

/-! # Lemmas: networks that a program builds layer by layer -/

namespace BeeDNN

theorem Ply.construct_ok (e : Env) {k : PlyKind} {C C' : Nat} {wi bi : String} (hk : k ≠ .bias) (hf : k.Fits C C') (hC : 0 < C) (hC' : 0 < C') (hwi : wi ∈ initNames)
    (hbi : bi ∈ initNames) :
    ∃ (l : Layer) (p : Ply), k.construct e C C' wi bi = .ok l ∧ p.kind = k ∧ l.Valid ∧ p.Is C C' l ∧ l.first = false := by
  have ga : ∀ {n : String} {a : Activation}, getActivation n = some a → getActivation a.name = some a := fun {n a} h => by rw [C25_name n a h]; exact h
  cases k with
  | dense =>
    obtain ⟨w, w1⟩ := initCompute_known e.g e.draw hwi (m := ⟨0, 0, []⟩) rfl C C'
    obtain ⟨b, b1⟩ := initCompute_known e.g e.drawX hbi (m := ⟨0, 0, []⟩) rfl 1 C'
    have h : Layer.newDense e C C' wi bi = .ok { kind := .dense C C', wInit := wi, bInit := bi, weight := Mat.ofFn C C' w, bias := Mat.ofFn 1 C' b } := by
      unfold Layer.newDense Layer.init
      dsimp only
      rw [if_neg (by omega), w1, bind_ok', b1, bind_ok', pure_ok]
    exact ⟨_, { kind := .dense, weight := w, bias := b }, h, rfl, (Layer.new_of (k := .dense C C') trivial h).1, ⟨⟨_, _, rfl⟩, fun _ => rfl, fun _ => rfl⟩, rfl⟩
  | dot =>
    obtain ⟨w, w1⟩ := initCompute_known e.g e.draw hwi (m := ⟨0, 0, []⟩) rfl C C'
    have h : Layer.newDot e C C' wi = .ok { kind := .dot C C', wInit := wi, weight := Mat.ofFn C C' w } := by
      unfold Layer.newDot Layer.init
      dsimp only
      rw [if_neg (by omega), w1, bind_ok', pure_ok]
    exact ⟨_, { kind := .dot, weight := w }, h, rfl, (Layer.new_of (k := .dot C C') trivial h).1, ⟨⟨_, _, rfl⟩, fun _ => rfl, (fun h => by cases h)⟩, rfl⟩
  | bias => exact absurd rfl hk
  | act a =>
    obtain ⟨-, s, hs⟩ := hf
    refine ⟨{ kind := .activation a }, { kind := .act a }, ?_, rfl, Layer.valid_new _ _ _ ⟨s, hs⟩, ⟨rfl, (fun h => by cases h), (fun h => by cases h)⟩, rfl⟩
    show Layer.newActivation a.name = _
    unfold Layer.newActivation
    rw [ga hs]
  | channelBias R S K =>
    obtain ⟨b, b1⟩ := initCompute_known e.g e.draw hbi (m := ⟨0, 0, []⟩) rfl 1 K
    have h : Layer.newChannelBias e R S K bi = .ok { kind := .channelBias R S K, bInit := bi, bias := Mat.ofFn 1 K b } := by
      unfold Layer.newChannelBias Layer.init
      dsimp only
      rw [b1, bind_ok', pure_ok]
    exact ⟨_, { kind := .channelBias R S K, bias := b }, h, rfl, (Layer.new_of (k := .channelBias R S K) trivial h).1, ⟨rfl, (fun h => by cases h), fun _ => rfl⟩, rfl⟩
  | conv R S K kR kC O rs cs =>
    obtain ⟨-, -, f1, f2, -, -⟩ := hf
    have hc := Conv.create_eq (K := K) (O := O) (rs := rs) (cs := cs) f1 f2
    have hlt : ¬ ((1 : ℝ) < -1) := by norm_num
    obtain ⟨gw, hgw, -⟩ := Mat.setConstant_ok (Mat.resize_WF (g := e.g) (m := ⟨0, 0, []⟩) rfl O (kR * kC * K)) (0 : ℝ)
    obtain ⟨x, h⟩ : ∃ x, Layer.init e { kind := .conv (Conv.std R S K kR kC O rs cs) } =
        .ok { kind := .conv (Conv.std R S K kR kC O rs cs), weight := Mat.ofFn O (kR * kC * K) x, gradWeight := gw } := by
      simp only [Layer.init, setRandomUniform, if_neg hlt]
      simp only [setDraws_resize e.g e.draw (Mat.WF_empty (α := ℝ)), Mat.scale_ofFn, bind_ok', pure_ok, Mat.ofFn_rows, Mat.ofFn_cols]
      rw [hgw, bind_ok']
      exact ⟨_, rfl⟩
    refine ⟨_, { kind := .conv R S K kR kC O rs cs, weight := x }, ?_, rfl, (Layer.new_of (k := .conv _) (wi := "") (bi := "") ⟨_, _, _, _, _, _, _, _, hc⟩ h).1,
      ⟨⟨_, hc, rfl⟩, fun _ => rfl, (fun h => by cases h)⟩, rfl⟩
    show Layer.newConv e R S K kR kC O rs cs = _
    rw [Layer.newConv, hc, bind_ok', h]
  | avgPool R S K rf cf =>
    obtain ⟨-, -, h1, h2⟩ := hf
    obtain ⟨p, hp⟩ : ∃ p, Pool.create R S K rf cf = .ok p := ⟨_, Pool.create_eq h1 h2⟩
    refine ⟨{ kind := .avgPool p }, { kind := .avgPool R S K rf cf }, ?_, rfl, Layer.valid_new _ _ _ ⟨_, _, _, _, _, hp⟩, ⟨⟨p, hp, rfl⟩, (fun h => by cases h), (fun h => by cases h)⟩, rfl⟩
    show Layer.newAvgPool R S K rf cf = _
    rw [Layer.newAvgPool, hp, bind_ok', pure_ok]
  | globalAvgPool R S K =>
    exact ⟨{ kind := .globalAvgPool R S K }, { kind := .globalAvgPool R S K }, rfl, rfl, Layer.valid_new _ _ _ trivial, ⟨rfl, (fun h => by cases h), (fun h => by cases h)⟩, rfl⟩
  | zeroPad R S K b =>
    exact ⟨{ kind := .zeroPad R S K b }, { kind := .zeroPad R S K b }, rfl, rfl, Layer.valid_new _ _ _ trivial, ⟨rfl, (fun h => by cases h), (fun h => by cases h)⟩, rfl⟩
  | crelu =>
    exact ⟨{ kind := .crelu }, { kind := .crelu }, rfl, rfl, Layer.valid_new _ _ _ trivial, ⟨rfl, (fun h => by cases h), (fun h => by cases h)⟩, rfl⟩
  | gated a₁ a₂ =>
    obtain ⟨-, ⟨s₁, h₁⟩, s₂, h₂⟩ := hf
    refine ⟨{ kind := .gated (some a₁) (some a₂) }, { kind := .gated a₁ a₂ }, ?_, rfl, Layer.valid_new _ _ _ ⟨s₁, s₂, a₁, a₂, h₁, h₂, rfl, rfl⟩,
      ⟨rfl, (fun h => by cases h), (fun h => by cases h)⟩, rfl⟩
    show Layer.newGated a₁.name a₂.name = _
    rw [Layer.newGated, ga h₁, ga h₂]
  | tdBias T F =>
    obtain ⟨b, b1⟩ := initCompute_known e.g e.draw hbi (m := ⟨0, 0, []⟩) rfl 1 F
    have h : Layer.newTDBias e F bi = .ok { kind := .tdBias F, bInit := bi, bias := Mat.ofFn 1 F b } := by
      unfold Layer.newTDBias Layer.init
      dsimp only
      rw [b1, bind_ok', pure_ok]
    exact ⟨_, { kind := .tdBias T F, bias := b }, h, rfl, (Layer.new_of (k := .tdBias F) trivial h).1, ⟨rfl, (fun h => by cases h), fun _ => rfl⟩, rfl⟩
  | tdDot T F O =>
    obtain ⟨w, w1⟩ := initCompute_known e.g e.draw hwi (m := ⟨0, 0, []⟩) rfl F O
    have h : Layer.newTDDot e F O wi = .ok { kind := .tdDot F O, wInit := wi, weight := Mat.ofFn F O w } := by
      unfold Layer.newTDDot Layer.init
      dsimp only
      rw [w1, bind_ok', pure_ok]
    exact ⟨_, { kind := .tdDot T F O, weight := w }, h, rfl, (Layer.new_of (k := .tdDot F O) trivial h).1, ⟨rfl, fun _ => rfl, (fun h => by cases h)⟩, rfl⟩
  | tdDense T F O =>
    obtain ⟨w, w1⟩ := initCompute_known e.g e.draw hwi (m := ⟨0, 0, []⟩) rfl F O
    obtain ⟨b, b1⟩ := initCompute_known e.g e.drawX hbi (m := ⟨0, 0, []⟩) rfl 1 O
    have h : Layer.newTDDense e F O wi bi = .ok { kind := .tdDense F O, wInit := wi, bInit := bi, weight := Mat.ofFn F O w, bias := Mat.ofFn 1 O b } := by
      unfold Layer.newTDDense Layer.init
      dsimp only
      rw [w1, bind_ok', b1, bind_ok', pure_ok]
    exact ⟨_, { kind := .tdDense T F O, weight := w, bias := b }, h, rfl, (Layer.new_of (k := .tdDense F O) trivial h).1, ⟨rfl, fun _ => rfl, fun _ => rfl⟩, rfl⟩
  | softmax =>
    exact ⟨{ kind := .softmax }, { kind := .softmax }, rfl, rfl, Layer.valid_new _ _ _ trivial, ⟨rfl, (fun h => by cases h), (fun h => by cases h)⟩, rfl⟩

/-- Adding new layers to a network: each gets an object of its own behind the objects there are. -/
theorem World.addAll_ok (n : Nat) : ∀ (ls : List Layer) (w : World), ∃ w' : World, World.addAll n (ls.map .ok) w = .ok w' ∧
    (w'.nets n).layers = (w.nets n).layers ++ (List.range ls.length).map (w.heap.length + ·) ∧ w'.heap = w.heap ++ ls.map some ∧ ∀ k, k ≠ n → w'.nets k = w.nets k
  | [], w => ⟨w, rfl, by simp, by simp, fun _ _ => rfl⟩
  | l :: ls, w => by
    obtain ⟨w', h1, h2, h3, h4⟩ := World.addAll_ok n ls ((w.alloc l).add n w.heap.length)
    refine ⟨w', ?_, ?_, ?_, fun k hk => ?_⟩
    · exact h1
    · rw [h2]
      have e1 : (((w.alloc l).add n w.heap.length).nets n).layers = (w.nets n).layers ++ [w.heap.length] := by simp [World.add, World.setNet, World.alloc]
      have e2 : ((w.alloc l).add n w.heap.length).heap.length = w.heap.length + 1 := by simp [World.add, World.setNet, World.alloc]
      rw [e1, e2, List.length_cons, List.range_succ_eq_map, List.map_cons, List.map_map, List.append_assoc, List.singleton_append]
      congr 2
      refine List.map_congr_left fun i _ => ?_
      simp only [Function.comp]
      omega
    · rw [h3]
      simp [World.add, World.setNet, World.alloc]
    · rw [h4 k hk]
      simp [World.add, World.setNet, World.alloc, hk]

end BeeDNN
