import Verif.Spec.Python
import Verif.Props.Net
import Verif.Props.Factory

/-! # Lemmas on the Python binding -/

namespace BeeDNN.Py

/-- The network applies `φ` to each entry of samples with `C` entries. -/
structure Entry (h : Handle) (C : Nat) (φ : ℝ → ℝ) : Prop where
  owned : Owned h.w
  test : TestMode h.w (h.w.nets 0).layers
  fn : ∃ Φ, NetFn h.w (h.w.nets 0).layers C C Φ ∧ ∀ v j, j < C → Φ v j = φ (v j)

theorem entry_create (C : Nat) : Entry (create C) C id where
  owned := ⟨fun _ _ h => absurd h List.not_mem_nil, fun _ => List.nodup_nil, fun _ _ _ h => absurd h List.not_mem_nil⟩
  test := fun _ h => absurd h List.not_mem_nil
  fn := ⟨_, .nil C, fun _ _ _ => rfl⟩

theorem netFn_snoc {w : World} {as : List Nat} {C C₁ C₂ : Nat} {φ ψ : Row → Row} (h : NetFn w as C C₁ φ) {a : Nat} {l : Layer}
    (hl : w.heap[a]? = some (some l)) (hψ : LayerRow l C₁ C₂ ψ) : NetFn w (as ++ [a]) C C₂ (fun v => ψ (φ v)) := by
  induction h with
  | nil C => exact .cons a [] l C C₂ C₂ ψ (fun v => v) hl hψ (.nil C₂)
  | cons b bs m C C₁ C₂ φ χ hm hφ hχ ih => exact .cons b (bs ++ [a]) m C C₁ _ φ _ hm hφ (ih hψ)

theorem Entry.addLayer {h : Handle} {C : Nat} {φ : ℝ → ℝ} (hE : Entry h C φ) {e : Env} {s : String} {l : Layer} (hc : Factory.create e s 0 0 0 0 0 = .ok l)
    (ht : l.train = false) {ψ : Row → Row} {χ : ℝ → ℝ} (hr : LayerRow l C C ψ) (hχ : ∀ v j, j < C → ψ v j = χ (v j)) :
    ∃ h', Py.addLayer e h s = .ok h' ∧ h'.inputSize = h.inputSize ∧ (h'.w.nets 0).layers ≠ [] ∧ Entry h' C (fun x => χ (φ x)) := by
  refine ⟨{ h with w := (h.w.alloc l).add 0 h.w.heap.length }, by rw [Py.addLayer, hc, bind_ok']; rfl, rfl, ?_, (frame_add hE.owned 0 l).owned, ?_, ?_⟩
  · simp [World.add]
  · intro a ha k hk
    simp only [World.add, World.alloc_nets, World.setNet, if_true, List.mem_append, List.mem_singleton] at ha
    rcases ha with ha | rfl
    · obtain ⟨m, hm⟩ := hE.owned.live 0 a ha
      refine hE.test a ha k ?_
      rw [← hk]
      simp [World.add, World.alloc, List.getElem?_append_left (World.lt_of_live hm)]
    · simp [World.add, World.alloc] at hk
      rw [← hk]; exact ht
  · obtain ⟨Φ, h1, h2⟩ := hE.fn
    refine ⟨fun v => ψ (Φ v), ?_, fun v j hj => by show ψ (Φ v) j = _; rw [hχ _ j hj, h2 v j hj]⟩
    have h3 : NetFn ((h.w.alloc l).add 0 h.w.heap.length) (h.w.nets 0).layers C C Φ := h1.congr fun a ha => by
      obtain ⟨m, hm⟩ := hE.owned.live 0 a ha
      simp [World.add, World.alloc, List.getElem?_append_left (World.lt_of_live hm)]
    have := netFn_snoc h3 (a := h.w.heap.length) (l := l) (by simp [World.add, World.alloc]) hr
    simpa [World.add] using this

/-- The layer that such a name makes. -/
theorem nameFn_layer {C : Nat} (hC : 0 < C) {s : String} {χ : ℝ → ℝ} (h : NameFn C s χ) (e : Env) :
    ∃ l ψ, Factory.create e s 0 0 0 0 0 = .ok l ∧ l.train = false ∧ LayerRow l C C ψ ∧ ∀ v j, j < C → ψ v j = χ (v j) := by
  cases h with
  | activation s a hs ha =>
    obtain ⟨l, A, h1, h2, h3, -⟩ := C86_activation hs e 0 0 0 0 0
    obtain rfl : a = A := Option.some.inj (ha.symm.trans h3)
    have hn : s ∉ Factory.names := by
      have : ∀ s ∈ availableActivations, s ∉ Factory.names := by decide +kernel
      exact this s hs
    refine ⟨{ kind := .activation a }, _, ?_, rfl, .activation C a rfl s ha, fun v j _ => rfl⟩
    rw [Factory.create_other hn, Layer.newActivation, ha]
  | gain => exact ⟨_, _, by unfold Factory.create; simp only [String.reduceEq, reduceIte]; rfl, rfl, .gainNew C hC rfl rfl, fun v j _ => mul_one _⟩
  | bias => exact ⟨_, _, by unfold Factory.create; simp only [String.reduceEq, reduceIte]; rfl, rfl, .biasNew C hC 0 rfl rfl (.inl ⟨rfl, rfl⟩), fun v j _ => add_zero _⟩
  | affine => exact ⟨_, _, by unfold Factory.create; simp only [String.reduceEq, reduceIte]; rfl, rfl, .affineNew C hC rfl rfl rfl, fun v j _ => by
      simp only [mul_one, add_zero, id]⟩
  | globalGain => exact ⟨_, _, by unfold Factory.create; simp only [String.reduceEq, reduceIte]; rfl, rfl, .globalGain C (fun _ _ => 1) rfl rfl, fun v j _ => mul_one _⟩
  | globalBias => exact ⟨_, _, by unfold Factory.create; simp only [String.reduceEq, reduceIte]; rfl, rfl, .globalBias C (fun _ _ => 0) rfl rfl, fun v j _ => add_zero _⟩
  | globalAffine => exact ⟨_, _, by unfold Factory.create; simp only [String.reduceEq, reduceIte]; rfl, rfl, .globalAffine C (fun _ _ => 1) (fun _ _ => 0) rfl rfl rfl,
      fun v j _ => by simp only [mul_one, add_zero, id]⟩
  | prelu => exact ⟨_, _, by unfold Factory.create; simp only [String.reduceEq, reduceIte]; rfl, rfl, .preluNew C hC rfl rfl, fun v j _ => rfl⟩
  | rrelu => exact ⟨_, _, by unfold Factory.create; simp only [String.reduceEq, reduceIte]; rfl, rfl, .rrelu C 8 3 rfl, fun v j _ => rfl⟩
  | softmax h1 =>
    subst h1
    refine ⟨_, _, by unfold Factory.create; simp only [String.reduceEq, reduceIte]; rfl, rfl, .softmax 1 rfl, fun v j hj => ?_⟩
    obtain rfl : j = 0 := by omega
    simp [softmaxAt]

theorem build_entry {C : Nat} (hC : 0 < C) (e : Nat → Env) : ∀ (ss : List String) (fs : List (ℝ → ℝ)) (_ : List.Forall₂ (NameFn C) ss fs) (i : Nat) {h : Handle} {φ : ℝ → ℝ}
    (_ : Entry h C φ), ∃ h', build e i ss h = .ok h' ∧ h'.inputSize = h.inputSize ∧ (ss ≠ [] → (h'.w.nets 0).layers ≠ []) ∧ Entry h' C (fun x => chain fs (φ x)) := by
  intro ss fs hf
  induction hf with
  | nil => intro i h φ hE; exact ⟨h, rfl, rfl, fun h => absurd rfl h, hE⟩
  | @cons s f ss fs hs _ ih =>
    intro i h φ hE
    obtain ⟨l, ψ, h1, h2, h3, h4⟩ := nameFn_layer hC hs (e i)
    obtain ⟨h', a1, a2, a3, a4⟩ := hE.addLayer h1 h2 h3 h4
    obtain ⟨h'', b1, b2, b3, b4⟩ := ih (i + 1) a4
    refine ⟨h'', by rw [build, a1, bind_ok', b1], b2.trans a2, fun _ => ?_, b4⟩
    by_cases hn : ss = []
    · subst hn
      obtain rfl : h' = h'' := Except.ok.inj b1
      exact a3
    · exact b3 hn

theorem Entry.setClassif {h : Handle} {C : Nat} {φ : ℝ → ℝ} (hE : Entry h C φ) (m : Int) : Entry (setClassif h m) C φ := by
  have hl : ∀ n, ((Py.setClassif h m).w.nets n).layers = (h.w.nets n).layers := fun n => by
    simp only [Py.setClassif, World.setNet]
    split
    · next hn => rw [hn]
    · rfl
  refine ⟨⟨fun n => ?_, fun n => ?_, fun n k => ?_⟩, ?_, ?_⟩
  · rw [hl]; exact hE.owned.live n
  · rw [hl]; exact hE.owned.nodup n
  · rw [hl, hl]; exact hE.owned.disjoint n k
  · rw [hl]; exact hE.test
  · rw [hl]
    obtain ⟨Φ, h1, h2⟩ := hE.fn
    exact ⟨Φ, h1.congr fun _ _ => rfl, h2⟩

theorem fromBuffer_ofFn {buf : List ℝ} {r c : Nat} (h : r * c ≤ buf.length) :
    fromBuffer buf r c = .ok (Mat.ofFn r c fun i j => buf.getD (i * c + j) 0) := by
  rw [fromBuffer, if_pos h]
  congr 1
  rw [Mat.ofFn, Mat.flat]
  congr 1
  apply List.ext_getElem?
  intro k
  by_cases hk : k < r * c
  · rw [List.getElem?_take_of_lt hk, tab_getElem?, if_pos hk, Nat.div_add_mod', List.getD_eq_getElem?_getD, List.getElem?_eq_getElem (by omega), Option.getD_some]
  · rw [List.getElem?_eq_none (by rw [List.length_take]; omega), List.getElem?_eq_none (by rw [tab_length]; omega)]

/-- The copy of the first entries into the output buffer. -/
theorem copy_out {N K n : Nat} (hK : 0 < K) (y : Nat → Nat → ℝ) {out : List ℝ} (hn : n ≤ N) (ho : n ≤ out.length) :
    ∃ out', forN n (fun i b => do
      let x ← (Mat.ofFn N K y).getI i
      wr b i x) out = .ok out' ∧ out'.length = out.length ∧ ∀ i, out'[i]? = if i < n then some (y (i / K) (i % K)) else out[i]? := by
  refine forN_inv (fun n (b : List ℝ) => b.length = out.length ∧ ∀ i, b[i]? = if i < n then some (y (i / K) (i % K)) else out[i]?) ⟨rfl, fun i => by simp⟩ ?_
  intro n hn' b ⟨h1, h2⟩
  refine ⟨b.set n (y (n / K) (n % K)), ?_, by rw [List.length_set, h1], fun i => ?_⟩
  · rw [Mat.ofFn_eq_flat, Mat.getI_flat (lt_of_lt_of_le (lt_of_lt_of_le hn' hn) (Nat.le_mul_of_pos_right N hK)), bind_ok', wr, if_pos (by omega)]
  · rw [List.getElem?_set]
    by_cases hi : n = i
    · subst hi
      rw [if_pos rfl, if_pos (by omega), if_pos (by omega)]
    · rw [if_neg hi, h2 i]
      by_cases h3 : i < n
      · rw [if_pos h3, if_pos (by omega)]
      · rw [if_neg h3, if_neg (by omega)]

/-- A call with a short output buffer. -/
theorem Entry.short {h : Handle} {C : Nat} {φ : ℝ → ℝ} (hE : Entry h C φ) (hC : 0 < C) (hs : h.inputSize = C) (hne : (h.w.nets 0).layers ≠ []) (e : Nat → Env) (g : Nat → ℝ)
    {pIn pOut : List ℝ} {N : Nat} (hi : N * C ≤ pIn.length) (ho : pOut.length < N) : Py.predict e g h pIn pOut N = .error .outOfBounds := by
  obtain ⟨Φ, f1, f2⟩ := hE.fn
  obtain ⟨w', a1, -⟩ := C47_compose e h.w hE.owned 0 hne C C Φ f1 hE.test N (fun i j => pIn.getD (i * C + j) 0) (Mat.alloc g N 1)
    (by rw [Mat.alloc_eq]; exact Mat.flat_WF _ _ _)
  obtain ⟨out, b1, b2, b3⟩ := copy_out hC (fun i => Φ fun j => pIn.getD (i * C + j) 0) ho.le le_rfl
  rw [Py.predict, hs, fromBuffer_ofFn hi, bind_ok', a1, bind_ok']
  dsimp only
  rw [forN_error ho b1 (e := .outOfBounds)]
  · rfl
  · rw [Mat.ofFn_eq_flat, Mat.getI_flat (lt_of_lt_of_le ho (Nat.le_mul_of_pos_right N hC)), bind_ok', wr, if_neg (by omega)]

/-- One call. -/
theorem Entry.predict {h : Handle} {C : Nat} {φ : ℝ → ℝ} (hE : Entry h C φ) (hC : 0 < C) (hs : h.inputSize = C) (hne : (h.w.nets 0).layers ≠ []) (e : Nat → Env) (g : Nat → ℝ)
    {pIn pOut : List ℝ} {N : Nat} (hi : N * C ≤ pIn.length) (ho : N ≤ pOut.length) :
    ∃ h' out, Py.predict e g h pIn pOut N = .ok (h', out) ∧ out.length = pOut.length ∧ (∀ i, out[i]? = if i < N then some (φ (pIn.getD i 0)) else pOut[i]?) ∧
      Entry h' C φ ∧ h'.inputSize = C ∧ (h'.w.nets 0).layers ≠ [] := by
  obtain ⟨Φ, f1, f2⟩ := hE.fn
  obtain ⟨w', a1, a2, a3, a4, a5, -⟩ := C47_compose e h.w hE.owned 0 hne C C Φ f1 hE.test N (fun i j => pIn.getD (i * C + j) 0) (Mat.alloc g N 1)
    (by rw [Mat.alloc_eq]; exact Mat.flat_WF _ _ _)
  obtain ⟨out, b1, b2, b3⟩ := copy_out hC (fun i => Φ fun j => pIn.getD (i * C + j) 0) le_rfl ho
  refine ⟨{ h with w := w' }, out, ?_, b2, fun i => ?_, ⟨a4, a3, Φ, a2, f2⟩, hs, ?_⟩
  · rw [Py.predict, hs, fromBuffer_ofFn hi, bind_ok', a1, bind_ok']
    dsimp only
    rw [b1, bind_ok']
    subst hs
    rfl
  · rw [b3 i, f2 _ _ (Nat.mod_lt _ hC), Nat.div_add_mod']
  · show (w'.nets 0).layers ≠ []
    rw [a5]; exact hne

theorem out_eq {out pIn pOut : List ℝ} {N C : Nat} (hC : 0 < C) {φ : ℝ → ℝ} (hi : N * C ≤ pIn.length) (ho : N ≤ pOut.length)
    (h : ∀ i, out[i]? = if i < N then some (φ (pIn.getD i 0)) else pOut[i]?) : out = (pIn.take N).map φ ++ pOut.drop N := by
  have hN : N ≤ pIn.length := (Nat.le_mul_of_pos_right N hC).trans hi
  have hl : ((pIn.take N).map φ).length = N := by rw [List.length_map, List.length_take]; omega
  apply List.ext_getElem?
  intro i
  rw [h i]
  by_cases h1 : i < N
  · rw [if_pos h1, List.getElem?_append_left (by omega), List.getElem?_map, List.getElem?_take_of_lt h1, List.getD_eq_getElem?_getD,
      List.getElem?_eq_getElem (by omega)]
    rfl
  · rw [if_neg h1, List.getElem?_append_right (by omega), hl, List.getElem?_drop]
    congr 1
    omega

end BeeDNN.Py
