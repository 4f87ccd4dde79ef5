import Verif.Lemmas.LayerSame

/-! # Properties of layer objects: C44 (clone), and the inference part of single layers for C21 -/

namespace BeeDNN

/-- A dense layer used as witness: two inputs, one output. -/
noncomputable def denseWitness : Layer :=
  { kind := .dense 2 1, weight := Mat.ofFn 2 1 (fun i _ => (i : ℝ) + 1), bias := Mat.ofFn 1 1 (fun _ _ => 3),
    wInit := "GlorotUniform", bInit := "Zeros" }

theorem denseWitness_valid : denseWitness.Valid :=
  ⟨Mat.ofFn_WF .., rfl, Mat.ofFn_WF .., rfl, rfl, rfl, rfl, rfl, rfl, rfl, rfl, rfl,
    fun m hm => absurd hm List.not_mem_nil, by simp [denseWitness, LayerKind.usesWeight], by simp [denseWitness, LayerKind.usesBias], fun _ => ⟨rfl, rfl, rfl⟩, trivial⟩

/-- C44: a well-formed layer can be cloned; the clone has the same class, constructor arguments, weights, biases
and recurrent weights, it is well formed, and it starts in test mode and not as a first layer.  Whatever the random
engine and fresh memory contain. -/
theorem C44_params (e : Env) (l : Layer) (hv : l.Valid) :
    ∃ p, l.clone e = .ok p ∧ l.SameParams p ∧ p.Valid ∧ p.train = false ∧ p.first = false := by
  obtain ⟨p, hp, hc⟩ := Layer.clone_ok e hv
  exact ⟨p, hp, hc.same, hc.valid, hc.train, hc.first⟩

example : denseWitness.Valid := denseWitness_valid

/-- C44: in test mode the clone and the original give the same output for every batch, whatever the output matrices
contained and whatever the random engine delivers to either of them. -/
theorem C44_output (e : Env) (l : Layer) (hv : l.Valid) (ht : l.train = false) (C C' : Nat) (φ : Row → Row)
    (hr : LayerRow l C C' φ) :
    ∃ p, l.clone e = .ok p ∧ ∀ (e₁ e₂ : Env) (N : Nat) (x : Nat → Row) (o₁ o₂ : Mat ℝ), o₁.WF → o₂.WF →
      ∃ l' p', l.forward e₁ (Mat.ofFn N C x) o₁ = .ok (l', Mat.ofFn N C' (fun s => φ (x s))) ∧
        p.forward e₂ (Mat.ofFn N C x) o₂ = .ok (p', Mat.ofFn N C' (fun s => φ (x s))) := by
  obtain ⟨p, hp, hc⟩ := Layer.clone_ok e hv
  refine ⟨p, hp, fun e₁ e₂ N x o₁ o₂ h1 h2 => ?_⟩
  obtain ⟨l', hl', -, -⟩ := Layer.forward_row hr ht e₁ N x h1
  obtain ⟨p', hp', -, -⟩ := Layer.forward_row (hr.of_clone hc) hc.train e₂ N x h2
  exact ⟨l', p', hl', hp'⟩

example : LayerRow denseWitness 2 1 (fun v j => ∑ k ∈ Finset.range 2, v k * ((k : ℝ) + 1) + 3) :=
  .dense 2 1 2 1 (fun i _ => (i : ℝ) + 1) (fun _ _ => 3) rfl rfl rfl

/-- C44, the layers whose forward pass draws random numbers in test mode (random flip and the recurrent layers):
with the same draws, the clone and the original give the same output or the same fault. -/
theorem C44_output_random (e e' : Env) (l : Layer) (hv : l.Valid) (ht : l.train = false)
    (hk : (∃ r c k, l.kind = .randomFlip r c k) ∨ (∃ f u, l.kind = .simpleRNN f u) ∨ ∃ f, l.kind = .simplestRNN f)
    (mIn mOut : Mat ℝ) :
    ∃ p, l.clone e = .ok p ∧ (p.forward e' mIn mOut).map Prod.snd = (l.forward e' mIn mOut).map Prod.snd := by
  obtain ⟨p, hp, hc⟩ := Layer.clone_ok e hv
  refine ⟨p, hp, ?_⟩
  have pk := hc.same.kind
  rcases hk with ⟨r, c, k, hk⟩ | ⟨f, u, hk⟩ | ⟨f, hk⟩
  · rw [hk] at pk
    simp only [Layer.forward, hk, pk, ht, hc.train, flipForward_mask e'.g r c k e'.rng hc.valid.mask hv.mask]
    cases flipForward e'.g r c k false e'.rng l.mask mIn mOut <;> rfl
  · have hh := hc.h (.inl (by rw [hk]; rfl))
    rw [hk] at pk
    have := rnnForward_saved e'.g f (simpleInit e'.g f u e'.draw e'.drawX) (simpleFrame e'.g Real.tanh)
      ⟨l.whh, l.wxh, l.bh⟩ l.h p.saved l.saved mIn mOut rfl
    simp only [Layer.forward, hk, pk, ht, hc.train, hc.same.whh, hc.same.wxh, hc.same.bh, hh]
    revert this
    cases rnnForward e'.g f false (simpleInit e'.g f u e'.draw e'.drawX) (simpleFrame e'.g Real.tanh)
      ⟨⟨l.whh, l.wxh, l.bh⟩, l.h, p.saved⟩ mIn mOut <;>
    cases rnnForward e'.g f false (simpleInit e'.g f u e'.draw e'.drawX) (simpleFrame e'.g Real.tanh)
      ⟨⟨l.whh, l.wxh, l.bh⟩, l.h, l.saved⟩ mIn mOut <;> exact id
  · have hh := hc.h (.inr ⟨f, hk⟩)
    rw [hk] at pk
    have := rnnForward_saved e'.g f (simplestInit e'.g f e'.draw) (simplestFrame e'.g f)
      l.weight l.h p.saved l.saved mIn mOut rfl
    simp only [Layer.forward, hk, pk, ht, hc.train, hc.same.weight, hh]
    revert this
    cases rnnForward e'.g f false (simplestInit e'.g f e'.draw) (simplestFrame e'.g f)
      ⟨l.weight, l.h, p.saved⟩ mIn mOut <;>
    cases rnnForward e'.g f false (simplestInit e'.g f e'.draw) (simplestFrame e'.g f)
      ⟨l.weight, l.h, l.saved⟩ mIn mOut <;> exact id

example : ({ kind := .randomFlip 2 2 1 } : Layer).Valid := Layer.valid_new _ "" "" trivial

/-- C44, the constructors: every layer obtained from a constructor that accepts its arguments is well formed. -/
theorem C44_constructed (e : Env) :
    (∀ i o s t l, Layer.newDense e i o s t = .ok l → l.Valid) ∧ (∀ i o s l, Layer.newDot e i o s = .ok l → l.Valid) ∧
    (∀ s l, Layer.newBias e s = .ok l → l.Valid) ∧ (∀ l, Layer.newGain e = .ok l → l.Valid) ∧
    (∀ l, Layer.newAffine e = .ok l → l.Valid) ∧ (∀ r c k s l, Layer.newChannelBias e r c k s = .ok l → l.Valid) ∧
    (∀ s l, Layer.newActivation s = .ok l → l.Valid) ∧ (∀ r c k rf cf l, Layer.newMaxPool r c k rf cf = .ok l → l.Valid) ∧
    (∀ r c k rf cf l, Layer.newAvgPool r c k rf cf = .ok l → l.Valid) ∧
    (∀ r c k a b o rs cs l, Layer.newConv e r c k a b o rs cs = .ok l → l.Valid) ∧
    (∀ l, Layer.newPRelu e = .ok l → l.Valid) ∧ (∀ l, Layer.newPELU e = .ok l → l.Valid) ∧
    (∀ l, Layer.newTERELU e = .ok l → l.Valid) ∧ (∀ f s l, Layer.newTDBias e f s = .ok l → l.Valid) ∧
    (∀ f o s l, Layer.newTDDot e f o s = .ok l → l.Valid) ∧ (∀ f o s t l, Layer.newTDDense e f o s t = .ok l → l.Valid) ∧
    (∀ f u l, Layer.newSimpleRNN e f u = .ok l → l.Valid) ∧ ∀ f l, Layer.newSimplestRNN e f = .ok l → l.Valid := by
  have key : ∀ (k : LayerKind) (wi bi : String) (l : Layer), k.Made →
      Layer.init e { kind := k, wInit := wi, bInit := bi } = .ok l → l.Valid := by
    intro k wi bi l hk h
    obtain ⟨p, hp, hv, -⟩ := Layer.new_ok e k wi bi hk
    rw [hp] at h
    injection h with h
    exact h ▸ hv
  refine ⟨fun i o s t l => key _ _ _ l trivial, fun i o s l => key _ _ _ l trivial, fun s l => key _ _ _ l trivial,
    fun l => key _ _ _ l trivial, fun l => key _ _ _ l trivial, fun r c k s l => key _ _ _ l trivial, ?_, ?_, ?_, ?_,
    fun l => key _ _ _ l trivial, fun l => key _ _ _ l trivial, fun l => key _ _ _ l trivial,
    fun f s l => key _ _ _ l trivial, fun f o s l => key _ _ _ l trivial, fun f o s t l => key _ _ _ l trivial,
    fun f u l => key _ _ _ l trivial, fun f l => key _ _ _ l trivial⟩
  · intro s l h
    unfold Layer.newActivation at h
    split at h
    · rename_i a ha
      injection h with h
      subst h
      exact Layer.valid_new (.activation a) "" "" ⟨s, ha⟩
    · cases h
  · intro r c k rf cf l h
    obtain ⟨p, hp, h⟩ := ok_bind h
    injection h with h
    subst h
    exact Layer.valid_new (.maxPool p) "" "" ⟨r, c, k, rf, cf, hp⟩
  · intro r c k rf cf l h
    obtain ⟨p, hp, h⟩ := ok_bind h
    injection h with h
    subst h
    exact Layer.valid_new (.avgPool p) "" "" ⟨r, c, k, rf, cf, hp⟩
  · intro r c k a b o rs cs l h
    obtain ⟨p, hp, h⟩ := ok_bind h
    exact key (.conv p) "" "" l ⟨r, c, k, a, b, o, rs, cs, hp⟩ h

example (e : Env) : ∃ l, Layer.newDense e 2 3 "Zeros" "Ones" = .ok l := by
  obtain ⟨p, hp, -⟩ := Layer.new_ok e (.dense 2 3) "Zeros" "Ones" trivial
  exact ⟨p, hp⟩

/-- C44, a precondition: a gated activation layer created with an unknown name holds a null pointer, and cloning it
dereferences the pointer. -/
theorem C44_gated_unknown (e : Env) (s1 s2 : String) (h : getActivation s1 = none ∨ getActivation s2 = none) :
    ∃ l, Layer.newGated s1 s2 = .ok l ∧ l.clone e = .error .nullDeref := by
  refine ⟨_, rfl, ?_⟩
  simp only [Layer.clone]
  rcases h with h | h
  · rw [h]; rfl
  · cases getActivation s1 with
    | none => rfl
    | some a => rw [h]; rfl

example : getActivation "NoSuchActivation" = none := by decide +kernel

/-- C44, where "same" ends: the clone of a `Dot` layer does not keep the weight initializer, so `init()` gives the
original zero weights and the clone random ones. -/
theorem C44_dot_initializer (e : Env) (hd : e.draw 0 ≠ 0) :
    ∃ l p l' p', Layer.newDot e 1 1 "Zeros" = .ok l ∧ l.clone e = .ok p ∧ l.init e = .ok l' ∧ p.init e = .ok p' ∧
      l'.weight = Mat.ofFn 1 1 (fun _ _ => 0) ∧ p'.weight ≠ l'.weight := by
  have hz : ∀ m : Mat ℝ, m.WF → initCompute e.g e.draw "Zeros" m 1 1 = .ok (Mat.ofFn 1 1 (fun _ _ => 0)) := fun m hm => by
    simp [initCompute, Mat.setConstantRC_ofFn e.g hm]
  have hg : ∀ m : Mat ℝ, m.WF → initCompute e.g e.draw "GlorotUniform" m 1 1 =
      .ok (Mat.ofFn 1 1 (fun r c => e.draw (r * 1 + c) * √(6 / (((1 : ℕ) : ℝ) + ((1 : ℕ) : ℝ))))) := fun m hm => by
    rw [initCompute, if_pos rfl, initUniform_ofFn e.g e.draw _ hm]
  have h0 : ¬ ((1 : Nat) = 0 ∨ (1 : Nat) = 0) := by decide
  refine ⟨{ kind := .dot 1 1, wInit := "Zeros", weight := Mat.ofFn 1 1 (fun _ _ => 0) },
    { kind := .dot 1 1, wInit := "GlorotUniform", weight := Mat.ofFn 1 1 (fun _ _ => 0) },
    { kind := .dot 1 1, wInit := "Zeros", weight := Mat.ofFn 1 1 (fun _ _ => 0) },
    { kind := .dot 1 1, wInit := "GlorotUniform",
      weight := Mat.ofFn 1 1 (fun r c => e.draw (r * 1 + c) * √(6 / (((1 : ℕ) : ℝ) + ((1 : ℕ) : ℝ)))) }, ?_, ?_, ?_, ?_, rfl, ?_⟩
  · simp only [Layer.newDot, Layer.init, if_neg h0, hz _ Mat.WF_empty, bind_ok', pure_ok]
  · simp only [Layer.clone, Layer.newDot, Layer.init, if_neg h0, hg _ Mat.WF_empty, bind_ok', pure_ok,
      Mat.assign_ofFn e.g (Mat.ofFn_WF 1 1 _)]
  · simp only [Layer.init, if_neg h0, hz _ (Mat.ofFn_WF ..), bind_ok', pure_ok]
  · simp only [Layer.init, if_neg h0, hg _ (Mat.ofFn_WF ..), bind_ok', pure_ok]
  · intro h
    dsimp only at h
    have := Mat.ofFn_inj h 0 0 (by decide) (by decide)
    have h3 : √(6 / (((1 : ℕ) : ℝ) + ((1 : ℕ) : ℝ))) ≠ 0 := by
      apply Real.sqrt_ne_zero'.2; norm_num
    rcases mul_eq_zero.1 this with h1 | h1
    · exact hd h1
    · exact h3 h1

/-- C21, single layers: in test mode a layer maps every sample by the same function, so the output row of a sample
depends neither on its position nor on the rest of the batch nor on the batch size. -/
theorem C21_layer (l : Layer) (ht : l.train = false) (C C' : Nat) (φ : Row → Row) (hr : LayerRow l C C' φ) (e₁ e₂ : Env)
    (N n a : Nat) (x : Nat → Row) (o₁ o₂ : Mat ℝ) (h1 : o₁.WF) (h2 : o₂.WF) :
    ∃ l₁ l₂ y, l.forward e₁ (Mat.ofFn N C x) o₁ = .ok (l₁, Mat.ofFn N C' y) ∧
      l.forward e₂ (Mat.ofFn n C (fun s => x (a + s))) o₂ = .ok (l₂, Mat.ofFn n C' (fun s => y (a + s))) := by
  obtain ⟨l₁, hl₁, -, -⟩ := Layer.forward_row hr ht e₁ N x h1
  obtain ⟨l₂, hl₂, -, -⟩ := Layer.forward_row hr ht e₂ n (fun s => x (a + s)) h2
  exact ⟨l₁, l₂, fun s => φ (x s), hl₁, hl₂⟩

example : LayerRow ({ kind := .softmax } : Layer) 3 3 (fun v => softmaxAt 3 v) := .softmax 3 rfl

end BeeDNN
