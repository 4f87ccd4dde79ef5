import Verif.Lemmas.Mlp

/-! # Training: every parameter is updated once per batch -/

namespace BeeDNN
namespace Trainer

/-- The parameter `b` of layer `l`, with its gradient, is regularized and optimized by `o`, which gives layer `l'` and
optimizer `o'`; the other parameter is left alone. -/
structure Updated (ab : ℝ → ℝ) (r : Option Reg) (b : Bool) (l l' : Layer) (o o' : Opt ℝ) : Prop where
  step : ∃ g p d, Regularized r g (l.par b) (l.grad b) p d ∧ o.optimize g Real.sqrt ab p d = .ok (o', l'.par b)
  par : l'.par (!b) = l.par (!b)
  grad : l'.grad (!b) = l.grad (!b)

theorem optStep_once {g : Nat → ℝ} {ab : ℝ → ℝ} {r : Option Reg} {b : Bool} {a : Nat} {o o' : Opt ℝ} {w w' : World}
    (h : optStep g ab r b a a o w = .ok (w', o')) :
    ∃ l l' : Layer, w.heap[a]? = some (some l) ∧ w'.heap[a]? = some (some l') ∧ Updated ab r b l l' o o' ∧
      ∀ c, c ≠ a → w'.heap[c]? = w.heap[c]? := by
  unfold optStep at h
  obtain ⟨w₁, h1, h⟩ := ok_bind h
  obtain ⟨l₁, h2, h⟩ := ok_bind h
  obtain ⟨l₂, h3, h⟩ := ok_bind h
  rw [h2] at h3
  injection h3 with h3
  subst h3
  obtain ⟨⟨o₁, m⟩, h4, h⟩ := ok_bind h
  injection h with h
  injection h with e1 e2
  subst e1 e2
  have q1 := World.deref_inv h2
  obtain ⟨l, p1, p2, p3, p4, p5⟩ : ∃ l : Layer, w.heap[a]? = some (some l) ∧ Regularized r g (l.par b) (l.grad b) (l₁.par b) (l₁.grad b) ∧
      l₁.par (!b) = l.par (!b) ∧ l₁.grad (!b) = l.grad (!b) ∧ ∀ c, c ≠ a → w₁.heap[c]? = w.heap[c]? := by
    unfold regStep at h1
    cases r with
    | none =>
      injection h1 with h1
      subst h1
      exact ⟨l₁, q1, ⟨rfl, rfl⟩, rfl, rfl, fun _ _ => rfl⟩
    | some r =>
      dsimp only at h1
      obtain ⟨l, c1, h1⟩ := ok_bind h1
      obtain ⟨l', c2, h1⟩ := ok_bind h1
      rw [c1] at c2
      injection c2 with c2
      subst c2
      obtain ⟨⟨p, d⟩, c3, h1⟩ := ok_bind h1
      dsimp only at h1
      obtain ⟨l', c4, h1⟩ := ok_bind h1
      injection h1 with h1
      subst h1
      have k1 := World.deref_inv c1
      have k2 := World.deref_inv c4
      rw [World.store_same k1] at k2
      injection k2 with k2
      injection k2 with k2
      subst k2
      rw [World.store_same (World.store_same k1)] at q1
      injection q1 with q1
      injection q1 with q1
      subst q1
      refine ⟨l, k1, ?_, ?_, ?_, fun c hc => ?_⟩
      · cases b <;> exact c3
      · cases b <;> rfl
      · cases b <;> rfl
      · rw [World.store_other _ hc, World.store_other _ hc]
  refine ⟨l, l₁.setPar b m, p1, World.store_same q1, ⟨⟨g, _, _, p2, ?_⟩, ?_, ?_⟩, fun c hc => ?_⟩
  · rw [h4]
    cases b <;> rfl
  · rw [← p3]; cases b <;> rfl
  · rw [← p4]; cases b <;> rfl
  · rw [World.store_other _ hc]; exact p5 c hc

theorem optLoop_once {e : Nat → Env} {ab : ℝ → ℝ} {r : Option Reg} {b : Bool} {ps : List Nat} {off : Nat} {w w' : World} {os os' : List (Opt ℝ)}
    (hnd : ps.Nodup) (h : optLoop e ab r b ps ps off (w, os) = .ok (w', os')) :
    (∀ j a, ps[j]? = some a → ∃ (l l' : Layer) (o o' : Opt ℝ), w.heap[a]? = some (some l) ∧ w'.heap[a]? = some (some l') ∧ os[j + off]? = some o ∧
      os'[j + off]? = some o' ∧ Updated ab r b l l' o o') ∧
    (∀ a, a ∉ ps → w'.heap[a]? = w.heap[a]?) ∧ (∀ k, k < off ∨ off + ps.length ≤ k → os'[k]? = os[k]?) := by
  unfold optLoop at h
  have key := forN_ok_idx (P := fun i (s : World × List (Opt ℝ)) =>
    (∀ j a, j < i → ps[j]? = some a → ∃ (l l' : Layer) (o o' : Opt ℝ), w.heap[a]? = some (some l) ∧ s.1.heap[a]? = some (some l') ∧ os[j + off]? = some o ∧
      s.2[j + off]? = some o' ∧ Updated ab r b l l' o o') ∧
    (∀ a, (∀ j, j < i → ps[j]? ≠ some a) → s.1.heap[a]? = w.heap[a]?) ∧ (∀ k, (∀ j, j < i → j < ps.length → k ≠ j + off) → s.2[k]? = os[k]?))
    (fun i s s' hs hf => by
      obtain ⟨i1, i2, i3⟩ := hs
      obtain ⟨a, h1, hf⟩ := ok_bind hf
      obtain ⟨a', h2, hf⟩ := ok_bind hf
      rw [h1] at h2
      injection h2 with h2
      subst h2
      obtain ⟨o, h3, hf⟩ := ok_bind hf
      obtain ⟨⟨w₁, o₁⟩, h4, hf⟩ := ok_bind hf
      obtain ⟨os₁, h5, hf⟩ := ok_bind hf
      injection hf with hf
      subst hf
      have k1 := rd_inv h1
      have k3 := rd_inv h3
      obtain ⟨k5, rfl⟩ := wr_inv h5
      obtain ⟨l, l', c1, c2, c3, c4⟩ := optStep_once h4
      have hil : i < ps.length := lt_of_some k1
      have huniq : ∀ j, j < i → ps[j]? ≠ some a := fun j hj hja => by
        have := (List.getElem?_inj (lt_of_some hja) hnd).1 (hja.trans k1.symm)
        omega
      dsimp only
      refine ⟨fun j c hj hc => ?_, fun c hc => ?_, fun k hk => ?_⟩
      · by_cases hji : j < i
        · obtain ⟨l0, l0', o0, o0', d1, d2, d3, d4, d5⟩ := i1 j c hji hc
          refine ⟨l0, l0', o0, o0', d1, ?_, d3, ?_, d5⟩
          · rw [c4 c (fun hca => huniq j hji (hca ▸ hc))]; exact d2
          · rw [List.getElem?_set_ne (by omega)]; exact d4
        · obtain rfl : j = i := by omega
          rw [k1] at hc
          injection hc with hc
          subst hc
          refine ⟨l, l', o, o₁, (i2 a huniq).symm.trans c1, c2, ?_, List.getElem?_set_self k5, c3⟩
          rw [← i3 (j + off) (fun j' h' _ => by omega)]
          exact k3
      · rw [c4 c (fun hca => hc i (Nat.lt_succ_self i) (hca ▸ k1))]
        exact i2 c fun j hj => hc j (by omega)
      · rw [List.getElem?_set_ne (fun h => hk i (Nat.lt_succ_self i) hil h.symm)]
        exact i3 k fun j hj hj' => hk j (by omega) hj')
    ⟨fun j a hj => absurd hj (Nat.not_lt_zero j), fun _ _ => rfl, fun _ _ => rfl⟩ h
  obtain ⟨k1, k2, k3⟩ := key
  refine ⟨fun j a hj => k1 j a (lt_of_some hj) hj, fun a ha => k2 a fun j _ hj => ha (List.mem_of_getElem? hj), fun k hk => k3 k fun j _ hj => ?_⟩
  omega

/-- Both parameter loops of a batch. -/
theorem trainBatch_once {ab : ℝ → ℝ} {eps : ℝ} {e : Nat → Nat → Env} {w w' : World} {t t' : Trainer} {x y : Mat ℝ} {n : Nat} (hn : t.net = some n)
    (hw : t.pGradWeights = t.pWeights) (hb : t.pGradBiases = t.pBiases) (dw : t.pWeights.Nodup) (db : t.pBiases.Nodup)
    (h : trainBatch ab eps e w t x y = .ok (w', t')) :
    ∃ (w₁ w₂ : World) (io gs gs' : List (Mat ℝ)), bwdLoop (e 1) n t.nbLayers io (w₁, gs) = .ok (w₂, gs') ∧
      (∀ (j a : Nat), t.pWeights[j]? = some a → ∃ (l l' : Layer) (o o' : Opt ℝ), w₂.heap[a]? = some (some l) ∧ w'.heap[a]? = some (some l') ∧
        t.opts[j]? = some o ∧ t'.opts[j]? = some o' ∧ ∃ g p d, Regularized t.reg g l.weight l.gradWeight p d ∧
          o.optimize g Real.sqrt ab p d = .ok (o', l'.weight)) ∧
      (∀ (j a : Nat), t.pBiases[j]? = some a → ∃ (l l' : Layer) (o o' : Opt ℝ), w₂.heap[a]? = some (some l) ∧ w'.heap[a]? = some (some l') ∧
        t.opts[j + t.pWeights.length]? = some o ∧ t'.opts[j + t.pWeights.length]? = some o' ∧ ∃ g p d, Regularized t.reg g l.bias l.gradBias p d ∧
          o.optimize g Real.sqrt ab p d = .ok (o', l'.bias)) ∧
      (∀ (a : Nat) (l : Layer), w₂.heap[a]? = some (some l) → a ∉ t.pWeights → ∃ l' : Layer, w'.heap[a]? = some (some l') ∧ l'.weight = l.weight) ∧
      (∀ (a : Nat) (l : Layer), w₂.heap[a]? = some (some l) → a ∉ t.pBiases → ∃ l' : Layer, w'.heap[a]? = some (some l') ∧ l'.bias = l.bias) := by
  unfold trainBatch at h
  rw [hn] at h
  dsimp only at h
  obtain ⟨x0, hx0, h⟩ := ok_bind h
  obtain ⟨x1, hx1, h⟩ := ok_bind h
  obtain ⟨io, hio, h⟩ := ok_bind h
  obtain ⟨⟨w₁, io₁⟩, hf, h⟩ := ok_bind h
  obtain ⟨p, hpp, h⟩ := ok_bind h
  obtain ⟨g0, hg0, h⟩ := ok_bind h
  obtain ⟨g1, hg1, h⟩ := ok_bind h
  obtain ⟨gs, hgs, h⟩ := ok_bind h
  obtain ⟨⟨w₂, gs₁⟩, hbw, h⟩ := ok_bind h
  obtain ⟨⟨w₃, os⟩, ho1, h⟩ := ok_bind h
  obtain ⟨⟨w₄, os₁⟩, ho2, h⟩ := ok_bind h
  dsimp only at h ho1 ho2
  obtain ⟨p', hp', h⟩ := ok_bind h
  obtain ⟨t₁, ht1, h⟩ := ok_bind h
  injection h with h
  injection h with e1 e2
  subst e1 e2
  obtain ⟨x, k, e1, -, -, -⟩ := addOnline_inv ht1
  subst e1
  rw [hw] at ho1
  rw [hb] at ho2
  obtain ⟨a1, a2, a3⟩ := optLoop_once dw ho1
  obtain ⟨b1, b2, b3⟩ := optLoop_once db ho2
  refine ⟨w₁, w₂, io₁, gs, gs₁, hbw, fun j a hj => ?_, fun j a hj => ?_, fun a l hl ha => ?_, fun a l hl ha => ?_⟩
  · obtain ⟨l, l', o, o', c1, c2, c3, c4, ⟨g, p, d, c5, c5'⟩, c6, c7⟩ := a1 j a hj
    have hjl : j < t.pWeights.length := lt_of_some hj
    have ho : os₁[j]? = some o' := (b3 j (.inl hjl)).trans c4
    by_cases ham : a ∈ t.pBiases
    · obtain ⟨i, hi⟩ := List.getElem?_of_mem ham
      obtain ⟨m, m', q, q', d1, d2, d3, d4, d5, d6, d7⟩ := b1 i a hi
      rw [c2] at d1
      injection d1 with d1
      injection d1 with d1
      subst d1
      refine ⟨l, m', o, o', c1, d2, c3, ho, g, p, d, c5, ?_⟩
      rw [c5', show m'.weight = l'.weight from d6]
      rfl
    · exact ⟨l, l', o, o', c1, (b2 a ham).trans c2, c3, ho, g, p, d, c5, c5'⟩
  · obtain ⟨m, m', q, q', d1, d2, d3, d4, ⟨g, p, d, d5, d5'⟩, d6, d7⟩ := b1 j a hj
    have hq : t.opts[j + t.pWeights.length]? = some q := by
      rw [← a3 _ (.inr (by omega))]; exact d3
    by_cases ham : a ∈ t.pWeights
    · obtain ⟨i, hi⟩ := List.getElem?_of_mem ham
      obtain ⟨l, l', o, o', c1, c2, c3, c4, c5, c6, c7⟩ := a1 i a hi
      rw [c2] at d1
      injection d1 with d1
      injection d1 with d1
      subst d1
      refine ⟨l, m', q, q', c1, d2, hq, d4, g, p, d, ?_, d5'⟩
      have e6 : l'.bias = l.bias := c6
      have e7 : l'.gradBias = l.gradBias := c7
      rw [← e6, ← e7]
      exact d5
    · exact ⟨m, m', q, q', (a2 a ham).symm.trans d1, d2, hq, d4, g, p, d, d5, d5'⟩
  · rw [← a2 a ha] at hl
    by_cases ham : a ∈ t.pBiases
    · obtain ⟨i, hi⟩ := List.getElem?_of_mem ham
      obtain ⟨m, m', q, q', d1, d2, d3, d4, d5, d6, d7⟩ := b1 i a hi
      rw [hl] at d1
      injection d1 with d1
      injection d1 with d1
      subst d1
      exact ⟨m', d2, d6⟩
    · exact ⟨l, (b2 a ham).trans hl, rfl⟩
  · by_cases ham : a ∈ t.pWeights
    · obtain ⟨i, hi⟩ := List.getElem?_of_mem ham
      obtain ⟨m, m', q, q', d1, d2, d3, d4, d5, d6, d7⟩ := a1 i a hi
      rw [hl] at d1
      injection d1 with d1
      injection d1 with d1
      subst d1
      exact ⟨m', (b2 a ha).trans d2, d6⟩
    · exact ⟨l, (b2 a ha).trans ((a2 a ham).trans hl), rfl⟩

end Trainer
end BeeDNN
