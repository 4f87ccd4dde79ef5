import Verif.Spec.Symmetry
import Verif.Props.OrderAny
import Mathlib.Algebra.BigOperators.Group.Finset.Basic

/-! # Networks that differ by the numbering of their hidden units -/

namespace BeeDNN
open Finset

theorem Perm.lt {σ : Equiv.Perm Nat} {n : Nat} (h : ∀ j, n ≤ j → σ j = j) {j : Nat} (hj : j < n) : σ j < n := by
  by_contra hc
  have h1 := h (σ j) (not_lt.1 hc)
  have h2 := σ.injective h1
  omega

theorem Perm.sum {σ : Equiv.Perm Nat} {n : Nat} (h : ∀ j, n ≤ j → σ j = j) (f : Nat → ℝ) : ∑ k ∈ range n, f (σ k) = ∑ k ∈ range n, f k :=
  Equiv.Perm.sum_comp σ (range n) f fun k hk => by
    rw [Finset.coe_range, Set.mem_Iio]
    by_contra hc
    exact hk (h k (not_lt.1 hc))

namespace Mlp

/-- The parameters of a network after a change of one matrix. -/
theorem par_set (a : Mlp) (b : Bool) (i : Nat) (U : Nat → Nat → ℝ) (i' : Nat) (b' : Bool) :
    ((a.setPar b i U).ply i').par b' = if i' = i ∧ b' = b then U else (a.ply i').par b' := by
  show (if i' = i then (a.ply i).setPar b U else a.ply i').par b' = _
  by_cases h1 : i' = i
  · rw [if_pos h1, h1]
    by_cases h2 : b' = b
    · rw [if_pos ⟨rfl, h2⟩, h2]
      cases b <;> rfl
    · rw [if_neg fun hh => h2 hh.2]
      cases b <;> cases b' <;> first | rfl | exact absurd rfl h2
  · rw [if_neg h1, if_neg fun hh => h1 hh.1]

/-- The network with other numbers for the hidden units. -/
def renumber (ρ : Nat → Equiv.Perm Nat) (m : Mlp) : Mlp :=
  { m with ply := fun l => { (m.ply l) with weight := fun p q => (m.ply l).weight (ρ l p) (ρ (l + 1) q), bias := fun p q => (m.ply l).bias p (ρ (l + 1) q) } }

theorem renumber_par (ρ : Nat → Equiv.Perm Nat) (m : Mlp) (l : Nat) (b : Bool) (p q : Nat) :
    ((m.renumber ρ).ply l).par b p q = (m.ply l).par b (if b then p else ρ l p) (ρ (l + 1) q) := by
  cases b <;> rfl

namespace Renumbered
variable {ρ : Nat → Equiv.Perm Nat} {m m' : Mlp}

theorem same (h : Renumbered ρ m m') : Same (m.renumber ρ) m' where
  like := ⟨h.like.depth, h.like.width, h.like.kind⟩
  par := fun i hi b hb k j hk hj => by rw [h.par i hi b hb k j hk hj, renumber_par]

/-- Unit `j` of the one network computes what unit `ρ l j` of the other does. -/
theorem hidden' (h : Renumbered ρ m m') (v : Row) : ∀ l, l ≤ m.depth → ∀ j, (m.renumber ρ).hidden v l j = m.hidden v l (ρ l j)
  | 0, _, j => by rw [h.input]; rfl
  | l + 1, hl, j => by
    have ih := h.hidden' v l (by omega)
    have hu := h.units l (by omega)
    have hf := h.follows l (by omega)
    rw [hidden, hidden]
    have ihf : (m.renumber ρ).hidden v l = fun j => m.hidden v l (ρ l j) := funext ih
    rw [ihf]
    show ({ (m.ply l) with weight := fun p q => (m.ply l).weight (ρ l p) (ρ (l + 1) q), bias := fun p q => (m.ply l).bias p (ρ (l + 1) q) } : Ply).apply (m.width l) _ j = _
    generalize hidden m v l = u
    generalize m.width l = C at *
    generalize ρ l = σ at *
    generalize ρ (l + 1) = τ at *
    generalize m.ply l = P at *
    obtain ⟨k, W, B⟩ := P
    cases k <;> simp only [PlyKind.Follows] at hf <;> unfold Ply.apply <;> dsimp only
    case dense => rw [Perm.sum hu fun k => u k * W k (τ j)]
    case dot => rw [Perm.sum hu fun k => u k * W k (τ j)]
    case bias => rw [hf]
    case act => rw [hf]
    case softmax =>
      unfold softmaxAt
      rw [hf, Perm.sum hu fun k => Real.exp (u k)]
    all_goals
      obtain ⟨rfl, rfl⟩ := hf
      rfl

theorem ok' (hok : m.Ok) : (m.renumber ρ).Ok := Like.ok (m := m) ⟨rfl, rfl, fun _ => rfl⟩ hok

theorem hidden (h : Renumbered ρ m m') (hok : m.Ok) (v : Row) {l : Nat} (hl : l ≤ m.depth) {j : Nat} (hj : j < m.width l) :
    m'.hidden v l j = m.hidden v l (ρ l j) := by
  rw [Mlp.hidden_congr (m := m.renumber ρ) (ok' hok) h.same.like h.same.par v l hl j hj, h.hidden' v l hl]

theorem out (h : Renumbered ρ m m') (hok : m.Ok) (v : Row) {j : Nat} (hj : j < m.width m.depth) : m'.out v j = m.out v j := by
  unfold Mlp.out
  rw [h.like.depth, h.hidden hok v le_rfl hj, h.output]
  rfl

theorem error (h : Renumbered ρ m m') (hok : m.Ok) {s : String} {D N : Nat} {x y : Nat → Row} (hT : TruthFits s (m.width m.depth) D N y) :
    m'.error s N x y = m.error s N x y := by
  rw [Mlp.error_congr (m := m.renumber ρ) (ok' hok) h.same.like (D := D) hT h.same.par]
  unfold Mlp.error
  congr 1
  refine sum_congr rfl fun s _ => ?_
  have : (m.renumber ρ).out (x s) = m.out (x s) := funext fun j => by
    show (m.renumber ρ).hidden (x s) m.depth j = _
    rw [h.hidden' _ _ le_rfl, h.output]
    rfl
  rw [this]
  rfl

/-- Rows and columns of a matrix are renumbered within the matrix. -/
theorem inside (h : Renumbered ρ m m') (hok : m.Ok) {l : Nat} (hl : l < m.depth) {b : Bool} (hb : (m.ply l).has b = true) :
    (∀ p, (m.shape b l).1 ≤ p → (if b then (1 : Equiv.Perm Nat) else ρ l) p = p) ∧ ∀ q, (m.shape b l).2 ≤ q → ρ (l + 1) q = q := by
  have u1 := h.units l (by omega)
  have u2 := h.units (l + 1) (by omega)
  have hf := h.follows l hl
  have ht := hok.fits l hl
  rw [Ply.has] at hb
  rw [Mlp.shape]
  generalize (m.ply l).kind = k at *
  have one : ∀ p : Nat, (if b then (1 : Equiv.Perm Nat) else 1) p = p := fun p => by cases b <;> rfl
  cases k <;> simp only [PlyKind.Follows] at hf <;> simp only [PlyKind.shape]
  case dense => exact ⟨fun p hp => by cases b <;> [exact u1 p hp; rfl], u2⟩
  case dot => exact ⟨fun p hp => by cases b <;> [exact u1 p hp; rfl], u2⟩
  case bias => exact ⟨fun p hp => by cases b <;> [exact u1 p hp; rfl], u2⟩
  case act => cases b <;> cases hb
  case softmax => cases b <;> cases hb
  all_goals
    rw [hf.1, hf.2]
    exact ⟨fun p _ => one p, fun q _ => rfl⟩

theorem setPar (h : Renumbered ρ m m') (b : Bool) (i : Nat) {V V' : Nat → Nat → ℝ}
    (hV : ∀ p q, p < (m.shape b i).1 → q < (m.shape b i).2 → V' p q = V (if b then p else ρ i p) (ρ (i + 1) q)) : Renumbered ρ (m.setPar b i V) (m'.setPar b i V') where
  like := ⟨h.like.depth, h.like.width, fun k => by rw [Mlp.setPar_kind, Mlp.setPar_kind, h.like.kind]⟩
  units := h.units
  input := h.input
  output := h.output
  follows := fun l hl => by rw [Mlp.setPar_kind]; exact h.follows l hl
  par := fun l hl b' hb p q hp hq => by
    rw [Ply.has, Mlp.setPar_kind, ← Ply.has] at hb
    rw [Mlp.shape, Mlp.setPar_kind] at hp hq
    rw [par_set, par_set]
    by_cases hc : l = i ∧ b' = b
    · rw [if_pos hc, if_pos hc]
      rw [hc.1, hc.2] at hp hq ⊢
      exact hV p q hp hq
    · rw [if_neg hc, if_neg hc]
      exact h.par l hl b' hb p q hp hq

/-- The gradients are renumbered alike. -/
theorem grad {loss : String} {N D : Nat} {x y x' y' : Nat → Row} (h : Renumbered ρ m m') (hok : m.Ok) (hT : TruthFits loss (m.width m.depth) D N y)
    (he : ∀ a : Mlp, a.error loss N x' y' = a.error loss N x y) {b : Bool} {i : Nat} (hi : i < m.depth) (hb : (m.ply i).has b = true) {G G' : Nat → Nat → ℝ}
    (g : IsGrad (m.shape b i).1 (m.shape b i).2 (fun P => (m.setPar b i P).error loss N x y) ((m.ply i).par b) G)
    (g' : IsGrad (m'.shape b i).1 (m'.shape b i).2 (fun P => (m'.setPar b i P).error loss N x' y') ((m'.ply i).par b) G')
    {p q : Nat} (hp : p < (m.shape b i).1) (hq : q < (m.shape b i).2) : G' p q = G (if b then p else ρ i p) (ρ (i + 1) q) := by
  have hsh' : m'.shape b i = m.shape b i := by rw [Mlp.shape, Mlp.shape, h.like.kind, h.like.width]
  rw [hsh'] at g'
  obtain ⟨hr, hc⟩ := h.inside hok hi hb
  have hif : ∀ p, (if b then p else ρ i p) = (if b then (1 : Equiv.Perm Nat) else ρ i) p := fun p => by cases b <;> rfl
  have hpar := h.par i hi b hb
  have hset := fun V V' => h.setPar b i (V := V) (V' := V')
  rw [hif]
  simp only [hif] at hpar hset
  generalize (if b then (1 : Equiv.Perm Nat) else ρ i) = r at *
  generalize ρ (i + 1) = c at *
  generalize hR : (m.shape b i).1 = R at *
  generalize hC : (m.shape b i).2 = C at *
  have : IsGrad R C (fun P => (m'.setPar b i P).error loss N x' y') ((m'.ply i).par b) fun p q => G (r p) (c q) := fun V => by
    have q := g fun p q => V (r.symm p) (c.symm q)
    have hf : (fun t : ℝ => (m'.setPar b i (fun k j => (m'.ply i).par b k j + t * V k j)).error loss N x' y') =
        fun t : ℝ => (m.setPar b i (fun k j => (m.ply i).par b k j + t * V (r.symm k) (c.symm j))).error loss N x y := funext fun t => by
      rw [he]
      refine Renumbered.error (hset _ _ fun p q hp hq => ?_) ((m.setPar_like b i _).ok hok) hT
      rw [hpar p q hp hq, Equiv.symm_apply_apply, Equiv.symm_apply_apply]
    rw [hf]
    convert q using 1
    unfold dotM
    rw [← Perm.sum hr fun p => ∑ j ∈ range C, G p j * V (r.symm p) (c.symm j)]
    refine sum_congr rfl fun p _ => ?_
    rw [← Perm.sum hc fun j => G (r p) j * V (r.symm (r p)) (c.symm j)]
    exact sum_congr rfl fun j _ => by rw [Equiv.symm_apply_apply, Equiv.symm_apply_apply]
  exact IsGrad.unique g' this hp hq

end Renumbered

/-- Two trainings, of a network and of the same network with renumbered hidden units, that use the same samples in every batch. -/
theorem renumbered_of_rules {ρ : Nat → Equiv.Perm Nat} {loss : String} {kind : OptKind} {h : Hyper ℝ} {D E nb : Nat} {nj : Nat → Nat} {m m' : Mlp} {ms ns : Nat → Nat → Mlp}
    {x y x' y' : Nat → Nat → Nat → Row} {ok ok' : Mlp → Row → Row → Prop} {d d' : Nat → Bool → Nat → Nat → Nat → ℝ} (hm : Renumbered ρ m m') (hok : m.Ok)
    (hT : ∀ i j, i < E → j < nb → TruthFits loss (m.width m.depth) D (nj j) (y i j))
    (he : ∀ i j, i < E → j < nb → ∀ a : Mlp, a.error loss (nj j) (x' i j) (y' i j) = a.error loss (nj j) (x i j) (y i j))
    (hg : ∀ i j, i < E → j < nb → ∀ s, s < nj j → ok (ms i j) (x i j s) (y i j s))
    (hg' : ∀ i j, i < E → j < nb → ∀ s, s < nj j → ok' (ns i j) (x' i j s) (y' i j s))
    (la : ∀ i j, i < E ∧ j ≤ nb ∨ i = E ∧ j = 0 → Like m (ms i j)) (lb : ∀ i j, i < E ∧ j ≤ nb ∨ i = E ∧ j = 0 → Like m' (ns i j))
    (a2 : ∀ i j, i < E → j < nb → IsDrive ok loss (nj j) (x i j) (y i j) (ms i j) (d (i * nb + j)))
    (b2 : ∀ i j, i < E → j < nb → IsDrive ok' loss (nj j) (x' i j) (y' i j) (ns i j) (d' (i * nb + j)))
    (a3 : ∀ i j, i < E ∧ j ≤ nb ∨ i = E ∧ j = 0 → ∀ b l, l < m.depth → (m.ply l).has b = true →
      ∀ p q, p < (m.shape b l).1 → q < (m.shape b l).2 → ((ms i j).ply l).par b p q =
        (Coord.run Real.sqrt (fun x => |x|) h kind ((m.ply l).par b p q) (fun t => d t b l p q) (i * nb + j)).w)
    (b3 : ∀ i j, i < E ∧ j ≤ nb ∨ i = E ∧ j = 0 → ∀ b l, l < m'.depth → (m'.ply l).has b = true →
      ∀ p q, p < (m'.shape b l).1 → q < (m'.shape b l).2 → ((ns i j).ply l).par b p q =
        (Coord.run Real.sqrt (fun x => |x|) h kind ((m'.ply l).par b p q) (fun t => d' t b l p q) (i * nb + j)).w) :
    ∀ i j, i < E ∧ j ≤ nb ∨ i = E ∧ j = 0 → Renumbered ρ (ms i j) (ns i j) := by
  have hsh : ∀ b l, m'.shape b l = m.shape b l := fun b l => by rw [Mlp.shape, Mlp.shape, hm.like.kind, hm.like.width]
  have same : ∀ i j, i < E ∧ j ≤ nb ∨ i = E ∧ j = 0 → (∀ t, t < i * nb + j → ∀ b l, l < m.depth → (m.ply l).has b = true → ∀ p q, p < (m.shape b l).1 → q < (m.shape b l).2 →
      d' t b l p q = d t b l (if b then p else ρ l p) (ρ (l + 1) q)) → Renumbered ρ (ms i j) (ns i j) := fun i j hij hd =>
    { like := ⟨by rw [(lb i j hij).depth, (la i j hij).depth, hm.like.depth], by rw [(lb i j hij).width, (la i j hij).width, hm.like.width],
        fun k => by rw [(lb i j hij).kind, (la i j hij).kind, hm.like.kind]⟩
      units := by rw [(la i j hij).depth, (la i j hij).width]; exact hm.units
      input := hm.input
      output := by rw [(la i j hij).depth]; exact hm.output
      follows := fun l hl => by rw [(la i j hij).kind]; exact hm.follows l (by rw [← (la i j hij).depth]; exact hl)
      par := fun l hl b hb p q hp hq => by
        rw [(la i j hij).depth] at hl
        rw [Ply.has, (la i j hij).kind, ← Ply.has] at hb
        rw [Mlp.shape, (la i j hij).kind, (la i j hij).width, ← Mlp.shape] at hp hq
        obtain ⟨hr, hc⟩ := hm.inside hok hl hb
        have hp' : (if b then p else ρ l p) < (m.shape b l).1 := by
          have := Perm.lt hr hp
          cases b <;> exact this
        rw [b3 i j hij b l (by rw [hm.like.depth]; exact hl) (by rw [Ply.has, hm.like.kind]; exact hb) p q (by rw [hsh]; exact hp) (by rw [hsh]; exact hq),
          a3 i j hij b l hl hb _ _ hp' (Perm.lt hc hq), hm.par l hl b hb p q hp hq]
        exact Coord.run_congr_w _ _ _ _ _ fun t ht => hd t ht b l hl hb p q hp hq }
  have key : ∀ T, T ≤ E * nb → ∀ t, t < T → ∀ b l, l < m.depth → (m.ply l).has b = true → ∀ p q, p < (m.shape b l).1 → q < (m.shape b l).2 →
      d' t b l p q = d t b l (if b then p else ρ l p) (ρ (l + 1) q) := by
    intro T
    induction T with
    | zero => intro _ t ht; omega
    | succ T ih =>
      intro hT' t ht
      by_cases hti : t < T
      · exact ih (by omega) t hti
      obtain rfl : t = T := by omega
      intro b l hl hb p q hp hq
      have hnb : 0 < nb := by
        rcases Nat.eq_zero_or_pos nb with h0 | h0
        · rw [h0, Nat.mul_zero] at hT'
          omega
        · exact h0
      have hi : t / nb < E := (Nat.div_lt_iff_lt_mul hnb).2 (by omega)
      have hj : t % nb < nb := Nat.mod_lt _ hnb
      have htt : t / nb * nb + t % nb = t := Nat.div_add_mod' t nb
      generalize t / nb = i at *
      generalize t % nb = j at *
      have hij : i < E ∧ j ≤ nb ∨ i = E ∧ j = 0 := .inl ⟨hi, hj.le⟩
      have hs := same i j hij (by rw [htt]; exact ih (by omega))
      have lt := la i j hij
      obtain ⟨G, g1, g2⟩ := a2 i j hi hj (hg i j hi hj) b l (by rw [lt.depth]; exact hl) (by rw [Ply.has, lt.kind]; exact hb)
      obtain ⟨G', g3, g4⟩ := b2 i j hi hj (hg' i j hi hj) b l (by rw [hs.like.depth, lt.depth]; exact hl) (by rw [Ply.has, hs.like.kind, lt.kind]; exact hb)
      have hsh2 : (ms i j).shape b l = m.shape b l := by rw [Mlp.shape, Mlp.shape, lt.kind, lt.width]
      rw [htt] at g2 g4
      rw [g2, g4, hs.like.rate, hs.grad (lt.ok hok) (by rw [lt.depth, lt.width]; exact hT i j hi hj) (he i j hi hj) (by rw [lt.depth]; exact hl)
        (by rw [Ply.has, lt.kind]; exact hb) g1 g3 (by rw [hsh2]; exact hp) (by rw [hsh2]; exact hq)]
  refine fun i j hij => same i j hij (key _ ?_)
  rcases hij with ⟨h1, h2⟩ | ⟨h1, h2⟩
  · calc i * nb + j ≤ (i + 1) * nb := by rw [Nat.succ_mul]; omega
      _ ≤ E * nb := Nat.mul_le_mul_right _ h1
  · rw [h1, h2, Nat.add_zero]

end Mlp

end BeeDNN
