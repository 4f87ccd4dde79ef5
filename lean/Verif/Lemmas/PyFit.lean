import Verif.Lemmas.PyTrain
import Verif.Spec.PyFit
import Verif.Props.MlpFit

/-! # Lemmas about `fit` of the Python library -/

namespace BeeDNN
open Finset

/-- A loop that leads from network to network. -/
theorem forN_chain {σ : Type} {n : Nat} {f : Nat → σ → Out σ} {P : σ → Mlp → Prop} {R : Nat → Mlp → Mlp → Prop}
    (step : ∀ k s m, k < n → P s m → ∃ s' m', f k s = .ok s' ∧ P s' m' ∧ R k m m') {s : σ} {m : Mlp} (h : P s m) :
    ∃ (s' : σ) (ms : Nat → Mlp), forN n f s = .ok s' ∧ ms 0 = m ∧ P s' (ms n) ∧ ∀ k, k < n → R k (ms k) (ms (k + 1)) := by
  induction n with
  | zero => exact ⟨s, fun _ => m, rfl, rfl, h, fun k hk => absurd hk (Nat.not_lt_zero k)⟩
  | succ n ih =>
    obtain ⟨s', ms, h1, h2, h3, h4⟩ := ih fun k s m hk => step k s m (by omega)
    obtain ⟨s'', m', g1, g2, g3⟩ := step n s' (ms n) (by omega) h3
    refine ⟨s'', fun i => if i ≤ n then ms i else m', by rw [forN_succ, h1]; exact g1, by simpa using h2, by simpa using g2, fun k hk => ?_⟩
    dsimp only
    rw [if_pos (by omega : k ≤ n)]
    rcases Nat.lt_or_ge k n with hk' | hk'
    · rw [if_pos (by omega)]
      exact h4 k hk'
    · obtain rfl : k = n := by omega
      rw [if_neg (by omega)]
      exact g3

/-- What stays true during training on the data `v` in the array `x`. -/
structure PyRun (acc : Bool) (x N : Nat) (v : Nat → Row) (c : Option NpArr) (m₀ : Mlp) (s : List PyLayer × NpStore) (m : Mlp) : Prop where
  rep : PyRep s.2 s.1 m
  ready : PyReady s.1 x
  like : Mlp.Like m₀ m
  data : s.2.Has x N (m₀.width 0) v
  cell : s.2[x]? = c
  first : acc = true → ∀ l, s.1[0]? = some l → l.keeps = false

theorem keeps_kind {l l' : PyLayer} (h : l'.kind = l.kind) : l'.keeps = l.keeps := by
  unfold PyLayer.keeps
  rw [h]

/-- Layers after a change that keeps their kinds. -/
theorem PyReady.of {ls ls' : List PyLayer} {x : Nat} (h : ∀ (i : Nat) (l l' : PyLayer), ls[i]? = some l → l.kind = .exponential → ls[i + 1]? = some l' → l'.keeps = false)
    (hlen : ls'.length = ls.length)
    (hk : ∀ (k : Nat) (l : PyLayer), ls[k]? = some l → ∃ l', ls'[k]? = some l' ∧ l'.kind = l.kind ∧ l'.training = true ∧ l'.Learns ∧ x ∉ l'.params) : PyReady ls' x := by
  have key : ∀ (k : Nat) (l' : PyLayer), ls'[k]? = some l' → ∃ l, ls[k]? = some l ∧ l'.kind = l.kind ∧ l'.training = true ∧ l'.Learns ∧ x ∉ l'.params := fun k l' hk' => by
    have hlt := (List.getElem?_eq_some_iff.1 hk').1
    rw [hlen] at hlt
    obtain ⟨l₂, g1, g2⟩ := hk k _ (List.getElem?_eq_getElem hlt)
    obtain rfl := Option.some.inj (g1.symm.trans hk')
    exact ⟨_, List.getElem?_eq_getElem hlt, g2⟩
  refine ⟨fun l hl => ?_, fun l hl => ?_, fun l hl => ?_, fun i l l' h1 h2 h3 => ?_⟩
  · obtain ⟨k, hk'⟩ := List.mem_iff_getElem?.1 hl
    obtain ⟨l₀, g1, -, g3, -⟩ := key k l hk'
    exact g3
  · obtain ⟨k, hk'⟩ := List.mem_iff_getElem?.1 hl
    obtain ⟨l₀, -, -, -, g4, -⟩ := key k l hk'
    exact g4
  · obtain ⟨k, hk'⟩ := List.mem_iff_getElem?.1 hl
    obtain ⟨l₀, -, -, -, -, g5⟩ := key k l hk'
    exact g5
  · obtain ⟨l₀, g1, g2, -⟩ := key _ _ h1
    obtain ⟨l₁, k1, k2, -⟩ := key _ _ h3
    rw [keeps_kind k2]
    exact h i l₀ l₁ g1 (g2.symm.trans h2) k1

theorem PyReady.next {ls ls' : List PyLayer} {x q : Nat} (h : PyReady ls q) (hlen : ls'.length = ls.length)
    (hk : ∀ (k : Nat) (l : PyLayer), ls[k]? = some l → ∃ l', ls'[k]? = some l' ∧ l'.kind = l.kind ∧ l'.training = l.training ∧ l'.Learns ∧ x ∉ l'.params) : PyReady ls' x :=
  .of h.exp hlen fun k l hl => by
    obtain ⟨l', h1, h2, h3, h4⟩ := hk k l hl
    exact ⟨l', h1, h2, h3.trans (h.training l (List.mem_of_getElem? hl)), h4⟩

/-- The truths of some of the samples. -/
theorem TruthFits.some {loss : String} {K D N : Nat} {y : Nat → Row} (h : TruthFits loss K D N y) {n : Nat} {f : Nat → Nat} (hf : ∀ i, i < n → f i < N) :
    TruthFits loss K D n (fun i => y (f i)) := by
  unfold TruthFits at h ⊢
  split at h
  · rename_i hl
    rw [if_pos hl]
    exact ⟨h.1, h.2.1, fun i hi => h.2.2 _ (hf i hi)⟩
  · rename_i hl
    rw [if_neg hl]
    exact h

theorem npTake_is {a : NpArr} {N C : Nat} {f : Nat → Nat → ℝ} (h : a.Is N C f) {σ : Nat → Nat} {start stop : Nat} (hs : ∀ i, i < stop - start → σ (start + i) < N) :
    (npTake a σ start stop).Is (stop - start) C (fun i => f (σ (start + i))) :=
  ⟨rfl, h.2.1, fun i j hi hj => h.2.2 _ j (hs i hi) hj⟩

/-- A prediction in training mode. -/
theorem pyPredict_train {m : Mlp} {ls : List PyLayer} {h : NpStore} (hr : PyRep h ls m) {x N : Nat} {v : Nat → Row} (hrd : PyReady ls x) (hN : 0 < N)
    (hX : h.Has x N (m.width 0) v) (e : Nat → PyRnd) :
    ∃ r ls' h', pyPredict e ls x h = .ok (r, ls', h') ∧ h.length ≤ h'.length ∧
      (∀ q, q < h.length → (q = x → ∀ l, ls[0]? = some l → l.keeps = false) → h'[q]? = h[q]?) ∧
      ls'.length = ls.length ∧ ∀ (k : Nat) (l : PyLayer), ls[k]? = some l → ∃ l', ls'[k]? = some l' ∧ l.Alike l' := by
  obtain ⟨r, ls', h', h1, -, h3, h4, h5, -⟩ := pyTrain_passes (m := m.derivBy ls) (v := v) hN hr.pos ls e 0 x h hrd (by rw [Nat.zero_add]; exact hr.count)
    (fun k l hk => by rw [Nat.zero_add]; exact (hr.derivBy).layer k l hk) (fun k l hk => by rw [Nat.zero_add]; exact hr.derivOk hrd k l hk) hX
  exact ⟨r, ls', h', h1, h3, h4, h5⟩

/-- One batch. -/
theorem PyRun.batch {loss : String} (hl : loss ∈ pyLosses) (lr : ℝ) (e : Nat → PyRnd) {acc : Bool} {x N D : Nat} {v y : Nat → Row} {c : Option NpArr} {m₀ m : Mlp}
    {s : List PyLayer × NpStore} (h : PyRun acc x N v c m₀ s m) (hok : m₀.Ok) {t X : NpArr} (ht : t.Is N D y) (hX : X.Is N (m₀.width 0) v)
    (hT : TruthFits (pyLossName loss) (m₀.width m₀.depth) D N y) {σ : Nat → Nat} (hσ : ∀ i, i < N → σ i < N) {start stop : Nat} (h1 : start < stop) (h2 : stop ≤ N) :
    ∃ s' m', pyTrainBatch loss lr e s.1 s.2.length (npTake t σ start stop) (s.2 ++ [npTake X σ start stop]) = .ok s' ∧ PyRun acc x N v c m₀ s' m' ∧
      Mlp.PyBatch (pyLossName loss) lr (stop - start) (fun i => v (σ (start + i))) (fun i => y (σ (start + i))) m m' := by
  obtain ⟨ls, hp⟩ := s
  have hs : ∀ i, i < stop - start → σ (start + i) < N := fun i hi => hσ _ (by omega)
  have hx : x < hp.length := h.data.lt
  have hr : PyRep (hp ++ [npTake X σ start stop]) ls m := ⟨h.rep.count, h.rep.pos, fun i l hi => by
    have := h.rep.layer i l hi
    exact this.congr fun q hq => List.getElem?_append_left (this.lt q hq)⟩
  have hrd : PyReady ls hp.length := h.ready.next rfl fun k l hk => ⟨l, hk, rfl, rfl, h.ready.learns l (List.mem_of_getElem? hk), fun hq =>
    absurd ((h.rep.layer k l hk).lt _ hq) (lt_irrefl _)⟩
  obtain ⟨ls', h', m', b1, b2, b3, b4, b5, b6, b7⟩ := pyTrainBatch_any hl lr e hr (h.like.ok hok) hrd (N := stop - start) (by omega)
    (hp.has_append _ (by rw [h.like.width]; exact npTake_is hX hs)) (npTake_is ht hs) (by rw [h.like.width, h.like.depth]; exact hT.some hs)
  have hcell : h'[x]? = hp[x]? := (b6 x (by simp; omega) (by omega)).trans (List.getElem?_append_left hx)
  refine ⟨(ls', h'), m', b1, ⟨b2, hrd.next (by rw [b2.count, b3.depth, h.rep.count]) fun k l hk => ?_, h.like.trans b3, h.data.congr hcell, hcell.trans h.cell, fun ha l hl => ?_⟩, b4⟩
  · obtain ⟨l', c1, c2, c3, c4, c5⟩ := b7 k l hk
    exact ⟨l', c1, c2, c3, c4, fun hq => by have := c5 _ hq; simp at this; omega⟩
  · have h0 : 0 < ls.length := by rw [h.rep.count, h.like.depth]; exact hok.depth
    obtain ⟨l', c1, c2, -⟩ := b7 0 _ (List.getElem?_eq_getElem h0)
    obtain rfl := Option.some.inj (c1.symm.trans hl)
    rw [keeps_kind c2]
    exact h.first ha _ (List.getElem?_eq_getElem h0)

/-- One epoch. -/
theorem PyRun.epoch {loss : String} (hl : loss ∈ pyLosses) (lr : ℝ) (r : PyFitRnd) {acc : Bool} {x N D B : Nat} {v y : Nat → Row} {c : Option NpArr} {m₀ m : Mlp}
    {s : List PyLayer × NpStore} (h : PyRun acc x N v c m₀ s m) (hok : m₀.Ok) (hN : 0 < N) (hB : 0 < B) {t : NpArr} (ht : t.Is N D y)
    (hT : TruthFits (pyLossName loss) (m₀.width m₀.depth) D N y) (ep : Nat) (hσ : ((List.range N).map (r.perm ep)).Perm (List.range N)) :
    ∃ s' m', pyEpoch loss lr B acc r x t ep s = .ok s' ∧ PyRun acc x N v c m₀ s' m' ∧
      ∃ a, Mlp.Epoch (Mlp.PyBatch (pyLossName loss) lr) N B D v y m m' a := by
  obtain ⟨X, hX0, hX2⟩ := h.data
  have hX1 := PyLayer.load_some hX0
  have hlt : ∀ i, i < N → r.perm ep i < N := fun i hi => List.mem_range.1 (hσ.mem_iff.1 (List.mem_map.2 ⟨i, List.mem_range.2 hi, rfl⟩))
  obtain ⟨s₁, ms, f1, f2, f3, f4⟩ := forN_chain (n := (X.rows + B - 1) / B) (P := fun s m => PyRun acc x N v c m₀ s m)
    (R := fun k m m' => Mlp.PyBatch (pyLossName loss) lr (batchEnd N B k - batchStart B k) (fun i => v (r.perm ep (batchStart B k + i)))
      (fun i => y (r.perm ep (batchStart B k + i))) m m')
    (f := fun k s => pyTrainBatch loss lr (r.batch ep k) s.1 s.2.length (npTake t (r.perm ep) (k * B) (min (k * B + B) X.rows))
      (s.2 ++ [npTake X (r.perm ep) (k * B) (min (k * B + B) X.rows)])) (fun k s m hk hs => by
        rw [hX2.1] at hk ⊢
        have hk' := (Nat.le_div_iff_mul_le hB).1 (show k + 1 ≤ _ from hk)
        rw [Nat.add_mul, Nat.one_mul] at hk'
        have := hs.batch hl lr (r.batch ep k) hok ht hX2 hT hlt (start := k * B) (stop := min (k * B + B) N) (by omega) (by omega)
        unfold batchEnd batchStart
        rw [Nat.add_mul, Nat.one_mul]
        exact this) h
  have hep : Mlp.Epoch (Mlp.PyBatch (pyLossName loss) lr) N B D v y m (ms (nbBatches N B)) _ := ⟨r.perm ep, ms, hσ, f2, rfl, fun k hk => f4 k (by rw [hX2.1]; exact hk), rfl⟩
  rw [hX2.1] at f3
  have hrun : (do
      let X ← s.2.load x
      npCheck (X.rows ≤ t.rows)
      forN ((X.rows + B - 1) / B) (fun k s =>
        pyTrainBatch loss lr (r.batch ep k) s.1 s.2.length (npTake t (r.perm ep) (k * B) (min (k * B + B) X.rows))
          (s.2 ++ [npTake X (r.perm ep) (k * B) (min (k * B + B) X.rows)])) s) = .ok s₁ := by
    rw [hX1, bind_ok', npCheck, if_pos (by rw [hX2.1, ht.1]), bind_ok']
    exact f1
  have hchk : npCheck (X.rows ≤ t.rows) = .ok () := by rw [npCheck, if_pos (by rw [hX2.1, ht.1])]
  cases acc with
  | false =>
    refine ⟨s₁, _, ?_, f3, _, hep⟩
    unfold pyEpoch
    rw [hX1, bind_ok', hchk, bind_ok']
    dsimp only
    rw [f1, bind_ok']
    rfl
  | true =>
    obtain ⟨ls, hp⟩ := s₁
    obtain ⟨r', ls', h', p1, p2, p3, p4, p5⟩ := pyPredict_train f3.rep f3.ready hN (by rw [f3.like.width]; exact f3.data) (r.test ep)
    have hcell : h'[x]? = hp[x]? := p3 x f3.data.lt fun _ => f3.first rfl
    refine ⟨(ls', h'), _, ?_, ⟨⟨p4.trans f3.rep.count, f3.rep.pos, fun i l hi => ?_⟩, f3.ready.next p4 fun k l hk => ?_, f3.like, f3.data.congr hcell, hcell.trans f3.cell, fun _ l hl => ?_⟩, _, hep⟩
    · unfold pyEpoch
      rw [hX1, bind_ok', hchk, bind_ok']
      dsimp only
      rw [f1, bind_ok']
      dsimp only
      rw [if_pos rfl, p1, bind_ok']
    · have hlt' := (List.getElem?_eq_some_iff.1 hi).1
      rw [p4] at hlt'
      obtain ⟨l', c1, c2⟩ := p5 i _ (List.getElem?_eq_getElem hlt')
      obtain rfl := Option.some.inj (c1.symm.trans hi)
      have hsh := f3.rep.layer i _ (List.getElem?_eq_getElem hlt')
      exact c2.shows (hsh.congr fun q hq => p3 q (hsh.lt q hq) fun hqx => absurd (hqx ▸ hq) (f3.ready.apart _ (List.getElem_mem hlt')))
    · obtain ⟨l', c1, c2⟩ := p5 k l hk
      have hm := List.mem_of_getElem? hk
      exact ⟨l', c1, c2.1, c2.2.1, c2.learns (f3.ready.learns l hm), by rw [c2.params]; exact f3.ready.apart l hm⟩
    · have h0 : 0 < ls.length := by rw [f3.rep.count, f3.like.depth]; exact hok.depth
      obtain ⟨l', c1, c2⟩ := p5 0 _ (List.getElem?_eq_getElem h0)
      obtain rfl := Option.some.inj (c1.symm.trans hl)
      rw [c2.keeps]
      exact f3.first rfl _ (List.getElem?_eq_getElem h0)

/-- One layer after `init`. -/
theorem PyLayer.init_ok (u : Nat → Nat → ℝ) {l : PyLayer} {K : PlyKind} {C C' : Nat} (h : NpStore) (hm : l.Made K C C') :
    ∃ l' h', l.init u C C' h = (l', h') ∧ l.Moved h h' l' ∧ l'.Shows h' ⟨K, fun k j => Real.sqrt (6 / ((K.shape false C C').1 + (K.shape false C C').2 : Nat)) * (u k j * 2 - 1), fun _ _ => 0⟩ C C' := by
  have old : ∀ (Y : NpArr) (q : Nat), q < h.length → (h ++ [Y])[q]? = h[q]? := fun Y q hq => List.getElem?_append_left hq
  have new : ∀ {Y : NpArr} {R S : Nat} {f : Nat → Nat → ℝ}, Y.Is R S f → (h ++ [Y] : NpStore).Has h.length R S f := fun H => h.has_append _ H
  have two : ∀ (Y Z : NpArr) (q : Nat), q < h.length → ((h ++ [Y]) ++ [Z])[q]? = h[q]? := fun Y Z q hq => by
    rw [List.getElem?_append_left (by simp; omega)]
    exact old _ q hq
  obtain ⟨k, t, d, dw, w, b, gw, gb⟩ := l
  have zero : ∀ C, (npZeroRow C).Is 1 C (fun _ _ => 0) := fun C => ⟨rfl, rfl, fun _ _ _ _ => rfl⟩
  have xav : ∀ R C, (npXavier u R C).Is R C (fun k j => Real.sqrt (6 / (R + C : Nat)) * (u k j * 2 - 1)) := fun R C => ⟨rfl, rfl, fun _ _ _ _ => rfl⟩
  cases k <;> cases K <;> first
    | exact absurd hm id
    | exact ⟨_, h, rfl, ⟨rfl, rfl, id, le_rfl, fun _ _ => rfl, fun q hq => by simp [params] at hq⟩, hm⟩
    | skip
  · exact ⟨_, _, rfl, ⟨rfl, rfl, id, by simp, old _, fun q hq => by simp [params] at hq; omega⟩, hm, by obtain rfl := (show C' = C from hm); exact new (zero _)⟩
  · exact ⟨_, _, rfl, ⟨rfl, rfl, id, by simp, old _, fun q hq => by simp [params] at hq; omega⟩, new (xav _ _)⟩
  · refine ⟨_, _, rfl, ⟨rfl, rfl, id, by simp, two _ _, fun q hq => by simp [params] at hq; omega⟩, ?_, ?_⟩
    · exact (new (xav _ _)).congr (List.getElem?_append_left (by simp))
    · exact NpStore.has_append _ _ (zero _)
  · obtain ⟨⟨rfl, rfl⟩, hc1, hc2⟩ := hm
    exact ⟨_, _, rfl, ⟨rfl, rfl, id, by simp, old _, fun q hq => by simp [params] at hq; omega⟩, ⟨rfl, rfl⟩, hc1, hc2, new (xav _ _)⟩
  · obtain ⟨rfl, hc1, hc2⟩ := hm
    exact ⟨_, _, rfl, ⟨rfl, rfl, id, by simp, old _, fun q hq => by simp [params] at hq; omega⟩, rfl, hc1, hc2, new (zero _)⟩
  · obtain ⟨⟨rfl, rfl⟩, hc1, hc2⟩ := hm
    refine ⟨_, _, rfl, ⟨rfl, rfl, id, by simp, two _ _, fun q hq => by simp [params] at hq; omega⟩, ⟨rfl, rfl⟩, hc1, hc2, ?_, ?_⟩
    · exact (new (xav _ _)).congr (List.getElem?_append_left (by simp))
    · exact NpStore.has_append _ _ (zero _)

/-- All layers after `init`. -/
theorem pyInit_ok (u : Nat → Nat → Nat → ℝ) {m : Mlp} : ∀ (ls : List PyLayer) (i : Nat) (h : NpStore),
    (∀ (k : Nat) (l : PyLayer), ls[k]? = some l → l.Made (m.ply (i + k)).kind (m.width (i + k)) (m.width (i + k + 1))) →
    ∃ ls' h', pyInit u m.width ls i h = (ls', h') ∧ ls'.length = ls.length ∧ h.length ≤ h'.length ∧ (∀ q, q < h.length → h'[q]? = h[q]?) ∧
      ∀ (k : Nat) (l : PyLayer), ls[k]? = some l → ∃ l', ls'[k]? = some l' ∧ l.Moved h h' l' ∧
        l'.Shows h' ((m.xavier u).ply (i + k)) (m.width (i + k)) (m.width (i + k + 1)) := by
  intro ls
  induction ls with
  | nil => exact fun i h _ => ⟨[], h, rfl, rfl, le_rfl, fun _ _ => rfl, fun k l hk => by simp at hk⟩
  | cons l ls ih =>
    intro i h H
    obtain ⟨l', h₁, o1, o2, o3⟩ := PyLayer.init_ok (u i) h (H 0 l rfl)
    obtain ⟨ls', h', p1, p2, p3, p4, p5⟩ := ih (i + 1) h₁ fun k l₁ hk => by
      have := H (k + 1) l₁ (by simpa using hk)
      rwa [show i + (k + 1) = i + 1 + k by omega] at this
    have hlen := o2.length
    have hold : ∀ q, q < h.length → h'[q]? = h[q]? := fun q hq => (p4 q (by omega)).trans (o2.old q hq)
    refine ⟨l' :: ls', h', by unfold pyInit; rw [show l.init (u i) (m.width i) (m.width (i + 1)) h = (l', h₁) from o1]; dsimp only; rw [p1], by simp [p2], by omega, hold, fun k l₁ hk => ?_⟩
    match k with
    | 0 =>
      obtain rfl : l = l₁ := by simpa using hk
      exact ⟨l', rfl, ⟨o2.kind, o2.training, o2.learns, by omega, hold, o2.fresh⟩, o3.congr fun q hq => p4 q (o3.lt q hq)⟩
    | k + 1 =>
      obtain ⟨l₂, t1, t2, t3⟩ := p5 k l₁ (by simpa using hk)
      rw [show i + (k + 1) = i + 1 + k by omega]
      exact ⟨l₂, by simpa using t1, ⟨t2.kind, t2.training, t2.learns, by omega, hold, fun q hq => by have := t2.fresh q hq; omega⟩, t3⟩

/-- `fit`. -/
theorem pyFit_ok {loss : String} (hl : loss ∈ pyLosses) (lr : ℝ) (epochs batchSize : Nat) (acc : Bool) (r : PyFitRnd) {ls : List PyLayer} {m : Mlp} (hm : PyModel ls m)
    (hacc : acc = true → ∀ l, ls[0]? = some l → l.keeps = false) {h : NpStore} {x N D : Nat} (hN : 0 < N) {v y : Nat → Row} (hX : h.Has x N (m.width 0) v) {t : NpArr} (ht : t.Is N D y)
    (hT : TruthFits (pyLossName loss) (m.width m.depth) D N y) (hσ : ∀ ep, ep < epochs → ((List.range N).map (r.perm ep)).Perm (List.range N)) :
    ∃ (ls' : List PyLayer) (h' : NpStore) (ms : Nat → Mlp), pyFit loss lr epochs batchSize acc r m.width ls x t h = .ok (ls', h') ∧ ms 0 = m.xavier r.init ∧ PyRep h' ls' (ms epochs) ∧
      (∀ ep, ep < epochs → ∃ a, Mlp.Epoch (Mlp.PyBatch (pyLossName loss) lr) N (if batchSize = 0 then N else batchSize) D v y (ms ep) (ms (ep + 1)) a) ∧
      h'[x]? = h[x]? ∧ Mlp.Like m (ms epochs) ∧ ∀ l ∈ ls', l.training = false ∧ x ∉ l.params := by
  have hset : ∀ (k : Nat) (l : PyLayer), (ls.map fun l => { l with training := true })[k]? = some l → ∃ l₀, ls[k]? = some l₀ ∧ l = { l₀ with training := true } := fun k l hk => by
    rw [List.getElem?_map, Option.map_eq_some_iff] at hk
    obtain ⟨l₀, h1, h2⟩ := hk
    exact ⟨l₀, h1, h2.symm⟩
  obtain ⟨ls₁, h₁, i1, i2, i3, i4, i5⟩ := pyInit_ok r.init (m := m) (ls.map fun l => { l with training := true }) 0 h fun k l hk => by
    obtain ⟨l₀, k1, rfl⟩ := hset k l hk
    rw [Nat.zero_add]
    exact hm.made k l₀ k1
  rw [List.length_map] at i2
  have i6 : ∀ (k : Nat) (l : PyLayer), ls[k]? = some l → ∃ l', ls₁[k]? = some l' ∧ PyLayer.Moved { l with training := true } h h₁ l' ∧
      l'.Shows h₁ ((m.xavier r.init).ply k) (m.width k) (m.width (k + 1)) := fun k l hk => by
    have := i5 k { l with training := true } (by rw [List.getElem?_map, hk]; rfl)
    rwa [Nat.zero_add] at this
  have back : ∀ (k : Nat) (l' : PyLayer), ls₁[k]? = some l' → ∃ l, ls[k]? = some l ∧ PyLayer.Moved { l with training := true } h h₁ l' ∧
      l'.Shows h₁ ((m.xavier r.init).ply k) (m.width k) (m.width (k + 1)) := fun k l' hk => by
    have hlt := (List.getElem?_eq_some_iff.1 hk).1
    rw [i2] at hlt
    obtain ⟨l₂, g1, g2⟩ := i6 k _ (List.getElem?_eq_getElem hlt)
    obtain rfl := Option.some.inj (g1.symm.trans hk)
    exact ⟨_, List.getElem?_eq_getElem hlt, g2⟩
  have hx := hX.lt
  have hcell : h₁[x]? = h[x]? := i4 x hX.lt
  have hrun : PyRun acc x N v h[x]? m (ls₁, h₁) (m.xavier r.init) := by
    refine ⟨⟨i2.trans hm.count, hm.ok.pos, fun i l hi => ?_⟩, ?_, ⟨rfl, rfl, fun _ => rfl⟩, hX.congr hcell, hcell, fun ha l hl' => ?_⟩
    · obtain ⟨l₀, -, -, g3⟩ := back i l hi
      exact g3
    · refine .of hm.exp i2 fun k l hk => ?_
      obtain ⟨l', g1, g2, -⟩ := i6 k l hk
      exact ⟨l', g1, g2.kind, g2.training, g2.learns (hm.learns l (List.mem_of_getElem? hk)), fun hq => by have := g2.fresh x hq; omega⟩
    · obtain ⟨l₀, g1, g2, -⟩ := back 0 l hl'
      rw [keeps_kind (l := l₀) g2.kind]
      exact hacc ha l₀ g1
  obtain ⟨s', ms, f1, f2, f3, f4⟩ := forN_chain (n := epochs) (P := fun s m' => PyRun acc x N v h[x]? m s m')
    (R := fun _ m m' => ∃ a, Mlp.Epoch (Mlp.PyBatch (pyLossName loss) lr) N (if batchSize = 0 then N else batchSize) D v y m m' a)
    (f := pyEpoch loss lr (if batchSize = 0 then N else batchSize) acc r x t) (fun k s m' hk hs => hs.epoch hl lr r hm.ok hN (by split <;> omega) ht hT k (hσ k hk)) hrun
  obtain ⟨X, hX0, hX2⟩ := hX.congr hcell
  refine ⟨s'.1.map fun l => { l with training := false }, s'.2, ms, ?_, f2, ⟨by rw [List.length_map]; exact f3.rep.count, f3.rep.pos, fun i l hi => ?_⟩, f4, f3.cell, f3.like, fun l hl' => ?_⟩
  · unfold pyFit
    rw [i1]
    dsimp only
    rw [PyLayer.load_some hX0, bind_ok', hX2.1, f1, bind_ok']
  · rw [List.getElem?_map, Option.map_eq_some_iff] at hi
    obtain ⟨l₀, h1, rfl⟩ := hi
    exact f3.rep.layer i l₀ h1
  · obtain ⟨l₀, h0, rfl⟩ := List.mem_map.1 hl'
    exact ⟨rfl, f3.ready.apart l₀ h0⟩

end BeeDNN
