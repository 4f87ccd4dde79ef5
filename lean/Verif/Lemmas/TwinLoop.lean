import Verif.Lemmas.TwinPool
import Verif.Lemmas.TwinOpt

/-! # Two runs: the loops of one batch -/

namespace BeeDNN
open Finset HasWF

theorem forN_twin {σ τ : Type} {n : Nat} {f : Nat → σ → Out σ} {g : Nat → τ → Out τ} {s : σ} {t : τ} (P : Nat → σ → τ → Prop) (h0 : P 0 s t)
    (h : ∀ i, i < n → ∀ s t, P i s t → ∃ s' t', f i s = .ok s' ∧ g i t = .ok t' ∧ P (i + 1) s' t') :
    ∃ s' t', forN n f s = .ok s' ∧ forN n g t = .ok t' ∧ P n s' t' := by
  induction n with
  | zero => exact ⟨s, t, rfl, rfl, h0⟩
  | succ n ih =>
    obtain ⟨s1, t1, h1, g1, p1⟩ := ih (fun i hi => h i (Nat.lt_succ_of_lt hi))
    obtain ⟨s2, t2, h2, g2, p2⟩ := h n (Nat.lt_succ_self n) s1 t1 p1
    exact ⟨s2, t2, by rw [forN_succ, h1]; exact h2, by rw [forN_succ, g1]; exact g2, p2⟩

namespace World

theorem core_store (w : World) (a : Nat) (l : Layer) : (w.store a l).core = w.core.store a l.core := by
  unfold core store
  simp only [List.map_set, Option.map_some]

theorem store_core {w v : World} (h : v.core = w.core) {l m : Layer} (hl : m.core = l.core) (a : Nat) : (v.store a m).core = (w.store a l).core := by
  rw [core_store, core_store, h, hl]

theorem core_nets {w v : World} (h : v.core = w.core) : v.nets = w.nets := by
  have := congrArg World.nets h
  exact this

theorem core_heap {w v : World} (h : v.core = w.core) (a : Nat) : (v.heap[a]?).map (Option.map Layer.core) = (w.heap[a]?).map (Option.map Layer.core) := by
  have := congrArg (fun u : World => u.heap[a]?) h
  simpa [core] using this

theorem core_at {w v : World} (h : v.core = w.core) {a : Nat} {l : Layer} (hl : w.heap[a]? = some (some l)) :
    ∃ m, v.heap[a]? = some (some m) ∧ m.core = l.core := by
  have := core_heap h a
  rw [hl] at this
  cases hv : v.heap[a]? with
  | none => rw [hv] at this; cases this
  | some x =>
    cases x with
    | none => rw [hv] at this; cases this
    | some m =>
      rw [hv] at this
      simp only [Option.map_some, Option.some.injEq] at this
      exact ⟨m, rfl, this⟩

end World

namespace Layer

/-- The backward passes of the same layer in two runs. -/
def Back2 (s s' : Form) (N : Nat) (M : Mat ℝ) (l m : Layer) : Prop :=
  ∀ (e f : Env) (gOut gIn : Mat ℝ), gOut.Shape N s'.width → gIn.WF → ∃ l₂ m₂ gi, l.backprop e M gOut gIn = .ok (l₂, gi) ∧
    m.backprop f M gOut gIn = .ok (m₂, gi) ∧ m₂.core = l₂.core ∧ ∀ b, l.kind.parShape b s.width s'.width ≠ none → m₂.grad b = l₂.grad b

theorem Fits.forward2 {first : Bool} {s s' : Form} {l m : Layer} {e f : Env} {N : Nat} {M o : Mat ℝ} (h : l.Fits first s s') (h' : m.Fits first s s')
    (hc : m.core = l.core) (he : e.Exact) (hef : e.Twin f) (hN : 0 < N) (hM : M.Shape N s.width) (ho : o.WF) :
    ∃ l' m' M', l.forward e M o = .ok (l', M') ∧ m.forward f M o = .ok (m', M') ∧ Passed first s s' N l M l' M' ∧ Passed first s s' N m M m' M' ∧
      m'.core = l'.core ∧ (l.train = true → l.first = first → s.Holds N M → Back2 s s' N M l' m') := by
  obtain ⟨l', M', f1, f2⟩ := h.forward he hN hM ho
  obtain ⟨m', M'', g1, g2⟩ := h'.forward (hef.exact he) hN hM ho
  obtain ⟨x, rfl⟩ := hM.exists_ofFn
  obtain ⟨c, y, P, d1, d2⟩ := h.det (e := e) he hN x
  obtain ⟨l₁, k1, k2, k3⟩ := d1 l e o h rfl (.refl e) ho
  obtain ⟨m₁, j1, j2, j3⟩ := d1 m f o h' hc hef ho
  obtain ⟨rfl, rfl⟩ : l' = l₁ ∧ M' = Mat.ofFn N s'.width y := by
    rw [f1] at k1; injection k1 with k1; injection k1 with a b; exact ⟨a, b⟩
  obtain ⟨rfl, rfl⟩ : m' = m₁ ∧ M'' = Mat.ofFn N s'.width y := by
    rw [g1] at j1; injection j1 with j1; injection j1 with a b; exact ⟨a, b⟩
  refine ⟨l', m', _, f1, g1, f2, g2, j2.trans k2.symm, fun ht hf hX e₁ f₁ gOut gIn hG hI => ?_⟩
  obtain ⟨gr, rfl⟩ := hG.exists_ofFn
  obtain ⟨c₂, G, D, d3⟩ := d2 ht hf (by rw [Form.holds_ofFn] at hX; exact hX) gr
  obtain ⟨l₂, p1, p2, p3⟩ := d3 l' e₁ gIn f2.fits k2 k3 hI
  obtain ⟨m₂, q1, q2, q3⟩ := d3 m' f₁ gIn g2.fits j2 j3 hI
  refine ⟨l₂, m₂, _, p1, q1, q2.trans p2.symm, fun b hb => ?_⟩
  rw [f2.kind] at hb
  exact (q3 b hb).trans (p3 b hb).symm

end Layer

/-- Every layer of the network in two runs. -/
def OnNet2 (w v : World) (n : Nat) (P : Nat → Layer → Layer → Prop) : Prop :=
  ∀ i a, (w.nets n).layers[i]? = some a → ∃ l m : Layer, w.heap[a]? = some (some l) ∧ v.heap[a]? = some (some m) ∧ P i l m

theorem OnNet2.mono {w v : World} {n : Nat} {P Q : Nat → Layer → Layer → Prop} (h : OnNet2 w v n P)
    (hpq : ∀ i a l m, (w.nets n).layers[i]? = some a → P i l m → Q i l m) : OnNet2 w v n Q := by
  intro i a hi
  obtain ⟨l, m, h1, h2, h3⟩ := h i a hi
  exact ⟨l, m, h1, h2, hpq i a l m hi h3⟩

theorem OnNet2.left {w v : World} {n : Nat} {P : Nat → Layer → Layer → Prop} (h : OnNet2 w v n P) {Q : Nat → Layer → Prop} (hq : ∀ i l m, P i l m → Q i l) : OnNet w n Q := by
  intro i a hi
  obtain ⟨l, m, h1, h2, h3⟩ := h i a hi
  exact ⟨l, h1, hq i l m h3⟩

theorem OnNet2.right {w v : World} {n : Nat} {P : Nat → Layer → Layer → Prop} (h : OnNet2 w v n P) (hn : v.nets = w.nets) {Q : Nat → Layer → Prop}
    (hq : ∀ i l m, P i l m → Q i m) : OnNet v n Q := by
  intro i a hi
  obtain ⟨l, m, h1, h2, h3⟩ := h i a (by rw [← hn]; exact hi)
  exact ⟨m, h2, hq i l m h3⟩

theorem OnNet.pair {w v : World} {n : Nat} {P Q : Nat → Layer → Prop} (hc : v.core = w.core) (h : OnNet w n P) (h' : OnNet v n Q) :
    OnNet2 w v n (fun i l m => P i l ∧ Q i m ∧ m.core = l.core) := by
  intro i a hi
  obtain ⟨l, h1, h2⟩ := h i a hi
  obtain ⟨m, h3, h4⟩ := World.core_at hc h1
  exact ⟨l, m, h1, h3, h2, h'.at (by rw [World.core_nets hc]; exact hi) h3, h4⟩

theorem OnNet2.store {w v : World} {n : Nat} {P Q : Nat → Layer → Layer → Prop} (h : OnNet2 w v n P) (hd : (w.nets n).layers.Nodup) {i a : Nat} {l l' m m' : Layer}
    (hi : (w.nets n).layers[i]? = some a) (hla : w.heap[a]? = some (some l)) (hma : v.heap[a]? = some (some m)) (hq : Q i l' m')
    (ho : ∀ j l₁ m₁, j < (w.nets n).layers.length → j ≠ i → P j l₁ m₁ → Q j l₁ m₁) : OnNet2 (w.store a l') (v.store a m') n Q := by
  intro j b hj
  have hj' : (w.nets n).layers[j]? = some b := hj
  by_cases hba : b = a
  · subst hba
    obtain rfl : i = j := (List.getElem?_inj (lt_of_some hi) hd).mp (hi.trans hj'.symm)
    exact ⟨l', m', World.store_same hla, World.store_same hma, hq⟩
  · obtain ⟨l₁, m₁, k1, k2, k3⟩ := h j b hj'
    refine ⟨l₁, m₁, (World.store_other _ hba).trans k1, (World.store_other _ hba).trans k2, ho j l₁ m₁ (lt_of_some hj') ?_ k3⟩
    rintro rfl
    exact hba (by have := hj'.symm.trans hi; injection this)

namespace Trainer

theorem fwdLoop_twin {e f : Nat → Env} (he : ∀ i, (e i).Exact) (hef : ∀ i, (e i).Twin (f i)) {w v : World} (hcore : v.core = w.core) {n d : Nat} {form : Nat → Form}
    {kinds : Nat → LayerKind} (hd : (w.nets n).layers.Nodup) (hc : (w.nets n).layers.length = d) (h : OnNet w n (Layer.Live form kinds))
    (h' : OnNet v n (Layer.Live form kinds))
    {io : List (Mat ℝ)} (hio : wf io) (hl : io.length = d + 1) {N : Nat} (hN : 0 < N) {X : Mat ℝ} (h0 : io[0]? = some X) (hX : (form 0).Holds N X) :
    ∃ w' v' io', fwdLoop e n d (w, io) = .ok (w', io') ∧ fwdLoop f n d (v, io) = .ok (v', io') ∧ v'.core = w'.core ∧ w'.nets = w.nets ∧ wf io' ∧ io'.length = d + 1 ∧
      (∃ M, io'[d]? = some M ∧ M.Shape N (form d).width) ∧
      OnNet2 w' v' n (fun i l m => l.Live form kinds i ∧ m.Live form kinds i ∧ ∃ M, io'[i]? = some M ∧ l.Back (decide (i = 0)) (form i) (form (i + 1)) N M ∧
        m.Back (decide (i = 0)) (form i) (form (i + 1)) N M ∧ Layer.Back2 (form i) (form (i + 1)) N M l m) := by
  refine (forN_twin (n := d) (s := (w, io)) (t := (v, io)) (fun k (r q : World × List (Mat ℝ)) => q.2 = r.2 ∧ q.1.core = r.1.core ∧ r.1.nets = w.nets ∧ wf r.2 ∧
      r.2.length = d + 1 ∧ (∃ M, r.2[k]? = some M ∧ (form k).Holds N M) ∧
      OnNet2 r.1 q.1 n (fun i l m => l.Live form kinds i ∧ m.Live form kinds i ∧ m.core = l.core ∧ (i < k → ∃ M, r.2[i]? = some M ∧
        l.Back (decide (i = 0)) (form i) (form (i + 1)) N M ∧ m.Back (decide (i = 0)) (form i) (form (i + 1)) N M ∧ Layer.Back2 (form i) (form (i + 1)) N M l m)))
    ⟨rfl, hcore, rfl, hio, hl, ⟨X, h0, hX⟩, (h.pair hcore h').mono fun i a l m _ hp => ⟨hp.1, hp.2.1, hp.2.2, fun hi => absurd hi (Nat.not_lt_zero i)⟩⟩
    (f := fun i s => do
      let a ← s.1.layerAt n i
      let l ← s.1.deref a
      let x ← rd s.2 i
      let o ← rd s.2 (i + 1)
      let (l, o) ← l.forward (e i) x o
      let io ← wr s.2 (i + 1) o
      return (s.1.store a l, io))
    (g := fun i s => do
      let a ← s.1.layerAt n i
      let l ← s.1.deref a
      let x ← rd s.2 i
      let o ← rd s.2 (i + 1)
      let (l, o) ← l.forward (f i) x o
      let io ← wr s.2 (i + 1) o
      return (s.1.store a l, io)) ?_).elim ?_
  rotate_left
  · rintro ⟨w', io'⟩ ⟨⟨v', jo'⟩, h1, h1', rfl, h2', h2, h3, h4, ⟨M, h5, h6⟩, h7⟩
    refine ⟨w', v', _, h1, h1', h2', h2, h3, h4, ⟨M, h5, h6.shape⟩, h7.mono fun i a l m hi hp => ⟨hp.1, hp.2.1, hp.2.2.2 ?_⟩⟩
    dsimp only at h2
    rw [h2] at hi
    rw [← hc]
    exact lt_of_some hi
  · rintro i hi ⟨w', io'⟩ ⟨v', jo'⟩ ⟨rfl, k0', k0, k2, k3, ⟨M, k4, k5⟩, k6⟩
    dsimp only at *
    obtain ⟨a, ha⟩ : ∃ a, (w'.nets n).layers[i]? = some a := ⟨_, List.getElem?_eq_getElem (by rw [k0, hc]; exact hi)⟩
    have ha' : (v'.nets n).layers[i]? = some a := by rw [World.core_nets k0']; exact ha
    obtain ⟨l, m, hla, hma, ⟨hf, hk, hm, ht⟩, ⟨hf', hk', hm', ht'⟩, hcc, -⟩ := k6 i a ha
    have hlt : i + 1 < jo'.length := by omega
    obtain ⟨l', m', M', f1, g1, f2, g2, f3, f4⟩ := hf.forward2 hf' hcc (he i) (hef i) hN k5.shape (k2 _ (List.getElem_mem hlt))
    rw [layerAt_some ha, bind_ok', World.deref_eq hla, bind_ok', rd_some k4, bind_ok', rd_of_lt hlt, bind_ok', f1, bind_ok']
    rw [layerAt_some ha', bind_ok', World.deref_eq hma, bind_ok', bind_ok', bind_ok', g1, bind_ok']
    dsimp only
    rw [wr_of_lt hlt, bind_ok', bind_ok']
    refine ⟨_, _, rfl, rfl, rfl, World.store_core k0' f3 a, k0, wr_wf (σ := Mat ℝ) k2 f2.shape.1 (wr_of_lt hlt), by simpa using k3,
      ⟨M', List.getElem?_set_self hlt, f2.holds k5⟩, ?_⟩
    refine k6.store (by rw [k0]; exact hd) ha hla hma ⟨⟨f2.fits, f2.kind.trans hk, f2.mark.trans hm, f2.train.trans ht⟩,
      ⟨g2.fits, g2.kind.trans hk', g2.mark.trans hm', g2.train.trans ht'⟩, f3, fun _ => ⟨M, ?_, ?_, ?_, ?_⟩⟩ ?_
    · rw [List.getElem?_set_ne (by omega)]; exact k4
    · exact f2.back ht hm k5
    · exact g2.back ht' hm' k5
    · exact f4 ht hm k5
    · rintro j l₁ m₁ - hji ⟨c1, c1', c1'', c2⟩
      refine ⟨c1, c1', c1'', fun hj => ?_⟩
      obtain ⟨M₁, c3, c4⟩ := c2 (by omega)
      exact ⟨M₁, by rw [List.getElem?_set_ne (by omega)]; exact c3, c4⟩

/-- A layer in two runs after the backward pass. -/
def Learns2 (form : Nat → Form) (kinds : Nat → LayerKind) (i : Nat) (l m : Layer) : Prop :=
  Learns form kinds i l ∧ Learns form kinds i m ∧ m.core = l.core ∧
    ∀ b, (kinds i).parShape b (form i).width (form (i + 1)).width ≠ none → m.grad b = l.grad b

theorem bwdLoop_twin {e f : Nat → Env} {w v : World} (hcore : v.core = w.core) {n d : Nat} {form : Nat → Form} {kinds : Nat → LayerKind} {N : Nat} {io : List (Mat ℝ)}
    (hd : (w.nets n).layers.Nodup) (hc : (w.nets n).layers.length = d)
    (h : OnNet2 w v n (fun i l m => l.Live form kinds i ∧ m.Live form kinds i ∧ ∃ M, io[i]? = some M ∧ l.Back (decide (i = 0)) (form i) (form (i + 1)) N M ∧
        m.Back (decide (i = 0)) (form i) (form (i + 1)) N M ∧ Layer.Back2 (form i) (form (i + 1)) N M l m))
    {gs : List (Mat ℝ)} (hgs : wf gs) (hl : gs.length = d + 1) {G : Mat ℝ} (h0 : gs[d]? = some G) (hG : G.Shape N (form d).width) :
    ∃ w' v' gs', bwdLoop e n d io (w, gs) = .ok (w', gs') ∧ bwdLoop f n d io (v, gs) = .ok (v', gs') ∧ v'.core = w'.core ∧ w'.nets = w.nets ∧ wf gs' ∧ gs'.length = d + 1 ∧
      OnNet2 w' v' n (Learns2 form kinds) := by
  refine (forN_twin (n := d) (s := (w, gs)) (t := (v, gs)) (fun k (r q : World × List (Mat ℝ)) => q.2 = r.2 ∧ q.1.core = r.1.core ∧ r.1.nets = w.nets ∧ wf r.2 ∧ r.2.length = d + 1 ∧
      (k < d → ∃ M, r.2[d - k]? = some M ∧ M.Shape N (form (d - k)).width) ∧
      OnNet2 r.1 q.1 n (fun i l m => (i < d - k → l.Live form kinds i ∧ m.Live form kinds i ∧ ∃ M, io[i]? = some M ∧ l.Back (decide (i = 0)) (form i) (form (i + 1)) N M ∧
        m.Back (decide (i = 0)) (form i) (form (i + 1)) N M ∧ Layer.Back2 (form i) (form (i + 1)) N M l m) ∧
        (d - k ≤ i → Learns2 form kinds i l m)))
    ⟨rfl, hcore, rfl, hgs, hl, fun _ => ⟨G, h0, hG⟩, h.mono fun i a l m hi hp => ⟨fun _ => hp, fun hi' => absurd (lt_of_some hi) (by omega)⟩⟩
    (f := fun k s => do
      let i := d - 1 - k
      let a ← s.1.layerAt n i
      let l ← s.1.deref a
      let x ← rd io i
      let go ← rd s.2 (i + 1)
      let gi ← rd s.2 i
      let (l, gi) ← l.backprop (e i) x go gi
      let gs ← wr s.2 i gi
      return (s.1.store a l, gs))
    (g := fun k s => do
      let i := d - 1 - k
      let a ← s.1.layerAt n i
      let l ← s.1.deref a
      let x ← rd io i
      let go ← rd s.2 (i + 1)
      let gi ← rd s.2 i
      let (l, gi) ← l.backprop (f i) x go gi
      let gs ← wr s.2 i gi
      return (s.1.store a l, gs)) ?_).elim ?_
  rotate_left
  · rintro ⟨w', gs'⟩ ⟨⟨v', gs''⟩, h1, h1', rfl, h2', h2, h3, h4, -, h7⟩
    exact ⟨w', v', _, h1, h1', h2', h2, h3, h4, h7.mono fun i a l m hi hp => hp.2 (by omega)⟩
  · rintro k hk ⟨w', gs''⟩ ⟨v', gs'⟩ ⟨rfl, k0', k0, k2, k3, k4, k6⟩
    dsimp only at *
    have hi : d - 1 - k < d := by omega
    have hi1 : d - 1 - k + 1 = d - k := by omega
    obtain ⟨a, ha⟩ : ∃ a, (w'.nets n).layers[d - 1 - k]? = some a := ⟨_, List.getElem?_eq_getElem (by rw [k0, hc]; exact hi)⟩
    have ha' : (v'.nets n).layers[d - 1 - k]? = some a := by rw [World.core_nets k0']; exact ha
    obtain ⟨l, m, hla, hma, hlive, -⟩ := k6 _ a ha
    obtain ⟨⟨hf, hkk, hm, ht⟩, ⟨hf', hkk', hm', ht'⟩, M, hM, hb, hb', hb2⟩ := hlive (by omega)
    obtain ⟨D, hD, hDs⟩ := k4 hk
    rw [← hi1] at hD hDs
    have hlt : d - 1 - k < gs'.length := by omega
    have hgw := k2 _ (List.getElem_mem hlt)
    obtain ⟨l', m', gi, q1, r1, r2, r3⟩ := hb2 (e (d - 1 - k)) (f (d - 1 - k)) D _ hDs hgw
    obtain ⟨l'', gi₁, s1, q2, q3, q4, q5, q6, q7, q8, q9⟩ := hb (e (d - 1 - k)) D _ hDs hgw
    obtain ⟨m'', gi₂, s1', -, -, q4', q5', q6', q7', q8', q9'⟩ := hb' (f (d - 1 - k)) D _ hDs hgw
    obtain ⟨rfl, rfl⟩ : l' = l'' ∧ gi = gi₁ := by rw [q1] at s1; injection s1 with s1; injection s1 with x y; exact ⟨x, y⟩
    obtain rfl : m' = m'' := by rw [r1] at s1'; injection s1' with s1'; injection s1'
    rw [layerAt_some ha, bind_ok', World.deref_eq hla, bind_ok', rd_some hM, bind_ok', rd_some hD, bind_ok',
      rd_of_lt hlt, bind_ok', q1, bind_ok', layerAt_some ha', bind_ok', World.deref_eq hma, bind_ok', bind_ok', bind_ok', bind_ok', r1, bind_ok']
    dsimp only
    rw [wr_of_lt hlt, bind_ok', bind_ok']
    refine ⟨_, _, rfl, rfl, rfl, World.store_core k0' r2 a, k0, wr_wf (σ := Mat ℝ) k2 q2 (wr_of_lt hlt), by simpa using k3, fun hk' => ⟨gi, ?_, ?_⟩, ?_⟩
    · rw [show d - (k + 1) = d - 1 - k by omega, List.getElem?_set_self hlt]
    · rw [show d - (k + 1) = d - 1 - k by omega]
      exact q3 (by rw [hm]; exact decide_eq_false (by omega))
    · refine k6.store (by rw [k0]; exact hd) ha hla hma ⟨fun h0 => absurd h0 (by omega), fun _ => ⟨⟨⟨q4, q7.trans hkk, q8.trans hm, q9.trans ht⟩, q5, q6⟩,
        ⟨⟨q4', q7'.trans hkk', q8'.trans hm', q9'.trans ht'⟩, q5', q6'⟩, r2, fun b hb => r3 b (by rw [hkk]; exact hb)⟩⟩ ?_
      rintro j l₁ m₁ hj hji ⟨c1, c2⟩
      exact ⟨fun h1 => c1 (by omega), fun h1 => c2 (by omega)⟩

theorem core_setPar {l m : Layer} (h : m.core = l.core) (b : Bool) (W : Mat ℝ) : (m.setPar b W).core = (l.setPar b W).core := by
  obtain ⟨_, _, _, _, _, rfl⟩ := Layer.core_eq h
  cases b <;> rfl

theorem core_setGrad {l m : Layer} (h : m.core = l.core) (b : Bool) (W V : Mat ℝ) : (m.setGrad b W).core = (l.setGrad b V).core := by
  obtain ⟨_, _, _, _, _, rfl⟩ := Layer.core_eq h
  cases b <;> rfl

theorem core_par {l m : Layer} (h : m.core = l.core) (b : Bool) : m.par b = l.par b := by
  cases b
  · exact Layer.core_weight h
  · exact Layer.core_bias h

theorem Learns2.setPar {form : Nat → Form} {kinds : Nat → LayerKind} {i : Nat} {l m : Layer} (h : Learns2 form kinds i l m) {b : Bool} {rc : Nat × Nat}
    (hb : (kinds i).parShape b (form i).width (form (i + 1)).width = some rc) {W : Mat ℝ} (hW : W.Shape rc.1 rc.2) : Learns2 form kinds i (l.setPar b W) (m.setPar b W) :=
  ⟨h.1.setPar hb hW, h.2.1.setPar hb hW, core_setPar h.2.2.1 b W, fun c hc => by rw [setPar_grad, setPar_grad]; exact h.2.2.2 c hc⟩

theorem Learns2.setGrad {form : Nat → Form} {kinds : Nat → LayerKind} {i : Nat} {l m : Layer} (h : Learns2 form kinds i l m) {b : Bool} {rc : Nat × Nat}
    (hb : (kinds i).parShape b (form i).width (form (i + 1)).width = some rc) {D : Mat ℝ} (hD : D.Shape rc.1 rc.2) : Learns2 form kinds i (l.setGrad b D) (m.setGrad b D) := by
  refine ⟨h.1.setGrad hb hD, h.2.1.setGrad hb hD, core_setGrad h.2.2.1 b D D, fun c hc => ?_⟩
  by_cases hcb : c = b
  · subst hcb; rw [grad_setGrad, grad_setGrad]
  · rw [grad_setGrad_ne _ hcb, grad_setGrad_ne _ hcb]; exact h.2.2.2 c hc

theorem optStep_twin (g g' : Nat → ℝ) (ab : ℝ → ℝ) (r : Option Reg) {b : Bool} {w v : World} (hcore : v.core = w.core) {n : Nat} {form : Nat → Form}
    {kinds : Nat → LayerKind} (hd : (w.nets n).layers.Nodup) (h : OnNet2 w v n (Learns2 form kinds)) {i a : Nat} (hi : (w.nets n).layers[i]? = some a) {rc : Nat × Nat}
    (hb : (kinds i).parShape b (form i).width (form (i + 1)).width = some rc) {o : Opt ℝ} (ho : o.Ready rc.1 rc.2) :
    ∃ w' v' o', optStep g ab r b a a o w = .ok (w', o') ∧ optStep g' ab r b a a o v = .ok (v', o') ∧ v'.core = w'.core ∧ w'.nets = w.nets ∧
      OnNet2 w' v' n (Learns2 form kinds) ∧ o'.Ready rc.1 rc.2 := by
  have hreg : ∃ w' v', regStep g r b a a w = .ok w' ∧ regStep g' r b a a v = .ok v' ∧ v'.core = w'.core ∧ w'.nets = w.nets ∧ OnNet2 w' v' n (Learns2 form kinds) := by
    unfold regStep
    cases r with
    | none => exact ⟨w, v, rfl, rfl, hcore, rfl, h⟩
    | some r =>
      obtain ⟨l, m, hla, hma, hL⟩ := h i a hi
      have hpb : l.kind.parShape b (form i).width (form (i + 1)).width = some rc := by rw [hL.1.1.2.1]; exact hb
      have hWs := hL.1.2.1 b rc hpb
      have hDs := hL.1.2.2 b rc hpb
      obtain ⟨W', D', q1, q2, q3⟩ := reg_shape g r hWs hDs
      have q1' : r.apply g' (m.par b) (m.grad b) = .ok (W', D') := by
        rw [core_par hL.2.2.1, hL.2.2.2 b (by rw [hb]; simp), Reg.apply_twin (g' := g) hWs hDs]; exact q1
      have hL' := hL.setPar hb q2
      have hst := World.store_same (l' := l.setPar b W') hla
      have hst' := World.store_same (l' := m.setPar b W') hma
      dsimp only
      rw [World.deref_eq hla, bind_ok', bind_ok', q1, bind_ok', World.deref_eq hma, bind_ok', bind_ok', q1', bind_ok']
      dsimp only
      rw [World.deref_eq hst, bind_ok', World.deref_eq hst', bind_ok']
      refine ⟨_, _, rfl, rfl, ?_, rfl, ?_⟩
      · exact World.store_core (World.store_core hcore hL'.2.2.1 a) (hL'.setGrad hb q3).2.2.1 a
      · exact (h.store hd hi hla hma hL' fun _ _ _ _ _ hp => hp).store hd hi hst hst' (hL'.setGrad hb q3) fun _ _ _ _ _ hp => hp
  obtain ⟨w₁, v₁, r1, r1', r0, r2, r3⟩ := hreg
  have hi₁ : (w₁.nets n).layers[i]? = some a := by rw [r2]; exact hi
  obtain ⟨l, m, hla, hma, hL⟩ := r3 i a hi₁
  have hpb : l.kind.parShape b (form i).width (form (i + 1)).width = some rc := by rw [hL.1.1.2.1]; exact hb
  have hWs := hL.1.2.1 b rc hpb
  have hDs := hL.1.2.2 b rc hpb
  obtain ⟨W, hW⟩ := hWs.exists_ofFn
  obtain ⟨D, hD⟩ := hDs.exists_ofFn
  obtain ⟨o', V, q1, q2, -⟩ := ho.optimize g ab W D
  rw [← hW, ← hD] at q1
  have q1' : o.optimize g' Real.sqrt ab (m.par b) (m.grad b) = .ok (o', Mat.ofFn rc.1 rc.2 V) := by
    rw [core_par hL.2.2.1, hL.2.2.2 b (by rw [hb]; simp), Opt.optimize_twin (g' := g) ho.1 hWs.1 hDs.1]; exact q1
  have hL' := hL.setPar hb (Mat.shape_ofFn _ _ V)
  refine ⟨w₁.store a (l.setPar b (Mat.ofFn rc.1 rc.2 V)), v₁.store a (m.setPar b (Mat.ofFn rc.1 rc.2 V)), o', ?_, ?_, World.store_core r0 hL'.2.2.1 a, r2, ?_, q2⟩
  · unfold optStep
    rw [r1, bind_ok', World.deref_eq hla, bind_ok', bind_ok', q1, bind_ok']
    rfl
  · unfold optStep
    rw [r1', bind_ok', World.deref_eq hma, bind_ok', bind_ok', q1', bind_ok']
    rfl
  · exact r3.store (by rw [r2]; exact hd) hi₁ hla hma hL' fun _ _ _ _ _ hp => hp

theorem optLoop_twin {e f : Nat → Env} {ab : ℝ → ℝ} {r : Option Reg} {b : Bool} {w v : World} (hcore : v.core = w.core) {n : Nat} {form : Nat → Form}
    {kinds : Nat → LayerKind} (hd : (w.nets n).layers.Nodup) (h : OnNet2 w v n (Learns2 form kinds)) {ps : List Nat} {off : Nat} {os : List (Opt ℝ)}
    (hp : PtrsFit w n form kinds b ps off os) :
    ∃ w' v' os', optLoop e ab r b ps ps off (w, os) = .ok (w', os') ∧ optLoop f ab r b ps ps off (v, os) = .ok (v', os') ∧ v'.core = w'.core ∧ w'.nets = w.nets ∧
      OnNet2 w' v' n (Learns2 form kinds) ∧ PtrsFit w n form kinds b ps off os' ∧ ∀ k, k < off ∨ off + ps.length ≤ k → os'[k]? = os[k]? := by
  refine (forN_twin (n := ps.length) (s := (w, os)) (t := (v, os)) (fun k (q q' : World × List (Opt ℝ)) => q'.2 = q.2 ∧ q'.1.core = q.1.core ∧ q.1.nets = w.nets ∧
      OnNet2 q.1 q'.1 n (Learns2 form kinds) ∧
      PtrsFit w n form kinds b ps off q.2 ∧ ∀ k, k < off ∨ off + ps.length ≤ k → q.2[k]? = os[k]?) ⟨rfl, hcore, rfl, h, hp, fun _ _ => rfl⟩
    (f := fun i s => do
      let a ← rd ps i
      let a' ← rd ps i
      let o ← rd s.2 (i + off)
      let (w, o) ← optStep (e i).g ab r b a a' o s.1
      let os ← wr s.2 (i + off) o
      return (w, os))
    (g := fun i s => do
      let a ← rd ps i
      let a' ← rd ps i
      let o ← rd s.2 (i + off)
      let (w, o) ← optStep (f i).g ab r b a a' o s.1
      let os ← wr s.2 (i + off) o
      return (w, os)) ?_).elim ?_
  rotate_left
  · rintro ⟨w', os'⟩ ⟨⟨v', os''⟩, h1, h1', rfl, h2⟩
    exact ⟨w', v', _, h1, h1', h2⟩
  · rintro j hj ⟨w', os''⟩ ⟨v', os'⟩ ⟨rfl, k0, k1, k2, k3, k4⟩
    dsimp only at *
    have hja : ps[j]? = some ps[j] := List.getElem?_eq_getElem hj
    generalize ps[j] = a at hja
    obtain ⟨i, rc, c1, c2, o, c3, c4⟩ := k3 j a hja
    obtain ⟨w₁, v₁, o', q1, q1', q0, q2, q3, q4⟩ := optStep_twin (e j).g (f j).g ab r k0 (by rw [k1]; exact hd) k2 (by rw [k1]; exact c1) c2 c4
    have hlt : j + off < os'.length := lt_of_some c3
    rw [rd_some hja, bind_ok', bind_ok', rd_some c3, bind_ok', q1, bind_ok', bind_ok', bind_ok', bind_ok', q1', bind_ok']
    dsimp only
    rw [wr_of_lt hlt, bind_ok', bind_ok']
    refine ⟨_, _, rfl, rfl, rfl, q0, q2.trans k1, q3, ?_, ?_⟩
    · intro j' a' hj'
      by_cases hjj : j' = j
      · subst hjj
        obtain rfl : a = a' := by have := hja.symm.trans hj'; injection this
        exact ⟨i, rc, c1, c2, o', List.getElem?_set_self hlt, q4⟩
      · obtain ⟨i₁, rc₁, d1, d2, o₁, d3, d4⟩ := k3 j' a' hj'
        exact ⟨i₁, rc₁, d1, d2, o₁, by rw [List.getElem?_set_ne (by omega)]; exact d3, d4⟩
    · intro k hk
      dsimp only
      rw [List.getElem?_set_ne (by omega)]
      exact k4 k hk

end Trainer

end BeeDNN
