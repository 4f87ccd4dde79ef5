import Verif.Lemmas.FitsAll
import Verif.Lemmas.MlpBatch
import Verif.Props.Regularizer

/-! # Sizes: one batch -/

namespace BeeDNN
open Finset HasWF

/-- Every layer of the network has the property. -/
def OnNet (w : World) (n : Nat) (P : Nat → Layer → Prop) : Prop :=
  ∀ i a, (w.nets n).layers[i]? = some a → ∃ l : Layer, w.heap[a]? = some (some l) ∧ P i l

theorem OnNet.mono {w : World} {n : Nat} {P Q : Nat → Layer → Prop} (h : OnNet w n P)
    (hpq : ∀ i a l, (w.nets n).layers[i]? = some a → w.heap[a]? = some (some l) → P i l → Q i l) : OnNet w n Q := by
  intro i a hi
  obtain ⟨l, h1, h2⟩ := h i a hi
  exact ⟨l, h1, hpq i a l hi h1 h2⟩

theorem OnNet.at {w : World} {n : Nat} {P : Nat → Layer → Prop} (h : OnNet w n P) {i a : Nat} {l : Layer} (hi : (w.nets n).layers[i]? = some a)
    (hl : w.heap[a]? = some (some l)) : P i l := by
  obtain ⟨l', h1, h2⟩ := h i a hi
  rw [hl] at h1
  obtain rfl : l = l' := by injection h1 with h1; injection h1
  exact h2

theorem OnNet.store {w : World} {n : Nat} {P Q : Nat → Layer → Prop} (h : OnNet w n P) (hd : (w.nets n).layers.Nodup) {i a : Nat} {l l' : Layer}
    (hi : (w.nets n).layers[i]? = some a) (hla : w.heap[a]? = some (some l)) (hq : Q i l')
    (ho : ∀ j l₁, j < (w.nets n).layers.length → j ≠ i → P j l₁ → Q j l₁) : OnNet (w.store a l') n Q := by
  intro j b hj
  have hj' : (w.nets n).layers[j]? = some b := hj
  by_cases hba : b = a
  · subst hba
    obtain rfl : i = j := (List.getElem?_inj (lt_of_some hi) hd).mp (hi.trans hj'.symm)
    exact ⟨l', World.store_same hla, hq⟩
  · obtain ⟨l₁, k1, k2⟩ := h j b hj'
    refine ⟨l₁, (World.store_other _ hba).trans k1, ho j l₁ (lt_of_some hj') ?_ k2⟩
    rintro rfl
    exact hba (by have := hj'.symm.trans hi; injection this)

/-- A layer of a network in training. -/
def Layer.Live (form : Nat → Form) (kinds : Nat → LayerKind) (i : Nat) (l : Layer) : Prop :=
  l.Fits (decide (i = 0)) (form i) (form (i + 1)) ∧ l.kind = kinds i ∧ l.first = decide (i = 0) ∧ l.train = true

namespace Trainer

theorem fwdLoop_fits {e : Nat → Env} (he : ∀ i, (e i).Exact) {w : World} {n d : Nat} {form : Nat → Form} {kinds : Nat → LayerKind}
    (hd : (w.nets n).layers.Nodup) (hc : (w.nets n).layers.length = d) (h : OnNet w n (Layer.Live form kinds))
    {io : List (Mat ℝ)} (hio : wf io) (hl : io.length = d + 1) {N : Nat} (hN : 0 < N) {X : Mat ℝ} (h0 : io[0]? = some X) (hX : (form 0).Holds N X) :
    ∃ w' io', fwdLoop e n d (w, io) = .ok (w', io') ∧ w'.nets = w.nets ∧ wf io' ∧ io'.length = d + 1 ∧
      (∃ M, io'[d]? = some M ∧ M.Shape N (form d).width) ∧
      OnNet w' n (fun i l => l.Live form kinds i ∧ ∃ M, io'[i]? = some M ∧ l.Back (decide (i = 0)) (form i) (form (i + 1)) N M) := by
  refine (forN_inv (n := d) (s := (w, io)) (fun k (r : World × List (Mat ℝ)) => r.1.nets = w.nets ∧ wf r.2 ∧ r.2.length = d + 1 ∧
      (∃ M, r.2[k]? = some M ∧ (form k).Holds N M) ∧
      OnNet r.1 n (fun i l => l.Live form kinds i ∧ (i < k → ∃ M, r.2[i]? = some M ∧ l.Back (decide (i = 0)) (form i) (form (i + 1)) N M)))
    ⟨rfl, hio, hl, ⟨X, h0, hX⟩, h.mono fun i a l _ _ hp => ⟨hp, fun hi => absurd hi (Nat.not_lt_zero i)⟩⟩
    (f := fun i s => do
      let a ← s.1.layerAt n i
      let l ← s.1.deref a
      let x ← rd s.2 i
      let o ← rd s.2 (i + 1)
      let (l, o) ← l.forward (e i) x o
      let io ← wr s.2 (i + 1) o
      return (s.1.store a l, io)) ?_).elim ?_
  rotate_left
  · rintro ⟨w', io'⟩ ⟨h1, h2, h3, h4, ⟨M, h5, h6⟩, h7⟩
    refine ⟨w', io', h1, h2, h3, h4, ⟨M, h5, h6.shape⟩, h7.mono fun i a l hi _ hp => ⟨hp.1, hp.2 ?_⟩⟩
    dsimp only at h2
    rw [h2] at hi
    rw [← hc]
    exact lt_of_some hi
  · rintro i hi ⟨w', io'⟩ ⟨k0, k2, k3, ⟨M, k4, k5⟩, k6⟩
    dsimp only at *
    obtain ⟨a, ha⟩ : ∃ a, (w'.nets n).layers[i]? = some a := ⟨_, List.getElem?_eq_getElem (by rw [k0, hc]; exact hi)⟩
    obtain ⟨l, hla, ⟨hf, hk, hm, ht⟩, -⟩ := k6 i a ha
    have hlt : i + 1 < io'.length := by omega
    obtain ⟨l', M', f1, f2⟩ := hf.forward (he i) hN k5.shape (k2 _ (List.getElem_mem hlt))
    rw [layerAt_some ha, bind_ok', World.deref_eq hla, bind_ok', rd_some k4, bind_ok', rd_of_lt hlt, bind_ok', f1, bind_ok']
    dsimp only
    rw [wr_of_lt hlt, bind_ok']
    refine ⟨_, rfl, k0, wr_wf (σ := Mat ℝ) k2 f2.shape.1 (wr_of_lt hlt), by simpa using k3, ⟨M', List.getElem?_set_self hlt, f2.holds k5⟩, ?_⟩
    refine k6.store (by rw [k0]; exact hd) ha hla ⟨⟨f2.fits, f2.kind.trans hk, f2.mark.trans hm, f2.train.trans ht⟩, fun _ => ⟨M, ?_, ?_⟩⟩ ?_
    · rw [List.getElem?_set_ne (by omega)]; exact k4
    · exact f2.back ht hm k5
    · rintro j l₁ - hji ⟨c1, c2⟩
      refine ⟨c1, fun hj => ?_⟩
      obtain ⟨M₁, c3, c4⟩ := c2 (by omega)
      exact ⟨M₁, by rw [List.getElem?_set_ne (by omega)]; exact c3, c4⟩

theorem bwdLoop_fits {e : Nat → Env} {w : World} {n d : Nat} {form : Nat → Form} {kinds : Nat → LayerKind} {N : Nat} {io : List (Mat ℝ)}
    (hd : (w.nets n).layers.Nodup) (hc : (w.nets n).layers.length = d)
    (h : OnNet w n (fun i l => l.Live form kinds i ∧ ∃ M, io[i]? = some M ∧ l.Back (decide (i = 0)) (form i) (form (i + 1)) N M))
    {gs : List (Mat ℝ)} (hgs : wf gs) (hl : gs.length = d + 1) {G : Mat ℝ} (h0 : gs[d]? = some G) (hG : G.Shape N (form d).width) :
    ∃ w' gs', bwdLoop e n d io (w, gs) = .ok (w', gs') ∧ w'.nets = w.nets ∧ wf gs' ∧ gs'.length = d + 1 ∧
      OnNet w' n (fun i l => l.Live form kinds i ∧ l.Full (form i) (form (i + 1)) ∧ l.Graded (form i) (form (i + 1))) := by
  refine (forN_inv (n := d) (s := (w, gs)) (fun k (r : World × List (Mat ℝ)) => r.1.nets = w.nets ∧ wf r.2 ∧ r.2.length = d + 1 ∧
      (k < d → ∃ M, r.2[d - k]? = some M ∧ M.Shape N (form (d - k)).width) ∧
      OnNet r.1 n (fun i l => l.Live form kinds i ∧ (i < d - k → ∃ M, io[i]? = some M ∧ l.Back (decide (i = 0)) (form i) (form (i + 1)) N M) ∧
        (d - k ≤ i → l.Full (form i) (form (i + 1)) ∧ l.Graded (form i) (form (i + 1)))))
    ⟨rfl, hgs, hl, fun _ => ⟨G, h0, hG⟩, h.mono fun i a l hi _ hp => ⟨hp.1, fun _ => hp.2, fun hi' => absurd (lt_of_some hi) (by omega)⟩⟩
    (f := fun k s => do
      let i := d - 1 - k
      let a ← s.1.layerAt n i
      let l ← s.1.deref a
      let x ← rd io i
      let go ← rd s.2 (i + 1)
      let gi ← rd s.2 i
      let (l, gi) ← l.backprop (e i) x go gi
      let gs ← wr s.2 i gi
      return (s.1.store a l, gs)) ?_).elim ?_
  rotate_left
  · rintro ⟨w', gs'⟩ ⟨h1, h2, h3, h4, -, h7⟩
    exact ⟨w', gs', h1, h2, h3, h4, h7.mono fun i a l hi _ hp => ⟨hp.1, hp.2.2 (by omega)⟩⟩
  · rintro k hk ⟨w', gs'⟩ ⟨k0, k2, k3, k4, k6⟩
    dsimp only at *
    have hi : d - 1 - k < d := by omega
    have hi1 : d - 1 - k + 1 = d - k := by omega
    obtain ⟨a, ha⟩ : ∃ a, (w'.nets n).layers[d - 1 - k]? = some a := ⟨_, List.getElem?_eq_getElem (by rw [k0, hc]; exact hi)⟩
    obtain ⟨l, hla, ⟨hf, hkk, hm, ht⟩, hbk, -⟩ := k6 _ a ha
    obtain ⟨M, hM, hb⟩ := hbk (by omega)
    obtain ⟨D, hD, hDs⟩ := k4 hk
    rw [← hi1] at hD hDs
    have hlt : d - 1 - k < gs'.length := by omega
    obtain ⟨l', gi, q1, q2, q3, q4, q5, q6, q7, q8, q9⟩ := hb (e (d - 1 - k)) D _ hDs (k2 _ (List.getElem_mem hlt))
    rw [layerAt_some ha, bind_ok', World.deref_eq hla, bind_ok', rd_some hM, bind_ok', rd_some hD, bind_ok',
      rd_of_lt hlt, bind_ok', q1, bind_ok']
    dsimp only
    rw [wr_of_lt hlt, bind_ok']
    refine ⟨_, rfl, k0, wr_wf (σ := Mat ℝ) k2 q2 (wr_of_lt hlt), by simpa using k3, fun hk' => ⟨gi, ?_, ?_⟩, ?_⟩
    · rw [show d - (k + 1) = d - 1 - k by omega, List.getElem?_set_self hlt]
    · rw [show d - (k + 1) = d - 1 - k by omega]
      exact q3 (by rw [hm]; exact decide_eq_false (by omega))
    · refine k6.store (by rw [k0]; exact hd) ha hla ⟨⟨q4, q7.trans hkk, q8.trans hm, q9.trans ht⟩, fun h0 => absurd h0 (by omega), fun _ => ⟨q5, q6⟩⟩ ?_
      rintro j l₁ hj hji ⟨c1, c2, c3⟩
      exact ⟨c1, fun h1 => c2 (by omega), fun h1 => c3 (by omega)⟩

/-- Regularizers keep the sizes. -/
theorem reg_shape (g : Nat → ℝ) (r : Reg) {W D : Mat ℝ} {R C : Nat} (hW : W.Shape R C) (hD : D.Shape R C) :
    ∃ W' D', r.apply g W D = .ok (W', D') ∧ W'.Shape R C ∧ D'.Shape R C := by
  obtain ⟨w, rfl⟩ := hW.exists_ofFn
  obtain ⟨d, rfl⟩ := hD.exists_ofFn
  obtain ⟨k, p⟩ := r
  cases k
  case none => exact ⟨_, _, rfl, Mat.shape_ofFn _ _ _, Mat.shape_ofFn _ _ _⟩
  case l1 => exact ⟨_, _, reg_l1 .., Mat.shape_ofFn _ _ _, Mat.shape_ofFn _ _ _⟩
  case l2 => exact ⟨_, _, reg_l2 .., Mat.shape_ofFn _ _ _, Mat.shape_ofFn _ _ _⟩
  case l1l2 => exact ⟨_, _, reg_l1l2 .., Mat.shape_ofFn _ _ _, Mat.shape_ofFn _ _ _⟩
  case gradientClip =>
    refine ⟨Mat.ofFn R C w, Mat.ofFn R C (fun i j => if p < d i j then p else if d i j < -p then -p else d i j), ?_, Mat.shape_ofFn _ _ _, Mat.shape_ofFn _ _ _⟩
    simp only [Reg.apply, Mat.ofFn_eq_flat, Mat.clamp_flat, bind_ok', pure_ok]
  case gradientNormClip =>
    simp only [Reg.apply, Mat.squaredNorm_ofFn, bind_ok', pure_ok, normClip]
    split
    · simp only [Mat.divScalar_ofFn', Mat.scale_ofFn, bind_ok', Mat.assign_ofFn g (Mat.ofFn_WF _ _ _)]
      exact ⟨_, _, rfl, Mat.shape_ofFn _ _ _, Mat.shape_ofFn _ _ _⟩
    · exact ⟨_, _, rfl, Mat.shape_ofFn _ _ _, Mat.shape_ofFn _ _ _⟩
  case gradientClipTanh =>
    simp only [Reg.apply, Mat.scale_ofFn, Mat.cwise_ofFn, bind_ok', Mat.assign_ofFn g (Mat.ofFn_WF _ _ _), pure_ok]
    exact ⟨_, _, rfl, Mat.shape_ofFn _ _ _, Mat.shape_ofFn _ _ _⟩

/-- A layer whose parameters and gradients have their sizes. -/
def Learns (form : Nat → Form) (kinds : Nat → LayerKind) (i : Nat) (l : Layer) : Prop :=
  l.Live form kinds i ∧ l.Full (form i) (form (i + 1)) ∧ l.Graded (form i) (form (i + 1))

theorem parShape_uses {k : LayerKind} {b : Bool} {C C' : Nat} {rc : Nat × Nat} (h : k.parShape b C C' = some rc) : uses b k = true := by
  cases k <;> cases b <;> first | rfl | (simp [LayerKind.parShape] at h)

theorem par_setPar (l : Layer) (b : Bool) (m : Mat ℝ) : (l.setPar b m).par b = m := by cases b <;> rfl
theorem par_setPar_ne (l : Layer) {b c : Bool} (h : c ≠ b) (m : Mat ℝ) : (l.setPar b m).par c = l.par c := by
  cases b <;> cases c <;> first | rfl | exact absurd rfl h
theorem grad_setGrad (l : Layer) (b : Bool) (m : Mat ℝ) : (l.setGrad b m).grad b = m := by cases b <;> rfl
theorem grad_setGrad_ne (l : Layer) {b c : Bool} (h : c ≠ b) (m : Mat ℝ) : (l.setGrad b m).grad c = l.grad c := by
  cases b <;> cases c <;> first | rfl | exact absurd rfl h
theorem par_setGrad (l : Layer) (b c : Bool) (m : Mat ℝ) : (l.setGrad b m).par c = l.par c := by cases b <;> cases c <;> rfl

theorem Learns.setPar {form : Nat → Form} {kinds : Nat → LayerKind} {i : Nat} {l : Layer} (h : Learns form kinds i l) {b : Bool} {rc : Nat × Nat}
    (hb : (kinds i).parShape b (form i).width (form (i + 1)).width = some rc) {m : Mat ℝ} (hm : m.Shape rc.1 rc.2) : Learns form kinds i (l.setPar b m) := by
  obtain ⟨⟨h1, h2, h3, h4⟩, h5, h6⟩ := h
  have hk : (l.setPar b m).kind = l.kind := setPar_kind ..
  have hkeep : l.Keep (l.setPar b m) := ⟨setPar_valid h1.valid hm.1 (parShape_uses (by rw [h2]; exact hb)), hk, setPar_train .., setPar_first .., by cases b <;> rfl⟩
  have hfull : (l.setPar b m).Full (form i) (form (i + 1)) := by
    intro c rc' hc
    rw [hk] at hc
    by_cases hcb : c = b
    · subst hcb
      rw [h2, hb] at hc
      injection hc with hc
      subst hc
      rw [par_setPar]
      exact hm
    · rw [par_setPar_ne _ hcb]
      exact h5 c rc' hc
  have hgr : (l.setPar b m).Graded (form i) (form (i + 1)) := by
    intro c rc' hc
    rw [hk] at hc
    rw [setPar_grad]
    exact h6 c rc' hc
  exact ⟨⟨h1.update hkeep hfull fun _ => hgr, hk.trans h2, (setPar_first ..).trans h3, (setPar_train ..).trans h4⟩, hfull, hgr⟩

theorem Learns.setGrad {form : Nat → Form} {kinds : Nat → LayerKind} {i : Nat} {l : Layer} (h : Learns form kinds i l) {b : Bool} {rc : Nat × Nat}
    (hb : (kinds i).parShape b (form i).width (form (i + 1)).width = some rc) {m : Mat ℝ} (hm : m.Shape rc.1 rc.2) : Learns form kinds i (l.setGrad b m) := by
  obtain ⟨⟨h1, h2, h3, h4⟩, h5, h6⟩ := h
  have hk : (l.setGrad b m).kind = l.kind := setGrad_kind ..
  have hkeep : l.Keep (l.setGrad b m) := ⟨setGrad_valid h1.valid hm.1, hk, setGrad_train .., setGrad_first .., by cases b <;> rfl⟩
  have hfull : (l.setGrad b m).Full (form i) (form (i + 1)) := by
    intro c rc' hc
    rw [hk] at hc
    rw [par_setGrad]
    exact h5 c rc' hc
  have hgr : (l.setGrad b m).Graded (form i) (form (i + 1)) := by
    intro c rc' hc
    rw [hk] at hc
    by_cases hcb : c = b
    · subst hcb
      rw [h2, hb] at hc
      injection hc with hc
      subst hc
      rw [grad_setGrad]
      exact hm
    · rw [grad_setGrad_ne _ hcb]
      exact h6 c rc' hc
  exact ⟨⟨h1.update hkeep hfull fun _ => hgr, hk.trans h2, (setGrad_first ..).trans h3, (setGrad_train ..).trans h4⟩, hfull, hgr⟩

theorem optStep_fits (g : Nat → ℝ) (ab : ℝ → ℝ) (r : Option Reg) {b : Bool} {w : World} {n : Nat} {form : Nat → Form} {kinds : Nat → LayerKind}
    (hd : (w.nets n).layers.Nodup) (h : OnNet w n (Learns form kinds)) {i a : Nat} (hi : (w.nets n).layers[i]? = some a) {rc : Nat × Nat}
    (hb : (kinds i).parShape b (form i).width (form (i + 1)).width = some rc) {o : Opt ℝ} (ho : o.Ready rc.1 rc.2) :
    ∃ w' o', optStep g ab r b a a o w = .ok (w', o') ∧ w'.nets = w.nets ∧ OnNet w' n (Learns form kinds) ∧ o'.Ready rc.1 rc.2 := by
  have hreg : ∃ w', regStep g r b a a w = .ok w' ∧ w'.nets = w.nets ∧ OnNet w' n (Learns form kinds) := by
    unfold regStep
    cases r with
    | none => exact ⟨w, rfl, rfl, h⟩
    | some r =>
      obtain ⟨l, hla, hL⟩ := h i a hi
      have hpb : l.kind.parShape b (form i).width (form (i + 1)).width = some rc := by rw [hL.1.2.1]; exact hb
      obtain ⟨W', D', q1, q2, q3⟩ := reg_shape g r (hL.2.1 b rc hpb) (hL.2.2 b rc hpb)
      have hL' := hL.setPar hb q2
      have hst := World.store_same (l' := l.setPar b W') hla
      dsimp only
      rw [World.deref_eq hla, bind_ok', bind_ok', q1, bind_ok']
      dsimp only
      rw [World.deref_eq hst, bind_ok']
      refine ⟨_, rfl, rfl, ?_⟩
      exact (h.store hd hi hla hL' fun _ _ _ _ hp => hp).store hd hi hst (hL'.setGrad hb q3) fun _ _ _ _ hp => hp
  obtain ⟨w₁, r1, r2, r3⟩ := hreg
  have hi₁ : (w₁.nets n).layers[i]? = some a := by rw [r2]; exact hi
  obtain ⟨l, hla, hL⟩ := r3 i a hi₁
  have hpb : l.kind.parShape b (form i).width (form (i + 1)).width = some rc := by rw [hL.1.2.1]; exact hb
  obtain ⟨W, hW⟩ := (hL.2.1 b rc hpb).exists_ofFn
  obtain ⟨D, hD⟩ := (hL.2.2 b rc hpb).exists_ofFn
  obtain ⟨o', V, q1, q2, -⟩ := ho.optimize g ab W D
  refine ⟨w₁.store a (l.setPar b (Mat.ofFn rc.1 rc.2 V)), o', ?_, r2, ?_, q2⟩
  · unfold optStep
    rw [r1, bind_ok', World.deref_eq hla, bind_ok', bind_ok', hW, hD, q1, bind_ok']
    rfl
  · exact r3.store (by rw [r2]; exact hd) hi₁ hla (hL.setPar hb (Mat.shape_ofFn _ _ _)) fun _ _ _ _ hp => hp

/-- The pointers are to parameters of the network, and the optimizers fit. -/
def PtrsFit (w : World) (n : Nat) (form : Nat → Form) (kinds : Nat → LayerKind) (b : Bool) (ps : List Nat) (off : Nat) (os : List (Opt ℝ)) : Prop :=
  ∀ j a, ps[j]? = some a → ∃ i rc, (w.nets n).layers[i]? = some a ∧ (kinds i).parShape b (form i).width (form (i + 1)).width = some rc ∧
    ∃ o, os[j + off]? = some o ∧ o.Ready rc.1 rc.2

theorem optLoop_fits {e : Nat → Env} {ab : ℝ → ℝ} {r : Option Reg} {b : Bool} {w : World} {n : Nat} {form : Nat → Form} {kinds : Nat → LayerKind}
    (hd : (w.nets n).layers.Nodup) (h : OnNet w n (Learns form kinds)) {ps : List Nat} {off : Nat} {os : List (Opt ℝ)}
    (hp : PtrsFit w n form kinds b ps off os) :
    ∃ w' os', optLoop e ab r b ps ps off (w, os) = .ok (w', os') ∧ w'.nets = w.nets ∧ OnNet w' n (Learns form kinds) ∧
      PtrsFit w n form kinds b ps off os' ∧ ∀ k, k < off ∨ off + ps.length ≤ k → os'[k]? = os[k]? := by
  refine (forN_inv (n := ps.length) (s := (w, os)) (fun k (q : World × List (Opt ℝ)) => q.1.nets = w.nets ∧ OnNet q.1 n (Learns form kinds) ∧
      PtrsFit w n form kinds b ps off q.2 ∧ ∀ k, k < off ∨ off + ps.length ≤ k → q.2[k]? = os[k]?) ⟨rfl, h, hp, fun _ _ => rfl⟩
    (f := fun i s => do
      let a ← rd ps i
      let a' ← rd ps i
      let o ← rd s.2 (i + off)
      let (w, o) ← optStep (e i).g ab r b a a' o s.1
      let os ← wr s.2 (i + off) o
      return (w, os)) ?_).elim ?_
  rotate_left
  · rintro ⟨w', os'⟩ ⟨h1, h2⟩
    exact ⟨w', os', h1, h2⟩
  · rintro j hj ⟨w', os'⟩ ⟨k1, k2, k3, k4⟩
    dsimp only at *
    have hja : ps[j]? = some ps[j] := List.getElem?_eq_getElem hj
    generalize ps[j] = a at hja
    obtain ⟨i, rc, c1, c2, o, c3, c4⟩ := k3 j a hja
    obtain ⟨w₁, o', q1, q2, q3, q4⟩ := optStep_fits (e j).g ab r (by rw [k1]; exact hd) k2 (by rw [k1]; exact c1) c2 c4
    have hlt : j + off < os'.length := lt_of_some c3
    rw [rd_some hja, bind_ok', bind_ok', rd_some c3, bind_ok', q1, bind_ok']
    dsimp only
    rw [wr_of_lt hlt, bind_ok']
    refine ⟨_, rfl, q2.trans k1, q3, ?_, ?_⟩
    · intro j' a' hj'
      by_cases hjj : j' = j
      · subst hjj
        obtain rfl : a = a' := by have := hja.symm.trans hj'; injection this
        exact ⟨i, rc, c1, c2, o', List.getElem?_set_self hlt, q4⟩
      · obtain ⟨i₁, rc₁, d1, d2, o₁, d3, d4⟩ := k3 j' a' hj'
        exact ⟨i₁, rc₁, d1, d2, o₁, by rw [List.getElem?_set_ne (by omega)]; exact d3, d4⟩
    · intro k hk
      dsimp only
      rw [List.getElem?_set_ne (by omega)]
      exact k4 k hk

end Trainer

end BeeDNN
