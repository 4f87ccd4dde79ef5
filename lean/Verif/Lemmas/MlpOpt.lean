import Verif.Lemmas.Mlp
import Verif.Lemmas.PlyGrad
import Verif.Lemmas.RegGrad

/-! # Training a perceptron: the optimizers -/

namespace BeeDNN
open Finset HasWF

/-- The optimizer is fresh, or was used for a parameter of this shape. -/
def Opt.Ready (o : Opt ℝ) (R C : Nat) : Prop := o.WF ∧ (o.Fresh ∨ ∃ (t : Nat) (s : Nat → Nat → Coord ℝ), o.Tracks R C t s)

theorem Opt.Ready.optimize {o : Opt ℝ} {R C : Nat} (h : o.Ready R C) (g : Nat → ℝ) (ab : ℝ → ℝ) (W D : Nat → Nat → ℝ) :
    ∃ (o' : Opt ℝ) (V : Nat → Nat → ℝ), o.optimize g Real.sqrt ab (Mat.ofFn R C W) (Mat.ofFn R C D) = .ok (o', Mat.ofFn R C V) ∧
      o'.Ready R C ∧ o'.kind = o.kind ∧ o'.hyper = o.hyper ∧ (o.kind = .sgd → V = fun i j => W i j - o.lr * D i j) := by
  obtain ⟨hwf, hf | ⟨t, s, ht⟩⟩ := h
  · have hp := Opt.Fresh.prep g hwf hf R C W D
    obtain ⟨o', h1, h2, h3, h4, h5⟩ := Opt.optimize_prep g Real.sqrt ab o R C 0 D _ hwf hp
    have hw : (fun i j => (Coord.fresh o.kind (W i j) (D i j)).w) = W := by
      funext i j
      unfold Coord.fresh
      split <;> rfl
    rw [hw] at h1
    refine ⟨o', _, h1, ⟨h2, .inr ⟨_, _, h5⟩⟩, h3, h4, fun hk => ?_⟩
    funext i j
    rw [hk]
    rfl
  · have ht' : o.Tracks R C t (fun i j => { s i j with w := W i j }) := ht
    obtain ⟨o', h1, h2, h3, h4, h5⟩ := Opt.optimize_prep g Real.sqrt ab o R C t D _ hwf (ht'.prep g D)
    refine ⟨o', _, h1, ⟨h2, .inr ⟨_, _, h5⟩⟩, h3, h4, fun hk => ?_⟩
    funext i j
    rw [hk]
    rfl

theorem Ply.is_par {p : Ply} {C C' : Nat} {l : Layer} (h : p.Is C C' l) {b : Bool} (hb : p.has b = true) :
    l.par b = Mat.ofFn (p.kind.shape b C C').1 (p.kind.shape b C C').2 (p.par b) := by
  cases b
  · exact h.weight hb
  · exact h.bias hb

theorem Ply.is_setPar {p : Ply} {C C' : Nat} {l : Layer} (h : p.Is C C' l) {b : Bool} (V : Nat → Nat → ℝ) :
    (p.setPar b V).Is C C' (l.setPar b (Mat.ofFn (p.kind.shape b C C').1 (p.kind.shape b C C').2 V)) := by
  cases b
  · exact ⟨h.kind, fun _ => rfl, h.bias⟩
  · exact ⟨h.kind, h.weight, fun _ => rfl⟩

theorem Ply.is_uses {p : Ply} {C C' : Nat} {l : Layer} (h : p.Is C C' l) {b : Bool} (hb : p.has b = true) :
    Trainer.uses b l.kind = true := by
  obtain ⟨k, W, B⟩ := p
  have hk := h.kind
  cases k <;> cases b <;> simp only [Ply.has, PlyKind.has, Bool.not_true, Bool.false_eq_true] at hb <;>
    simp only [PlyKind.Of] at hk <;> (try obtain ⟨i, o, hk⟩ := hk) <;> (try obtain ⟨p, _, hk⟩ := hk) <;> rw [hk] <;> rfl

@[simp] theorem Ply.has_setPar (p : Ply) (b c : Bool) (V : Nat → Nat → ℝ) : (p.setPar b V).has c = p.has c := by
  cases b <;> rfl

@[simp] theorem Ply.kind_setPar (p : Ply) (b : Bool) (V : Nat → Nat → ℝ) : (p.setPar b V).kind = p.kind := by
  cases b <;> rfl

theorem Ply.par_setPar_other (p : Ply) (b : Bool) (V : Nat → Nat → ℝ) : (p.setPar b V).par (!b) = p.par (!b) := by
  cases b <;> rfl

/-- The perceptron with other biases or weights in all layers. -/
def Mlp.setAll (m : Mlp) (b : Bool) (V : Nat → Nat → Nat → ℝ) : Mlp := { m with ply := fun i => (m.ply i).setPar b (V i) }

theorem Mlp.Ok.setAll {m : Mlp} (h : m.Ok) (b : Bool) (V : Nat → Nat → Nat → ℝ) : (m.setAll b V).Ok :=
  ⟨h.depth, h.pos, fun i hi => by simpa [Mlp.setAll] using h.fits i hi⟩

/-- Pointers to all biases or weights of the network, each once. -/
structure PtrsTo (b : Bool) (as : List Nat) (m : Mlp) (ps : List Nat) : Prop where
  nodup : ps.Nodup
  sub : ∀ a ∈ ps, a ∈ as
  mem : ∀ i a, as[i]? = some a → (a ∈ ps ↔ (m.ply i).has b = true)

namespace Trainer

theorem setPar_first (l : Layer) (b : Bool) (m : Mat ℝ) : (l.setPar b m).first = l.first := by
  unfold Layer.setPar; cases b <;> rfl
theorem setPar_grad (l : Layer) (b c : Bool) (m : Mat ℝ) : (l.setPar b m).grad c = l.grad c := by
  unfold Layer.setPar Layer.grad; cases b <;> cases c <;> rfl

theorem setGrad_first (l : Layer) (b : Bool) (m : Mat ℝ) : (l.setGrad b m).first = l.first := by
  unfold Layer.setGrad; cases b <;> rfl

theorem Ply.is_setGrad {p : Ply} {C C' : Nat} {l : Layer} (h : p.Is C C' l) (b : Bool) (d : Mat ℝ) : p.Is C C' (l.setGrad b d) := by
  cases b
  · exact ⟨h.kind, h.weight, h.bias⟩
  · exact ⟨h.kind, h.weight, h.bias⟩

/-- Layers keep their gradients of weights or of biases. -/
def GradsFor (w : World) (n : Nat) (m : Mlp) (b : Bool) (G : Nat → Nat → Nat → ℝ) : Prop :=
  ∀ i a l, (w.nets n).layers[i]? = some a → w.heap[a]? = some (some l) → (m.ply i).has b = true →
    l.grad b = Mat.ofFn (m.shape b i).1 (m.shape b i).2 (G i)

theorem GradsOk.gradsFor {w : World} {n : Nat} {m : Mlp} {G : Bool → Nat → Nat → Nat → ℝ} (h : GradsOk w n m m.depth G) (b : Bool) :
    GradsFor w n m b (G b) := fun i a l hi hl hb => h i a l hi hl (by omega) b hb

/-- The regularizer, applied to one parameter. -/
theorem regStep_layer (g : Nat → ℝ) (r : Option Reg) (b : Bool) {w : World} {a : Nat} {l : Layer} (hla : w.heap[a]? = some (some l)) {R C : Nat}
    {W D : Nat → Nat → ℝ} (hpar : l.par b = Mat.ofFn R C W) (hgr : l.grad b = Mat.ofFn R C D) :
    ∃ w₁ l₁, regStep g r b a a w = .ok w₁ ∧ w₁.nets = w.nets ∧ w₁.heap[a]? = some (some l₁) ∧ (∀ a', a' ≠ a → w₁.heap[a']? = w.heap[a']?) ∧
      l₁.par b = Mat.ofFn R C W ∧ l₁.grad b = Mat.ofFn R C (regGrad r R C W D) ∧ (∀ c, c ≠ b → l₁.grad c = l.grad c) ∧
      (l.Valid → l₁.Valid) ∧ l₁.first = l.first ∧ ∀ (p : Ply) (C C' : Nat), p.Is C C' l → p.Is C C' l₁ := by
  cases r with
  | none => exact ⟨w, l, rfl, rfl, hla, fun _ _ => rfl, hpar, hgr, fun _ _ => rfl, id, rfl, fun _ _ _ h => h⟩
  | some r =>
    have hself : l.setPar b (Mat.ofFn R C W) = l := by
      rw [← hpar]; unfold Layer.setPar Layer.par; cases b <;> rfl
    have h1 : (w.store a l).heap[a]? = some (some l) := World.store_same hla
    refine ⟨(w.store a l).store a (l.setGrad b (Mat.ofFn R C (regGrad (some r) R C W D))), l.setGrad b (Mat.ofFn R C (regGrad (some r) R C W D)), ?_, rfl,
      World.store_same h1, fun a' ha => (World.store_other _ ha).trans (World.store_other _ ha), ?_, ?_, fun c hc => ?_,
      fun hv => setGrad_valid hv (Mat.ofFn_WF _ _ _), setGrad_first _ _ _, fun p C C' h => Ply.is_setGrad h _ _⟩
    · unfold regStep
      dsimp only
      rw [World.deref_eq hla, bind_ok', bind_ok', hpar, hgr, Reg.apply_ofFn, bind_ok']
      dsimp only
      rw [hself, World.deref_eq h1, bind_ok']
      rfl
    · rw [← hpar]; unfold Layer.setGrad Layer.par; cases b <;> rfl
    · unfold Layer.setGrad Layer.grad; cases b <;> rfl
    · unfold Layer.setGrad Layer.grad; cases b <;> cases c <;> first | rfl | exact absurd rfl hc

/-- The loop over the weights or over the biases. -/
theorem optLoop_mlp {e : Nat → Env} {ab : ℝ → ℝ} {b : Bool} {w : World} {n : Nat} {m : Mlp} (h : Represents w n m)
    {ps : List Nat} (hp : PtrsTo b (w.nets n).layers m ps) {G : Nat → Nat → Nat → ℝ} (hG : GradsFor w n m b G)
    (r : Option Reg)
    {off : Nat} {os : List (Opt ℝ)}
    (hr : ∀ j a i, ps[j]? = some a → (w.nets n).layers[i]? = some a → ∃ o, os[j + off]? = some o ∧ o.Ready (m.shape b i).1 (m.shape b i).2)
    (S : Prop) (lr : ℝ) (hSr : S → r = none) (hS : S → ∀ o ∈ os, o.kind = .sgd ∧ o.lr = lr) :
    ∃ w' os' V, optLoop e ab r b ps ps off (w, os) = .ok (w', os') ∧ w'.nets = w.nets ∧ Represents w' n (m.setAll b V) ∧
      (∀ G', GradsFor w n m (!b) G' → GradsFor w' n m (!b) G') ∧ (S → ∀ i, i < m.depth → (m.ply i).has b = true → V i = fun k j => (m.ply i).par b k j - lr * G i k j) ∧
      (∀ j a i, ps[j]? = some a → (w.nets n).layers[i]? = some a → ∃ o, os'[j + off]? = some o ∧ o.Ready (m.shape b i).1 (m.shape b i).2) ∧
      (∀ k, k < off ∨ off + ps.length ≤ k → os'[k]? = os[k]?) ∧ (S → ∀ o ∈ os', o.kind = .sgd ∧ o.lr = lr) ∧
      (∀ j a i o, ps[j]? = some a → (w.nets n).layers[i]? = some a → os[j + off]? = some o → ∃ o' g, os'[j + off]? = some o' ∧
        o.optimize g Real.sqrt ab (Mat.ofFn (m.shape b i).1 (m.shape b i).2 ((m.ply i).par b)) (Mat.ofFn (m.shape b i).1 (m.shape b i).2 (regGrad r (m.shape b i).1 (m.shape b i).2 ((m.ply i).par b) (G i))) =
          .ok (o', Mat.ofFn (m.shape b i).1 (m.shape b i).2 (V i))) := by
  refine (forN_inv (n := ps.length) (s := (w, os)) (fun k (q : World × List (Opt ℝ)) =>
      ∃ V : Nat → Nat → Nat → ℝ, q.1.nets = w.nets ∧ Represents q.1 n (m.setAll b V) ∧ ((∀ i a l, (w.nets n).layers[i]? = some a → q.1.heap[a]? = some (some l) → a ∉ ps.take k → (m.ply i).has b = true →
          l.grad b = Mat.ofFn (m.shape b i).1 (m.shape b i).2 (G i)) ∧ ∀ G', GradsFor w n m (!b) G' → GradsFor q.1 n m (!b) G') ∧
      (∀ i a, (w.nets n).layers[i]? = some a → (a ∈ ps.take k → S → V i = fun k j => (m.ply i).par b k j - lr * G i k j) ∧
        (a ∉ ps.take k → V i = (m.ply i).par b)) ∧
      (∀ j a i, ps[j]? = some a → (w.nets n).layers[i]? = some a → ∃ o, q.2[j + off]? = some o ∧ o.Ready (m.shape b i).1 (m.shape b i).2) ∧
      (∀ k, k < off ∨ off + ps.length ≤ k → q.2[k]? = os[k]?) ∧ (S → ∀ o ∈ q.2, o.kind = .sgd ∧ o.lr = lr) ∧
      (∀ j a i o, j < k → ps[j]? = some a → (w.nets n).layers[i]? = some a → os[j + off]? = some o → ∃ o' g, q.2[j + off]? = some o' ∧
        o.optimize g Real.sqrt ab (Mat.ofFn (m.shape b i).1 (m.shape b i).2 ((m.ply i).par b)) (Mat.ofFn (m.shape b i).1 (m.shape b i).2 (regGrad r (m.shape b i).1 (m.shape b i).2 ((m.ply i).par b) (G i))) =
          .ok (o', Mat.ofFn (m.shape b i).1 (m.shape b i).2 (V i))) ∧ ∀ j, k ≤ j → q.2[j + off]? = os[j + off]?)
    ⟨fun i => (m.ply i).par b, rfl, by
      have : m.setAll b (fun i => (m.ply i).par b) = m := by
        unfold Mlp.setAll
        simp only [Ply.setPar_self]
      rw [this]; exact h, ⟨fun i a l hi hl _ hb => hG i a l hi hl hb, fun _ h => h⟩, fun i a _ => ⟨by simp, fun _ => rfl⟩, hr, fun _ _ => rfl, hS, fun j _ _ _ hj => absurd hj (Nat.not_lt_zero j), fun _ _ => rfl⟩
    (f := fun i s => do
      let a ← rd ps i
      let a' ← rd ps i
      let o ← rd s.2 (i + off)
      let (w, o) ← optStep (e i).g ab r b a a' o s.1
      let os ← wr s.2 (i + off) o
      return (w, os)) ?_).elim ?_
  rotate_left
  · rintro ⟨w', os'⟩ ⟨h1, V, h2, h3, h4, h5, h6, h7, h8, h9, -⟩
    refine ⟨w', os', V, h1, h2, h3, h4.2, fun hs i hi hb => ?_, h6, h7, h8, fun j a i o hj => h9 j a i o (lt_of_some hj) hj⟩
    obtain ⟨a, ha⟩ := h.get hi
    refine (h5 i a ha).1 ?_ hs
    rw [List.take_length]
    exact (hp.mem i a ha).2 hb
  · rintro j hj ⟨w', os'⟩ ⟨V, k1, k2, k3, k4, k5, k6, k7, k8, k9⟩
    dsimp only at *
    have hja : ps[j]? = some ps[j] := List.getElem?_eq_getElem hj
    generalize ps[j] = a at hja
    have haps : a ∈ ps := List.mem_of_getElem? hja
    obtain ⟨i, hia⟩ := List.getElem?_of_mem (hp.sub a haps)
    have hib := (hp.mem i a hia).1 haps
    obtain ⟨o, ho, hor⟩ := k5 j a i hja hia
    have hia' : (w'.nets n).layers[i]? = some a := by rw [k1]; exact hia
    obtain ⟨l, hla, hv, hIs, hf⟩ := k2.layer i a hia'
    have hnt : a ∉ ps.take j := fun hmem => by
      obtain ⟨j', hj'⟩ := List.getElem?_of_mem hmem
      have hlt : j' < j := by
        have := lt_of_some hj'
        rw [List.length_take] at this
        omega
      rw [List.getElem?_take_of_lt hlt] at hj'
      have := (List.getElem?_inj (lt_of_some hj') hp.nodup).mp (hj'.trans hja.symm)
      omega
    have hVi : V i = (m.ply i).par b := (k4 i a hia).2 hnt
    have hply : (m.setAll b V).ply i = m.ply i := by
      show (m.ply i).setPar b (V i) = _
      rw [hVi, Ply.setPar_self]
    have hIs' := hIs
    rw [hply] at hIs'
    have hpar : l.par b = Mat.ofFn (m.shape b i).1 (m.shape b i).2 ((m.ply i).par b) := Ply.is_par hIs' hib
    have hgr := k3.1 i a l hia hla hnt hib
    obtain ⟨o', V', q1, q2, q3, q4, q5⟩ := hor.optimize (e j).g ab ((m.ply i).par b)
      (regGrad r (m.shape b i).1 (m.shape b i).2 ((m.ply i).par b) (G i))
    obtain ⟨w₁, l₁, g1, g2, g3, g4, g5, g6, g7, g8, g9, g10⟩ := regStep_layer (e j).g r b hla hpar hgr
    have hlt : j + off < os'.length := lt_of_some ho
    have hst : optStep (e j).g ab r b a a o w' = .ok (w₁.store a (l₁.setPar b (Mat.ofFn (m.shape b i).1 (m.shape b i).2 V')), o') := by
      unfold optStep
      rw [g1, bind_ok', World.deref_eq g3, bind_ok', bind_ok', g5, g6, q1, bind_ok']
      rfl
    rw [rd_some hja, bind_ok', bind_ok', rd_some ho, bind_ok', hst, bind_ok']
    dsimp only
    rw [wr_of_lt hlt, bind_ok']
    refine ⟨_, rfl, fun i' => if i' = i then V' else V i', g2.trans k1, ?_, ?_, ?_, ?_, ?_, ?_, ?_, ?_⟩
    · refine ⟨h.ok.setAll _ _, by rw [World.store_nets, g2]; exact k2.nodup, by rw [World.store_nets, g2]; exact k2.count, fun i' a' hi' => ?_⟩
      rw [World.store_nets, g2] at hi'
      by_cases hii : i' = i
      · subst hii
        obtain rfl : a = a' := by have := hia'.symm.trans hi'; injection this
        refine ⟨_, World.store_same g3, setPar_valid (g8 hv) (Mat.ofFn_WF _ _ _) (Ply.is_uses (g10 _ _ _ hIs') hib), ?_, fun h0 => by
          rw [setPar_first, g9]; exact hf h0⟩
        have : (m.setAll b (fun j => if j = i' then V' else V j)).ply i' = (m.ply i').setPar b V' := by simp [Mlp.setAll]
        rw [this]
        exact Ply.is_setPar (g10 _ _ _ hIs') V'
      · have hne : a' ≠ a := by
          rintro rfl
          exact hii (k2.inj hi' hia')
        obtain ⟨l₁, c1, c2, c3, c4⟩ := k2.layer i' a' hi'
        refine ⟨l₁, (World.store_other _ hne).trans ((g4 _ hne).trans c1), c2, ?_, c4⟩
        have : (m.setAll b (fun j => if j = i then V' else V j)).ply i' = (m.setAll b V).ply i' := by simp [Mlp.setAll, hii]
        rw [this]
        exact c3
    · refine ⟨fun i' a' l' hi' hl' hnt' hb' => ?_, fun G' hG' i' a' l' hi' hl' hb' => ?_⟩
      · have hne : a' ≠ a := by
          rintro rfl
          apply hnt'
          rw [← List.take_concat_get' _ _ hj]
          rw [List.getElem?_eq_getElem hj] at hja
          injection hja with hja
          simp [hja]
        dsimp only at hl'
        rw [World.store_other _ hne, g4 _ hne] at hl'
        refine k3.1 i' a' l' hi' hl' (fun hm => hnt' ?_) hb'
        rw [← List.take_concat_get' _ _ hj]
        exact List.mem_append_left _ hm
      · rw [World.store_nets, g2] at hi'
        by_cases hne : a' = a
        · subst hne
          dsimp only at hl'
          rw [World.store_same g3] at hl'
          obtain rfl : _ = l' := by injection hl' with hl'; injection hl'
          rw [setPar_grad, g7 _ (by simp)]
          exact k3.2 G' hG' i' a' l hi' hla hb'
        · dsimp only at hl'
          rw [World.store_other _ hne, g4 _ hne] at hl'
          exact k3.2 G' hG' i' a' l' hi' hl' hb'
    · intro i' a' hi'
      rw [← List.take_concat_get' _ _ hj]
      by_cases hii : i' = i
      · subst hii
        obtain rfl : a = a' := by have := hia.symm.trans hi'; injection this
        refine ⟨fun _ hs => ?_, fun hn => absurd ?_ hn⟩
        · obtain ⟨z1, z2⟩ := k7 hs o (List.mem_of_getElem? ho)
          dsimp only
          rw [if_pos rfl, q5 z1, z2, hSr hs]
          rfl
        · rw [List.getElem?_eq_getElem hj] at hja
          injection hja with hja
          simp [hja]
      · have hne : a' ≠ a := by
          rintro rfl
          exact hii (h.inj hi' hia)
        have hpj : ps[j] = a := by
          rw [List.getElem?_eq_getElem hj] at hja
          injection hja
        simp only [if_neg hii]
        refine ⟨fun hm => (k4 i' a' hi').1 ?_, fun hm => (k4 i' a' hi').2 fun hm' => hm (List.mem_append_left _ hm')⟩
        rcases List.mem_append.mp hm with hm | hm
        · exact hm
        · rw [hpj] at hm
          exact absurd (by simpa using hm) hne
    · intro j' a' i' hj' hi'
      by_cases hjj : j' = j
      · subst hjj
        obtain rfl : a = a' := by have := hja.symm.trans hj'; injection this
        obtain rfl := h.inj hia hi'
        exact ⟨o', List.getElem?_set_self hlt, q2⟩
      · obtain ⟨o₁, c1, c2⟩ := k5 j' a' i' hj' hi'
        exact ⟨o₁, by rw [List.getElem?_set_ne (by omega)]; exact c1, c2⟩
    · intro k hk
      dsimp only
      rw [List.getElem?_set_ne (by omega)]
      exact k6 k hk
    · intro hs o₁ ho₁
      rcases List.mem_or_eq_of_mem_set ho₁ with c | c
      · exact k7 hs o₁ c
      · obtain ⟨z1, z2⟩ := k7 hs o (List.mem_of_getElem? ho)
        subst c
        refine ⟨q3.trans z1, ?_⟩
        have : o₁.hyper.lr = o.hyper.lr := by rw [q4]
        exact this.trans z2
    · intro j' a' i' o₁ hj' hps hi' hos
      dsimp only
      by_cases hjj : j' = j
      · subst hjj
        obtain rfl : a = a' := by have := hja.symm.trans hps; injection this
        obtain rfl := h.inj hia hi'
        rw [k9 j' le_rfl, hos] at ho
        obtain rfl : o₁ = o := by injection ho
        exact ⟨o', (e j').g, List.getElem?_set_self hlt, by rw [if_pos rfl]; exact q1⟩
      · have hii : i' ≠ i := by
          rintro rfl
          obtain rfl : a = a' := by have := hia.symm.trans hi'; injection this
          exact hjj ((List.getElem?_inj (lt_of_some hps) hp.nodup).mp (hps.trans hja.symm))
        obtain ⟨o₂, g, c1, c2⟩ := k8 j' a' i' o₁ (by omega) hps hi' hos
        exact ⟨o₂, g, by rw [List.getElem?_set_ne (by omega)]; exact c1, by rw [if_neg hii]; exact c2⟩
    · intro j' hj'
      dsimp only
      rw [List.getElem?_set_ne (by omega)]
      exact k9 j' (by omega)

end Trainer

end BeeDNN
