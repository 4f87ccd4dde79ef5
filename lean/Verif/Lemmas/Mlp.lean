import Verif.Lemmas.Ply

/-! # Training a perceptron: forward, backward and the optimizers, computed -/

namespace BeeDNN
open Finset HasWF

theorem rd_some {α : Type} {l : List α} {i : Nat} {x : α} (h : l[i]? = some x) : rd l i = .ok x := by
  unfold rd; rw [h]

theorem lt_of_some {α : Type} {l : List α} {i : Nat} {x : α} (h : l[i]? = some x) : i < l.length := by
  by_contra hc
  rw [List.getElem?_eq_none (Nat.le_of_not_lt hc)] at h
  cases h

theorem list_set_self {α : Type} {l : List α} {i : Nat} {x : α} (h : l[i]? = some x) : l.set i x = l := by
  obtain ⟨hi, rfl⟩ := List.getElem?_eq_some_iff.mp h
  exact List.set_getElem_self hi

theorem layerAt_some {w : World} {n i a : Nat} (h : (w.nets n).layers[i]? = some a) : w.layerAt n i = .ok a := by
  unfold World.layerAt; rw [h]

theorem col2imFn_smul (N K oR oC kR kC rs cs : Nat) (col : Nat → Nat → ℝ) (r : ℝ) (S k y x : Nat) :
    col2imFn N K oR oC kR kC rs cs (fun i j => r * col i j) S k y x = r * col2imFn N K oR oC kR kC rs cs col S k y x := by
  unfold col2imFn
  simp only [mul_sum]
  refine sum_congr rfl fun _ _ => sum_congr rfl fun _ _ => sum_congr rfl fun _ _ => sum_congr rfl fun _ _ => sum_congr rfl fun _ _ =>
    sum_congr rfl fun _ _ => ?_
  split <;> simp

theorem Ply.back_smul (p : Ply) (C C' : Nat) (v g : Row) (r : ℝ) (k : Nat) :
    p.back C C' v (fun j => r * g j) k = r * p.back C C' v g k := by
  obtain ⟨kd, W, B⟩ := p
  cases kd with
  | conv R S K kR kC O rs cs =>
    simp only [back, planes]
    rw [← col2imFn_smul]
    congr 1
    funext i j
    simp only [convGradCol, accN_eq_sum, mul_sum, px]
    exact sum_congr rfl fun _ _ => by ring
  | avgPool R S K rf cf =>
    simp only [back, planes, px]
    split
    · ring
    · simp
  | crelu =>
    simp only [back]
    split <;> ring
  | gated a₁ a₂ =>
    simp only [back]
    split <;> ring
  | dense => simp only [back, mul_sum]; exact sum_congr rfl fun _ _ => by ring
  | dot => simp only [back, mul_sum]; exact sum_congr rfl fun _ _ => by ring
  | tdDot T F O => simp only [back, mul_sum]; exact sum_congr rfl fun _ _ => by ring
  | tdDense T F O => simp only [back, mul_sum]; exact sum_congr rfl fun _ _ => by ring
  | globalAvgPool R S K => simp only [back, planes]; ring
  | zeroPad R S K b => simp only [back, planes, px]
  | bias => rfl
  | channelBias R S K => rfl
  | tdBias T F => rfl
  | act a => simp only [back]; ring
  | softmax => simp only [back]; ring

theorem Ply.pgrad_smul (p : Ply) (b : Bool) (v g : Row) (r : ℝ) (k j : Nat) :
    p.pgrad b v (fun j => r * g j) k j = r * p.pgrad b v g k j := by
  obtain ⟨kd, W, B⟩ := p
  cases kd with
  | conv R S K kR kC O rs cs =>
    simp only [pgrad, convGradW, accN_eq_sum, mul_sum, px]
    exact sum_congr rfl fun _ _ => by ring
  | dense => cases b <;> simp only [pgrad, if_true, if_false, Bool.false_eq_true] <;> ring
  | dot => cases b <;> simp only [pgrad, if_true, if_false, Bool.false_eq_true] <;> ring
  | bias => cases b <;> simp only [pgrad, if_true, if_false, Bool.false_eq_true] <;> ring
  | channelBias R S K => simp only [pgrad, mul_sum]
  | tdBias T F => simp only [pgrad, mul_sum]
  | tdDot T F O =>
    cases b <;> simp only [pgrad, if_true, if_false, Bool.false_eq_true, mul_sum] <;> exact sum_congr rfl fun _ _ => by ring
  | tdDense T F O =>
    cases b <;> simp only [pgrad, if_true, if_false, Bool.false_eq_true, mul_sum] <;> exact sum_congr rfl fun _ _ => by ring
  | _ => simp [pgrad]

/-- Worlds that differ in scratch members of layers only. -/
structure World.Scratch (w w' : World) : Prop where
  nets : w'.nets = w.nets
  cell : ∀ a : Nat, w'.heap[a]? = w.heap[a]? ∨ ∃ l l' : Layer, w.heap[a]? = some (some l) ∧ w'.heap[a]? = some (some l') ∧ l.Scratch l' ∧
    (l.Valid → l'.Valid)

theorem World.Scratch.refl (w : World) : w.Scratch w := ⟨rfl, fun _ => .inl rfl⟩

theorem World.Scratch.trans {w w' w'' : World} (h : w.Scratch w') (h' : w'.Scratch w'') : w.Scratch w'' := by
  refine ⟨h'.nets.trans h.nets, fun a => ?_⟩
  rcases h.cell a with h1 | ⟨l, l', h1, h2, h3, h4⟩
  · rcases h'.cell a with k1 | ⟨l₂, l₃, k1, k2, k3, k4⟩
    · exact .inl (k1.trans h1)
    · exact .inr ⟨l₂, l₃, h1.symm.trans k1, k2, k3, k4⟩
  · rcases h'.cell a with k1 | ⟨l₂, l₃, k1, k2, k3, k4⟩
    · exact .inr ⟨l, l', h1, k1.trans h2, h3, h4⟩
    · rw [h2] at k1
      obtain rfl : l' = l₂ := by injection k1 with k1; injection k1
      exact .inr ⟨l, l₃, h1, k2, h3.trans k3, fun hv => k4 (h4 hv)⟩

theorem World.Scratch.store {w : World} {a : Nat} {l l' : Layer} (hla : w.heap[a]? = some (some l)) (h : l.Scratch l') (hv : l'.Valid) :
    w.Scratch (w.store a l') := by
  refine ⟨rfl, fun b => ?_⟩
  by_cases hba : b = a
  · subst hba
    exact .inr ⟨l, l', hla, World.store_same hla, h, fun _ => hv⟩
  · exact .inl (World.store_other _ hba)

/-- What a layer object becomes. -/
theorem World.Scratch.get {w w' : World} (h : w.Scratch w') {a : Nat} {l : Layer} (hl : w.heap[a]? = some (some l)) :
    ∃ l', w'.heap[a]? = some (some l') ∧ l.Scratch l' ∧ (l.Valid → l'.Valid) := by
  rcases h.cell a with h1 | ⟨l₁, l', h1, h2, h3, h4⟩
  · exact ⟨l, h1.trans hl, .refl l, id⟩
  · rw [hl] at h1
    obtain rfl : l = l₁ := by injection h1 with h1; injection h1
    exact ⟨l', h2, h3, h4⟩

theorem Represents.scratch {w w' : World} {n : Nat} {m : Mlp} (h : Represents w n m) (hs : w.Scratch w') : Represents w' n m := by
  refine ⟨h.ok, by rw [hs.nets]; exact h.nodup, by rw [hs.nets]; exact h.count, fun i a hi => ?_⟩
  rw [hs.nets] at hi
  obtain ⟨l, k1, k2, k3, k4⟩ := h.layer i a hi
  obtain ⟨l', j1, j2, j3⟩ := hs.get k1
  exact ⟨l', j1, j3 k2, k3.scratch j2, fun h0 => by rw [j2.first]; exact k4 h0⟩

/-- The layers have seen this batch in their last forward pass. -/
def AllPrimed (w : World) (n : Nat) (m : Mlp) (N : Nat) (X : Nat → Row) (k : Nat) : Prop :=
  ∀ i a l, i < k → (w.nets n).layers[i]? = some a → w.heap[a]? = some (some l) → (m.ply i).Primed N (fun s => m.hidden (X s) i) l

namespace Mlp

/-- The gradient at the input of layer `depth - k` if it is `g` at the output of the network. -/
noncomputable def delta (m : Mlp) (v g : Row) : Nat → Row
  | 0 => g
  | k + 1 => (m.ply (m.depth - 1 - k)).back (m.width (m.depth - 1 - k)) (m.width (m.depth - 1 - k + 1))
      (m.hidden v (m.depth - 1 - k)) (m.delta v g k)

/-- The mean gradient of the biases or weights of layer `i`. -/
noncomputable def grad (m : Mlp) (N : Nat) (x g : Nat → Row) (b : Bool) (i : Nat) : Nat → Nat → ℝ := fun k j =>
  (∑ s ∈ range N, (m.ply i).pgrad b (m.hidden (x s) i) (m.delta (x s) (g s) (m.depth - 1 - i)) k j) / N

/-- What the backward pass computes for the biases or weights of layer `i`. -/
noncomputable def codeGrad (m : Mlp) (N : Nat) (x g : Nat → Row) (b : Bool) (i : Nat) : Nat → Nat → ℝ := fun k j =>
  m.rate N b i * m.grad N x g b i k j

/-- The factor that the gradient at the input of layer `depth - k` has picked up. -/
noncomputable def inRates (m : Mlp) (k : Nat) : ℝ := ∏ q ∈ range k, (m.ply (m.depth - 1 - q)).kind.inRate

theorem Ok.fit {m : Mlp} (h : m.Ok) {i : Nat} (hi : i < m.depth) :
    (m.ply i).kind.Fits (m.width i) (m.width (i + 1)) ∧ 0 < m.width i ∧ 0 < m.width (i + 1) :=
  ⟨h.fits i hi, h.pos i hi.le, h.pos (i + 1) hi⟩

end Mlp

theorem Represents.lt {w : World} {n : Nat} {m : Mlp} (h : Represents w n m) {i a : Nat} (hi : (w.nets n).layers[i]? = some a) :
    i < m.depth := by rw [← h.count]; exact lt_of_some hi

theorem Represents.get {w : World} {n : Nat} {m : Mlp} (h : Represents w n m) {i : Nat} (hi : i < m.depth) :
    ∃ a, (w.nets n).layers[i]? = some a := ⟨_, List.getElem?_eq_getElem (by rw [h.count]; exact hi)⟩

theorem Represents.inj {w : World} {n : Nat} {m : Mlp} (h : Represents w n m) {i j a : Nat} (hi : (w.nets n).layers[i]? = some a)
    (hj : (w.nets n).layers[j]? = some a) : i = j :=
  (List.getElem?_inj (lt_of_some hi) h.nodup).mp (hi.trans hj.symm)

namespace Trainer

/-- The forward loop computes the inputs of all layers and changes nothing but scratch members. -/
theorem fwdLoop_mlp {e : Nat → Env} {w : World} {n : Nat} {m : Mlp} (h : Represents w n m) {io : List (Mat ℝ)} (hio : wf io)
    (hl : io.length = m.depth + 1) (N : Nat) (X : Nat → Row) (h0 : io[0]? = some (Mat.ofFn N (m.width 0) X)) :
    ∃ w' io', fwdLoop e n m.depth (w, io) = .ok (w', io') ∧ w.Scratch w' ∧ AllPrimed w' n m N X m.depth ∧ wf io' ∧
      io'.length = m.depth + 1 ∧ ∀ i, i ≤ m.depth → io'[i]? = some (Mat.ofFn N (m.width i) (fun s => m.hidden (X s) i)) := by
  refine (forN_inv (n := m.depth) (s := (w, io)) (fun k (r : World × List (Mat ℝ)) => w.Scratch r.1 ∧ AllPrimed r.1 n m N X k ∧ wf r.2 ∧
      r.2.length = m.depth + 1 ∧ ∀ i, i ≤ k → r.2[i]? = some (Mat.ofFn N (m.width i) (fun s => m.hidden (X s) i)))
    ⟨.refl w, fun i a l hi => absurd hi (Nat.not_lt_zero i), hio, hl, fun i hi => by
      obtain rfl := Nat.le_zero.mp hi
      exact h0⟩
    (f := fun i s => do
      let a ← s.1.layerAt n i
      let l ← s.1.deref a
      let x ← rd s.2 i
      let o ← rd s.2 (i + 1)
      let (l, o) ← l.forward (e i) x o
      let io ← wr s.2 (i + 1) o
      return (s.1.store a l, io)) ?_).elim ?_
  rotate_left
  · rintro ⟨w', io'⟩ ⟨h1, h2⟩
    exact ⟨w', io', h1, h2⟩
  · rintro i hi ⟨w', io'⟩ ⟨k0, kp, k2, k3, k4⟩
    have hr := h.scratch k0
    obtain ⟨a, ha⟩ := hr.get hi
    obtain ⟨l, hla, hv, hIs, hf⟩ := hr.layer i a ha
    have hlt : i + 1 < io'.length := by dsimp only at k3; omega
    have hx := k4 i (Nat.le_refl i)
    obtain ⟨q1, q2, q3⟩ := h.ok.fit hi
    dsimp only at *
    obtain ⟨l', f1, f2, f3, f4⟩ := Ply.forward (e := e i) hIs q1 q2 q3 hv (k2 _ (List.getElem_mem hlt)) N (fun s => m.hidden (X s) i)
    rw [layerAt_some ha, bind_ok', World.deref_eq hla, bind_ok', rd_some hx, bind_ok', rd_of_lt hlt, bind_ok', f1, bind_ok']
    dsimp only
    rw [wr_of_lt hlt, bind_ok']
    refine ⟨_, rfl, k0.trans (.store hla f2 f3), fun j b l₁ hj hb hl₁ => ?_,
      wr_wf (σ := Mat ℝ) k2 (Mat.ofFn_WF _ _ _) (wr_of_lt hlt), by simpa using k3, fun j hj => ?_⟩
    · dsimp only at hl₁ hb
      by_cases hba : b = a
      · subst hba
        obtain rfl := hr.inj ha hb
        rw [World.store_same hla] at hl₁
        obtain rfl : l' = l₁ := by injection hl₁ with hl₁; injection hl₁
        exact f4
      · rw [World.store_other _ hba] at hl₁
        refine kp j b l₁ ?_ hb hl₁
        have hne : j ≠ i := by
          rintro rfl
          apply hba
          have := hb.symm.trans ha
          injection this
        omega
    · by_cases hji : j = i + 1
      · subst hji
        rw [List.getElem?_set_self hlt]
        rfl
      · rw [List.getElem?_set_ne (Ne.symm hji)]
        exact k4 j (by omega)

/-- Layers keep their gradients. -/
def GradsOk (w : World) (n : Nat) (m : Mlp) (k : Nat) (G : Bool → Nat → Nat → Nat → ℝ) : Prop :=
  ∀ i a l, (w.nets n).layers[i]? = some a → w.heap[a]? = some (some l) → m.depth ≤ i + k → ∀ b, (m.ply i).has b = true →
    l.grad b = Mat.ofFn (m.shape b i).1 (m.shape b i).2 (G b i)

theorem Represents.store {w : World} {n : Nat} {m : Mlp} (h : Represents w n m) {i a : Nat} {l l' : Layer} (hi : (w.nets n).layers[i]? = some a)
    (hla : w.heap[a]? = some (some l)) (hv : l'.Valid) (hIs : (m.ply i).Is (m.width i) (m.width (i + 1)) l') (hf : l'.first = l.first) :
    Represents (w.store a l') n m := by
  refine ⟨h.ok, h.nodup, h.count, fun j b hj => ?_⟩
  by_cases hba : b = a
  · subst hba
    obtain rfl := h.inj hi hj
    refine ⟨l', World.store_same hla, hv, hIs, fun h0 => ?_⟩
    obtain ⟨l₁, k1, -, -, k2⟩ := h.layer i b hi
    rw [hla] at k1
    obtain rfl : l = l₁ := by injection k1 with k1; injection k1
    rw [hf]; exact k2 h0
  · obtain ⟨l₁, k1, k2⟩ := h.layer j b hj
    exact ⟨l₁, (World.store_other _ hba).trans k1, k2⟩

/-- The backward loop computes the gradients of all parameters. -/
theorem bwdLoop_mlp {e : Nat → Env} {w : World} {n : Nat} {m : Mlp} (h : Represents w n m) {N : Nat} {X : Nat → Row}
    (hp : AllPrimed w n m N X m.depth) {io gs : List (Mat ℝ)} (hgs : wf gs)
    (hl : gs.length = m.depth + 1) (D : Nat → Row)
    (hio : ∀ i, i ≤ m.depth → io[i]? = some (Mat.ofFn N (m.width i) (fun s => m.hidden (X s) i)))
    (h0 : gs[m.depth]? = some (Mat.ofFn N (m.width m.depth) D)) :
    ∃ w' gs', bwdLoop e n m.depth io (w, gs) = .ok (w', gs') ∧ wf gs' ∧ gs'.length = m.depth + 1 ∧ w'.nets = w.nets ∧
      Represents w' n m ∧ GradsOk w' n m m.depth (m.codeGrad N X D) := by
  refine (forN_inv (n := m.depth) (s := (w, gs)) (fun k (r : World × List (Mat ℝ)) =>
      wf r.2 ∧ r.2.length = m.depth + 1 ∧ r.1.nets = w.nets ∧ Represents r.1 n m ∧ GradsOk r.1 n m k (m.codeGrad N X D) ∧
      AllPrimed r.1 n m N X (m.depth - k) ∧
      (k < m.depth → r.2[m.depth - k]? = some (Mat.ofFn N (m.width (m.depth - k)) (fun s j => m.inRates k * m.delta (X s) (D s) k j))))
    ⟨hgs, hl, rfl, h, fun i a l hi _ hk => absurd (h.lt hi) (by omega), hp, fun _ => by
      simpa [Mlp.inRates, Mlp.delta] using h0⟩
    (f := fun k s => do
      let i := m.depth - 1 - k
      let a ← s.1.layerAt n i
      let l ← s.1.deref a
      let x ← rd io i
      let go ← rd s.2 (i + 1)
      let gi ← rd s.2 i
      let (l, gi) ← l.backprop (e i) x go gi
      let gs ← wr s.2 i gi
      return (s.1.store a l, gs)) ?_).elim ?_
  rotate_left
  · rintro ⟨w', gs'⟩ ⟨h1, h2, h3, h4, h5, h6, -, -⟩
    exact ⟨w', gs', h1, h2, h3, h4, h5, h6⟩
  · rintro k hk ⟨w', gs'⟩ ⟨k1, k2, k3, k4, k5, kp, k6⟩
    dsimp only at *
    have hi : m.depth - 1 - k < m.depth := by omega
    have hi1 : m.depth - 1 - k + 1 = m.depth - k := by omega
    obtain ⟨a, ha⟩ := k4.get hi
    obtain ⟨l, hla, hv, hIs, hf⟩ := k4.layer _ a ha
    have hlt : m.depth - 1 - k < gs'.length := by omega
    have hgo := k6 hk
    rw [← hi1] at hgo
    obtain ⟨z1, z2, z3⟩ := h.ok.fit hi
    obtain ⟨l', q1, q2, q3, q4, q5⟩ := Ply.backward (e := e (m.depth - 1 - k)) hIs z1 z2 z3 hv (k1 _ (List.getElem_mem hlt)) N
      (fun s => m.hidden (X s) (m.depth - 1 - k)) (fun s j => m.inRates k * m.delta (X s) (D s) k j) (kp _ a l (by omega) ha hla)
    rw [layerAt_some ha, bind_ok', World.deref_eq hla, bind_ok', rd_some (hio _ hi.le), bind_ok', rd_some hgo, bind_ok',
      rd_of_lt hlt, bind_ok', q1, bind_ok']
    dsimp only
    rw [wr_of_lt hlt, bind_ok']
    refine ⟨_, rfl, ?_, by simpa using k2, k3, Represents.store k4 ha hla q3 q2 q4, ?_, ?_, fun hk' => ?_⟩
    · intro y hy
      rcases List.mem_or_eq_of_mem_set hy with hy | hy
      · exact k1 y hy
      · rw [hy]
        split
        · exact k1 _ (List.getElem_mem hlt)
        · exact Mat.ofFn_WF _ _ _
    · intro i b l₁ hib hl₁ hik bb hbb
      by_cases hba : b = a
      · subst hba
        have hii := k4.inj ha hib
        dsimp only at hl₁
        rw [World.store_same hla] at hl₁
        obtain rfl : l' = l₁ := by injection hl₁ with hl₁; injection hl₁
        subst hii
        rw [q5 bb hbb]
        have : m.depth - 1 - (m.depth - 1 - k) = k := by omega
        simp only [Mlp.shape]
        congr 1
        funext p j
        simp only [Ply.batchGrad, Mlp.codeGrad, Mlp.grad, Mlp.rate, this, Ply.pgrad_smul, ← mul_sum, Mlp.inRates]
        ring
      · dsimp only at hl₁
        rw [World.store_other _ hba] at hl₁
        refine k5 i b l₁ hib hl₁ ?_ bb hbb
        have hne : i ≠ m.depth - 1 - k := by
          rintro rfl
          apply hba
          have := hib.symm.trans ha
          injection this
        have := k4.lt hib
        omega
    · intro j b l₁ hj hb hl₁
      dsimp only at hl₁ hb
      have hba : b ≠ a := by
        rintro rfl
        have := k4.inj ha hb
        omega
      rw [World.store_other _ hba] at hl₁
      exact kp j b l₁ (by omega) hb hl₁
    · have e1 : m.depth - (k + 1) = m.depth - 1 - k := by omega
      have hfi := hf (by omega)
      rw [e1, List.getElem?_set_self hlt, hfi]
      simp only [Bool.false_eq_true, if_false, Ply.back_smul]
      congr 2
      funext s j
      simp only [Mlp.inRates, prod_range_succ, Mlp.delta]
      ring

end Trainer

end BeeDNN
