import Verif.Spec.PyTrain
import Verif.Lemmas.PyLib
import Verif.Lemmas.PyAct
import Verif.Lemmas.MlpLoss

/-! # Lemmas: training with the Python library -/

namespace BeeDNN
open Finset

theorem npMul_ok {a b : NpArr} {N C : Nat} {f g : Nat → Nat → ℝ} (ha : a.Is N C f) (hb : b.Is N C g) :
    ∃ y, npMul a b = .ok y ∧ y.Is N C (fun i j => f i j * g i j) := by
  obtain ⟨a1, a2, a3⟩ := ha
  obtain ⟨b1, b2, b3⟩ := hb
  have hd : npMul a b = .ok { a with val := fun i j => a.val i j * b.val i j } := by
    unfold npMul
    rw [npCheck_ok ⟨a1.trans b1.symm, a2.trans b2.symm⟩]
    rfl
  refine ⟨_, hd, a1, a2, fun i j hi hj => ?_⟩
  dsimp only
  rw [a3 i j hi hj, b3 i j hi hj]

theorem NpArr.Is.transpose {a : NpArr} {N C : Nat} {f : Nat → Nat → ℝ} (h : a.Is N C f) : a.transpose.Is C N (fun i j => f j i) :=
  ⟨h.2.1, h.1, fun i j hi hj => h.2.2 j i hj hi⟩

theorem NpArr.Is.eq {a : NpArr} {N C : Nat} {f g : Nat → Nat → ℝ} (h : a.Is N C f) (e : ∀ i j, i < N → j < C → f i j = g i j) : a.Is N C g :=
  ⟨h.1, h.2.1, fun i j hi hj => (h.2.2 i j hi hj).trans (e i j hi hj)⟩

theorem npMean_is {a : NpArr} {N C : Nat} {f : Nat → Nat → ℝ} (h : a.Is N C f) : (npMean a).Is 1 C (fun _ j => (∑ i ∈ range N, f i j) / N) := by
  refine ⟨rfl, h.2.1, fun i j _ hj => ?_⟩
  show (∑ i ∈ range a.rows, a.val i j) / (a.rows : ℝ) = _
  rw [h.1]
  congr 1
  exact sum_congr rfl fun k hk => h.2.2 k j (mem_range.1 hk) hj

theorem pySum_frames (N T : Nat) (f : Nat → Nat → ℝ) : ∑ i ∈ range (N * T), f (i / T) (i % T) = ∑ s ∈ range N, ∑ t ∈ range T, f s t :=
  sum_range_mul (α := ℝ) N T f

namespace PyLayer

/-- The same layer up to what it keeps for the backward pass. -/
def Alike (l l' : PyLayer) : Prop :=
  l'.kind = l.kind ∧ l'.training = l.training ∧ l'.weight = l.weight ∧ l'.bias = l.bias ∧ (l.kind = .identity → l'.dydx = l.dydx)

/-- The gradients in the layer, for a batch `v` and the gradients `g` at the output. -/
def HasGrads (l : PyLayer) (p : Ply) (C C' N : Nat) (v g : Nat → Row) : Prop :=
  ∀ b, p.has b = true → (if b then l.dldb else l.dldw).Is (p.kind.shape b C C').1 (p.kind.shape b C C').2
    (fun k j => p.kind.pyRate b N * ((∑ s ∈ range N, p.pgrad b (v s) (g s) k j) / N))

theorem Alike.refl (l : PyLayer) : l.Alike l := ⟨rfl, rfl, rfl, rfl, fun _ => rfl⟩

theorem Alike.trans {l l' l'' : PyLayer} (h : l.Alike l') (h' : l'.Alike l'') : l.Alike l'' :=
  ⟨h'.1.trans h.1, h'.2.1.trans h.2.1, h'.2.2.1.trans h.2.2.1, h'.2.2.2.1.trans h.2.2.2.1,
    fun e => (h'.2.2.2.2 (h.1.trans e)).trans (h.2.2.2.2 e)⟩

theorem Alike.shows {l l' : PyLayer} (h : l.Alike l') {s : NpStore} {p : Ply} {C C' : Nat} (H : l.Shows s p C C') : l'.Shows s p C C' := by
  obtain ⟨k, t, _, _, w, b, _, _⟩ := l
  obtain ⟨k', t', _, _, w', b', _, _⟩ := l'
  obtain ⟨rfl, rfl, rfl, rfl, -⟩ := h
  exact H

theorem Alike.learns {l l' : PyLayer} (h : l.Alike l') (H : l.Learns) : l'.Learns := by
  obtain ⟨k, t, d, _, w, b, _, _⟩ := l
  obtain ⟨k', t', d', _, w', b', _, _⟩ := l'
  obtain ⟨rfl, rfl, rfl, rfl, hd⟩ := h
  cases k' <;> first
    | exact H
    | exact (hd rfl).trans H

theorem Alike.params {l l' : PyLayer} (h : l.Alike l') : l'.params = l.params := by
  unfold PyLayer.params
  rw [h.1, h.2.2.1, h.2.2.2.1]

theorem Alike.keeps {l l' : PyLayer} (h : l.Alike l') : l'.keeps = l.keeps := by
  unfold PyLayer.keeps
  rw [h.1]

/-- The backward pass that is to come: with any arrays that agree with `h'` in what the layer has kept. -/
def BackOk (l : PyLayer) (p : Ply) (C C' N : Nat) (v : Nat → Row) (r : Nat) (h' : NpStore) : Prop :=
  ∀ h'' : NpStore, (∀ q, q < h'.length → (q = r → l.kind = .exponential) → h''[q]? = h'[q]?) → ∀ (G : NpArr) (g : Nat → Row), G.Is N C' g →
    ∃ G' l'', l.backward G h'' = .ok (G', l'') ∧ G'.Is N C (fun s => p.back C C' (v s) (g s)) ∧ l.Alike l'' ∧ l''.HasGrads p C C' N v g

/-- The derivatives of the network are those that the layer computes, at the inputs `v`. -/
def DerivOk (l : PyLayer) (p : Ply) (C N : Nat) (v : Nat → Row) : Prop :=
  match l.kind, p.kind with
  | .act a, .act A => ∀ s j, s < N → j < C → A.derivation (v s j) = a.d (v s j)
  | .exponential, .act A => ∀ s j, s < N → j < C → A.derivation (v s j) = Real.exp (v s j)
  | .identity, .act A => ∀ s j, s < N → j < C → A.derivation (v s j) = 1
  | _, _ => True

theorem load_some {h : NpStore} {r : Nat} {a : NpArr} (e : h[r]? = some a) : h.load r = .ok a := by
  unfold NpStore.load
  rw [e]

/-- One layer in training mode. -/
theorem forward_train (e : PyRnd) {l : PyLayer} {p : Ply} {C C' N x : Nat} {h : NpStore} {v : Nat → Row} (ht : l.training = true) (hs : l.Shows h p C C')
    (hl : l.Learns) (hN : 0 < N) (hC : 0 < C) (hC' : 0 < C') (hX : h.Has x N C v) (hp : x ∉ l.params)
    (hder : l.DerivOk p C N v) :
    ∃ r l' h', l.forward e x h = .ok (r, l', h') ∧ h'.Has r N C' (fun i => p.apply C (v i)) ∧ h.length ≤ h'.length ∧ (r = x ∨ h.length ≤ r) ∧
      (l.keeps = false → h.length ≤ r) ∧ (∀ q, q < h.length → (l.keeps = true → q ≠ x) → h'[q]? = h[q]?) ∧ l.Alike l' ∧ l'.BackOk p C C' N v r h' := by
  have hx := hX.lt
  have hXs := hX
  obtain ⟨X, hX0, hX2⟩ := hX
  have hX1 := load_some hX0
  have hlt := hs.lt
  have hsh := hs
  obtain ⟨k, t, d, dw, w, b, gw, gb⟩ := l
  obtain ⟨pk, W, B⟩ := p
  have fin : ∀ {Y : NpArr} {D : Nat} {f : Nat → Nat → ℝ}, Y.Is N D f → (h ++ [Y] : NpStore).Has h.length N D f := fun H => h.has_append _ H
  have old : ∀ (Y : NpArr) (q : Nat), q < h.length → (h ++ [Y])[q]? = h[q]? := fun Y q hq => List.getElem?_append_left hq
  have len : ∀ Y : NpArr, (h ++ [Y]).length = h.length + 1 := fun Y => by simp
  obtain rfl : t = true := ht
  cases k <;> cases pk <;> first
    | exact absurd hs id
    | exact absurd hl id
    | skip
  · rename_i a A
    obtain ⟨rfl, hf⟩ := hs
    obtain ⟨nm, hnm, hlog⟩ := hl
    have hY : (X.map a.f).Is N C' (fun i => Ply.apply C' ⟨.act A, W, B⟩ (v i)) := by
      have := hX2.map a.f
      refine ⟨this.1, this.2.1, fun i j hi hj => (this.2.2 i j hi hj).trans ?_⟩
      exact (hf _).symm
    have hd : (X.map a.d).Is N C' (fun s j => A.derivation (v s j)) := by
      exact (hX2.map a.d).eq fun s j hs hj => (hder s j hs hj).symm
    rcases hi : a.inPlace with _ | _
    · refine ⟨h.length + 1, ⟨.act a, true, some h.length, dw, w, b, gw, gb⟩, (h ++ [X.map a.d]) ++ [X.map a.f], by simp only [forward, hX1, saveDydx]; rw [bind_ok']; simp [hi], ⟨_, by simp, hY⟩, by simp,
        .inr (by omega), fun _ => by omega, fun q hq _ => ?_, by exact ⟨rfl, rfl, rfl, rfl, fun h => by cases h⟩, fun h'' hh G g hG => ?_⟩
      · rw [List.getElem?_append_left (by simp; omega)]
        exact old _ q hq
      · have := hh h.length (by simp) (fun h => by omega)
        rw [List.getElem?_append_left (by simp)] at this
        simp only [List.getElem?_concat_length] at this
        obtain ⟨D, hD1, hD2⟩ := npMul_ok hG hd
        refine ⟨D, _, by simp only [backward, load_some this, hD1, bind_ok']; rfl, hD2.eq fun i j _ _ => mul_comm _ _, by exact Alike.refl _, fun b hb => by cases b <;> cases hb⟩
    · refine ⟨x, ⟨.act a, true, some h.length, dw, w, b, gw, gb⟩, (h ++ [X.map a.d]).set x (X.map a.f), by simp only [forward, hX1, saveDydx]; rw [bind_ok']; simp [hi],
        ⟨_, by simp [hx, Nat.lt_succ_of_lt hx], hY⟩, by simp, .inl rfl, fun hk => ?_, fun q hq hk => ?_, by exact ⟨rfl, rfl, rfl, rfl, fun h => by cases h⟩, fun h'' hh G g hG => ?_⟩
      · simp [keeps, hi] at hk
      · rw [List.getElem?_set_ne (Ne.symm (hk (by simp [keeps, hi])))]
        exact old _ q hq
      · have := hh h.length (by simp) (fun h => by omega)
        rw [List.getElem?_set_ne (by omega), List.getElem?_concat_length] at this
        obtain ⟨D, hD1, hD2⟩ := npMul_ok hG hd
        refine ⟨D, _, by simp only [backward, load_some this, hD1, bind_ok']; rfl, hD2.eq fun i j _ _ => mul_comm _ _, by exact Alike.refl _, fun b hb => by cases b <;> cases hb⟩
  · rename_i A
    obtain ⟨rfl, hf⟩ := hs
    have hY : (X.map Real.exp).Is N C' (fun i => Ply.apply C' ⟨.act A, W, B⟩ (v i)) := by
      have := hX2.map Real.exp
      exact ⟨this.1, this.2.1, fun i j hi hj => (this.2.2 i j hi hj).trans (hf _).symm⟩
    have hd : (X.map Real.exp).Is N C' (fun s j => A.derivation (v s j)) := by
      exact (hX2.map Real.exp).eq fun s j hs hj => (hder s j hs hj).symm
    refine ⟨_, ⟨.exponential, true, some h.length, dw, w, b, gw, gb⟩, _, by simp only [forward, hX1]; rw [bind_ok']; rfl, fin hY, by simp, .inr le_rfl, fun _ => le_rfl, fun q hq _ => old _ q hq,
      by exact ⟨rfl, rfl, rfl, rfl, fun h => by cases h⟩, fun h'' hh G g hG => ?_⟩
    have := hh h.length (by simp) (fun _ => rfl)
    rw [List.getElem?_concat_length] at this
    obtain ⟨D, hD1, hD2⟩ := npMul_ok hG hd
    exact ⟨D, _, by simp only [backward, if_true, load_some this, hD1, bind_ok']; rfl, hD2.eq fun i j _ _ => mul_comm _ _, by exact Alike.refl _, fun b hb => by cases b <;> cases hb⟩
  · rename_i A
    obtain ⟨rfl, hf⟩ := hs
    obtain rfl : d = none := hl
    refine ⟨x, _, h, by simp only [forward, hX1]; rw [bind_ok'], hXs.eq fun i j _ _ => (hf _).symm, le_rfl, .inl rfl, fun hk => by simp [keeps] at hk, fun _ _ _ => rfl, by exact Alike.refl _,
      fun h'' hh G g hG => ⟨G, _, rfl, hG.eq fun s j hs hj => ?_, by exact Alike.refl _, fun b hb => by cases b <;> cases hb⟩⟩
    show g s j = A.derivation (v s j) * g s j
    rw [hder s j hs hj, one_mul]
  · obtain ⟨rfl, hc⟩ := hs
    obtain ⟨Q, hQ1, hQ2⟩ := hc.load
    obtain ⟨Y, hY1, hY2⟩ := npAddRow_ok hX2 hQ2
    refine ⟨_, _, _, by simp only [forward, hX1, hQ1, bind_ok', hY1]; rfl, fin hY2, by simp, .inr le_rfl, fun _ => le_rfl, fun q hq _ => old _ q hq, by exact Alike.refl _,
      fun h'' hh G g hG => ⟨G, _, rfl, hG, by exact ⟨rfl, rfl, rfl, rfl, fun h => by cases h⟩, fun b hb => ?_⟩⟩
    cases b
    · cases hb
    · refine (npMean_is hG).eq fun i j _ _ => ?_
      show _ = 1 * ((∑ s ∈ range N, g s j) / N)
      rw [one_mul]
  · obtain ⟨Q, hQ0, hQ2⟩ : h.Has w C C' W := hs
    have hQ1 := load_some hQ0
    have hw : w < h.length := hlt w (by simp [params])
    obtain ⟨Y, hY1, hY2⟩ := npDot_ok hX2 hQ2
    refine ⟨_, _, _, by simp only [forward, hX1, hQ1, bind_ok', hY1]; rfl, fin hY2, by simp, .inr le_rfl, fun _ => le_rfl, fun q hq _ => old _ q hq,
      by exact ⟨rfl, rfl, rfl, rfl, fun h => by cases h⟩, fun h'' hh G g hG => ?_⟩
    have kx : h''[x]? = some X := (hh x (by rw [len]; omega) (fun h => by omega)).trans ((old _ x hx).trans hX0)
    have kw : h''[w]? = some Q := (hh w (by rw [len]; omega) (fun h => by omega)).trans ((old _ w hw).trans hQ0)
    obtain ⟨P, hP1, hP2⟩ := npDot_ok hX2.transpose hG
    obtain ⟨D, hD1, hD2⟩ := npDot_ok hG hQ2.transpose
    refine ⟨D, _, by simp only [backward, saveDydw, if_true, NpStore.loadMember, load_some kx, load_some kw, bind_ok', hP1, hD1]; rfl, hD2, by exact ⟨rfl, rfl, rfl, rfl, fun h => by cases h⟩, fun b hb => ?_⟩
    cases b
    · refine (hP2.map _).eq fun i j _ _ => ?_
      show (∑ k ∈ range N, v k i * g k j) * (1 / (X.rows : ℝ)) = 1 * ((∑ s ∈ range N, v s i * g s j) / N)
      rw [hX2.1]
      ring
    · cases hb
  · obtain ⟨⟨Q, hQ0, hQ2⟩, ⟨R, hR0, hR2⟩⟩ : h.Has w C C' W ∧ h.Has b 1 C' B := hs
    have hQ1 := load_some hQ0
    have hR1 := load_some hR0
    have hw : w < h.length := hlt w (by simp [params])
    obtain ⟨Y, hY1, hY2⟩ := npDot_ok hX2 hQ2
    obtain ⟨Z, hZ1, hZ2⟩ := npAddRow_ok hY2 hR2
    refine ⟨_, _, _, by simp only [forward, hX1, hQ1, hR1, bind_ok', hY1, hZ1]; rfl, fin hZ2, by simp, .inr le_rfl, fun _ => le_rfl, fun q hq _ => old _ q hq,
      by exact ⟨rfl, rfl, rfl, rfl, fun h => by cases h⟩, fun h'' hh G g hG => ?_⟩
    have kx : h''[x]? = some X := (hh x (by rw [len]; omega) (fun h => by omega)).trans ((old _ x hx).trans hX0)
    have kw : h''[w]? = some Q := (hh w (by rw [len]; omega) (fun h => by omega)).trans ((old _ w hw).trans hQ0)
    obtain ⟨P, hP1, hP2⟩ := npDot_ok hX2.transpose hG
    obtain ⟨D, hD1, hD2⟩ := npDot_ok hG hQ2.transpose
    refine ⟨D, _, by simp only [backward, saveDydw, if_true, NpStore.loadMember, load_some kx, load_some kw, bind_ok', hP1, hD1]; rfl, hD2, by exact ⟨rfl, rfl, rfl, rfl, fun h => by cases h⟩, fun b hb => ?_⟩
    cases b
    · refine (hP2.map _).eq fun i j _ _ => ?_
      show (∑ k ∈ range N, v k i * g k j) * (1 / (X.rows : ℝ)) = 1 * ((∑ s ∈ range N, v s i * g s j) / N)
      rw [hX2.1]
      ring
    · refine (npMean_is hG).eq fun i j _ _ => ?_
      show _ = 1 * ((∑ s ∈ range N, g s j) / N)
      rw [one_mul]
  · obtain rfl : C' = C := hs
    have hc : npCheck (0 < X.cols) = .ok () := npCheck_ok (by rw [hX2.2.1]; exact hC)
    obtain ⟨Y, hYe, hY⟩ : ∃ Y : NpArr, Y = { X with val := fun i => pySoftmaxRow X.cols (X.val i) } ∧ Y.Is N C' (fun i => softmaxAt C' (v i)) := by
      refine ⟨_, rfl, hX2.1, hX2.2.1, fun i j hi hj => ?_⟩
      dsimp only
      rw [hX2.2.1]
      exact pySoftmaxRow_eq (fun k hk => hX2.2.2 i k hi hk) hj
    have hd := hY.map fun p => p * (1 - p)
    refine ⟨h.length + 1, ⟨.softmax, true, some h.length, dw, w, b, gw, gb⟩, (h ++ [Y.map fun p => p * (1 - p)]) ++ [Y], by simp only [forward, hX1, bind_ok', hc, saveDydx, ← hYe]; simp, ⟨_, by simp, hY⟩, by simp,
      .inr (by omega), fun _ => by omega, fun q hq _ => ?_, by exact ⟨rfl, rfl, rfl, rfl, fun h => by cases h⟩, fun h'' hh G g hG => ?_⟩
    · rw [List.getElem?_append_left (by simp; omega)]
      exact old _ q hq
    · have := hh h.length (by simp) (fun h => by omega)
      rw [List.getElem?_append_left (by simp), List.getElem?_concat_length] at this
      obtain ⟨D, hD1, hD2⟩ := npMul_ok hG hd
      exact ⟨D, _, by simp only [backward, load_some this, hD1, bind_ok']; rfl, hD2, by exact Alike.refl _, fun b hb => by cases b <;> cases hb⟩
  · rename_i F O T F' O'
    obtain ⟨⟨rfl, rfl⟩, rfl, rfl, hc⟩ := hs
    have hF : 0 < F := Nat.pos_of_mul_pos_left hC
    have hT : 0 < T := Nat.pos_of_mul_pos_right hC
    have hO : 0 < O := Nat.pos_of_mul_pos_left hC'
    obtain ⟨Q, hQ0, hQ2⟩ := hc
    have hQ1 := load_some hQ0
    have hw : w < h.length := hlt w (by simp [params])
    obtain ⟨Y, hY1, hY2⟩ := npFrames_ok hF hT hX2
    obtain ⟨Z, hZ1, hZ2⟩ := npDot_ok hY2 hQ2
    obtain ⟨U, hU1, hU2⟩ := npSamples_ok hN hZ2
    rw [← hX2.1] at hU1
    refine ⟨_, _, _, by simp only [forward, hX1, hQ1, bind_ok', hY1, hZ1, hU1]; rfl, (fin hU2).eq fun i j _ hj => ?_, by simp, .inr le_rfl, fun _ => le_rfl, fun q hq _ => old _ q hq,
      by exact ⟨rfl, rfl, rfl, rfl, fun h => by cases h⟩, fun h'' hh G g hG => ?_⟩
    · have hjd : j / O < T := Nat.div_lt_of_lt_mul (by rwa [Nat.mul_comm])
      show ∑ k ∈ range F, v ((i * T + j / O) / T) ((i * T + j / O) % T * F + k) * W k (j % O) = ∑ k ∈ range F, v i (j / O * F + k) * W k (j % O)
      rw [frame_div hjd, frame_mod hjd]
    have kx : h''[x]? = some X := (hh x (by rw [len]; omega) (fun h => by omega)).trans ((old _ x hx).trans hX0)
    have kw : h''[w]? = some Q := (hh w (by rw [len]; omega) (fun h => by omega)).trans ((old _ w hw).trans hQ0)
    obtain ⟨M, hM1, hM2⟩ := npFrames_ok hO hT hG
    obtain ⟨P, hP1, hP2⟩ := npDot_ok hY2.transpose hM2
    obtain ⟨D, hD1, hD2⟩ := npDot_ok hM2 hQ2.transpose
    obtain ⟨E, hE1, hE2⟩ := npSamples_ok hN hD2
    rw [← hG.1] at hE1
    refine ⟨E, _, by simp only [backward, saveDydw, if_true, NpStore.loadMember, load_some kx, load_some kw, bind_ok', hM1, hY1, hP1, hD1, hE1]; rfl, hE2.eq fun i k _ hk => ?_,
      by exact ⟨rfl, rfl, rfl, rfl, fun h => by cases h⟩, fun b hb => ?_⟩
    · have hjd : k / F < T := Nat.div_lt_of_lt_mul (by rwa [Nat.mul_comm])
      show ∑ j ∈ range O, g ((i * T + k / F) / T) ((i * T + k / F) % T * O + j) * W (k % F) j = ∑ j ∈ range O, g i (k / F * O + j) * W (k % F) j
      rw [frame_div hjd, frame_mod hjd]
    · cases b
      · refine hP2.eq fun k j _ _ => ?_
        show ∑ i ∈ range (N * T), v (i / T) (i % T * F + k) * g (i / T) (i % T * O + j) = N * ((∑ s ∈ range N, ∑ t ∈ range T, v s (t * F + k) * g s (t * O + j)) / N)
        rw [pySum_frames N T fun s t => v s (t * F + k) * g s (t * O + j), mul_div_cancel₀ _ (Nat.cast_ne_zero.2 hN.ne')]
      · cases hb
  · rename_i F T F'
    obtain ⟨rfl, rfl, rfl, hc⟩ := hs
    have hF : 0 < F := Nat.pos_of_mul_pos_left hC
    have hT : 0 < T := Nat.pos_of_mul_pos_right hC
    obtain ⟨Q, hQ1, hQ2⟩ := hc.load
    obtain ⟨Y, hY1, hY2⟩ := npFrames_ok hF hT hX2
    obtain ⟨Z, hZ1, hZ2⟩ := npAddRow_ok hY2 hQ2
    obtain ⟨U, hU1, hU2⟩ := npSamples_ok hN hZ2
    rw [← hX2.1] at hU1
    refine ⟨_, _, _, by simp only [forward, hX1, hQ1, bind_ok', hY1, hZ1, hU1]; rfl, (fin hU2).eq fun i j _ hj => ?_, by simp, .inr le_rfl, fun _ => le_rfl, fun q hq _ => old _ q hq, by exact Alike.refl _,
      fun h'' hh G g hG => ?_⟩
    · have hjd : j / F < T := Nat.div_lt_of_lt_mul (by rwa [Nat.mul_comm])
      show v ((i * T + j / F) / T) ((i * T + j / F) % T * F + j % F) + B 0 (j % F) = v i j + B 0 (j % F)
      rw [frame_div hjd, frame_mod hjd, Nat.div_add_mod']
    obtain ⟨M, hM1, hM2⟩ := npFrames_ok hF hT hG
    refine ⟨G, _, by simp only [backward, hM1, bind_ok']; rfl, hG, by exact ⟨rfl, rfl, rfl, rfl, fun h => by cases h⟩, fun b hb => ?_⟩
    cases b
    · cases hb
    · refine (npMean_is hM2).eq fun i j _ _ => ?_
      show (∑ i ∈ range (N * T), g (i / T) (i % T * F + j)) / ((N * T : Nat) : ℝ) = 1 / (T : ℝ) * ((∑ s ∈ range N, ∑ t ∈ range T, g s (t * F + j)) / N)
      rw [pySum_frames N T fun s t => g s (t * F + j), Nat.cast_mul, one_div_mul_eq_div, div_div]
  · rename_i F O T F' O'
    obtain ⟨⟨rfl, rfl⟩, rfl, rfl, hc, hc'⟩ := hs
    have hF : 0 < F := Nat.pos_of_mul_pos_left hC
    have hT : 0 < T := Nat.pos_of_mul_pos_right hC
    have hO : 0 < O := Nat.pos_of_mul_pos_left hC'
    obtain ⟨Q, hQ0, hQ2⟩ := hc
    have hQ1 := load_some hQ0
    obtain ⟨R, hR1, hR2⟩ := hc'.load
    have hw : w < h.length := hlt w (by simp [params])
    obtain ⟨Y, hY1, hY2⟩ := npFrames_ok hF hT hX2
    obtain ⟨Z, hZ1, hZ2⟩ := npDot_ok hY2 hQ2
    obtain ⟨S, hS1, hS2⟩ := npAddRow_ok hZ2 hR2
    obtain ⟨U, hU1, hU2⟩ := npSamples_ok hN hS2
    rw [← hX2.1] at hU1
    refine ⟨_, _, _, by simp only [forward, hX1, hQ1, hR1, bind_ok', hY1, hZ1, hS1, hU1]; rfl, (fin hU2).eq fun i j _ hj => ?_, by simp, .inr le_rfl, fun _ => le_rfl, fun q hq _ => old _ q hq,
      by exact ⟨rfl, rfl, rfl, rfl, fun h => by cases h⟩, fun h'' hh G g hG => ?_⟩
    · have hjd : j / O < T := Nat.div_lt_of_lt_mul (by rwa [Nat.mul_comm])
      show ∑ k ∈ range F, v ((i * T + j / O) / T) ((i * T + j / O) % T * F + k) * W k (j % O) + B 0 (j % O) =
        ∑ k ∈ range F, v i (j / O * F + k) * W k (j % O) + B 0 (j % O)
      rw [frame_div hjd, frame_mod hjd]
    have kx : h''[x]? = some X := (hh x (by rw [len]; omega) (fun h => by omega)).trans ((old _ x hx).trans hX0)
    have kw : h''[w]? = some Q := (hh w (by rw [len]; omega) (fun h => by omega)).trans ((old _ w hw).trans hQ0)
    obtain ⟨M, hM1, hM2⟩ := npFrames_ok hO hT hG
    obtain ⟨P, hP1, hP2⟩ := npDot_ok hY2.transpose hM2
    obtain ⟨D, hD1, hD2⟩ := npDot_ok hM2 hQ2.transpose
    obtain ⟨E, hE1, hE2⟩ := npSamples_ok hN hD2
    rw [← hG.1] at hE1
    refine ⟨E, _, by simp only [backward, saveDydw, if_true, NpStore.loadMember, load_some kx, load_some kw, bind_ok', hM1, hY1, hP1, hD1, hE1]; rfl, hE2.eq fun i k _ hk => ?_,
      by exact ⟨rfl, rfl, rfl, rfl, fun h => by cases h⟩, fun b hb => ?_⟩
    · have hjd : k / F < T := Nat.div_lt_of_lt_mul (by rwa [Nat.mul_comm])
      show ∑ j ∈ range O, g ((i * T + k / F) / T) ((i * T + k / F) % T * O + j) * W (k % F) j = ∑ j ∈ range O, g i (k / F * O + j) * W (k % F) j
      rw [frame_div hjd, frame_mod hjd]
    · cases b
      · refine hP2.eq fun k j _ _ => ?_
        show ∑ i ∈ range (N * T), v (i / T) (i % T * F + k) * g (i / T) (i % T * O + j) = N * ((∑ s ∈ range N, ∑ t ∈ range T, v s (t * F + k) * g s (t * O + j)) / N)
        rw [pySum_frames N T fun s t => v s (t * F + k) * g s (t * O + j), mul_div_cancel₀ _ (Nat.cast_ne_zero.2 hN.ne')]
      · refine (npMean_is hM2).eq fun i j _ _ => ?_
        show (∑ i ∈ range (N * T), g (i / T) (i % T * O + j)) / ((N * T : Nat) : ℝ) = 1 / (T : ℝ) * ((∑ s ∈ range N, ∑ t ∈ range T, g s (t * O + j)) / N)
        rw [pySum_frames N T fun s t => g s (t * O + j), Nat.cast_mul, one_div_mul_eq_div, div_div]

end PyLayer

/-- Forward and backward pass of all layers from layer `i` on. -/
theorem pyTrain_passes {m : Mlp} {N : Nat} {v : Nat → Row} (hN : 0 < N) (hw : ∀ i, i ≤ m.depth → 0 < m.width i) :
    ∀ (ls : List PyLayer) (e : Nat → PyRnd) (i x : Nat) (h : NpStore), PyReady ls x → i + ls.length = m.depth →
    (∀ (k : Nat) (l : PyLayer), ls[k]? = some l → l.Shows h (m.ply (i + k)) (m.width (i + k)) (m.width (i + k + 1))) →
    (∀ (k : Nat) (l : PyLayer), ls[k]? = some l → l.DerivOk (m.ply (i + k)) (m.width (i + k)) N fun s => m.hidden (v s) (i + k)) →
    h.Has x N (m.width i) (fun s => m.hidden (v s) i) →
    ∃ r ls' h', pyPredict e ls x h = .ok (r, ls', h') ∧ h'.Has r N (m.width m.depth) (fun s => m.out (v s)) ∧ h.length ≤ h'.length ∧
      (∀ q, q < h.length → (q = x → ∀ l, ls[0]? = some l → l.keeps = false) → h'[q]? = h[q]?) ∧
      (ls'.length = ls.length ∧ ∀ (k : Nat) (l : PyLayer), ls[k]? = some l → ∃ l', ls'[k]? = some l' ∧ l.Alike l') ∧
      ∀ h'' : NpStore, (∀ q, q < h'.length → h''[q]? = h'[q]?) → ∀ (G : NpArr) (g : Nat → Row), G.Is N (m.width m.depth) g →
        ∃ G' ls'', pyBackprop ls' G h'' = .ok (G', ls'') ∧ G'.Is N (m.width i) (fun s => m.delta (v s) (g s) (m.depth - i)) ∧ ls''.length = ls.length ∧
          ∀ (k : Nat) (l : PyLayer), ls[k]? = some l → ∃ l'', ls''[k]? = some l'' ∧ l.Alike l'' ∧
            l''.HasGrads (m.ply (i + k)) (m.width (i + k)) (m.width (i + k + 1)) N (fun s => m.hidden (v s) (i + k)) (fun s => m.delta (v s) (g s) (m.depth - 1 - (i + k))) := by
  intro ls
  induction ls with
  | nil =>
    intro e i x h _ hd _ _ hX
    obtain rfl : i = m.depth := hd
    exact ⟨x, [], h, rfl, hX, le_rfl, fun _ _ _ => rfl, ⟨rfl, fun k l hk => by simp at hk⟩, fun h'' _ G g hG => ⟨G, [], rfl, by rw [Nat.sub_self]; exact hG, rfl, fun k l hk => by simp at hk⟩⟩
  | cons l ls ih =>
    intro e i x h hr hd hs hder hX
    simp only [List.length_cons] at hd
    have hl := List.mem_cons_self (a := l) (l := ls)
    obtain ⟨r, l', h₁, f1, f2, f3, f4, f5, f6, f7, f8⟩ := PyLayer.forward_train (e 0) (hr.training l hl) (hs 0 l rfl) (hr.learns l hl) hN (hw _ (by omega)) (hw _ (by omega)) hX
      (hr.apart l hl) (hder 0 l rfl)
    have hsr : ∀ (k : Nat) (l' : PyLayer), ls[k]? = some l' → l'.Shows h (m.ply (i + 1 + k)) (m.width (i + 1 + k)) (m.width (i + 1 + k + 1)) := fun k l' hk => by
      have := hs (k + 1) l' (by simpa using hk)
      rwa [show i + (k + 1) = i + 1 + k by omega] at this
    have hmem : ∀ {l' : PyLayer}, l' ∈ ls → l' ∈ l :: ls := fun h => List.mem_cons_of_mem _ h
    have hr' : PyReady ls r := by
      refine ⟨fun l' h' => hr.training l' (hmem h'), fun l' h' => hr.learns l' (hmem h'), fun l' h' hq => ?_, fun k a b hk h1 h2 => hr.exp (k + 1) a b (by simpa using hk) h1 (by simpa using h2)⟩
      rcases f4 with rfl | f4
      · exact hr.apart l' (hmem h') hq
      · obtain ⟨k, hk⟩ := List.mem_iff_getElem?.1 h'
        have := (hsr k l' hk).lt _ hq
        omega
    obtain ⟨r', ls', h', g1, g2, g3, g4, g6, g5⟩ := ih (fun i => e (i + 1)) (i + 1) r h₁ hr' (by omega)
      (fun k l' hk => (hsr k l' hk).congr fun q hq => f6 q ((hsr k l' hk).lt q hq) fun _ hqx => hr.apart l' (hmem (List.mem_iff_getElem?.2 ⟨k, hk⟩)) (hqx ▸ hq))
      (fun k l' hk => by
        have := hder (k + 1) l' (by simpa using hk)
        rwa [show i + (k + 1) = i + 1 + k by omega] at this) f2
    refine ⟨r', l' :: ls', h', by unfold pyPredict; rw [f1, bind_ok']; dsimp only; rw [g1, bind_ok'], g2, by omega, fun q hq hqx => ?_, ⟨by simp [g6.1], fun k l₁ hk => ?_⟩, fun h'' hh G g hG => ?_⟩
    · have hk : l.keeps = true → q ≠ x := fun hk hqx' => by
        have := hqx hqx' l rfl
        rw [hk] at this
        cases this
      refine (g4 q (by omega) fun hqr => ?_).trans (f6 q hq hk)
      rcases f4 with rfl | f4
      · have := f5 (hqx hqr l rfl)
        have := hX.lt
        omega
      · omega
    · match k with
      | 0 =>
        obtain rfl : l = l₁ := by simpa using hk
        exact ⟨l', rfl, f7⟩
      | k + 1 => simpa using g6.2 k l₁ (by simpa using hk)
    · obtain ⟨G', ls'', b1, b2, b3, b4⟩ := g5 h'' hh G g hG
      have hagree : ∀ q, q < h₁.length → (q = r → l'.kind = .exponential) → h''[q]? = h₁[q]? := fun q hq hqr =>
        (hh q (by omega)).trans (g4 q hq fun hqr' l₂ hl₂ => hr.exp 0 l l₂ rfl (f7.1.symm.trans (hqr hqr')) (by simpa using hl₂))
      obtain ⟨G'', l'', c1, c2, c3, c4⟩ := f8 h'' hagree G' _ b2
      have hdel : ∀ s, m.delta (v s) (g s) (m.depth - i) = (m.ply i).back (m.width i) (m.width (i + 1)) (m.hidden (v s) i) (m.delta (v s) (g s) (m.depth - (i + 1))) := fun s => by
        rw [show m.depth - i = m.depth - (i + 1) + 1 by omega, Mlp.delta, show m.depth - 1 - (m.depth - (i + 1)) = i by omega]
      refine ⟨G'', l'' :: ls'', by unfold pyBackprop; rw [b1, bind_ok']; dsimp only; rw [c1, bind_ok'], ?_, by simp [b3], fun k l₁ hk => ?_⟩
      · simp only [hdel]
        exact c2
      · match k with
        | 0 =>
          obtain rfl : l = l₁ := by simpa using hk
          refine ⟨l'', rfl, f7.trans c3, ?_⟩
          rw [Nat.add_zero, show m.depth - 1 - i = m.depth - (i + 1) by omega]
          exact c4
        | k + 1 =>
          have := b4 k l₁ (by simpa using hk)
          rw [show i + (k + 1) = i + 1 + k by omega]
          simpa using this

/-- What the loss layer keeps is the gradient of the loss of the C++ library. -/
theorem pyLossGrad_ok {loss : String} (hl : loss ∈ pyLosses) {K : Nat} (hK : 0 < K) : ∃ ψ : ℝ → ℝ,
    (pyLossName loss ∈ distanceLosses → ∀ z : ℝ, (pyLossName loss ∈ kinkAtZero → z ≠ 0) → HasDerivAt (pointError (pyLossName loss) K) (ψ z) z) ∧
    ∀ {D N : Nat} {p y : Nat → Row} {P t : NpArr}, TruthFits (pyLossName loss) K D N y → P.Is N K p → t.Is N D y →
      ∃ G, pyLossGrad loss P t = .ok G ∧ G.Is N K (fun s => lossGrad 1e-8 (pyLossName loss) ψ (p s) (y s)) := by
  simp only [pyLosses, List.mem_cons, List.not_mem_nil, or_false] at hl
  rcases hl with rfl | rfl | rfl | rfl | rfl | rfl
  · refine ⟨id, fun _ z _ => ?_, fun {D N p y P t} hT hP ht => ?_⟩
    · have := (hasDerivAt_mulSelf z).div_const (2 : ℝ)
      have e : pointError (pyLossName "MSE") K = fun y => y * y / 2 := by
        funext y; simp [pyLossName, pointError, pow_two]
      rw [e]
      exact this.congr_deriv (by simp)
    · obtain rfl : D = K := (hT.same (by decide)).1
      refine ⟨{ P with val := fun i j => P.val i j - t.val i j }, ?_, hP.1, hP.2.1, fun i j hi hj => ?_⟩
      · simp only [pyLossGrad, String.reduceEq, if_false, if_true]
        rw [npCheck_ok ⟨ht.1.trans hP.1.symm, ht.2.1.trans hP.2.1.symm⟩]
        rfl
      · simp only [pyLossName, lossGrad, String.reduceEq, if_false]
        rw [hP.2.2 i j hi hj, ht.2.2 i j hi hj]
        rfl
  · refine ⟨npSign, fun _ z hz => ?_, fun {D N p y P t} hT hP ht => ?_⟩
    · have hz := hz (by decide)
      have e : pointError (pyLossName "MAE") K = fun y => |y| := by funext y; simp [pyLossName, pointError]
      rw [e]
      refine (hasDerivAt_absR hz).congr_deriv ?_
      unfold signR npSign
      rcases lt_or_gt_of_ne hz with h | h
      · simp [h, not_lt.2 h.le]
      · simp [h, not_lt.2 h.le]
    · obtain rfl : D = K := (hT.same (by decide)).1
      refine ⟨{ P with val := fun i j => npSign (P.val i j - t.val i j) }, ?_, hP.1, hP.2.1, fun i j hi hj => ?_⟩
      · simp only [pyLossGrad, String.reduceEq, if_false, if_true]
        rw [npCheck_ok ⟨ht.1.trans hP.1.symm, ht.2.1.trans hP.2.1.symm⟩]
        rfl
      · simp only [pyLossName, lossGrad, String.reduceEq, if_false]
        rw [hP.2.2 i j hi hj, ht.2.2 i j hi hj]
  · refine ⟨Real.tanh, fun _ z _ => ?_, fun {D N p y P t} hT hP ht => ?_⟩
    · have e : pointError (pyLossName "LogCosh") K = fun y => Real.log (Real.cosh y) := by funext y; simp [pyLossName, pointError]
      rw [e]
      exact hasDerivAt_logCosh z
    · obtain rfl : D = K := (hT.same (by decide)).1
      refine ⟨{ P with val := fun i j => Real.tanh (P.val i j - t.val i j) }, ?_, hP.1, hP.2.1, fun i j hi hj => ?_⟩
      · simp only [pyLossGrad, String.reduceEq, if_false, if_true]
        rw [npCheck_ok ⟨ht.1.trans hP.1.symm, ht.2.1.trans hP.2.1.symm⟩]
        rfl
      · rw [show pyLossName "LogCosh" = "LogCosh" from rfl]
        simp only [lossGrad, String.reduceEq, if_false]
        rw [hP.2.2 i j hi hj, ht.2.2 i j hi hj]
  · refine ⟨fun _ => 0, fun h => absurd h (by decide), fun {D N p y P t} hT hP ht => ?_⟩
    rw [show pyLossName "SparseCategoricalCrossEntropy" = "SparseCategoricalCrossEntropy" from rfl] at hT ⊢
    rw [TruthFits, if_pos rfl] at hT
    obtain ⟨rfl, -, hf⟩ := hT
    classical
    refine ⟨{ P with val := fun i j => npCross (P.val i j) (if t.val i 0 = j then 1 else 0) }, ?_, hP.1, hP.2.1, fun i j hi hj => ?_⟩
    · have hall : ∀ i, i < t.rows → ∃ c : Nat, c < P.cols ∧ t.val i 0 = c := fun i hi => by
        rw [ht.1] at hi
        obtain ⟨c, h1, h2⟩ := hf i hi
        exact ⟨c, by rw [hP.2.1]; exact h1, by rw [ht.2.2 i 0 hi one_pos, h2]⟩
      simp only [pyLossGrad, if_true]
      rw [npCheck_ok ⟨ht.1.trans hP.1.symm, ht.2.1, hall⟩]
      rfl
    · obtain ⟨c, h1, h2⟩ := hf i hi
      simp only [lossGrad, String.reduceEq, if_false, if_true, npCross]
      rw [hP.2.2 i j hi hj, ht.2.2 i 0 hi one_pos, h2, Nat.floor_natCast]
      by_cases hcj : c = j
      · subst hcj
        simp [neg_div]
      · have : (c : ℝ) ≠ j := fun h => hcj (by exact_mod_cast h)
        simp [hcj, this]
  · refine ⟨fun _ => 0, fun h => absurd h (by decide), fun {D N p y P t} hT hP ht => ?_⟩
    obtain rfl : D = K := (hT.same (by decide)).1
    refine ⟨{ P with val := fun i j => npCross (P.val i j) (t.val i j) }, ?_, hP.1, hP.2.1, fun i j hi hj => ?_⟩
    · simp only [pyLossGrad, String.reduceEq, if_false, if_true]
      rw [npCheck_ok ⟨ht.1.trans hP.1.symm, ht.2.1.trans hP.2.1.symm⟩]
      rfl
    · simp only [pyLossName, lossGrad, if_true, npCross]
      rw [hP.2.2 i j hi hj, ht.2.2 i j hi hj, neg_div]
  · refine ⟨fun _ => 0, fun h => absurd h (by decide), fun {D N p y P t} hT hP ht => ?_⟩
    obtain rfl : D = K := (hT.same (by decide)).1
    refine ⟨{ P with val := fun i j => -t.val i j / max 1e-8 (P.val i j) + (1 - t.val i j) / max 1e-8 (1 - P.val i j) }, ?_, hP.1, hP.2.1, fun i j hi hj => ?_⟩
    · simp only [pyLossGrad, String.reduceEq, if_false, if_true]
      rw [npCheck_ok ⟨ht.1.trans hP.1.symm, ht.2.1.trans hP.2.1.symm⟩]
      rfl
    · rw [show pyLossName "BinaryCrossEntropy" = "BinaryCrossEntropy" from rfl]
      simp only [lossGrad, String.reduceEq, if_false, if_true]
      rw [hP.2.2 i j hi hj, ht.2.2 i j hi hj, neg_div, max_comm, max_comm (1e-8 : ℝ)]
      ring

theorem npSgd_ok {lr : ℝ} {a b : NpArr} {N C : Nat} {f g : Nat → Nat → ℝ} (ha : a.Is N C f) (hb : b.Is N C g) :
    ∃ y, npSgd lr a b = .ok y ∧ y.Is N C (fun i j => f i j - lr * g i j) := by
  obtain ⟨a1, a2, a3⟩ := ha
  obtain ⟨b1, b2, b3⟩ := hb
  have hd : npSgd lr a b = .ok { a with val := fun i j => a.val i j - b.val i j * lr } := by
    unfold npSgd
    rw [npCheck_ok ⟨a1.trans b1.symm, a2.trans b2.symm⟩]
    rfl
  refine ⟨_, hd, a1, a2, fun i j hi hj => ?_⟩
  dsimp only
  rw [a3 i j hi hj, b3 i j hi hj, mul_comm]

/-- The layer with `lr` times `D` subtracted from its parameters. -/
def Ply.minus (lr : ℝ) (D : Bool → Nat → Nat → ℝ) (p : Ply) : Ply :=
  { p with weight := fun k j => p.weight k j - lr * D false k j, bias := fun k j => p.bias k j - lr * D true k j }

/-- A layer after `optimize`. -/
structure PyLayer.Moved (l : PyLayer) (h h' : NpStore) (l' : PyLayer) : Prop where
  kind : l'.kind = l.kind
  training : l'.training = l.training
  learns : l.Learns → l'.Learns
  length : h.length ≤ h'.length
  old : ∀ q, q < h.length → h'[q]? = h[q]?
  fresh : ∀ q ∈ l'.params, h.length ≤ q

theorem PyLayer.stepWeight_ok (lr : ℝ) {h : NpStore} {l : PyLayer} {R C : Nat} {f D : Nat → Nat → ℝ} (hw : h.Has l.weight R C f) (hd : l.dldw.Is R C D) :
    ∃ Y : NpArr, l.stepWeight lr h = .ok ({ l with weight := h.length }, h ++ [Y]) ∧ Y.Is R C (fun k j => f k j - lr * D k j) := by
  obtain ⟨W, h1, h2⟩ := hw.load
  obtain ⟨Y, h3, h4⟩ := npSgd_ok (lr := lr) h2 hd
  exact ⟨Y, by simp only [stepWeight, h1, h3, bind_ok'], h4⟩

theorem PyLayer.stepBias_ok (lr : ℝ) {h : NpStore} {l : PyLayer} {R C : Nat} {f D : Nat → Nat → ℝ} (hw : h.Has l.bias R C f) (hd : l.dldb.Is R C D) :
    ∃ Y : NpArr, l.stepBias lr h = .ok ({ l with bias := h.length }, h ++ [Y]) ∧ Y.Is R C (fun k j => f k j - lr * D k j) := by
  obtain ⟨W, h1, h2⟩ := hw.load
  obtain ⟨Y, h3, h4⟩ := npSgd_ok (lr := lr) h2 hd
  exact ⟨Y, by simp only [stepBias, h1, h3, bind_ok'], h4⟩

theorem PyLayer.optimize_ok (lr : ℝ) {h : NpStore} {l : PyLayer} {p : Ply} {C C' : Nat} (hs : l.Shows h p C C') (hl : l.Learns) {D : Bool → Nat → Nat → ℝ}
    (hg : ∀ b, p.has b = true → (if b then l.dldb else l.dldw).Is (p.kind.shape b C C').1 (p.kind.shape b C C').2 (D b)) :
    ∃ l' h', l.optimize lr h = .ok (l', h') ∧ l.Moved h h' l' ∧ l'.Shows h' (p.minus lr D) C C' := by
  have old : ∀ (Y : NpArr) (q : Nat), q < h.length → (h ++ [Y])[q]? = h[q]? := fun Y q hq => List.getElem?_append_left hq
  have new : ∀ {Y : NpArr} {R S : Nat} {f : Nat → Nat → ℝ}, Y.Is R S f → (h ++ [Y] : NpStore).Has h.length R S f := fun H => h.has_append _ H
  obtain ⟨k, t, d, dw, w, b, gw, gb⟩ := l
  obtain ⟨pk, W, B⟩ := p
  cases k <;> cases pk <;> first
    | exact absurd hs id
    | exact absurd hl id
    | exact ⟨_, h, rfl, ⟨rfl, rfl, id, le_rfl, fun _ _ => rfl, fun q hq => by simp [params] at hq⟩, hs⟩
    | skip
  · obtain ⟨rfl, hB⟩ := hs
    obtain ⟨Y, h1, h2⟩ := stepBias_ok lr hB (hg true rfl)
    exact ⟨_, _, h1, ⟨rfl, rfl, id, by simp, old _, fun q hq => by simp [params] at hq; omega⟩, rfl, new h2⟩
  · obtain ⟨Y, h1, h2⟩ := stepWeight_ok lr (show h.Has w _ _ _ from hs) (hg false rfl)
    exact ⟨_, _, h1, ⟨rfl, rfl, id, by simp, old _, fun q hq => by simp [params] at hq; omega⟩, new h2⟩
  · obtain ⟨Y, h1, h2⟩ := stepWeight_ok lr (show h.Has w _ _ _ from hs.1) (hg false rfl)
    obtain ⟨Z, h3, h4⟩ := stepBias_ok (l := ⟨.dense, t, d, dw, h.length, b, gw, gb⟩) lr (h := h ++ [Y]) (hs.2.congr (old _ _ hs.2.lt)) (hg true rfl)
    refine ⟨⟨.dense, t, d, dw, h.length, (h ++ [Y]).length, gw, gb⟩, (h ++ [Y]) ++ [Z], by unfold optimize; dsimp only; rw [h1, bind_ok']; exact h3, ⟨rfl, rfl, id, by simp only [List.length_append, List.length_cons, List.length_nil]; omega, fun q hq => ?_, fun q hq => ?_⟩, ?_, ?_⟩
    · rw [List.getElem?_append_left (by simp; omega)]
      exact old _ q hq
    · simp [params] at hq
      omega
    · exact (new h2).congr (List.getElem?_append_left (by simp))
    · exact NpStore.has_append _ _ h4
  · obtain ⟨Y, h1, h2⟩ := stepWeight_ok lr hs.2.2.2 (hs.1.1 ▸ hs.1.2 ▸ hg false rfl)
    exact ⟨_, _, h1, ⟨rfl, rfl, id, by simp, old _, fun q hq => by simp [params] at hq; omega⟩, hs.1, hs.2.1, hs.2.2.1, new h2⟩
  · obtain ⟨Y, h1, h2⟩ := stepBias_ok lr hs.2.2.2 (hs.1 ▸ hg true rfl)
    exact ⟨_, _, h1, ⟨rfl, rfl, id, by simp, old _, fun q hq => by simp [params] at hq; omega⟩, hs.1, hs.2.1, hs.2.2.1, new h2⟩
  · rename_i i o T F O
    obtain ⟨⟨rfl, rfl⟩, hc1, hc2, hw, hb⟩ := hs
    obtain ⟨Y, h1, h2⟩ := stepWeight_ok lr hw (hg false rfl)
    obtain ⟨Z, h3, h4⟩ := stepBias_ok (l := ⟨.tdDense i o, t, d, dw, h.length, b, gw, gb⟩) lr (h := h ++ [Y]) (hb.congr (old _ _ hb.lt)) (hg true rfl)
    refine ⟨⟨.tdDense i o, t, d, dw, h.length, (h ++ [Y]).length, gw, gb⟩, (h ++ [Y]) ++ [Z], by unfold optimize; dsimp only; rw [h1, bind_ok']; exact h3, ⟨rfl, rfl, id, by simp only [List.length_append, List.length_cons, List.length_nil]; omega, fun q hq => ?_, fun q hq => ?_⟩, ⟨rfl, rfl⟩, hc1, hc2, ?_, ?_⟩
    · rw [List.getElem?_append_left (by simp; omega)]
      exact old _ q hq
    · simp [params] at hq
      omega
    · exact (new h2).congr (List.getElem?_append_left (by simp))
    · exact NpStore.has_append _ _ h4

/-- All layers after `optimize`. -/
theorem pyOptimize_ok (lr : ℝ) {m : Mlp} {D : Bool → Nat → Nat → Nat → ℝ} : ∀ (ls : List PyLayer) (i : Nat) (h : NpStore),
    (∀ (k : Nat) (l : PyLayer), ls[k]? = some l → l.Shows h (m.ply (i + k)) (m.width (i + k)) (m.width (i + k + 1)) ∧ l.Learns ∧
      ∀ b, (m.ply (i + k)).has b = true → (if b then l.dldb else l.dldw).Is (m.shape b (i + k)).1 (m.shape b (i + k)).2 (D b (i + k))) →
    ∃ ls' h', pyOptimize lr ls h = .ok (ls', h') ∧ ls'.length = ls.length ∧ h.length ≤ h'.length ∧ (∀ q, q < h.length → h'[q]? = h[q]?) ∧
      ∀ (k : Nat) (l : PyLayer), ls[k]? = some l → ∃ l', ls'[k]? = some l' ∧ l.Moved h h' l' ∧
        l'.Shows h' ((m.ply (i + k)).minus lr fun b => D b (i + k)) (m.width (i + k)) (m.width (i + k + 1)) := by
  intro ls
  induction ls with
  | nil => exact fun i h _ => ⟨[], h, rfl, rfl, le_rfl, fun _ _ => rfl, fun k l hk => by simp at hk⟩
  | cons l ls ih =>
    intro i h H
    obtain ⟨s1, s2, s3⟩ := H 0 l rfl
    obtain ⟨l', h₁, o1, o2, o3⟩ := PyLayer.optimize_ok lr s1 s2 (D := fun b => D b i) s3
    obtain ⟨ls', h', p1, p2, p3, p4, p5⟩ := ih (i + 1) h₁ fun k l₁ hk => by
      obtain ⟨t1, t2, t3⟩ := H (k + 1) l₁ (by simpa using hk)
      rw [show i + (k + 1) = i + 1 + k by omega] at t1 t3
      exact ⟨t1.congr fun q hq => o2.old q (t1.lt q hq), t2, t3⟩
    have hlen := o2.length
    have hold : ∀ q, q < h.length → h'[q]? = h[q]? := fun q hq => (p4 q (by omega)).trans (o2.old q hq)
    refine ⟨l' :: ls', h', by unfold pyOptimize; rw [o1, bind_ok']; dsimp only; rw [p1, bind_ok'], by simp [p2], by omega, hold, fun k l₁ hk => ?_⟩
    match k with
    | 0 =>
      obtain rfl : l = l₁ := by simpa using hk
      exact ⟨l', rfl, ⟨o2.kind, o2.training, o2.learns, by omega, hold, o2.fresh⟩, o3.congr fun q hq => p4 q (o3.lt q hq)⟩
    | k + 1 =>
      obtain ⟨l₂, t1, t2, t3⟩ := p5 k l₁ (by simpa using hk)
      rw [show i + (k + 1) = i + 1 + k by omega]
      exact ⟨l₂, by simpa using t1, ⟨t2.kind, t2.training, t2.learns, by omega, hold, fun q hq => by have := t2.fresh q hq; omega⟩, t3⟩

theorem Mlp.Regular.smooth {m : Mlp} {eps : ℝ} {loss : String} {v y : Row} (h : m.Regular eps loss v y) {i : Nat} (hi : i < m.depth) (hk : (m.ply i).kind ≠ .softmax) :
    (m.ply i).kind.SmoothAt (m.width i) (m.hidden v i) := by
  unfold Mlp.Regular at h
  split at h
  · refine h.2.1 i ?_
    by_contra hlt
    obtain rfl : i = m.depth - 1 := by omega
    exact hk h.1
  · exact h.1 i hi

theorem pyLossName_mem {loss : String} (hl : loss ∈ pyLosses) : pyLossName loss ∈ listLoss := by
  simp only [pyLosses, List.mem_cons, List.not_mem_nil, or_false] at hl
  rcases hl with rfl | rfl | rfl | rfl | rfl | rfl <;> decide

theorem PyLayer.Shows.derivOk {l : PyLayer} {p : Ply} {C C' N : Nat} {h : NpStore} {v : Nat → Row} (hs : l.Shows h p C C') (hl : l.Learns)
    (hsm : p.kind ≠ .softmax → ∀ s, s < N → p.kind.SmoothAt C (v s)) : l.DerivOk p C N v := by
  obtain ⟨k, t, d, dw, w, b, gw, gb⟩ := l
  obtain ⟨pk, W, B⟩ := p
  cases k <;> cases pk <;> first
    | exact absurd hs id
    | exact absurd hl id
    | trivial
    | skip
  · rename_i a A
    obtain ⟨nm, hnm, hlog⟩ := hl
    intro s j hs' hj
    have h1 := hsm (by simp) s hs' j hj
    have e : A.apply = a.f := funext hs.2
    rw [e] at h1
    exact h1.unique (PyAct.good_table _ hnm hlog _ h1.differentiableAt)
  · rename_i A
    intro s j hs' hj
    have h1 := hsm (by simp) s hs' j hj
    have e : A.apply = Real.exp := funext hs.2
    rw [e] at h1
    exact h1.unique (Real.hasDerivAt_exp _)
  · rename_i A
    intro s j hs' hj
    have h1 := hsm (by simp) s hs' j hj
    have e : A.apply = id := funext hs.2
    rw [e] at h1
    exact h1.unique (hasDerivAt_id _)

/-- The network after a step with the gradients `g` at the output. -/
noncomputable def Mlp.pyStep (lr : ℝ) (N : Nat) (v g : Nat → Row) (m : Mlp) : Mlp :=
  { m with ply := fun i => (m.ply i).minus lr fun b k j => (m.ply i).kind.pyRate b N * m.grad N v g b i k j }

/-- One batch of training. -/
theorem pyTrainBatch_core {loss : String} (lr : ℝ) (e : Nat → PyRnd) {h : NpStore} {ls : List PyLayer} {m : Mlp} (hr : PyRep h ls m) {x : Nat}
    (hrd : PyReady ls x) {N : Nat} (hN : 0 < N) {v g : Nat → Row} (hX : h.Has x N (m.width 0) v) {t : NpArr}
    (hder : ∀ (k : Nat) (l : PyLayer), ls[k]? = some l → l.DerivOk (m.ply k) (m.width k) N fun s => m.hidden (v s) k)
    (hg : ∀ P : NpArr, P.Is N (m.width m.depth) (fun s => m.out (v s)) → ∃ G, pyLossGrad loss P t = .ok G ∧ G.Is N (m.width m.depth) g) :
    ∃ ls' h', pyTrainBatch loss lr e ls x t h = .ok (ls', h') ∧ PyRep h' ls' (m.pyStep lr N v g) ∧
      h.length ≤ h'.length ∧ (∀ q, q < h.length → q ≠ x → h'[q]? = h[q]?) ∧
      ∀ (k : Nat) (l : PyLayer), ls[k]? = some l → ∃ l', ls'[k]? = some l' ∧ l'.kind = l.kind ∧ l'.training = l.training ∧ l'.Learns ∧ ∀ q ∈ l'.params, h.length ≤ q := by
  obtain ⟨r, ls₁, h₁, f1, f2, f3, f4, -, f5⟩ := pyTrain_passes (m := m) (v := v) hN hr.pos ls e 0 x h hrd
    (by rw [Nat.zero_add]; exact hr.count) (fun k l hk => by rw [Nat.zero_add]; exact hr.layer k l hk) (fun k l hk => by rw [Nat.zero_add]; exact hder k l hk) hX
  obtain ⟨P, hP1, hP2⟩ := f2.load
  obtain ⟨G, hG1, hG2⟩ := hg P hP2
  obtain ⟨G', ls₂, b1, -, b3, b4⟩ := f5 h₁ (fun _ _ => rfl) G _ hG2
  have hsame : ∀ (k : Nat) (l : PyLayer), ls[k]? = some l → ∃ l'', ls₂[k]? = some l'' ∧ l.Alike l'' ∧
      l''.HasGrads (m.ply k) (m.width k) (m.width (k + 1)) N (fun s => m.hidden (v s) k)
        (fun s => m.delta (v s) (g s) (m.depth - 1 - k)) := fun k l hk => by
    have := b4 k l hk
    rwa [Nat.zero_add] at this
  have back : ∀ (k : Nat) (l : PyLayer), ls₂[k]? = some l → ∃ l₀, ls[k]? = some l₀ := fun k l hk =>
    ⟨_, List.getElem?_eq_getElem (by rw [← b3]; exact (List.getElem?_eq_some_iff.1 hk).1)⟩
  have hcell : ∀ q, q < h.length → q ≠ x → h₁[q]? = h[q]? := fun q hq hqx => f4 q hq fun hx => absurd hx hqx
  obtain ⟨ls', h', o1, o2, o3, o4, o5⟩ := pyOptimize_ok lr (m := m)
    (D := fun b i k j => (m.ply i).kind.pyRate b N * m.grad N v g b i k j) ls₂ 0 h₁ fun k l hk => by
      obtain ⟨l₀, h0⟩ := back k l hk
      obtain ⟨l'', c1, c2, c3⟩ := hsame k l₀ h0
      obtain rfl : l'' = l := Option.some.inj (c1.symm.trans hk)
      have hm := List.mem_iff_getElem?.2 ⟨k, h0⟩
      rw [Nat.zero_add]
      have hsh := hr.layer k l₀ h0
      exact ⟨c2.shows (hsh.congr fun q hq => hcell q (hsh.lt q hq) fun hqx => hrd.apart l₀ hm (hqx ▸ hq)), c2.learns (hrd.learns l₀ hm), c3⟩
  have last : ∀ (k : Nat) (l : PyLayer), ls[k]? = some l → ∃ l', ls'[k]? = some l' ∧ l'.kind = l.kind ∧ l'.training = l.training ∧ l'.Learns ∧
      (∀ q ∈ l'.params, h.length ≤ q) ∧ l'.Shows h' ((m.ply k).minus lr fun b i j =>
        (m.ply k).kind.pyRate b N * m.grad N v g b k i j) (m.width k) (m.width (k + 1)) := fun k l hk => by
    obtain ⟨l'', c1, c2, c3⟩ := hsame k l hk
    obtain ⟨l', d1, d2, d3⟩ := o5 k l'' c1
    rw [Nat.zero_add] at d3
    exact ⟨l', d1, d2.kind.trans c2.1, d2.training.trans c2.2.1, d2.learns (c2.learns (hrd.learns l (List.mem_iff_getElem?.2 ⟨k, hk⟩))), fun q hq => f3.trans (d2.fresh q hq), d3⟩
  refine ⟨ls', h', ?_, ⟨?_, hr.pos, fun i l hi => ?_⟩,
    f3.trans o3, fun q hq hqx => (o4 q (hq.trans_le f3)).trans (hcell q hq hqx), fun k l hk => ?_⟩
  · unfold pyTrainBatch
    rw [f1, bind_ok']
    dsimp only
    rw [hP1, bind_ok', hG1, bind_ok', b1, bind_ok']
    exact o1
  · rw [o2, b3]
    exact hr.count
  · have hlt := (List.getElem?_eq_some_iff.1 hi).1
    rw [o2, b3] at hlt
    obtain ⟨l', d1, -, -, -, -, d6⟩ := last i _ (List.getElem?_eq_getElem hlt)
    obtain rfl : l' = l := Option.some.inj (d1.symm.trans hi)
    exact d6
  · obtain ⟨l', d1, d2, d3, d4, d5, -⟩ := last k l hk
    exact ⟨l', d1, d2, d3, d4, d5⟩

/-- One batch of training that is regular. -/
theorem pyTrainBatch_ok {loss : String} (hl : loss ∈ pyLosses) (lr : ℝ) (e : Nat → PyRnd) {h : NpStore} {ls : List PyLayer} {m : Mlp} (hr : PyRep h ls m) (hok : m.Ok) {x : Nat}
    (hrd : PyReady ls x) {N D : Nat} (hN : 0 < N) {v y : Nat → Row} (hX : h.Has x N (m.width 0) v) {t : NpArr} (ht : t.Is N D y)
    (hT : TruthFits (pyLossName loss) (m.width m.depth) D N y) (hreg : ∀ s, s < N → m.Regular 1e-8 (pyLossName loss) (v s) (y s)) :
    ∃ ls' h' m', pyTrainBatch loss lr e ls x t h = .ok (ls', h') ∧ PyRep h' ls' m' ∧ Mlp.Steps (fun b i => (m.ply i).kind.pyRate b N) (pyLossName loss) lr N v y m m' ∧
      h.length ≤ h'.length ∧ (∀ q, q < h.length → q ≠ x → h'[q]? = h[q]?) ∧
      ∀ (k : Nat) (l : PyLayer), ls[k]? = some l → ∃ l', ls'[k]? = some l' ∧ l'.kind = l.kind ∧ l'.training = l.training ∧ l'.Learns ∧ ∀ q ∈ l'.params, h.length ≤ q := by
  obtain ⟨ψ, g1, g2⟩ := pyLossGrad_ok hl (hok.pos _ le_rfl)
  obtain ⟨ls', h', c1, c2, c3⟩ := pyTrainBatch_core (loss := loss) lr e hr hrd hN hX (fun k l hk => (hr.layer k l hk).derivOk (hrd.learns l (List.mem_of_getElem? hk)) fun hs s hsN =>
    (hreg s hsN).smooth (by rw [← hr.count]; exact (List.getElem?_eq_some_iff.1 hk).1) hs) (fun P hP => g2 hT hP ht)
  refine ⟨ls', h', _, c1, c2, ⟨⟨rfl, rfl, fun _ => rfl⟩, fun b i hi hb => ?_⟩, c3⟩
  refine ⟨_, Mlp.grad_error hok (by norm_num) (pyLossName_mem hl) g1 N v y hT hreg b hi hb, fun k j => ?_⟩
  cases b <;> rfl

/-- The layer with the derivative that the Python layer computes. -/
noncomputable def PlyKind.derivBy (l : Option PyLayer) (K : PlyKind) : PlyKind :=
  match l, K with
  | some l, .act A => .act { A with derivation := match l.kind with
    | .act a => a.d
    | .exponential => Real.exp
    | _ => fun _ => 1 }
  | _, K => K

theorem PyLayer.Shows.changed {h : NpStore} {l : PyLayer} {K : PlyKind} {W B : Nat → Nat → ℝ} {C C' : Nat} (o : Option PyLayer) :
    l.Shows h ⟨K.derivBy o, W, B⟩ C C' ↔ l.Shows h ⟨K, W, B⟩ C C' := by
  cases o with
  | none => rfl
  | some o =>
    obtain ⟨lk, _, _, _, _, _, _, _⟩ := l
    cases K <;> cases lk <;> rfl

/-- The network with the derivatives that the Python layers compute. -/
noncomputable def Mlp.derivBy (ls : List PyLayer) (m : Mlp) : Mlp := { m with ply := fun i => { m.ply i with kind := (m.ply i).kind.derivBy ls[i]? } }

theorem PyRep.derivBy {h : NpStore} {ls : List PyLayer} {m : Mlp} (hr : PyRep h ls m) : PyRep h ls (m.derivBy ls) :=
  ⟨hr.count, hr.pos, fun i l hi => (PyLayer.Shows.changed _).2 (hr.layer i l hi)⟩

theorem PyRep.derivOk {h : NpStore} {ls : List PyLayer} {m : Mlp} (hr : PyRep h ls m) {x N : Nat} (hrd : PyReady ls x) {v : Nat → Row} (k : Nat) (l : PyLayer)
    (hk : ls[k]? = some l) : l.DerivOk ((m.derivBy ls).ply k) ((m.derivBy ls).width k) N fun s => (m.derivBy ls).hidden (v s) k := by
  have hs := hr.layer k l hk
  have hln := hrd.learns l (List.mem_of_getElem? hk)
  change l.DerivOk { m.ply k with kind := (m.ply k).kind.derivBy ls[k]? } _ N _
  rw [hk]
  generalize (fun s => (m.derivBy ls).hidden (v s) k) = u
  generalize (m.derivBy ls).width k = C
  obtain ⟨pk, W, B⟩ := m.ply k
  obtain ⟨lk, t, d, dw, w, b, gw, gb⟩ := l
  cases lk <;> cases pk <;> first
    | exact absurd hs id
    | exact absurd hln id
    | trivial
    | exact fun _ _ _ _ => rfl

/-- One batch of training. -/
theorem pyTrainBatch_any {loss : String} (hl : loss ∈ pyLosses) (lr : ℝ) (e : Nat → PyRnd) {h : NpStore} {ls : List PyLayer} {m : Mlp} (hr : PyRep h ls m) (hok : m.Ok) {x : Nat}
    (hrd : PyReady ls x) {N D : Nat} (hN : 0 < N) {v y : Nat → Row} (hX : h.Has x N (m.width 0) v) {t : NpArr} (ht : t.Is N D y)
    (hT : TruthFits (pyLossName loss) (m.width m.depth) D N y) :
    ∃ ls' h' m', pyTrainBatch loss lr e ls x t h = .ok (ls', h') ∧ PyRep h' ls' m' ∧ Mlp.Like m m' ∧
      ((∀ s, s < N → m.Regular 1e-8 (pyLossName loss) (v s) (y s)) → Mlp.Steps (fun b i => (m.ply i).kind.pyRate b N) (pyLossName loss) lr N v y m m') ∧
      h.length ≤ h'.length ∧ (∀ q, q < h.length → q ≠ x → h'[q]? = h[q]?) ∧
      ∀ (k : Nat) (l : PyLayer), ls[k]? = some l → ∃ l', ls'[k]? = some l' ∧ l'.kind = l.kind ∧ l'.training = l.training ∧ l'.Learns ∧ ∀ q ∈ l'.params, h.length ≤ q := by
  by_cases hreg : ∀ s, s < N → m.Regular 1e-8 (pyLossName loss) (v s) (y s)
  · obtain ⟨ls', h', m', c1, c2, c3, c4⟩ := pyTrainBatch_ok hl lr e hr hok hrd hN hX ht hT hreg
    exact ⟨ls', h', m', c1, c2, c3.like, fun _ => c3, c4⟩
  obtain ⟨ψ, -, g2⟩ := pyLossGrad_ok hl (hok.pos _ le_rfl)
  obtain ⟨ls', h', c1, c2, c3⟩ := pyTrainBatch_core (m := m.derivBy ls) (loss := loss) (t := t) lr e hr.derivBy hrd hN (v := v) hX (hr.derivOk hrd) (fun P hP => g2 hT hP ht)
  obtain ⟨m₂, c4, hd, hw, hk⟩ : ∃ m₂ : Mlp, PyRep h' ls' m₂ ∧ m₂.depth = m.depth ∧ m₂.width = m.width ∧ ∀ i, (m₂.ply i).kind = (m.ply i).kind.derivBy ls[i]? :=
    ⟨_, c2, rfl, rfl, fun _ => rfl⟩
  refine ⟨ls', h', ⟨m.depth, m.width, fun i => ⟨(m.ply i).kind, (m₂.ply i).weight, (m₂.ply i).bias⟩⟩, c1, ⟨c4.count.trans hd, hr.pos, fun i l hi => ?_⟩, ⟨rfl, rfl, fun _ => rfl⟩,
    fun h => absurd h hreg, c3⟩
  rw [← PyLayer.Shows.changed ls[i]?, ← hk i]
  have := c4.layer i l hi
  rwa [hw] at this

end BeeDNN
