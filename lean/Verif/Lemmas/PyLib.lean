import Verif.Spec.PyLib
import Verif.Lemmas.Softmax

/-! # Lemmas: prediction of the Python library -/

namespace BeeDNN
open Finset

theorem NpStore.Has.load {h : NpStore} {r N C : Nat} {f : Nat → Nat → ℝ} (H : h.Has r N C f) : ∃ a, h.load r = .ok a ∧ a.Is N C f := by
  obtain ⟨a, h1, h2⟩ := H
  exact ⟨a, by unfold NpStore.load; rw [h1], h2⟩

theorem NpStore.Has.lt {h : NpStore} {r N C : Nat} {f : Nat → Nat → ℝ} (H : h.Has r N C f) : r < h.length := by
  obtain ⟨a, h1, -⟩ := H
  exact (List.getElem?_eq_some_iff.1 h1).1

theorem NpStore.Has.congr {h h' : NpStore} {r N C : Nat} {f : Nat → Nat → ℝ} (H : h.Has r N C f) (e : h'[r]? = h[r]?) : h'.Has r N C f := by
  obtain ⟨a, h1, h2⟩ := H
  exact ⟨a, e.trans h1, h2⟩

theorem NpStore.Has.eq {h : NpStore} {r N C : Nat} {f g : Nat → Nat → ℝ} (H : h.Has r N C f) (e : ∀ i j, i < N → j < C → f i j = g i j) : h.Has r N C g := by
  obtain ⟨a, h1, h2, h3, h4⟩ := H
  exact ⟨a, h1, h2, h3, fun i j hi hj => (h4 i j hi hj).trans (e i j hi hj)⟩

theorem NpStore.has_append (h : NpStore) (Y : NpArr) {N C : Nat} {f : Nat → Nat → ℝ} (H : Y.Is N C f) : (h ++ [Y] : NpStore).Has h.length N C f :=
  ⟨Y, by simp, H⟩

theorem npCheck_ok {c : Prop} [Decidable c] (h : c) : npCheck c = .ok () := if_pos h

theorem npDot_ok {a b : NpArr} {N C D : Nat} {f g : Nat → Nat → ℝ} (ha : a.Is N C f) (hb : b.Is C D g) :
    ∃ y, npDot a b = .ok y ∧ y.Is N D (fun i j => ∑ k ∈ range C, f i k * g k j) := by
  obtain ⟨a1, a2, a3⟩ := ha
  obtain ⟨b1, b2, b3⟩ := hb
  have hd : npDot a b = .ok { rows := a.rows, cols := b.cols, val := fun i j => ∑ k ∈ range a.cols, a.val i k * b.val k j } := by
    unfold npDot
    rw [npCheck_ok (a2.trans b1.symm)]
    rfl
  refine ⟨_, hd, a1, b2, fun i j hi hj => ?_⟩
  dsimp only
  rw [a2]
  exact sum_congr rfl fun k hk => by rw [a3 i k hi (mem_range.1 hk), b3 k j (mem_range.1 hk) hj]

theorem npAddRow_ok {a b : NpArr} {N C : Nat} {f g : Nat → Nat → ℝ} (ha : a.Is N C f) (hb : b.Is 1 C g) :
    ∃ y, npAddRow a b = .ok y ∧ y.Is N C (fun i j => f i j + g 0 j) := by
  obtain ⟨a1, a2, a3⟩ := ha
  obtain ⟨b1, b2, b3⟩ := hb
  have hd : npAddRow a b = .ok { a with val := fun i j => a.val i j + b.val 0 j } := by
    unfold npAddRow
    rw [npCheck_ok ⟨b1, a2.trans b2.symm⟩]
    rfl
  refine ⟨_, hd, a1, a2, fun i j hi hj => ?_⟩
  dsimp only
  rw [a3 i j hi hj, b3 0 j one_pos hj]

theorem npFrames_ok {a : NpArr} {N T F : Nat} {f : Nat → Nat → ℝ} (hF : 0 < F) (hT : 0 < T) (ha : a.Is N (T * F) f) :
    ∃ y, npFrames a F = .ok y ∧ y.Is (N * T) F (fun i j => f (i / T) (i % T * F + j)) := by
  obtain ⟨a1, a2, a3⟩ := ha
  have e : N * (T * F) = N * T * F := by ring
  refine ⟨_, by unfold npFrames; rw [a1, a2, npCheck_ok ⟨hF, by rw [e, Nat.mul_mod_left]⟩]; rfl, ?_, rfl, fun i j hi hj => ?_⟩
  · dsimp only
    rw [e, Nat.mul_div_cancel _ hF]
  · dsimp only
    have hm := Nat.mod_lt i hT
    have hlt : i % T * F + j < T * F := by
      calc i % T * F + j < i % T * F + F := by omega
        _ = (i % T + 1) * F := by ring
        _ ≤ T * F := Nat.mul_le_mul_right _ hm
    have e2 : i * F + j = (i % T * F + j) + T * F * (i / T) := by
      conv_lhs => rw [← Nat.mod_add_div i T]
      ring
    have hTF : 0 < T * F := Nat.mul_pos hT hF
    rw [e2, Nat.add_mul_div_left _ _ hTF, Nat.div_eq_of_lt hlt, Nat.zero_add, Nat.add_mul_mod_self_left, Nat.mod_eq_of_lt hlt]
    exact a3 _ _ (Nat.div_lt_of_lt_mul (by rwa [Nat.mul_comm])) hlt

theorem npSamples_ok {a : NpArr} {N T O : Nat} {f : Nat → Nat → ℝ} (hN : 0 < N) (ha : a.Is (N * T) O f) :
    ∃ y, npSamples a N = .ok y ∧ y.Is N (T * O) (fun i j => f (i * T + j / O) (j % O)) := by
  obtain ⟨a1, a2, a3⟩ := ha
  have e : N * T * O = T * O * N := by ring
  refine ⟨_, by unfold npSamples; rw [a1, a2, npCheck_ok ⟨hN, by rw [e, Nat.mul_mod_left]⟩]; rfl, rfl, ?_, fun i j hi hj => ?_⟩
  · dsimp only
    rw [e, Nat.mul_div_cancel _ hN]
  · dsimp only
    have hO : 0 < O := Nat.pos_of_mul_pos_left (a := T) (by omega)
    have hjd : j / O < T := Nat.div_lt_of_lt_mul (by rwa [Nat.mul_comm])
    have e2 : i * (T * O) + j = j + O * (i * T) := by ring
    rw [e, Nat.mul_div_cancel _ hN, e2, Nat.add_mul_div_left _ _ hO, Nat.add_mul_mod_self_left, Nat.add_comm (j / O)]
    refine a3 _ _ ?_ (Nat.mod_lt _ hO)
    calc i * T + j / O < i * T + T := by omega
      _ = (i + 1) * T := by ring
      _ ≤ N * T := Nat.mul_le_mul_right _ hi

theorem NpArr.Is.map {a : NpArr} {N C : Nat} {g : Nat → Nat → ℝ} (h : a.Is N C g) (f : ℝ → ℝ) : (a.map f).Is N C (fun i j => f (g i j)) :=
  ⟨h.1, h.2.1, fun i j hi hj => congrArg f (h.2.2 i j hi hj)⟩

theorem pySoftmaxRow_eq {C : Nat} {v w : Nat → ℝ} (hvw : ∀ k, k < C → v k = w k) {j : Nat} (hj : j < C) : pySoftmaxRow C v j = softmaxAt C w j := by
  unfold pySoftmaxRow softmaxAt
  dsimp only
  generalize (List.range C).foldl (fun a k => max a (v k)) (v 0) = m
  have e : ∀ k ∈ range C, Real.exp (v k - m) = Real.exp (w k) * Real.exp (-m) := fun k hk => by
    rw [hvw k (mem_range.1 hk), sub_eq_add_neg, Real.exp_add]
  rw [e j (mem_range.2 hj), sum_congr rfl e, ← sum_mul, mul_div_mul_right _ _ (Real.exp_pos _).ne']

theorem frame_div {i T t : Nat} (h : t < T) : (i * T + t) / T = i := by
  rw [Nat.mul_comm, Nat.mul_add_div (by omega), Nat.div_eq_of_lt h, Nat.add_zero]

theorem frame_mod {i T t : Nat} (h : t < T) : (i * T + t) % T = t := by
  rw [Nat.mul_comm, Nat.mul_add_mod, Nat.mod_eq_of_lt h]

namespace PyLayer

theorem Shows.congr {h h' : NpStore} {l : PyLayer} {p : Ply} {C C' : Nat} (H : l.Shows h p C C') (e : ∀ q ∈ l.params, h'[q]? = h[q]?) : l.Shows h' p C C' := by
  obtain ⟨k, _, _, _, w, b, _, _⟩ := l
  obtain ⟨pk, _, _⟩ := p
  cases k <;> cases pk <;> first
    | exact H
    | skip
  all_goals simp only [params, List.mem_cons, List.not_mem_nil, or_false, forall_eq_or_imp, forall_eq] at e
  · exact ⟨H.1, H.2.imp fun _ x => ⟨x.1.congr e, x.2⟩⟩
  · exact ⟨H.1, H.2.congr e⟩
  · exact ⟨H.1, H.2.imp fun _ x => ⟨x.1.congr e, x.2⟩⟩
  · exact NpStore.Has.congr H e
  · exact ⟨H.1.congr e.1, H.2.congr e.2⟩
  · exact ⟨H.1, H.2.1, H.2.2.1, H.2.2.2.congr e⟩
  · exact ⟨H.1, H.2.1, H.2.2.1, H.2.2.2.congr e⟩
  · exact ⟨H.1, H.2.1, H.2.2.1, H.2.2.2.1.congr e.1, H.2.2.2.2.congr e.2⟩

theorem Shows.lt {h : NpStore} {l : PyLayer} {p : Ply} {C C' : Nat} (H : l.Shows h p C C') : ∀ q ∈ l.params, q < h.length := by
  obtain ⟨k, _, _, _, w, b, _, _⟩ := l
  obtain ⟨pk, _, _⟩ := p
  cases k <;> cases pk <;> first
    | exact absurd H id
    | exact fun q hq => absurd hq List.not_mem_nil
    | skip
  all_goals simp only [params, List.mem_cons, List.not_mem_nil, or_false, forall_eq_or_imp, forall_eq]
  · obtain ⟨-, _, x, -⟩ := H
    exact x.lt
  · exact H.2.lt
  · obtain ⟨-, _, x, -⟩ := H
    exact x.lt
  · exact NpStore.Has.lt H
  · exact ⟨H.1.lt, H.2.lt⟩
  · exact H.2.2.2.lt
  · exact H.2.2.2.lt
  · exact ⟨H.2.2.2.1.lt, H.2.2.2.2.lt⟩

/-- One layer at inference. -/
theorem forward_test (e : PyRnd) {l : PyLayer} {p : Ply} {C C' N x : Nat} {h : NpStore} {v : Nat → Row} (ht : l.training = false) (hs : l.Shows h p C C')
    (hN : 0 < N) (hC : 0 < C) (hX : h.Has x N C v) :
    ∃ r h', l.forward e x h = .ok (r, l, h') ∧ h'.Has r N C' (fun i => p.apply C (v i)) ∧
      if l.keeps then r = x ∧ h'.length = h.length ∧ ∀ q, q ≠ x → h'[q]? = h[q]? else r = h.length ∧ ∃ Y, h' = h ++ [Y] := by
  have hx := hX.lt
  obtain ⟨X, hX1, hX2⟩ := hX.load
  obtain ⟨k, t, _, _, w, b, _, _⟩ := l
  obtain ⟨pk, W, B⟩ := p
  have fin : ∀ {Y : NpArr} {D : Nat} {f : Nat → Nat → ℝ}, Y.Is N D f → (h ++ [Y] : NpStore).Has h.length N D f := fun H => h.has_append _ H
  obtain rfl : t = false := ht
  cases k <;> cases pk <;> first
    | exact absurd hs id
    | skip
  · rename_i a A
    obtain ⟨rfl, hf⟩ := hs
    have hY : (X.map a.f).Is N C' (fun i => Ply.apply C' ⟨.act A, W, B⟩ (v i)) := by
      have := hX2.map a.f
      refine ⟨this.1, this.2.1, fun i j hi hj => (this.2.2 i j hi hj).trans ?_⟩
      exact (hf _).symm
    rcases hi : a.inPlace with _ | _
    · refine ⟨_, _, by simp only [forward, hX1, saveDydx]; rw [bind_ok']; simp only [hi]; rfl, fin hY, ?_⟩
      rw [if_neg (by simp [keeps, hi])]
      exact ⟨rfl, _, rfl⟩
    · refine ⟨_, _, by simp only [forward, hX1, saveDydx]; rw [bind_ok']; simp only [hi]; rfl, ⟨_, by simp [hx], hY⟩, ?_⟩
      rw [if_pos (by simp [keeps, hi])]
      exact ⟨rfl, by simp, fun q hq => by simp [List.getElem?_set_ne (Ne.symm hq)]⟩
  · obtain ⟨rfl, hf⟩ := hs
    refine ⟨_, _, by simp only [forward, hX1]; rw [bind_ok']; rfl, fin ?_, by rw [if_neg (by simp [keeps])]; exact ⟨rfl, _, rfl⟩⟩
    have := hX2.map Real.exp
    exact ⟨this.1, this.2.1, fun i j hi hj => (this.2.2 i j hi hj).trans (hf _).symm⟩
  · obtain ⟨rfl, hf⟩ := hs
    refine ⟨_, _, by simp only [forward, hX1]; rw [bind_ok'], hX.eq fun i j _ _ => (hf _).symm, ?_⟩
    rw [if_pos (by simp [keeps])]
    exact ⟨rfl, rfl, fun _ _ => rfl⟩
  · obtain ⟨rfl, c, hc, hf⟩ := hs
    obtain ⟨Q, hQ1, hQ2⟩ := hc.load
    refine ⟨_, _, by simp only [forward, hX1, hQ1]; rw [bind_ok', bind_ok'], fin ?_, by rw [if_neg (by simp [keeps])]; exact ⟨rfl, _, rfl⟩⟩
    have := hX2.map (· + Q.val 0 0)
    refine ⟨this.1, this.2.1, fun i j hi hj => (this.2.2 i j hi hj).trans ?_⟩
    dsimp only
    rw [hQ2.2.2 0 0 one_pos one_pos]
    exact (hf _).symm
  · obtain ⟨rfl, hc⟩ := hs
    obtain ⟨Q, hQ1, hQ2⟩ := hc.load
    obtain ⟨Y, hY1, hY2⟩ := npAddRow_ok hX2 hQ2
    exact ⟨_, _, by simp only [forward, hX1, hQ1, bind_ok', hY1], fin hY2, by rw [if_neg (by simp [keeps])]; exact ⟨rfl, _, rfl⟩⟩
  · obtain ⟨rfl, c, hc, hf⟩ := hs
    obtain ⟨Q, hQ1, hQ2⟩ := hc.load
    refine ⟨_, _, by simp only [forward, hX1, hQ1]; rw [bind_ok', bind_ok']; rfl, fin ?_, by rw [if_neg (by simp [keeps])]; exact ⟨rfl, _, rfl⟩⟩
    have := hX2.map (· * Q.val 0 0)
    refine ⟨this.1, this.2.1, fun i j hi hj => (this.2.2 i j hi hj).trans ?_⟩
    dsimp only
    rw [hQ2.2.2 0 0 one_pos one_pos]
    exact (hf _).symm
  · obtain ⟨rfl, hf⟩ := hs
    refine ⟨_, _, by simp only [forward, hX1]; rw [bind_ok']; rfl, hX.eq fun i j _ _ => (hf _).symm, ?_⟩
    rw [if_pos (by simp [keeps])]
    exact ⟨rfl, rfl, fun _ _ => rfl⟩
  · obtain ⟨Q, hQ1, hQ2⟩ := NpStore.Has.load hs
    obtain ⟨Y, hY1, hY2⟩ := npDot_ok hX2 hQ2
    exact ⟨_, _, by simp only [forward, hX1, hQ1, bind_ok', hY1]; rfl, fin hY2, by rw [if_neg (by simp [keeps])]; exact ⟨rfl, _, rfl⟩⟩
  · obtain ⟨Q, hQ1, hQ2⟩ := hs.1.load
    obtain ⟨R, hR1, hR2⟩ := hs.2.load
    obtain ⟨Y, hY1, hY2⟩ := npDot_ok hX2 hQ2
    obtain ⟨Z, hZ1, hZ2⟩ := npAddRow_ok hY2 hR2
    exact ⟨_, _, by simp only [forward, hX1, hQ1, hR1, bind_ok', hY1, hZ1]; rfl, fin hZ2, by rw [if_neg (by simp [keeps])]; exact ⟨rfl, _, rfl⟩⟩
  · obtain rfl : C' = C := hs
    have hc : npCheck (0 < X.cols) = .ok () := npCheck_ok (by rw [hX2.2.1]; exact hC)
    have hY : ({ X with val := fun i => pySoftmaxRow X.cols (X.val i) } : NpArr).Is N C' (fun i => Ply.apply C' ⟨.softmax, W, B⟩ (v i)) := by
      refine ⟨hX2.1, hX2.2.1, fun i j hi hj => ?_⟩
      dsimp only
      rw [hX2.2.1]
      exact pySoftmaxRow_eq (fun k hk => hX2.2.2 i k hi hk) hj
    exact ⟨_, _, by simp only [forward, hX1, bind_ok', hc, saveDydx]; rfl, fin hY, by rw [if_neg (by simp [keeps])]; exact ⟨rfl, _, rfl⟩⟩
  · obtain ⟨rfl, hf⟩ := hs
    refine ⟨_, _, by simp only [forward, hX1]; rw [bind_ok']; rfl, hX.eq fun i j _ _ => (hf _).symm, ?_⟩
    rw [if_pos (by simp [keeps])]
    exact ⟨rfl, rfl, fun _ _ => rfl⟩
  · rename_i F O T F' O'
    obtain ⟨⟨rfl, rfl⟩, rfl, rfl, hc⟩ := hs
    have hF : 0 < F := Nat.pos_of_mul_pos_left hC
    have hT : 0 < T := Nat.pos_of_mul_pos_right hC
    obtain ⟨Q, hQ1, hQ2⟩ := hc.load
    obtain ⟨Y, hY1, hY2⟩ := npFrames_ok hF hT hX2
    obtain ⟨Z, hZ1, hZ2⟩ := npDot_ok hY2 hQ2
    obtain ⟨U, hU1, hU2⟩ := npSamples_ok hN hZ2
    rw [← hX2.1] at hU1
    refine ⟨_, _, by simp only [forward, hX1, hQ1, bind_ok', hY1, hZ1, hU1]; rfl, (fin hU2).eq fun i j _ hj => ?_, by rw [if_neg (by simp [keeps])]; exact ⟨rfl, _, rfl⟩⟩
    have hjd : j / O < T := Nat.div_lt_of_lt_mul (by rwa [Nat.mul_comm])
    show ∑ k ∈ range F, v ((i * T + j / O) / T) ((i * T + j / O) % T * F + k) * W k (j % O) = ∑ k ∈ range F, v i (j / O * F + k) * W k (j % O)
    rw [frame_div hjd, frame_mod hjd]
  · rename_i F T F'
    obtain ⟨rfl, rfl, rfl, hc⟩ := hs
    have hF : 0 < F := Nat.pos_of_mul_pos_left hC
    have hT : 0 < T := Nat.pos_of_mul_pos_right hC
    obtain ⟨Q, hQ1, hQ2⟩ := hc.load
    obtain ⟨Y, hY1, hY2⟩ := npFrames_ok hF hT hX2
    obtain ⟨Z, hZ1, hZ2⟩ := npAddRow_ok hY2 hQ2
    obtain ⟨U, hU1, hU2⟩ := npSamples_ok hN hZ2
    rw [← hX2.1] at hU1
    refine ⟨_, _, by simp only [forward, hX1, hQ1, bind_ok', hY1, hZ1, hU1], (fin hU2).eq fun i j _ hj => ?_, by rw [if_neg (by simp [keeps])]; exact ⟨rfl, _, rfl⟩⟩
    have hjd : j / F < T := Nat.div_lt_of_lt_mul (by rwa [Nat.mul_comm])
    show v ((i * T + j / F) / T) ((i * T + j / F) % T * F + j % F) + B 0 (j % F) = v i j + B 0 (j % F)
    rw [frame_div hjd, frame_mod hjd, Nat.div_add_mod']
  · rename_i F O T F' O'
    obtain ⟨⟨rfl, rfl⟩, rfl, rfl, hc, hd⟩ := hs
    have hF : 0 < F := Nat.pos_of_mul_pos_left hC
    have hT : 0 < T := Nat.pos_of_mul_pos_right hC
    obtain ⟨Q, hQ1, hQ2⟩ := hc.load
    obtain ⟨R, hR1, hR2⟩ := hd.load
    obtain ⟨Y, hY1, hY2⟩ := npFrames_ok hF hT hX2
    obtain ⟨Z, hZ1, hZ2⟩ := npDot_ok hY2 hQ2
    obtain ⟨S, hS1, hS2⟩ := npAddRow_ok hZ2 hR2
    obtain ⟨U, hU1, hU2⟩ := npSamples_ok hN hS2
    rw [← hX2.1] at hU1
    refine ⟨_, _, by simp only [forward, hX1, hQ1, hR1, bind_ok', hY1, hZ1, hS1, hU1]; rfl, (fin hU2).eq fun i j _ hj => ?_, by rw [if_neg (by simp [keeps])]; exact ⟨rfl, _, rfl⟩⟩
    have hjd : j / O < T := Nat.div_lt_of_lt_mul (by rwa [Nat.mul_comm])
    show ∑ k ∈ range F, v ((i * T + j / O) / T) ((i * T + j / O) % T * F + k) * W k (j % O) + B 0 (j % O) =
      ∑ k ∈ range F, v i (j / O * F + k) * W k (j % O) + B 0 (j % O)
    rw [frame_div hjd, frame_mod hjd]

end PyLayer

/-- The layers at inference: the result, and what happens to the array with the input. -/
theorem pyPredict_test {m : Mlp} {N : Nat} {v : Nat → Row} (hN : 0 < N) : ∀ (ls : List PyLayer) (e : Nat → PyRnd) (i x : Nat) (h : NpStore),
    (∀ l ∈ ls, l.training = false) → i + ls.length = m.depth → (∀ i, i ≤ m.depth → 0 < m.width i) →
    (∀ (k : Nat) (l : PyLayer), ls[k]? = some l → l.Shows h (m.ply (i + k)) (m.width (i + k)) (m.width (i + k + 1))) → (∀ l ∈ ls, x ∉ l.params) →
    h.Has x N (m.width i) (fun s => m.hidden (v s) i) →
    ∃ r h', pyPredict e ls x h = .ok (r, ls, h') ∧ h'.Has r N (m.width m.depth) (fun s => m.out (v s)) ∧ h.length ≤ h'.length ∧
      (∀ q, q < h.length → q ≠ x → h'[q]? = h[q]?) ∧
      h'.Has x N (m.width (i + (ls.takeWhile (·.keeps)).length)) (fun s => m.hidden (v s) (i + (ls.takeWhile (·.keeps)).length)) := by
  intro ls
  induction ls with
  | nil =>
    intro e i x h _ hd _ _ _ hX
    obtain rfl : i = m.depth := hd
    exact ⟨x, h, rfl, hX, le_rfl, fun _ _ _ => rfl, hX⟩
  | cons l ls ih =>
    intro e i x h ht hd hw hs hp hX
    simp only [List.length_cons] at hd
    obtain ⟨r, h₁, h1, h2, h3⟩ := PyLayer.forward_test (e 0) (ht l List.mem_cons_self) (hs 0 l rfl) hN (hw _ (by omega)) hX
    have hsr : ∀ (k : Nat) (l' : PyLayer), ls[k]? = some l' → l'.Shows h (m.ply (i + 1 + k)) (m.width (i + 1 + k)) (m.width (i + 1 + k + 1)) := fun k l' hk => by
      have := hs (k + 1) l' (by simpa using hk)
      rwa [show i + (k + 1) = i + 1 + k by omega] at this
    rcases hk : l.keeps with _ | _
    · rw [if_neg (by simp [hk])] at h3
      obtain ⟨rfl, Y, rfl⟩ := h3
      have old : ∀ q, q < h.length → (h ++ [Y])[q]? = h[q]? := fun q hq => List.getElem?_append_left hq
      obtain ⟨r, h', g1, g2, g3, g4, g5⟩ := ih (fun i => e (i + 1)) (i + 1) h.length (h ++ [Y]) (fun l hl => ht l (List.mem_cons_of_mem _ hl)) (by omega) hw
        (fun k l' hl' => (hsr k l' hl').congr fun q hq => old q ((hsr k l' hl').lt q hq))
        (fun l' hl' hq => by
          obtain ⟨k, hk⟩ := List.mem_iff_getElem?.1 hl'
          exact lt_irrefl _ ((hsr k l' hk).lt _ hq)) h2
      simp only [List.length_append, List.length_cons, List.length_nil] at g3 g4
      refine ⟨r, h', by unfold pyPredict; rw [h1, bind_ok']; dsimp only; rw [g1, bind_ok'], g2, by omega, fun q hq _ => (g4 q (by omega) (by omega)).trans (old q hq), ?_⟩
      rw [List.takeWhile_cons_of_neg (by simp [hk])]
      exact hX.congr ((g4 x (by have := hX.lt; omega) (by have := hX.lt; omega)).trans (old x hX.lt))
    · rw [if_pos (by simp [hk])] at h3
      obtain ⟨rfl, hl, hq⟩ := h3
      obtain ⟨r', h', g1, g2, g3, g4, g5⟩ := ih (fun i => e (i + 1)) (i + 1) r h₁ (fun l hl => ht l (List.mem_cons_of_mem _ hl)) (by omega) hw
        (fun k l' hl' => (hsr k l' hl').congr fun q hq' => hq q fun hqr => hp l' (List.mem_cons_of_mem _ (List.mem_iff_getElem?.2 ⟨k, hl'⟩)) (hqr ▸ hq'))
        (fun l' hl' => hp l' (List.mem_cons_of_mem _ hl')) h2
      rw [hl] at g3 g4
      refine ⟨r', h', by unfold pyPredict; rw [h1, bind_ok']; dsimp only; rw [g1, bind_ok'], g2, g3, fun q hq1 hq2 => (g4 q hq1 hq2).trans (hq q hq2), ?_⟩
      rw [List.takeWhile_cons_of_pos (by simp [hk]), List.length_cons, show i + ((ls.takeWhile (·.keeps)).length + 1) = i + 1 + (ls.takeWhile (·.keeps)).length by omega]
      exact g5

end BeeDNN
