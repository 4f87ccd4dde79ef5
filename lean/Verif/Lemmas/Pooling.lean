import Verif.Model.Pooling
import Verif.Lemmas.Image

/-! # Pooling and padding layers: closed forms -/

namespace BeeDNN

variable {α β σ κ : Type}

/-- Sample and channel loops, then one inner loop, each iteration rewriting its own pixels. -/
theorem forN_planes {N K R C n : Nat} {B : Nat → Nat → σ → Out σ}
    {b : Nat → Nat → Nat → σ → Out σ} (S : (Nat → Nat → Nat → Nat → β) → σ) {v e : Nat → Nat → Nat → Nat → β}
    (hS : ∀ v w : Nat → Nat → Nat → Nat → β,
      (∀ s k r c, s < N → k < K → r < R → c < C → v s k r c = w s k r c) → S v = S w)
    (P : Nat → Nat → Nat → Nat → Prop) [∀ s k r c, Decidable (P s k r c)] (own : Nat → Nat → Nat)
    (hown : ∀ s k r c, s < N → k < K → r < R → c < C → P s k r c → own r c < n)
    (hb : ∀ s k v', s < N → k < K → B s k (S v') = forN n (fun i => b s k i) (S v'))
    (step : ∀ s k i, s < N → k < K → i < n → ∀ v' : Nat → Nat → Nat → Nat → β,
      (∀ r c, r < R → c < C → P s k r c → own r c = i → v' s k r c = v s k r c) →
      b s k i (S v') = .ok (S (fun s' k' r' c' =>
        if s' = s ∧ k' = k ∧ P s k r' c' ∧ own r' c' = i then e s k r' c' else v' s' k' r' c'))) :
    forN N (fun s => forN K (fun k => B s k)) (S v) =
      .ok (S (fun s k r c => if P s k r c then e s k r c else v s k r c)) := by
  let S' : (Nat × Nat × Nat × Nat → β) → σ := fun v => S (fun s k r c => v (s, k, r, c))
  let v0 : Nat × Nat × Nat × Nat → β := fun x => v x.1 x.2.1 x.2.2.1 x.2.2.2
  let e0 : Nat × Nat × Nat × Nat → β := fun x => e x.1 x.2.1 x.2.2.1 x.2.2.2
  have key : forN N (fun s => forN K (fun k => B s k)) (S' v0) =
      .ok (S' (fun x => if inBox N K R C x ∧ P x.1 x.2.1 x.2.2.1 x.2.2.2 then e0 x else v0 x)) := by
    apply forN_own S' (fun x => inBox N K R C x ∧ P x.1 x.2.1 x.2.2.1 x.2.2.2) (fun x => x.1)
    · exact fun x h => h.1.1
    intro s hs v1 h1
    have := forN_own (n := K) (b := fun k => B s k) S'
      (v := v1) (e := e0) (fun x => (inBox N K R C x ∧ P x.1 x.2.1 x.2.2.1 x.2.2.2) ∧ x.1 = s)
      (fun x => x.2.1) (fun x h => h.1.1.2.1) ?_
    · exact this
    intro k hk v2 h2
    rw [show B s k (S' v2) = _ from hb s k _ hs hk]
    have := forN_own (n := n) (b := fun i => b s k i) S'
      (v := v2) (e := e0) (fun x => ((inBox N K R C x ∧ P x.1 x.2.1 x.2.2.1 x.2.2.2) ∧ x.1 = s) ∧ x.2.1 = k)
      (fun x => own x.2.2.1 x.2.2.2)
      (fun x h => hown _ _ _ _ h.1.1.1.1 h.1.1.1.2.1 h.1.1.1.2.2.1 h.1.1.1.2.2.2 h.1.1.2) ?_
    · exact this
    intro i hi v3 h3
    have := step s k i hs hk hi (fun s k r c => v3 (s, k, r, c)) ?_
    · refine this.trans ?_
      congr 1
      apply hS
      intro s' k' r' c' hs' hk' hr' hc'
      have hp' : inBox N K R C (s', k', r', c') := ⟨hs', hk', hr', hc'⟩
      simp only [hp', true_and, e0]
      by_cases h : s' = s ∧ k' = k
      · obtain ⟨rfl, rfl⟩ := h
        simp
      · rw [if_neg (by tauto), if_neg (by tauto)]
    · intro r c hr hc hP ho
      have hp : inBox N K R C (s, k, r, c) := ⟨hs, hk, hr, hc⟩
      rw [h3 _ ⟨⟨⟨hp, hP⟩, rfl⟩, rfl⟩ ho, h2 _ ⟨⟨hp, hP⟩, rfl⟩ rfl, h1 _ ⟨hp, hP⟩ rfl]
  refine (show _ = _ from key).trans ?_
  congr 1
  apply hS
  intro s k r c hs hk hr hc
  have hp : inBox N K R C (s, k, r, c) := ⟨hs, hk, hr, hc⟩
  simp [hp, e0, v0]

theorem win_lt {R rf r i : Nat} (hr : r < R / rf) (hi : i < rf) : r * rf + i < R := by
  have h1 : (r + 1) * rf ≤ R / rf * rf := Nat.mul_le_mul_right _ hr
  have h2 := Nat.div_mul_le_self R rf
  rw [Nat.add_mul, Nat.one_mul] at h1
  omega

/-- Selection by scanning: value and label of the first maximum above `low`. -/
def winSel [LT α] [DecidableRel (α := α) (· < ·)] (low : α) (f : Nat → α) (idx : Nat → Int) :
    Nat → α × Int
  | 0 => (low, -1)
  | n + 1 => if (winSel low f idx n).1 < f n then (f n, idx n) else winSel low f idx n

theorem winSel_spec [LinearOrder α] {low : α} {f : Nat → α} {idx : Nat → Int} {n : Nat} (hn : 0 < n)
    (h : ∀ i, i < n → low < f i) :
    ∃ k, IsFirstMax n f k ∧ winSel low f idx n = (f k, idx k) := by
  induction n with
  | zero => omega
  | succ n ih =>
    rcases Nat.eq_zero_or_pos n with rfl | hn'
    · refine ⟨0, ⟨by omega, ?_, ?_⟩, ?_⟩
      · intro j hj
        have : j = 0 := by omega
        subst this; exact le_refl _
      · intro j hj; omega
      · simp [winSel, h 0 (by omega)]
    · obtain ⟨k, ⟨h1, h2, h3⟩, h4⟩ := ih hn' (fun i hi => h i (by omega))
      simp only [winSel, h4]
      by_cases hlt : f k < f n
      · refine ⟨n, ⟨by omega, ?_, ?_⟩, by simp [hlt]⟩
        · intro j hj
          rcases Nat.lt_succ_iff_lt_or_eq.1 hj with hj | rfl
          · exact (h2 j hj).trans hlt.le
          · exact le_refl _
        · intro j hj
          exact (h2 j hj).trans_lt hlt
      · refine ⟨k, ⟨by omega, ?_, h3⟩, by simp [hlt]⟩
        intro j hj
        rcases Nat.lt_succ_iff_lt_or_eq.1 hj with hj | rfl
        · exact h2 j hj
        · exact not_lt.1 hlt

theorem Pool.create_eq {R C K rf cf : Nat} (h1 : 0 < rf) (h2 : 0 < cf) :
    Pool.create R C K rf cf = .ok ⟨R, C, K, rf, cf, R / rf, C / cf, R * C, (R / rf) * (C / cf)⟩ := by
  rw [Pool.create, if_neg (by omega)]

/-- The layer built by the constructor. -/
abbrev Pool.std (R C K rf cf : Nat) : Pool := ⟨R, C, K, rf, cf, R / rf, C / cf, R * C, (R / rf) * (C / cf)⟩

theorem pxUpd_map {γ : Type} (f : β → γ) (v : Nat → Nat → Nat → Nat → β) (s k r c : Nat) (x : β) :
    (fun s' k' r' c' => f (pxUpd v s k r c x s' k' r' c')) =
      pxUpd (fun s' k' r' c' => f (v s' k' r' c')) s k r c (f x) := by
  funext s' k' r' c'
  simp only [pxUpd]
  split <;> rfl

theorem pxUpd_of {v : Nat → Nat → Nat → Nat → β} {s k r c : Nat} {x : β} :
    pxUpd v s k r c x s k r c = x := by simp [pxUpd]

theorem Mat.setRawInt_nat (m : Mat α) (a b : Nat) (x : α) :
    m.setRawInt ((a : Int) + (b : Int)) x = m.setRaw (a + b) x := by
  rw [Mat.setRawInt, if_pos (by omega)]
  congr 1

section
variable {N K R C rf cf : Nat}

theorem exists_resize_img [Inhabited α] (g : Nat → α) {m : Mat α} (h : m.WF) (N K R C : Nat) :
    ∃ v, m.resize g N (R * C * K) = imgMat N K R C v := by
  obtain ⟨d, hd⟩ := Mat.resize_exists g h N (R * C * K)
  exact exists_imgMat (by rw [hd]; simp [Mat.WF, Mat.flat, tab]) (by rw [hd]; rfl) (by rw [hd]; rfl)

theorem setConstantRC_img [Inhabited α] (g : Nat → α) {m : Mat α} (h : m.WF) (N K R C : Nat) (b : α) :
    m.setConstantRC g N (R * C * K) b = .ok (imgMat N K R C (fun _ _ _ _ => b)) :=
  Mat.setConstantRC_eq g h _ _ b

theorem maxWindow_imgMat [LT α] [DecidableRel (α := α) (· < ·)] (low : α)
    (x : Nat → Nat → Nat → Nat → α) {s k r c : Nat} (hs : s < N) (hk : k < K) (hr : r < R / rf)
    (hc : c < C / cf) :
    maxWindow (Pool.std R C K rf cf) low (imgMat N K R C x) (s * (R * C * K) + k * (R * C)) r c =
      .ok (winSel low (fun t => x s k (r * rf + t / cf) (c * cf + t % cf))
        (fun t => (((r * rf + t / cf) * C + (c * cf + t % cf) : Nat) : Int)) (rf * cf)) := by
  rw [maxWindow, forN_nest]
  apply forN_closed' (fun n => winSel low (fun t => x s k (r * rf + t / cf) (c * cf + t % cf))
        (fun t => (((r * rf + t / cf) * C + (c * cf + t % cf) : Nat) : Int)) n)
  · rfl
  · rfl
  · intro t ht
    obtain ⟨h1, h2, -⟩ := idx_decomp ht
    simp only
    rw [raw_imgMat hs hk (win_lt hr h1) (win_lt hc h2) (by ring)]
    simp only [winSel]
    rfl

variable [Inhabited α]

theorem maxPoolForward_imgMat [LT α] [DecidableRel (α := α) (· < ·)] (g : Nat → α) (gi : Nat → Int)
    (fl : Int → Int) (low : α) (train : Bool) (x : Nat → Nat → Nat → Nat → α) {mOut : Mat α}
    {mMax : Mat Int} (hO : mOut.WF) (hM : mMax.WF) :
    let w := fun s k r c => winSel low (fun t => x s k (r * rf + t / cf) (c * cf + t % cf))
        (fun t => (((r * rf + t / cf) * C + (c * cf + t % cf) : Nat) : Int)) (rf * cf)
    maxPoolForward g gi fl low (Pool.std R C K rf cf) train (imgMat N K R C x) mOut mMax =
      .ok (imgMat N K (R / rf) (C / cf) (fun s k r c => (w s k r c).1),
        if train then imgMat N K (R / rf) (C / cf) (fun s k r c => fl (w s k r c).2) else mMax) := by
  intro w
  obtain ⟨v, hv⟩ := exists_resize_img g hO N K (R / rf) (C / cf)
  obtain ⟨v', hv'⟩ := exists_resize_img gi hM N K (R / rf) (C / cf)
  simp only [maxPoolForward, imgMat_rows, imgMat_cols, hv, hv']
  refine (forN_pixels (N := N) (K := K) (R := R / rf) (C := C / cf)
    (fun v : Nat → Nat → Nat → Nat → α × Int => (imgMat N K (R / rf) (C / cf) (fun s k r c => (v s k r c).1),
      if train then imgMat N K (R / rf) (C / cf) (fun s k r c => (v s k r c).2) else mMax))
    (v := fun s k r c => (v s k r c, v' s k r c)) (e := fun s k r c => ((w s k r c).1, fl (w s k r c).2))
    (fun v w h => ?_)
    (b := fun sample channel r c (st : Mat α × Mat Int) => (do
          let w ← maxWindow (Pool.std R C K rf cf) low (imgMat N K R C x)
            (sample * (R * C * K) + channel * (R * C)) r c
          let iIndexOut := r * (C / cf) + c
          let o ← st.1.setRaw (sample * (R / rf * (C / cf) * K) + channel * (R / rf * (C / cf)) + iIndexOut) w.1
          let x ← if train then st.2.set sample (channel * (R / rf * (C / cf)) + iIndexOut) (fl w.2) else .ok st.2
          return (o, x) : Out (Mat α × Mat Int)))
    (fun s k v' hs hk => ?_) ?_).trans ?_
  · simp only [Prod.mk.injEq]
    refine ⟨imgMat_congr fun s k r c hs hk hr hc => by rw [h s k r c hs hk hr hc], ?_⟩
    split
    · exact imgMat_congr fun s k r c hs hk hr hc => by rw [h s k r c hs hk hr hc]
    · rfl
  · simp only [imgMat_rows, imgMat_cols, check_true, hs, bind_ok']
  · intro s k r c hs hk hr hc v' hv'
    simp only [maxWindow_imgMat low x hs hk hr hc, bind_ok']
    rw [setRaw_imgMat hs hk hr hc (by ring)]
    simp only [bind_ok']
    cases train
    · simp only [Bool.false_eq_true, if_false, bind_ok', pxUpd_map Prod.fst, pure_ok]
      rfl
    · simp only [if_true]
      rw [set_imgMat hs hk hr hc (by ring)]
      simp only [bind_ok', pxUpd_map Prod.fst, pxUpd_map Prod.snd, pure_ok]
      rfl
  · rfl

/-- Pixel `(ri,ci)` is the one selected by `w` (position in the window) in its window. -/
def Won (R C rf cf : Nat) (w : Nat → Nat → Nat) (ri ci : Nat) : Prop :=
  ri / rf < R / rf ∧ ci / cf < C / cf ∧ ri % rf * cf + ci % cf = w (ri / rf) (ci / cf)

instance (R C rf cf : Nat) (w : Nat → Nat → Nat) (ri ci : Nat) : Decidable (Won R C rf cf w ri ci) :=
  inferInstanceAs (Decidable (_ ∧ _))

theorem maxPoolBackward_imgMat [Zero α] (g : Nat → α) (hrf : 0 < rf) (hcf : 0 < cf)
    (gr : Nat → Nat → Nat → Nat → α) (idx : Nat → Nat → Nat → Nat → Int) (w : Nat → Nat → Nat)
    (hw : ∀ r c, r < R / rf → c < C / cf → w r c < rf * cf ∧
      idx 0 0 r c = (((r * rf + w r c / cf) * C + (c * cf + w r c % cf) : Nat) : Int))
    {mGI : Mat α} (hG : mGI.WF) :
    maxPoolBackward g (Pool.std R C K rf cf) false (imgMat N K (R / rf) (C / cf) idx)
      (imgMat N K (R / rf) (C / cf) gr) mGI =
      .ok (imgMat N K R C (fun s k ri ci =>
        if Won R C rf cf w ri ci then gr s k (ri / rf) (ci / cf) else 0)) := by
  simp only [maxPoolBackward, Bool.false_eq_true, if_false, imgMat_rows, imgMat_cols,
    setConstantRC_img g hG, bind_ok']
  refine (forN_planes (N := N) (K := K) (R := R) (C := C) (n := R / rf * (C / cf))
    (imgMat N K R C) (v := fun _ _ _ _ => 0) (e := fun s k ri ci => gr s k (ri / rf) (ci / cf))
    (fun v w h => imgMat_congr h) (fun _ _ ri ci => Won R C rf cf w ri ci)
    (fun ri ci => ri / rf * (C / cf) + ci / cf) (fun s k r c _ _ _ _ h => idx_lt h.1 h.2.1)
    (b := fun sample channel i gi => (do
          let x ← (imgMat N K (R / rf) (C / cf) gr).raw
            (sample * (R / rf * (C / cf) * K) + channel * (R / rf * (C / cf)) + i)
          let k ← (imgMat N K (R / rf) (C / cf) idx).getI i
          gi.setRawInt ((sample * (R * C * K) + channel * (R * C) : Nat) + k) x : Out (Mat α)))
    (fun s k v' hs hk => ?_) ?_).trans ?_
  · simp only [imgMat_rows, imgMat_cols, check_true, hs, bind_ok']
  · intro s k i hs hk hi v' hv'
    obtain ⟨h1, h2, h3⟩ := idx_decomp hi
    rw [raw_imgMat hs hk h1 h2 (by rw [← h3]; ring)]
    have hget : (imgMat N K (R / rf) (C / cf) idx).getI i = .ok (idx 0 0 (i / (C / cf)) (i % (C / cf))) := by
      have hlt : i < (imgMat N K (R / rf) (C / cf) idx).size := by
        have : 0 * (R / rf * (C / cf) * K) + (0 * (R / rf * (C / cf)) + i) < N * (R / rf * (C / cf) * K) := by
          apply idx_lt (by omega)
          rw [Nat.mul_comm _ K]
          exact idx_lt (by omega) hi
        simpa [Mat.size] using this
      rw [Mat.getI, check_true hlt]
      exact raw_imgMat (by omega) (by omega) h1 h2 (by rw [← h3]; ring)
    obtain ⟨h4, h5⟩ := hw _ _ h1 h2
    simp only [bind_ok', hget, h5]
    rw [Mat.setRawInt_nat]
    obtain ⟨h6, h7, h8⟩ := idx_decomp h4
    rw [setRaw_imgMat hs hk (win_lt h1 h6) (win_lt h2 h7) (by ring)]
    congr 1
    apply imgMat_congr
    intro s' k' r' c' hs' hk' hr' hc'
    simp only [pxUpd]
    by_cases hsk : s' = s ∧ k' = k
    · obtain ⟨rfl, rfl⟩ := hsk
      have hiff : (r' = i / (C / cf) * rf + w (i / (C / cf)) (i % (C / cf)) / cf ∧
          c' = i % (C / cf) * cf + w (i / (C / cf)) (i % (C / cf)) % cf) ↔
          (Won R C rf cf w r' c' ∧ r' / rf * (C / cf) + c' / cf = i) := by
        constructor
        · rintro ⟨rfl, rfl⟩
          refine ⟨⟨?_, ?_, ?_⟩, ?_⟩
          · rw [idx_div h6]; exact h1
          · rw [idx_div h7]; exact h2
          · rw [idx_div h6, idx_div h7, idx_mod h6, idx_mod h7, ← h8]
          · rw [idx_div h6, idx_div h7, ← h3]
        · rintro ⟨⟨h9, h10, h11⟩, h12⟩
          rw [h3] at h12
          obtain ⟨h13, h14⟩ := idx_inj h10 h2 h12
          rw [h13, h14, h8] at h11
          obtain ⟨h15, h16⟩ := idx_inj (Nat.mod_lt _ hcf) h7 h11
          rw [← h13, ← h14] at *
          rw [← h15, ← h16]
          exact ⟨(Nat.div_add_mod' _ _).symm, (Nat.div_add_mod' _ _).symm⟩
      simp only [true_and, hiff]
      by_cases hc : Won R C rf cf w r' c' ∧ r' / rf * (C / cf) + c' / cf = i
      · rw [if_pos hc, if_pos hc]
        obtain ⟨⟨_, h10, _⟩, h12⟩ := hc
        rw [h3] at h12
        obtain ⟨h13, h14⟩ := idx_inj h10 h2 h12
        rw [h13, h14]
      · rw [if_neg hc, if_neg hc]
    · rw [if_neg (by tauto), if_neg (by tauto)]
  · rfl

theorem globalMaxPlane_imgMat [LT α] [DecidableRel (α := α) (· < ·)] (low : α)
    (x : Nat → Nat → Nat → Nat → α) {s k : Nat} (hs : s < N) (hk : k < K) :
    globalMaxPlane R C low (imgMat N K R C x) s k =
      .ok (winSel low (fun t => x s k (t / C) (t % C))
        (fun t => ((k * (R * C) + (t / C * C + t % C) : Nat) : Int)) (R * C)) := by
  rw [globalMaxPlane, forN_nest]
  apply forN_closed' (fun n => winSel low (fun t => x s k (t / C) (t % C))
        (fun t => ((k * (R * C) + (t / C * C + t % C) : Nat) : Int)) n)
  · rfl
  · rfl
  · intro t ht
    obtain ⟨h1, h2, -⟩ := idx_decomp ht
    simp only
    rw [get_imgMat hs hk h1 h2 (by ring)]
    simp only [winSel, bind_ok', pure_ok]
    rw [show k * R * C + t / C * C + t % C = k * (R * C) + (t / C * C + t % C) by ring]

theorem globalMaxPoolForward_imgMat [LT α] [DecidableRel (α := α) (· < ·)] (g : Nat → α) (gi : Nat → Int)
    (fl : Int → Int) (low : α) (train : Bool) (x : Nat → Nat → Nat → Nat → α) {mOut : Mat α}
    {mMax : Mat Int} (hO : mOut.WF) (hM : mMax.WF) :
    let w := fun s k => winSel low (fun t => x s k (t / C) (t % C))
        (fun t => ((k * (R * C) + (t / C * C + t % C) : Nat) : Int)) (R * C)
    globalMaxPoolForward g gi fl low R C K train (imgMat N K R C x) mOut mMax =
      .ok (Mat.ofFn N K (fun s k => (w s k).1),
        if train then Mat.ofFn N K (fun s k => fl (w s k).2) else mMax) := by
  intro w
  obtain ⟨v, hv⟩ := Mat.resize_exists g hO N K
  obtain ⟨v', hv'⟩ := Mat.resize_exists gi hM N K
  simp only [globalMaxPoolForward, imgMat_rows, hv, Mat.flat_rows, Mat.flat_cols, hv']
  simp only [Mat.flat_eq_ofFn]
  refine (forN_pixels (N := N) (K := K) (R := 1) (C := 1)
    (fun v : Nat → Nat → Nat → Nat → α × Int => (Mat.ofFn N K (fun s k => (v s k 0 0).1),
      if train then Mat.ofFn N K (fun s k => (v s k 0 0).2) else mMax))
    (v := fun s k r c => (v (s * K + k), v' (s * K + k))) (e := fun s k r c => ((w s k).1, fl (w s k).2))
    (fun v w h => ?_)
    (b := fun sample channel r c (st : Mat α × Mat Int) => (do
          let w ← globalMaxPlane R C low (imgMat N K R C x) sample channel
          let o ← st.1.set sample channel w.1
          let x ← if train then st.2.set sample channel (fl w.2) else .ok st.2
          return (o, x) : Out (Mat α × Mat Int)))
    (fun s k v' hs hk => ?_) ?_).trans ?_
  · simp only [Prod.mk.injEq]
    refine ⟨Mat.ofFn_congr fun s k hs hk => by rw [h s k 0 0 hs hk (by omega) (by omega)], ?_⟩
    split
    · exact Mat.ofFn_congr fun s k hs hk => by rw [h s k 0 0 hs hk (by omega) (by omega)]
    · rfl
  · rfl
  · intro s k r c hs hk hr hc v' hv'
    have hr0 : r = 0 := by omega
    have hc0 : c = 0 := by omega
    subst hr0; subst hc0
    simp only [globalMaxPlane_imgMat low x hs hk, bind_ok', Mat.set_ofFn hs hk]
    cases train
    · simp only [Bool.false_eq_true, if_false, bind_ok', pure_ok]
      congr 2
      apply Mat.ofFn_congr
      intro i j hi hj
      simp only [pxUpd, and_true]
      split <;> rfl
    · simp only [if_true, Mat.set_ofFn hs hk, bind_ok', pure_ok]
      congr 2 <;>
      · apply Mat.ofFn_congr
        intro i j hi hj
        simp only [pxUpd, and_true]
        split <;> rfl
  · rfl

theorem setColInt_imgMat {v : Nat → Nat → Nat → Nat → α} {s k r c : Nat} {x : α} (hs : s < N) (hk : k < K)
    (hr : r < R) (hc : c < C) :
    (imgMat N K R C v).setColInt s ((k * (R * C) + (r * C + c) : Nat) : Int) x =
      .ok (imgMat N K R C (pxUpd v s k r c x)) := by
  have hlt : ((k * (R * C) + (r * C + c) : Nat) : Int) < ((imgMat N K R C v).cols : Int) :=
    Int.ofNat_lt.2 (px_lt hk hr hc)
  have hlt' : s < (imgMat N K R C v).rows := hs
  rw [Mat.setColInt, check_true hlt', check_true hlt, bind_ok', bind_ok', Mat.setRawInt_nat,
    imgMat_cols, setRaw_imgMat hs hk hr hc rfl]

theorem globalMaxPoolBackward_imgMat [Zero α] (g : Nat → α)
    (gr : Nat → Nat → α) (w : Nat → Nat → Nat) (hw : ∀ s k, s < N → k < K → w s k < R * C)
    {mGI : Mat α} (hG : mGI.WF) :
    globalMaxPoolBackward g R C K false
      (Mat.ofFn N K (fun s k => ((k * (R * C) + (w s k / C * C + w s k % C) : Nat) : Int)))
      (Mat.ofFn N K gr) mGI =
      .ok (imgMat N K R C (fun s k r c => if r * C + c = w s k then gr s k else 0)) := by
  simp only [globalMaxPoolBackward, Bool.false_eq_true, if_false, Mat.ofFn_rows]
  rw [show K * C * R = R * C * K by ring, setConstantRC_img g hG]
  simp only [bind_ok']
  refine (forN_planes (N := N) (K := K) (R := R) (C := C) (n := 1)
    (imgMat N K R C) (v := fun _ _ _ _ => 0) (e := fun s k _ _ => gr s k)
    (fun v w h => imgMat_congr h) (fun s k r c => r * C + c = w s k)
    (fun _ _ => 0) (fun s k r c _ _ _ _ h => by omega)
    (b := fun sample channel _ gi => (do
        let x ← (Mat.ofFn N K gr).get sample channel
        let k ← (Mat.ofFn N K (fun s k => ((k * (R * C) + (w s k / C * C + w s k % C) : Nat) : Int))).get
          sample channel
        gi.setColInt sample k x : Out (Mat α)))
    (fun s k v' hs hk => rfl) ?_).trans ?_
  · intro s k i hs hk hi v' hv'
    obtain ⟨h1, h2, h3⟩ := idx_decomp (hw s k hs hk)
    simp only [Mat.get_ofFn hs hk, bind_ok', setColInt_imgMat hs hk h1 h2]
    congr 1
    apply imgMat_congr
    intro s' k' r' c' hs' hk' hr' hc'
    simp only [pxUpd]
    by_cases hsk : s' = s ∧ k' = k
    · obtain ⟨rfl, rfl⟩ := hsk
      have hiff : (r' = w s' k' / C ∧ c' = w s' k' % C) ↔ r' * C + c' = w s' k' := by
        constructor
        · rintro ⟨rfl, rfl⟩; exact h3.symm
        · intro h
          rw [← h, idx_div hc', idx_mod hc']
          exact ⟨rfl, rfl⟩
      have hi0 : (0 : Nat) = i := by omega
      simp only [true_and, hiff, hi0, and_true]
    · rw [if_neg (by tauto), if_neg (by tauto)]
  · rfl

section avg
variable [Zero α] [One α] [Add α] [Mul α] [Div α] [NatCast α]

theorem avgPoolForward_imgMat (g : Nat → α) (x : Nat → Nat → Nat → Nat → α) {mOut : Mat α} (hO : mOut.WF) :
    avgPoolForward g (Pool.std R C K rf cf) (imgMat N K R C x) mOut =
      .ok (imgMat N K (R / rf) (C / cf) (fun s k r c =>
        accN (rf * cf) (fun t => x s k (r * rf + t / cf) (c * cf + t % cf)) *
          (1 / ((rf * cf : Nat) : α)))) := by
  obtain ⟨v, hv⟩ := exists_resize_img g hO N K (R / rf) (C / cf)
  simp only [avgPoolForward, imgMat_rows, imgMat_cols, hv]
  refine forN_pixels (N := N) (K := K) (R := R / rf) (C := C / cf) (imgMat N K (R / rf) (C / cf))
    (fun v w h => imgMat_congr h)
    (b := fun sample channel r c o => (do
          let fSum ← forN rf (fun i s =>
            forN cf (fun j s => do
              let x ← (imgMat N K R C x).raw
                (sample * (R * C * K) + channel * (R * C) + ((r * rf + i) * C + (c * cf + j)))
              return s + x) s) (0 : α)
          o.setRaw (sample * (R / rf * (C / cf) * K) + channel * (R / rf * (C / cf)) + (r * (C / cf) + c))
            (fSum * (1 / ((rf * cf : Nat) : α))) : Out (Mat α)))
    (fun s k v' hs hk => ?_) ?_
  · simp only [imgMat_rows, imgMat_cols, check_true, hs, bind_ok']
  · intro s k r c hs hk hr hc v' hv'
    rw [forN_nest, Mat.forN_acc (x := fun t => x s k (r * rf + t / cf) (c * cf + t % cf)), bind_ok',
      setRaw_imgMat hs hk hr hc (by ring)]
    intro t ht a
    obtain ⟨h1, h2, -⟩ := idx_decomp ht
    rw [raw_imgMat hs hk (win_lt hr h1) (win_lt hc h2) (by ring)]
    rfl

/-- Read-modify-write of every pixel of one window. -/
theorem forN_win {φ : α → α} (hrf : 0 < rf) (hcf : 0 < cf) {v : Nat → Nat → Nat → Nat → α} {s k r c : Nat}
    (hs : s < N) (hk : k < K) (hr : r < R / rf) (hc : c < C / cf) :
    forN rf (fun i gi => forN cf (fun j gi => do
        let y ← gi.raw (s * (R * C * K) + k * (R * C) + ((r * rf + i) * C + (c * cf + j)))
        gi.setRaw (s * (R * C * K) + k * (R * C) + ((r * rf + i) * C + (c * cf + j))) (φ y)) gi)
      (imgMat N K R C v) =
    .ok (imgMat N K R C (fun s' k' r' c' =>
      if s' = s ∧ k' = k ∧ r' / rf = r ∧ c' / cf = c then φ (v s' k' r' c') else v s' k' r' c')) := by
  rw [forN_nest]
  refine (forN_own (κ := Nat × Nat × Nat × Nat)
    (fun v => imgMat N K R C (fun s k r c => v (s, k, r, c)))
    (v := fun x => v x.1 x.2.1 x.2.2.1 x.2.2.2) (e := fun x => φ (v x.1 x.2.1 x.2.2.1 x.2.2.2))
    (fun x => x.1 = s ∧ x.2.1 = k ∧ x.2.2.1 / rf = r ∧ x.2.2.2 / cf = c)
    (fun x => x.2.2.1 % rf * cf + x.2.2.2 % cf)
    (fun x h => idx_lt (Nat.mod_lt _ hrf) (Nat.mod_lt _ hcf)) ?_)
  intro t ht v' hv'
  obtain ⟨h1, h2, h3⟩ := idx_decomp ht
  rw [raw_imgMat hs hk (win_lt hr h1) (win_lt hc h2) (by ring), bind_ok',
    setRaw_imgMat hs hk (win_lt hr h1) (win_lt hc h2) (by ring)]
  congr 1
  apply imgMat_congr
  intro s' k' r' c' hs' hk' hr' hc'
  have hiff : (r' = r * rf + t / cf ∧ c' = c * cf + t % cf) ↔
      ((r' / rf = r ∧ c' / cf = c) ∧ r' % rf * cf + c' % cf = t) := by
    constructor
    · rintro ⟨rfl, rfl⟩
      rw [idx_div h1, idx_div h2, idx_mod h1, idx_mod h2, ← h3]
      exact ⟨⟨rfl, rfl⟩, rfl⟩
    · rintro ⟨⟨rfl, rfl⟩, h⟩
      rw [← h, idx_div (Nat.mod_lt _ hcf), idx_mod (Nat.mod_lt _ hcf)]
      exact ⟨(Nat.div_add_mod' _ _).symm, (Nat.div_add_mod' _ _).symm⟩
  simp only [pxUpd, hiff]
  by_cases hh : s' = s ∧ k' = k ∧ (r' / rf = r ∧ c' / cf = c) ∧ r' % rf * cf + c' % cf = t
  · rw [if_pos hh, if_pos (by tauto)]
    have h5 := hiff.2 hh.2.2
    obtain ⟨rfl, rfl, _⟩ := hh
    obtain ⟨rfl, rfl⟩ := h5
    rw [hv' _ (by simp [idx_div h1, idx_div h2])
      (by simp only; rw [idx_mod h1, idx_mod h2, ← h3])]
  · rw [if_neg hh, if_neg (by tauto)]

theorem avgPoolBackward_imgMat (g : Nat → α) (hrf : 0 < rf) (hcf : 0 < cf)
    (gr : Nat → Nat → Nat → Nat → α) {mGI : Mat α} (hG : mGI.WF) :
    avgPoolBackward g (Pool.std R C K rf cf) false (imgMat N K (R / rf) (C / cf) gr) mGI =
      .ok (imgMat N K R C (fun s k ri ci => if ri / rf < R / rf ∧ ci / cf < C / cf then
        0 + gr s k (ri / rf) (ci / cf) * (1 / ((rf * cf : Nat) : α)) else 0)) := by
  simp only [avgPoolBackward, Bool.false_eq_true, if_false, imgMat_rows, imgMat_cols,
    setConstantRC_img g hG, bind_ok']
  refine (forN_planes (N := N) (K := K) (R := R) (C := C) (n := R / rf * (C / cf))
    (imgMat N K R C) (v := fun _ _ _ _ => 0)
    (e := fun s k ri ci => 0 + gr s k (ri / rf) (ci / cf) * (1 / ((rf * cf : Nat) : α)))
    (fun v w h => imgMat_congr h) (fun _ _ ri ci => ri / rf < R / rf ∧ ci / cf < C / cf)
    (fun ri ci => ri / rf * (C / cf) + ci / cf) (fun s k r c _ _ _ _ h => idx_lt h.1 h.2)
    (b := fun sample channel i gi => (do
          let x ← (imgMat N K (R / rf) (C / cf) gr).raw
            (sample * (R / rf * (C / cf) * K) + channel * (R / rf * (C / cf)) +
              (i % (C / cf) + i / (C / cf) * (C / cf)))
          forN rf (fun a gi => forN cf (fun j gi => do
            let y ← gi.raw (sample * (R * C * K) + channel * (R * C) +
              ((i / (C / cf) * rf + a) * C + (i % (C / cf) * cf + j)))
            gi.setRaw (sample * (R * C * K) + channel * (R * C) +
              ((i / (C / cf) * rf + a) * C + (i % (C / cf) * cf + j)))
              (y + x * (1 / ((rf * cf : Nat) : α)))) gi) gi : Out (Mat α)))
    (fun s k v' hs hk => ?_) ?_).trans ?_
  · simp only [imgMat_rows, imgMat_cols, check_true, hs, bind_ok']
    rw [forN_nest]
  · intro s k i hs hk hi v' hv'
    obtain ⟨h1, h2, h3⟩ := idx_decomp hi
    rw [raw_imgMat hs hk h1 h2 (by ring), bind_ok',
      forN_win (φ := fun y => y + gr s k (i / (C / cf)) (i % (C / cf)) * (1 / ((rf * cf : Nat) : α)))
        hrf hcf hs hk h1 h2]
    congr 1
    apply imgMat_congr
    intro s' k' r' c' hs' hk' hr' hc'
    by_cases hsk : s' = s ∧ k' = k
    · obtain ⟨rfl, rfl⟩ := hsk
      have hiff : (r' / rf = i / (C / cf) ∧ c' / cf = i % (C / cf)) ↔
          ((r' / rf < R / rf ∧ c' / cf < C / cf) ∧ r' / rf * (C / cf) + c' / cf = i) := by
        constructor
        · rintro ⟨h5, h6⟩
          rw [h5, h6]
          exact ⟨⟨h1, h2⟩, h3.symm⟩
        · rintro ⟨⟨_, h6⟩, h7⟩
          rw [← h7, idx_div h6, idx_mod h6]
          exact ⟨rfl, rfl⟩
      simp only [true_and, hiff]
      split
      · rename_i hh
        rw [hv' r' c' hr' hc' hh.1 hh.2]
        obtain ⟨h5, h6⟩ := hiff.2 hh
        rw [h5, h6]
      · rfl
    · rw [if_neg (by tauto), if_neg (by tauto)]
  · rfl

theorem globalAvgPoolForward_imgMat (g : Nat → α) (x : Nat → Nat → Nat → Nat → α) {mOut : Mat α}
    (hO : mOut.WF) :
    globalAvgPoolForward g R C K (imgMat N K R C x) mOut =
      .ok (Mat.ofFn N K (fun s k =>
        accN (R * C) (fun t => x s k (t / C) (t % C)) * (1 / ((R * C : Nat) : α)))) := by
  obtain ⟨v, hv⟩ := Mat.resize_exists g hO N K
  simp only [globalAvgPoolForward, imgMat_rows, imgMat_cols, hv, Mat.flat_eq_ofFn]
  apply Mat.forN_rows
  intro s k hs hk f' _
  simp only [check_true, hs, Mat.ofFn_rows, Mat.ofFn_cols, bind_ok']
  rw [forN_nest, Mat.forN_acc (x := fun t => x s k (t / C) (t % C)), bind_ok', Mat.setRaw_ofFn hs hk]
  intro t ht a
  obtain ⟨h1, h2, -⟩ := idx_decomp ht
  rw [raw_imgMat hs hk h1 h2 (by ring)]
  rfl

theorem globalAvgPoolBackward_imgMat (g : Nat → α) (gr : Nat → Nat → α) {mGI : Mat α} (hG : mGI.WF) :
    globalAvgPoolBackward g R C K false (Mat.ofFn N K gr) mGI =
      .ok (imgMat N K R C (fun s k _ _ => gr s k * (1 / ((R * C : Nat) : α)))) := by
  obtain ⟨v, hv⟩ := exists_resize_img g hG N K R C
  simp only [globalAvgPoolBackward, Bool.false_eq_true, if_false, Mat.ofFn_rows, Mat.ofFn_cols, hv]
  refine forN_pixels (N := N) (K := K) (R := R) (C := C) (imgMat N K R C)
    (fun v w h => imgMat_congr h)
    (b := fun sample channel r c gi => gi.setRaw (sample * (R * C * K) + channel * (R * C) + (r * C + c))
      (gr sample channel * (1 / ((R * C : Nat) : α))))
    (fun s k v' hs hk => ?_) ?_
  · simp only [imgMat_rows, imgMat_cols, check_true, hs, bind_ok', Mat.raw_ofFn hs hk]
  · intro s k r c hs hk hr hc v' hv'
    rw [setRaw_imgMat hs hk hr hc (by ring)]

end avg

variable {bd : Nat}

theorem zeroPadForward_imgMat [Zero α] (g : Nat → α) (x : Nat → Nat → Nat → Nat → α) {mOut : Mat α}
    (hO : mOut.WF) :
    zeroPadForward g R C K bd (imgMat N K R C x) mOut =
      .ok (imgMat N K (R + 2 * bd) (C + 2 * bd) (fun s k r c =>
        if (bd ≤ r ∧ r < R + bd) ∧ bd ≤ c ∧ c < C + bd then x s k (r - bd) (c - bd) else 0)) := by
  simp only [zeroPadForward, imgMat_rows, imgMat_cols, setConstantRC_img g hO, bind_ok']
  refine (forN_planes (N := N) (K := K) (R := R + 2 * bd) (C := C + 2 * bd) (n := R * C)
    (imgMat N K (R + 2 * bd) (C + 2 * bd)) (v := fun _ _ _ _ => 0)
    (e := fun s k r c => x s k (r - bd) (c - bd))
    (fun v w h => imgMat_congr h) (fun _ _ r c => (bd ≤ r ∧ r < R + bd) ∧ bd ≤ c ∧ c < C + bd)
    (fun r c => (r - bd) * C + (c - bd)) (fun s k r c _ _ _ _ h => idx_lt (by omega) (by omega))
    (b := fun sample channel i o => (do
          let x ← (imgMat N K R C x).raw (sample * (R * C * K) + channel * (R * C) + (i / C * C + i % C))
          o.setRaw (sample * ((R + 2 * bd) * (C + 2 * bd) * K) + channel * ((R + 2 * bd) * (C + 2 * bd)) +
            ((i / C + bd) * (C + 2 * bd) + i % C + bd)) x : Out (Mat α)))
    (fun s k v' hs hk => ?_) ?_).trans ?_
  · simp only [imgMat_rows, imgMat_cols, check_true, hs, bind_ok']
    rw [forN_nest]
  · intro s k i hs hk hi v' hv'
    obtain ⟨h1, h2, h3⟩ := idx_decomp hi
    rw [raw_imgMat hs hk h1 h2 (by ring), bind_ok',
      setRaw_imgMat (r := i / C + bd) (c := i % C + bd) hs hk (by have := Nat.zero_le (i / C); omega)
        (by have := Nat.zero_le (i % C); omega) (by ring)]
    congr 1
    apply imgMat_congr
    intro s' k' r' c' hs' hk' hr' hc'
    simp only [pxUpd]
    by_cases hsk : s' = s ∧ k' = k
    · obtain ⟨rfl, rfl⟩ := hsk
      have hiff : (r' = i / C + bd ∧ c' = i % C + bd) ↔
          (((bd ≤ r' ∧ r' < R + bd) ∧ bd ≤ c' ∧ c' < C + bd) ∧ (r' - bd) * C + (c' - bd) = i) := by
        constructor
        · rintro ⟨rfl, rfl⟩
          refine ⟨by have := Nat.zero_le (i / C); have := Nat.zero_le (i % C); omega, ?_⟩
          rw [Nat.add_sub_cancel, Nat.add_sub_cancel, ← h3]
        · rintro ⟨h5, h6⟩
          rw [h3] at h6
          obtain ⟨h7, h8⟩ := idx_inj (by omega) h2 h6
          omega
      simp only [true_and, hiff]
      split
      · rename_i hh
        obtain ⟨rfl, rfl⟩ := hiff.2 hh
        rw [Nat.add_sub_cancel, Nat.add_sub_cancel]
      · rfl
    · rw [if_neg (by tauto), if_neg (by tauto)]
  · rfl

theorem zeroPadBackward_imgMat (g : Nat → α) (gr : Nat → Nat → Nat → Nat → α) {mGI : Mat α}
    (hG : mGI.WF) :
    zeroPadBackward g R C K bd false (imgMat N K (R + 2 * bd) (C + 2 * bd) gr) mGI =
      .ok (imgMat N K R C (fun s k r c => gr s k (r + bd) (c + bd))) := by
  obtain ⟨v, hv⟩ := exists_resize_img g hG N K R C
  simp only [zeroPadBackward, Bool.false_eq_true, if_false, imgMat_rows, imgMat_cols, hv]
  refine forN_pixels (N := N) (K := K) (R := R) (C := C) (imgMat N K R C)
    (fun v w h => imgMat_congr h)
    (b := fun sample channel r c gi => (do
          let x ← (imgMat N K (R + 2 * bd) (C + 2 * bd) gr).raw
            (sample * ((R + 2 * bd) * (C + 2 * bd) * K) + channel * ((R + 2 * bd) * (C + 2 * bd)) +
            ((r + bd) * (C + 2 * bd) + c + bd))
          gi.setRaw (sample * (R * C * K) + channel * (R * C) + (r * C + c)) x : Out (Mat α)))
    (fun s k v' hs hk => ?_) ?_
  · simp only [imgMat_rows, imgMat_cols, check_true, hs, bind_ok']
  · intro s k r c hs hk hr hc v' hv'
    rw [raw_imgMat (r := r + bd) (c := c + bd) hs hk (by omega) (by omega) (by ring), bind_ok',
      setRaw_imgMat hs hk hr hc (by ring)]

end

end BeeDNN
