import Verif.Spec.Image
import Verif.Lemmas.MatrixMore

/-! # Batches of images: reading, writing, loops over pixels -/

namespace BeeDNN

variable {α β σ κ : Type}

/-- A loop each iteration of which rewrites its own cells: cell `x` (with `P x`) belongs to iteration
`own x`. -/
theorem forN_own {n : Nat} {b : Nat → σ → Out σ} (S : (κ → β) → σ) {v e : κ → β} (P : κ → Prop)
    [DecidablePred P] (own : κ → Nat) (hP : ∀ x, P x → own x < n)
    (step : ∀ i, i < n → ∀ v' : κ → β, (∀ x, P x → own x = i → v' x = v x) →
      b i (S v') = .ok (S (fun x => if P x ∧ own x = i then e x else v' x))) :
    forN n b (S v) = .ok (S (fun x => if P x then e x else v x)) := by
  apply forN_closed' (fun i => S (fun x => if P x ∧ own x < i then e x else v x))
  · congr 1
    funext x
    simp
  · congr 1
    funext x
    by_cases h : P x
    · simp [h, hP x h]
    · simp [h]
  · intro i hi
    rw [step i hi]
    · congr 2
      funext x
      by_cases h : P x
      · simp only [h, true_and]
        rcases Nat.lt_trichotomy (own x) i with h1 | h1 | h1
        · simp [h1.ne, h1, Nat.lt_succ_of_lt h1]
        · simp [h1]
        · simp [h1.ne', not_lt.2 h1.le, Nat.not_lt.2 h1]
      · simp [h]
    · intro x hx hxi
      simp [hxi]

section
variable {N K R C : Nat}

theorem imgMat_congr {v w : Nat → Nat → Nat → Nat → α}
    (h : ∀ s k r c, s < N → k < K → r < R → c < C → v s k r c = w s k r c) :
    imgMat N K R C v = imgMat N K R C w := by
  apply Mat.ofFn_congr
  intro i j hi hj
  rw [Nat.mul_comm] at hj
  obtain ⟨h1, h2, -⟩ := idx_decomp hj
  obtain ⟨h3, h4, -⟩ := idx_decomp h2
  exact h _ _ _ _ hi h1 h3 h4

theorem px_lt {k r c : Nat} (hk : k < K) (hr : r < R) (hc : c < C) :
    k * (R * C) + (r * C + c) < R * C * K := by
  rw [Nat.mul_comm (R * C) K]
  exact idx_lt hk (idx_lt hr hc)

theorem imgMat_dec {v : Nat → Nat → Nat → Nat → α} {s k r c : Nat} (hr : r < R) (hc : c < C) :
    v s ((k * (R * C) + (r * C + c)) / (R * C)) ((k * (R * C) + (r * C + c)) % (R * C) / C)
      ((k * (R * C) + (r * C + c)) % (R * C) % C) = v s k r c := by
  have h := idx_lt hr hc
  simp only [idx_div h, idx_mod h, idx_div hc, idx_mod hc]

theorem imgMat_inj {v w : Nat → Nat → Nat → Nat → α} (h : imgMat N K R C v = imgMat N K R C w)
    {s k r c : Nat} (hs : s < N) (hk : k < K) (hr : r < R) (hc : c < C) : v s k r c = w s k r c := by
  have := Mat.ofFn_inj h s (k * (R * C) + (r * C + c)) hs (px_lt hk hr hc)
  have h1 := imgMat_dec (v := v) (s := s) (k := k) hr hc
  have h2 := imgMat_dec (v := w) (s := s) (k := k) hr hc
  rwa [h1, h2] at this

/-- Every matrix of that size is a batch of images. -/
theorem ofFn_eq_imgMat (f : Nat → Nat → α) :
    Mat.ofFn N (R * C * K) f = imgMat N K R C (fun s k r c => f s (k * (R * C) + (r * C + c))) := by
  apply Mat.ofFn_congr
  intro i j hi hj
  rw [Nat.mul_comm] at hj
  obtain ⟨h1, h2, h3⟩ := idx_decomp hj
  obtain ⟨h4, h5, h6⟩ := idx_decomp h2
  show _ = f i _
  rw [← h6, ← h3]

theorem exists_imgMat [Inhabited α] {m : Mat α} (h : m.WF) (hr : m.rows = N) (hc : m.cols = R * C * K) :
    ∃ v, m = imgMat N K R C v := by
  obtain ⟨f, hf⟩ := h.exists_ofFn
  rw [hr, hc] at hf
  exact ⟨_, hf.trans (ofFn_eq_imgMat f)⟩

@[simp] theorem imgMat_rows (v : Nat → Nat → Nat → Nat → α) : (imgMat N K R C v).rows = N := rfl
@[simp] theorem imgMat_cols (v : Nat → Nat → Nat → Nat → α) : (imgMat N K R C v).cols = R * C * K := rfl
theorem imgMat_WF (v : Nat → Nat → Nat → Nat → α) : (imgMat N K R C v).WF := Mat.ofFn_WF ..

/-- Reading a pixel at its flat position. -/
theorem raw_imgMat {v : Nat → Nat → Nat → Nat → α} {s k r c i : Nat} (hs : s < N) (hk : k < K)
    (hr : r < R) (hc : c < C) (hi : i = s * (R * C * K) + (k * (R * C) + (r * C + c))) :
    (imgMat N K R C v).raw i = .ok (v s k r c) := by
  rw [hi, imgMat, Mat.raw_ofFn hs (px_lt hk hr hc), imgMat_dec (v := v) hr hc]

theorem get_imgMat {v : Nat → Nat → Nat → Nat → α} {s k r c j : Nat} (hs : s < N) (hk : k < K)
    (hr : r < R) (hc : c < C) (hj : j = k * (R * C) + (r * C + c)) :
    (imgMat N K R C v).get s j = .ok (v s k r c) := by
  rw [hj, imgMat, Mat.get_ofFn hs (px_lt hk hr hc), imgMat_dec (v := v) hr hc]

/-- Function update at a pixel. -/
def pxUpd (v : Nat → Nat → Nat → Nat → α) (s k r c : Nat) (x : α) : Nat → Nat → Nat → Nat → α :=
  fun s' k' r' c' => if s' = s ∧ k' = k ∧ r' = r ∧ c' = c then x else v s' k' r' c'

theorem px_inj {s k r c s' k' r' c' : Nat} (hk : k < K) (hr : r < R) (hc : c < C)
    (hk' : k' < K) (hr' : r' < R) (hc' : c' < C) :
    (s' = s ∧ k' * (R * C) + (r' * C + c') = k * (R * C) + (r * C + c)) ↔
      (s' = s ∧ k' = k ∧ r' = r ∧ c' = c) := by
  constructor
  · rintro ⟨h1, h2⟩
    obtain ⟨h3, h4⟩ := idx_inj (idx_lt hr' hc') (idx_lt hr hc) h2
    obtain ⟨h5, h6⟩ := idx_inj hc' hc h4
    exact ⟨h1, h3, h5, h6⟩
  · rintro ⟨rfl, rfl, rfl, rfl⟩
    exact ⟨rfl, rfl⟩

theorem ofFn_upd_imgMat {v : Nat → Nat → Nat → Nat → α} {s k r c : Nat} (hk : k < K)
    (hr : r < R) (hc : c < C) (x : α) :
    Mat.ofFn N (R * C * K) (fun i j => if i = s ∧ j = k * (R * C) + (r * C + c) then x else
        v i (j / (R * C)) (j % (R * C) / C) (j % (R * C) % C)) =
      imgMat N K R C (pxUpd v s k r c x) := by
  rw [ofFn_eq_imgMat]
  apply imgMat_congr
  intro s' k' r' c' hs' hk' hr' hc'
  have h := idx_lt hr' hc'
  simp only [idx_div h, idx_mod h, idx_div hc', idx_mod hc', pxUpd, px_inj hk hr hc hk' hr' hc']

theorem setRaw_imgMat {v : Nat → Nat → Nat → Nat → α} {s k r c i : Nat} {x : α} (hs : s < N) (hk : k < K)
    (hr : r < R) (hc : c < C) (hi : i = s * (R * C * K) + (k * (R * C) + (r * C + c))) :
    (imgMat N K R C v).setRaw i x = .ok (imgMat N K R C (pxUpd v s k r c x)) := by
  rw [hi, imgMat, Mat.setRaw_ofFn hs (px_lt hk hr hc), ← ofFn_upd_imgMat hk hr hc]

theorem set_imgMat {v : Nat → Nat → Nat → Nat → α} {s k r c j : Nat} {x : α} (hs : s < N) (hk : k < K)
    (hr : r < R) (hc : c < C) (hj : j = k * (R * C) + (r * C + c)) :
    (imgMat N K R C v).set s j x = .ok (imgMat N K R C (pxUpd v s k r c x)) := by
  rw [hj, imgMat, Mat.set_ofFn hs (px_lt hk hr hc), ← ofFn_upd_imgMat hk hr hc]

end

/-- Pixel in range. -/
def inBox (N K R C : Nat) (x : Nat × Nat × Nat × Nat) : Prop :=
  x.1 < N ∧ x.2.1 < K ∧ x.2.2.1 < R ∧ x.2.2.2 < C

instance (N K R C : Nat) : DecidablePred (inBox N K R C) := fun _ => inferInstanceAs (Decidable (_ ∧ _))

/-- Loop over all pixels of a batch, each iteration writing its own pixel.  `S` embeds the contents in the
state of the loop and depends on the pixels in range only. -/
theorem forN_pixels {N K R C : Nat} {B : Nat → Nat → σ → Out σ}
    {b : Nat → Nat → Nat → Nat → σ → Out σ} (S : (Nat → Nat → Nat → Nat → β) → σ) {v e : Nat → Nat → Nat → Nat → β}
    (hS : ∀ v w : Nat → Nat → Nat → Nat → β,
      (∀ s k r c, s < N → k < K → r < R → c < C → v s k r c = w s k r c) → S v = S w)
    (hb : ∀ s k v', s < N → k < K → B s k (S v') = forN R (fun r => forN C (fun c => b s k r c)) (S v'))
    (step : ∀ s k r c, s < N → k < K → r < R → c < C → ∀ v', v' s k r c = v s k r c →
      b s k r c (S v') = .ok (S (pxUpd v' s k r c (e s k r c)))) :
    forN N (fun s => forN K (fun k => B s k)) (S v) =
      .ok (S e) := by
  let S' : (Nat × Nat × Nat × Nat → β) → σ := fun v => S (fun s k r c => v (s, k, r, c))
  let v0 : Nat × Nat × Nat × Nat → β := fun x => v x.1 x.2.1 x.2.2.1 x.2.2.2
  let e0 : Nat × Nat × Nat × Nat → β := fun x => e x.1 x.2.1 x.2.2.1 x.2.2.2
  have key : forN N (fun s => forN K (fun k => B s k)) (S' v0) =
      .ok (S' (fun x => if inBox N K R C x then e0 x else v0 x)) := by
    apply forN_own S' (inBox N K R C) (fun x => x.1)
    · exact fun x h => h.1
    intro s hs v1 h1
    have := forN_own (n := K) (b := fun k => B s k) S'
      (v := v1) (e := e0) (fun x => inBox N K R C x ∧ x.1 = s) (fun x => x.2.1) (fun x h => h.1.2.1) ?_
    · simpa only [] using this
    intro k hk v2 h2
    rw [show B s k (S' v2) = _ from hb s k _ hs hk]
    have := forN_own (n := R) (b := fun r => forN C (fun c => b s k r c)) S'
      (v := v2) (e := e0) (fun x => (inBox N K R C x ∧ x.1 = s) ∧ x.2.1 = k) (fun x => x.2.2.1)
      (fun x h => h.1.1.2.2.1) ?_
    · simpa only [] using this
    intro r hr v3 h3
    have := forN_own (n := C) (b := fun c => b s k r c) S'
      (v := v3) (e := e0) (fun x => ((inBox N K R C x ∧ x.1 = s) ∧ x.2.1 = k) ∧ x.2.2.1 = r) (fun x => x.2.2.2)
      (fun x h => h.1.1.1.2.2.2) ?_
    · simpa only [] using this
    intro c hc v4 h4
    have hp : inBox N K R C (s, k, r, c) := ⟨hs, hk, hr, hc⟩
    have := step s k r c hs hk hr hc (fun s k r c => v4 (s, k, r, c)) ?_
    · refine this.trans ?_
      congr 1
      apply hS
      intro s' k' r' c' hs' hk' hr' hc'
      have hp' : inBox N K R C (s', k', r', c') := ⟨hs', hk', hr', hc'⟩
      simp only [pxUpd, hp', true_and, e0, and_assoc]
      split
      · rename_i h
        obtain ⟨rfl, rfl, rfl, rfl⟩ := h
        rfl
      · rfl
    · rw [h4 _ ⟨⟨⟨hp, rfl⟩, rfl⟩, rfl⟩ rfl, h3 _ ⟨⟨hp, rfl⟩, rfl⟩ rfl, h2 _ ⟨hp, rfl⟩ rfl, h1 _ hp rfl]
  refine (show _ = _ from key).trans ?_
  congr 1
  apply hS
  intro s k r c hs hk hr hc
  have hp : inBox N K R C (s, k, r, c) := ⟨hs, hk, hr, hc⟩
  simp [hp, e0]

end BeeDNN
