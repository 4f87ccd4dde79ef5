import Verif.Spec.Conv
import Verif.Lemmas.Image
import Verif.Lemmas.LayersBasic
import Mathlib.Algebra.BigOperators.Group.Finset.Basic
import Mathlib.Algebra.BigOperators.Group.Finset.Sigma

/-! # Convolution: closed forms -/

namespace BeeDNN
open Finset

variable {α β σ κ : Type}

/-- Three nested loops, each innermost iteration rewriting its own cells with values that do not depend on
the state. -/
theorem forN_own3 {A B D : Nat} {b2 : Nat → Nat → σ → Out σ} {b : Nat → Nat → Nat → σ → Out σ}
    (S : (κ → β) → σ) {v e : κ → β} (P : κ → Prop) [DecidablePred P] (o1 o2 o3 : κ → Nat)
    (h1 : ∀ x, P x → o1 x < A) (h2 : ∀ x, P x → o2 x < B) (h3 : ∀ x, P x → o3 x < D)
    (hb : ∀ i j v', i < A → j < B → b2 i j (S v') = forN D (b i j) (S v'))
    (leaf : ∀ i j k, i < A → j < B → k < D → ∀ v' : κ → β, b i j k (S v') =
      .ok (S (fun x => if ((P x ∧ o1 x = i) ∧ o2 x = j) ∧ o3 x = k then e x else v' x))) :
    forN A (fun i => forN B (fun j => b2 i j)) (S v) = .ok (S (fun x => if P x then e x else v x)) := by
  apply forN_own S P o1 h1
  intro i hi v1 _
  have := forN_own (n := B) (b := fun j => b2 i j) S (v := v1) (e := e) (fun x => P x ∧ o1 x = i) o2
    (fun x h => h2 x h.1) ?_
  · exact this
  intro j hj v2 _
  rw [hb i j v2 hi hj]
  have := forN_own (n := D) (b := fun k => b i j k) S (v := v2) (e := e) (fun x => (P x ∧ o1 x = i) ∧ o2 x = j)
    o3 (fun x h => h3 x h.1.1) ?_
  · exact this
  intro k hk v3 _
  exact leaf i j k hi hj hk v3

/-- A loop each iteration of which adds something to every pixel. -/
theorem forN_addPx [AddCommMonoid β] {N K R C n : Nat} {b : Nat → Mat β → Out (Mat β)}
    {d : Nat → Nat → Nat → Nat → β} {e : Nat → Nat → Nat → Nat → Nat → β}
    (step : ∀ i, i < n → ∀ d' : Nat → Nat → Nat → Nat → β, b i (imgMat N K R C d') =
      .ok (imgMat N K R C (fun s k r c => d' s k r c + e i s k r c))) :
    forN n b (imgMat N K R C d) =
      .ok (imgMat N K R C (fun s k r c => d s k r c + ∑ i ∈ range n, e i s k r c)) := by
  apply forN_closed' (fun m => imgMat N K R C (fun s k r c => d s k r c + ∑ i ∈ range m, e i s k r c))
  · simp
  · rfl
  · intro i hi
    rw [step i hi]
    simp only [Finset.sum_range_succ, add_assoc]

/-- Every index computed from an output position and a kernel position lies inside the image. -/
theorem conv_in {n k st r kr : Nat} (h : 2 * (k / 2) ≤ n) (hr : r < convOutSize n k st) (hk : kr < k) :
    r * st + kr < n := by
  unfold convOutSize at hr
  simp only at hr
  split at hr
  · rename_i hst
    have h1 : (r + 1) * st ≤ n - 2 * (k / 2) + 1 := by
      have := Nat.div_mul_le_self (n - 2 * (k / 2) + 1) st
      exact le_trans (Nat.mul_le_mul_right _ hr) this
    rw [Nat.add_mul, Nat.one_mul] at h1
    omega
  · have hst : st = 0 ∨ st = 1 := by omega
    rcases hst with rfl | rfl <;> omega

/-- The layer built by the constructor. -/
abbrev Conv.std (R C K kR kC O rs cs : Nat) : Conv :=
  ⟨R, C, K, kR, kC, O, rs, cs, convOutSize R kR rs, convOutSize C kC cs,
    tab (kR * kC * K) (fun j => j / (kR * kC) * (R * C) + (j % (kR * kC) / kC * C + j % (kR * kC) % kC))⟩

theorem bind_congr_left {γ : Type} {a b : Out σ} {f : σ → Out γ} (h : a = b) : (a >>= f) = (b >>= f) := by rw [h]

theorem dec3 {K A B j : Nat} (hj : j < K * (A * B)) :
    j / (A * B) < K ∧ j % (A * B) / B < A ∧ j % (A * B) % B < B ∧
      j = j / (A * B) * (A * B) + (j % (A * B) / B * B + j % (A * B) % B) := by
  obtain ⟨h1, h2, h3⟩ := idx_decomp hj
  obtain ⟨h4, h5, h6⟩ := idx_decomp h2
  exact ⟨h1, h4, h5, by rw [← h6, ← h3]⟩

theorem createLUT_eq (R C K kR kC : Nat) :
    createLUT R C K kR kC = .ok (tab (kR * kC * K)
      (fun j => j / (kR * kC) * (R * C) + (j % (kR * kC) / kC * C + j % (kR * kC) % kC))) := by
  unfold createLUT
  simp only [forN_nest]
  rw [Nat.mul_comm (kR * kC) K]
  refine (forN_map (d := fun _ => 0)
    (e := fun j => j / (kR * kC) * (R * C) + (j % (kR * kC) / kC * C + j % (kR * kC) % kC))
    (le_refl _) ?_).trans ?_
  · intro j hj d' _
    obtain ⟨h1, h4, h5, h6⟩ := dec3 hj
    have e : j % (kR * kC) % kC + j % (kR * kC) / kC * kC + j / (kR * kC) * kR * kC = j := by
      conv_rhs => rw [h6]
      ring
    rw [e, wr_tab hj]
    congr 2
    funext i
    split
    · ring
    · rfl
  · congr 1
    apply tab_congr
    intro j hj
    simp [hj]

theorem Conv.create_eq {R C K kR kC O rs cs : Nat} (h1 : 2 * (kR / 2) ≤ R) (h2 : 2 * (kC / 2) ≤ C) :
    Conv.create R C K kR kC O rs cs = .ok (Conv.std R C K kR kC O rs cs) := by
  rw [Conv.create, check_true ⟨h1, h2⟩, bind_ok', createLUT_eq, bind_ok']
  rfl

/-- The column matrix: row `i` is an output position `(s,r,c)`, column `j` a kernel position
`(ch,kr,kc)`. -/
def colFn (oR oC kR kC rs cs : Nat) (x : Nat → Nat → Nat → Nat → α) (i j : Nat) : α :=
  x (i / (oR * oC)) (j / (kR * kC)) (i % (oR * oC) / oC * rs + j % (kR * kC) / kC)
    (i % (oR * oC) % oC * cs + j % (kR * kC) % kC)

section
variable {N R C K kR kC O rs cs : Nat}

theorem im2col_eq [Inhabited α] (g : Nat → α) (h1 : 2 * (kR / 2) ≤ R) (h2 : 2 * (kC / 2) ≤ C)
    (x : Nat → Nat → Nat → Nat → α) {mCol : Mat α} (hm : mCol.WF) :
    let oR := convOutSize R kR rs
    let oC := convOutSize C kC cs
    im2col g (Conv.std R C K kR kC O rs cs) (imgMat N K R C x) mCol =
      .ok (Mat.ofFn (oR * oC * N) (kR * kC * K) (colFn oR oC kR kC rs cs x)) := by
  intro oR oC
  obtain ⟨d, hd⟩ := Mat.resize_ofFn g hm (oR * oC * N) (kR * kC * K)
  rw [im2col, check_true (by rfl), bind_ok']
  simp only [imgMat_rows]
  rw [show convOutSize R kR rs = oR from rfl, show convOutSize C kC cs = oC from rfl, hd]
  simp only [forN_nest oR oC]
  simp only [forN_nest kR kC]
  simp only [forN_nest K (kR * kC)]
  refine (forN_own3 (κ := Nat × Nat) (A := N) (B := K * (kR * kC)) (D := oR * oC)
    (fun v => Mat.ofFn (oR * oC * N) (kR * kC * K) (fun i j => v (i, j)))
    (v := fun x => d x.1 x.2) (e := fun q => colFn oR oC kR kC rs cs x q.1 q.2)
    (fun x => x.1 < oR * oC * N ∧ x.2 < kR * kC * K)
    (fun x => x.1 / (oR * oC)) (fun x => x.2) (fun x => x.1 % (oR * oC)) ?_ ?_ ?_
    (fun _ _ _ _ _ => rfl) ?_).trans ?_
  · intro q hq
    have := hq.1
    rw [Nat.mul_comm] at this
    exact (idx_decomp this).1
  · intro q hq
    have := hq.2
    rwa [Nat.mul_comm] at this
  · intro q hq
    have := hq.1
    rw [Nat.mul_comm] at this
    exact (idx_decomp this).2.1
  · intro s j q hs hj hq v'
    obtain ⟨a1, a2, a3, a4⟩ := dec3 hj
    obtain ⟨b1, b2, b3⟩ := idx_decomp hq
    have c1 := conv_in h1 b1 a2
    have c2 := conv_in h2 b2 a3
    simp only [check_true, c1, c2, bind_ok']
    rw [get_imgMat hs a1 c1 c2 (by ring), bind_ok']
    have e1 : s * oC * oR + q / oC * oC + q % oC = s * (oR * oC) + q := by
      conv_rhs => rw [b3]
      ring
    have e2 : j / (kR * kC) * kR * kC + j % (kR * kC) / kC * kC + j % (kR * kC) % kC = j := by
      conv_rhs => rw [a4]
      ring
    have hlt : s * (oR * oC) + q < oR * oC * N := by
      rw [Nat.mul_comm (oR * oC) N]; exact idx_lt hs hq
    have hjl : j < kR * kC * K := by rwa [Nat.mul_comm]
    rw [e1, e2, Mat.set_ofFn hlt hjl]
    congr 1
    apply Mat.ofFn_congr
    intro i' j' hi' hj'
    have hiff : (i' = s * (oR * oC) + q ∧ j' = j) ↔
        ((((i' < oR * oC * N ∧ j' < kR * kC * K) ∧ i' / (oR * oC) = s) ∧ j' = j) ∧ i' % (oR * oC) = q) := by
      constructor
      · rintro ⟨rfl, rfl⟩
        exact ⟨⟨⟨⟨hi', hj'⟩, idx_div hq⟩, rfl⟩, idx_mod hq⟩
      · rintro ⟨⟨⟨_, rfl⟩, rfl⟩, rfl⟩
        exact ⟨(Nat.div_add_mod' _ _).symm, rfl⟩
    simp only [hiff]
    split
    · rename_i hh
      obtain ⟨rfl, rfl⟩ := hiff.2 hh
      simp only [colFn, idx_div hq, idx_mod hq]
    · rfl
  · congr 1
    apply Mat.ofFn_congr
    intro i j hi hj
    exact if_pos ⟨hi, hj⟩

theorem im2colLUT_eq [Inhabited α] (g : Nat → α) (h1 : 2 * (kR / 2) ≤ R) (h2 : 2 * (kC / 2) ≤ C)
    (x : Nat → Nat → Nat → Nat → α) {mCol : Mat α} (hm : mCol.WF) :
    let oR := convOutSize R kR rs
    let oC := convOutSize C kC cs
    im2colLUT g (Conv.std R C K kR kC O rs cs) (imgMat N K R C x) mCol =
      .ok (Mat.ofFn (oR * oC * N) (kR * kC * K) (colFn oR oC kR kC rs cs x)) := by
  intro oR oC
  obtain ⟨d, hd⟩ := Mat.resize_ofFn g hm (oR * oC * N) (kR * kC * K)
  rw [im2colLUT, check_true (by rfl), bind_ok']
  simp only [imgMat_rows, tab_length]
  rw [show convOutSize R kR rs = oR from rfl, show convOutSize C kC cs = oC from rfl, hd]
  simp only [forN_nest oR oC]
  refine (forN_own3 (κ := Nat × Nat) (A := N) (B := oR * oC) (D := kR * kC * K)
    (fun v => Mat.ofFn (oR * oC * N) (kR * kC * K) (fun i j => v (i, j)))
    (v := fun x => d x.1 x.2) (e := fun q => colFn oR oC kR kC rs cs x q.1 q.2)
    (fun x => x.1 < oR * oC * N ∧ x.2 < kR * kC * K)
    (fun x => x.1 / (oR * oC)) (fun x => x.1 % (oR * oC)) (fun x => x.2) ?_ ?_ ?_
    (b := fun s q i m => (do
          let k ← rd (tab (kR * kC * K)
            (fun j => j / (kR * kC) * (R * C) + (j % (kR * kC) / kC * C + j % (kR * kC) % kC))) i
          let x ← (imgMat N K R C x).raw (s * R * C * K + q / oC * C * rs + q % oC * cs + k)
          m.setRaw ((q % oC + q / oC * oC) * (kR * kC * K) + s * oC * oR * (kR * kC * K) + i) x : Out (Mat α)))
    ?_ ?_).trans ?_
  · intro q hq
    have := hq.1
    rw [Nat.mul_comm] at this
    exact (idx_decomp this).1
  · intro q hq
    have := hq.1
    rw [Nat.mul_comm] at this
    exact (idx_decomp this).2.1
  · exact fun q hq => hq.2
  · intro s q v' hs hq
    simp only [Mat.ofFn_cols]
  · intro s q j hs hq hj v'
    have hj2 : j < K * (kR * kC) := by rwa [Nat.mul_comm]
    obtain ⟨a1, a2, a3, a4⟩ := dec3 hj2
    obtain ⟨b1, b2, b3⟩ := idx_decomp hq
    have c1 := conv_in h1 b1 a2
    have c2 := conv_in h2 b2 a3
    rw [rd_tab hj, bind_ok', raw_imgMat hs a1 c1 c2 (by ring), bind_ok']
    have e1 : (q % oC + q / oC * oC) * (kR * kC * K) + s * oC * oR * (kR * kC * K) + j =
        (s * (oR * oC) + q) * (kR * kC * K) + j := by
      conv_rhs => rw [b3]
      ring
    have hlt : s * (oR * oC) + q < oR * oC * N := by
      rw [Nat.mul_comm (oR * oC) N]; exact idx_lt hs hq
    rw [e1, Mat.setRaw_ofFn hlt hj]
    congr 1
    apply Mat.ofFn_congr
    intro i' j' hi' hj'
    have hiff : (i' = s * (oR * oC) + q ∧ j' = j) ↔
        ((((i' < oR * oC * N ∧ j' < kR * kC * K) ∧ i' / (oR * oC) = s) ∧ i' % (oR * oC) = q) ∧ j' = j) := by
      constructor
      · rintro ⟨rfl, rfl⟩
        exact ⟨⟨⟨⟨hi', hj'⟩, idx_div hq⟩, idx_mod hq⟩, rfl⟩
      · rintro ⟨⟨⟨_, rfl⟩, rfl⟩, rfl⟩
        exact ⟨(Nat.div_add_mod' _ _).symm, rfl⟩
    simp only [hiff]
    split
    · rename_i hh
      obtain ⟨rfl, rfl⟩ := hiff.2 hh
      simp only [colFn, idx_div hq, idx_mod hq]
    · rfl
  · congr 1
    apply Mat.ofFn_congr
    intro i j hi hj
    exact if_pos ⟨hi, hj⟩

/-- Sum of the columns that touch pixel `(S,k,y,x)`: closed form of the back-transform before rescaling. -/
def col2imFn [AddCommMonoid α] (N K oR oC kR kC rs cs : Nat) (col : Nat → Nat → α) (S k y x : Nat) : α :=
  ∑ s ∈ range N, ∑ r ∈ range oR, ∑ c ∈ range oC, ∑ ch ∈ range K, ∑ kr ∈ range kR, ∑ kc ∈ range kC,
    if S = s ∧ k = ch ∧ y = r * rs + kr ∧ x = c * cs + kc then
      col (ch * (kR * kC) + (kr * kC + kc)) (s * (oR * oC) + (r * oC + c)) else 0

theorem pxUpd_add [AddCommMonoid α] (d : Nat → Nat → Nat → Nat → α) (s k r c : Nat) (f : α) :
    pxUpd d s k r c (d s k r c + f) =
      fun s' k' r' c' => d s' k' r' c' + if s' = s ∧ k' = k ∧ r' = r ∧ c' = c then f else 0 := by
  funext s' k' r' c'
  simp only [pxUpd]
  split
  · rename_i h
    obtain ⟨rfl, rfl, rfl, rfl⟩ := h
    rfl
  · rw [add_zero]

theorem col2im_eq [AddCommMonoid α] [One α] [Mul α] [Div α] [NatCast α] (g : Nat → α)
    (h1 : 2 * (kR / 2) ≤ R) (h2 : 2 * (kC / 2) ≤ C) (col : Nat → Nat → α) {mIm : Mat α} (hm : mIm.WF) :
    let oR := convOutSize R kR rs
    let oC := convOutSize C kC cs
    col2im g (Conv.std R C K kR kC O rs cs) N (Mat.ofFn (kR * kC * K) (oR * oC * N) col) mIm =
      .ok (imgMat N K R C (fun s k r c => col2imFn N K oR oC kR kC rs cs col s k r c *
        (1 / ((kR * kC * O : Nat) : α)))) := by
  intro oR oC
  have : Inhabited α := ⟨0⟩
  rw [col2im, check_true (by rfl), bind_ok', check_true (by rfl), bind_ok']
  simp only
  rw [show convOutSize R kR rs = oR from rfl, show convOutSize C kC cs = oC from rfl,
    show K * R * C = R * C * K by ring, Mat.setConstantRC_eq g hm, bind_ok']
  rw [show Mat.flat N (R * C * K) (fun _ => (0 : α)) = imgMat N K R C (fun _ _ _ _ => 0) from rfl]
  refine (bind_congr_left (forN_addPx (d := fun _ _ _ _ => 0)
    (e := fun s x1 x2 x3 x4 => ∑ r ∈ range oR, ∑ c ∈ range oC, ∑ ch ∈ range K, ∑ kr ∈ range kR, ∑ kc ∈ range kC,
      if x1 = s ∧ x2 = ch ∧ x3 = r * rs + kr ∧ x4 = c * cs + kc then
        col (ch * (kR * kC) + (kr * kC + kc)) (s * (oR * oC) + (r * oC + c)) else 0) ?_)).trans ?_
  rotate_left
  · rw [bind_ok', imgMat, Mat.scale_ofFn]
    congr 1
    apply Mat.ofFn_congr
    intro i j _ _
    simp only [zero_add, col2imFn]
  intro s hs d1
  apply forN_addPx
  intro r hr d2
  apply forN_addPx
  intro c hc d3
  apply forN_addPx
  intro ch hch d4
  apply forN_addPx
  intro kr hkr d5
  apply forN_addPx
  intro kc hkc d6
  have c1 := conv_in h1 hr hkr
  have c2 := conv_in h2 hc hkc
  have e1 : ch * kR * kC + kr * kC + kc = ch * (kR * kC) + (kr * kC + kc) := by ring
  have e2 : s * oC * oR + r * oC + c = s * (oR * oC) + (r * oC + c) := by ring
  have l1 : ch * (kR * kC) + (kr * kC + kc) < kR * kC * K := px_lt hch hkr hkc
  have l2 : s * (oR * oC) + (r * oC + c) < oR * oC * N := px_lt hs hr hc
  simp only [check_true, c1, c2, bind_ok']
  rw [e1, e2, Mat.get_ofFn l1 l2, bind_ok', get_imgMat hs hch c1 c2 (by ring), bind_ok',
    set_imgMat hs hch c1 c2 (by ring), pxUpd_add]

theorem col2imLUT_eq [AddCommMonoid α] [One α] [Mul α] [Div α] [NatCast α] (g : Nat → α)
    (h1 : 2 * (kR / 2) ≤ R) (h2 : 2 * (kC / 2) ≤ C) (col : Nat → Nat → α) {mIm : Mat α} (hm : mIm.WF) :
    let oR := convOutSize R kR rs
    let oC := convOutSize C kC cs
    col2imLUT g (Conv.std R C K kR kC O rs cs) N (Mat.ofFn (kR * kC * K) (oR * oC * N) col) mIm =
      .ok (imgMat N K R C (fun s k r c => col2imFn N K oR oC kR kC rs cs col s k r c *
        (1 / ((kR * kC * O : Nat) : α)))) := by
  intro oR oC
  have : Inhabited α := ⟨0⟩
  rw [col2imLUT, check_true (by rfl), bind_ok', check_true (by rfl), bind_ok']
  simp only
  rw [show convOutSize R kR rs = oR from rfl, show convOutSize C kC cs = oC from rfl,
    show K * R * C = R * C * K by ring, Mat.setConstantRC_eq g hm, bind_ok']
  rw [show Mat.flat N (R * C * K) (fun _ => (0 : α)) = imgMat N K R C (fun _ _ _ _ => 0) from rfl]
  refine (bind_congr_left (forN_addPx (d := fun _ _ _ _ => 0)
    (e := fun s x1 x2 x3 x4 => ∑ r ∈ range oR, ∑ ch ∈ range K, ∑ kr ∈ range kR, ∑ kc ∈ range kC, ∑ c ∈ range oC,
      if x1 = s ∧ x2 = ch ∧ x3 = r * rs + kr ∧ x4 = c * cs + kc then
        col (ch * (kR * kC) + (kr * kC + kc)) (s * (oR * oC) + (r * oC + c)) else 0) ?_)).trans ?_
  rotate_left
  · rw [bind_ok', imgMat, Mat.scale_ofFn]
    congr 1
    apply Mat.ofFn_congr
    intro i j _ _
    simp only [zero_add, col2imFn]
    congr 1
    refine Finset.sum_congr rfl fun s _ => Finset.sum_congr rfl fun r _ => ?_
    symm
    refine Finset.sum_comm.trans (Finset.sum_congr rfl fun ch _ => ?_)
    refine Finset.sum_comm.trans (Finset.sum_congr rfl fun kr _ => ?_)
    exact Finset.sum_comm
  intro s hs d1
  apply forN_addPx
  intro r hr d2
  apply forN_addPx
  intro ch hch d4
  apply forN_addPx
  intro kr hkr d5
  apply forN_addPx
  intro kc hkc d6
  apply forN_addPx
  intro c hc d3
  have c1 := conv_in h1 hr hkr
  have c2 := conv_in h2 hc hkc
  have e1 : ch * kR * kC + kr * kC + kc = ch * (kR * kC) + (kr * kC + kc) := by ring
  have e2 : s * oC * oR + r * oC + c = s * (oR * oC) + (r * oC + c) := by ring
  have l1 : ch * (kR * kC) + (kr * kC + kc) < kR * kC * K := px_lt hch hkr hkc
  have l2 : s * (oR * oC) + (r * oC + c) < oR * oC * N := px_lt hs hr hc
  rw [e1, e2, Mat.get_ofFn l1 l2, bind_ok', raw_imgMat hs hch c1 c2 (by ring), bind_ok',
    setRaw_imgMat hs hch c1 c2 (by ring), pxUpd_add]

theorem resize_reshape (g : Nat → α) {a b c d : Nat} (h : c * d = a * b) (f : Nat → Nat → α) :
    (Mat.ofFn a b f).resize g c d = Mat.ofFn c d (fun i j => f ((i * d + j) / b) ((i * d + j) % b)) := by
  rw [Mat.ofFn_eq_flat, Mat.resize_flat g _ h, Mat.flat_eq_ofFn]

/-- The row-permutation loop of both reshape functions: row `dst o s` becomes row `src o s` of `t`. -/
theorem forN_permRows {O n P : Nat} {t d : Nat → Nat → α} (src dst : Nat → Nat → Nat) (o' s' : Nat → Nat)
    (hsrc : ∀ o s, o < O → s < n → src o s < O * n) (hdst : ∀ o s, o < O → s < n → dst o s < O * n)
    (ho : ∀ i, i < O * n → o' i < O) (hs : ∀ i, i < O * n → s' i < n)
    (hinv : ∀ i o s, i < O * n → o < O → s < n → (i = dst o s ↔ o' i = o ∧ s' i = s)) :
    forN O (fun o m => forN n (fun s m => do
        let v ← (Mat.ofFn (O * n) P t).row (src o s)
        m.rowAssign (dst o s) v) m) (Mat.ofFn (O * n) P d) =
      .ok (Mat.ofFn (O * n) P (fun i => t (src (o' i) (s' i)))) := by
  refine (forN_own (κ := Nat) (β := Nat → α) (fun v => Mat.ofFn (O * n) P v) (v := d)
    (e := fun i => t (src (o' i) (s' i))) (fun i => i < O * n) o' ho ?_).trans ?_
  · intro o hoo v1 _
    refine (forN_own (κ := Nat) (β := Nat → α) (fun v => Mat.ofFn (O * n) P v) (v := v1)
      (e := fun i => t (src (o' i) (s' i))) (fun i => i < O * n ∧ o' i = o) s' (fun i h => hs i h.1) ?_)
    intro s hss v2 _
    rw [Mat.row_ofFn (hsrc o s hoo hss), bind_ok', Mat.rowAssign_ofFn (hdst o s hoo hss)]
    congr 1
    apply Mat.ofFn_congr
    intro i j hi hj
    have := hinv i o s hi hoo hss
    simp only [this, hi, true_and]
    split
    · rename_i h
      rw [h.1, h.2]
    · rfl
  · congr 1
    apply Mat.ofFn_congr
    intro i j hi hj
    simp [hi]

theorem reshapeToOut_eq [Inhabited α] (g : Nat → α) {p : Conv} {oR oC : Nat} (hO : p.outCh = O)
    (hr : p.outRows = oR) (hc : p.outCols = oC) (y : Nat → Nat → α) {t : Mat α} (ht : t.WF) :
    ∃ t', t'.WF ∧ reshapeToOut g p N (Mat.ofFn O (oR * oC * N) y) t =
      .ok (imgMat N O oR oC (fun s o r c => y o (s * (oR * oC) + (r * oC + c))), t') := by
  subst hO hr hc
  rw [reshapeToOut, check_true (by simp only [Mat.ofFn_cols]; ring), bind_ok', check_true (by rfl), bind_ok']
  simp only
  rw [resize_reshape g (by ring), Mat.assign_ofFn g ht, bind_ok']
  rw [Nat.mul_comm N p.outCh, forN_permRows (fun o s => s + o * N) (fun o s => o + s * p.outCh)
    (fun i => i % p.outCh) (fun i => i / p.outCh)]
  · rw [bind_ok', resize_reshape g (by ring), ofFn_eq_imgMat]
    refine ⟨_, Mat.ofFn_WF _ _ _, congrArg Except.ok (Prod.ext ?_ rfl)⟩
    dsimp only
    apply imgMat_congr
    intro s o r c hs ho hr hc
    have l := idx_lt hr hc
    have e1 : s * (p.outRows * p.outCols * p.outCh) + (o * (p.outRows * p.outCols) + (r * p.outCols + c)) =
      (s * p.outCh + o) * (p.outRows * p.outCols) + (r * p.outCols + c) := by ring
    rw [e1, idx_div l, idx_mod l, idx_mod ho, idx_div ho]
    have e2 : (s + o * N) * (p.outRows * p.outCols) + (r * p.outCols + c) =
      o * (p.outRows * p.outCols * N) + (s * (p.outRows * p.outCols) + (r * p.outCols + c)) := by ring
    rw [e2, idx_div (px_lt hs hr hc), idx_mod (px_lt hs hr hc)]
  · intro o s ho hs
    rw [Nat.add_comm]; exact idx_lt ho hs
  · intro o s ho hs
    rw [Nat.add_comm, Nat.mul_comm p.outCh]; exact idx_lt hs ho
  · intro i hi
    rw [Nat.mul_comm] at hi
    exact (idx_decomp hi).2.1
  · intro i hi
    rw [Nat.mul_comm] at hi
    exact (idx_decomp hi).1
  · intro i o s hi ho hs
    constructor
    · rintro rfl
      rw [Nat.add_comm, idx_mod ho, idx_div ho]
      exact ⟨rfl, rfl⟩
    · rintro ⟨rfl, rfl⟩
      rw [Nat.add_comm, Nat.div_add_mod']

theorem reshapeFromOut_eq [Inhabited α] (g : Nat → α) {p : Conv} {oR oC : Nat} (hO : p.outCh = O)
    (hr : p.outRows = oR) (hc : p.outCols = oC) (y : Nat → Nat → Nat → Nat → α) {t : Mat α} (ht : t.WF) :
    ∃ t', t'.WF ∧ reshapeFromOut g p N (imgMat N O oR oC y) t =
      .ok (Mat.ofFn O (oR * oC * N) (fun o i =>
        y (i / (oR * oC)) o (i % (oR * oC) / oC) (i % (oR * oC) % oC)), t') := by
  subst hO hr hc
  rw [reshapeFromOut, check_true (by simp only [imgMat_cols]; ring), bind_ok', check_true (by rfl), bind_ok']
  simp only
  rw [imgMat, resize_reshape g (by ring), Mat.assign_ofFn g ht, bind_ok']
  rw [Nat.mul_comm N p.outCh, forN_permRows (fun o s => o + s * p.outCh) (fun o s => s + o * N)
    (fun i => i / N) (fun i => i % N)]
  · rw [bind_ok', resize_reshape g (by ring)]
    refine ⟨_, Mat.ofFn_WF _ _ _, congrArg Except.ok (Prod.ext ?_ rfl)⟩
    dsimp only
    apply Mat.ofFn_congr
    intro o i ho hi
    rw [Nat.mul_comm (p.outRows * p.outCols) N] at hi
    obtain ⟨h1, h2, h3⟩ := idx_decomp hi
    have e1 : o * (p.outRows * p.outCols * N) + i = (o * N + i / (p.outRows * p.outCols)) *
        (p.outRows * p.outCols) + i % (p.outRows * p.outCols) := by
      conv_lhs => rw [h3]
      ring
    rw [e1, idx_div h2, idx_mod h2, idx_div h1, idx_mod h1]
    have e2 : (o + i / (p.outRows * p.outCols) * p.outCh) * (p.outRows * p.outCols) +
        i % (p.outRows * p.outCols) = i / (p.outRows * p.outCols) * (p.outRows * p.outCols * p.outCh) +
        (o * (p.outRows * p.outCols) + i % (p.outRows * p.outCols)) := by ring
    have l : o * (p.outRows * p.outCols) + i % (p.outRows * p.outCols) <
        p.outRows * p.outCols * p.outCh := by
      rw [Nat.mul_comm _ p.outCh]; exact idx_lt ho h2
    rw [e2, idx_div l, idx_mod l, idx_div h2, idx_mod h2]
  · intro o s ho hs
    rw [Nat.add_comm, Nat.mul_comm p.outCh]; exact idx_lt hs ho
  · intro o s ho hs
    rw [Nat.add_comm]; exact idx_lt ho hs
  · intro i hi
    exact (idx_decomp hi).1
  · intro i hi
    exact (idx_decomp hi).2.1
  · intro i o s hi ho hs
    constructor
    · rintro rfl
      rw [Nat.add_comm, idx_mod hs, idx_div hs]
      exact ⟨rfl, rfl⟩
    · rintro ⟨rfl, rfl⟩
      rw [Nat.add_comm, Nat.div_add_mod']

/-- State of the layer between calls: well-formed matrices, weights of the right size. -/
structure ConvState.Ok (st : ConvState α) (O J : Nat) (w : Nat → Nat → α) : Prop where
  col : st.im2colT.WF
  tmp : st.tempImg.WF
  weight : st.weight = Mat.ofFn O J w
  grad : st.gradientWeight.WF

section
variable [Zero α] [One α] [Add α] [Mul α] [Div α] [NatCast α]

omit [One α] [Div α] [NatCast α] in
/-- Forward pass, with bare scalar operations. -/
theorem convForward_eq (g : Nat → α) (fast : Bool) (h1 : 2 * (kR / 2) ≤ R) (h2 : 2 * (kC / 2) ≤ C)
    (x : Nat → Nat → Nat → Nat → α) (w : Nat → Nat → α) {st : ConvState α}
    (hst : st.Ok O (kR * kC * K) w) {mOut : Mat α} (hm : mOut.WF) :
    let oR := convOutSize R kR rs
    let oC := convOutSize C kC cs
    ∃ st', st'.Ok O (kR * kC * K) w ∧ st'.samples = N ∧
      st'.im2colT = Mat.ofFn (oR * oC * N) (kR * kC * K) (colFn oR oC kR kC rs cs x) ∧
      st'.gradientWeight = st.gradientWeight ∧
      convForward g (Conv.std R C K kR kC O rs cs) fast st (imgMat N K R C x) mOut =
        .ok (st', imgMat N O oR oC (fun s o r c => accN (kR * kC * K) (fun j =>
          w o j * colFn oR oC kR kC rs cs x (s * (oR * oC) + (r * oC + c)) j))) := by
  intro oR oC
  have : Inhabited α := ⟨0⟩
  have hc1 := im2col_eq (N := N) (K := K) (O := O) (rs := rs) (cs := cs) g h1 h2 x hst.col
  have hc2 := im2colLUT_eq (N := N) (K := K) (O := O) (rs := rs) (cs := cs) g h1 h2 x hst.col
  obtain ⟨t', ht', hr⟩ := reshapeToOut_eq (N := N) (O := O) (oR := oR) (oC := oC) g
    (p := Conv.std R C K kR kC O rs cs) rfl rfl rfl
    (fun o i => accN (kR * kC * K) (fun j => w o j * colFn oR oC kR kC rs cs x i j)) hst.tmp
  refine ⟨⟨N, Mat.ofFn (oR * oC * N) (kR * kC * K) (colFn oR oC kR kC rs cs x), t', st.weight,
    st.gradientWeight⟩, ⟨Mat.ofFn_WF _ _ _, ht', hst.weight, hst.grad⟩, rfl, rfl, rfl, ?_⟩
  rw [convForward]
  cases fast
  · simp only [Bool.false_eq_true, if_false, hc1, bind_ok', Mat.transpose_ofFn, hst.weight, Mat.mul_ofFn,
      Mat.assign_ofFn g hm, imgMat_rows]
    exact (bind_congr_left hr).trans rfl
  · simp only [if_true, hc2, bind_ok', Mat.transpose_ofFn, hst.weight, Mat.mul_ofFn, Mat.assign_ofFn g hm,
      imgMat_rows]
    exact (bind_congr_left hr).trans rfl

/-- Weight gradient after a backward pass. -/
def convGradW (N oR oC kR kC rs cs : Nat) (x gr : Nat → Nat → Nat → Nat → α) (o j : Nat) : α :=
  accN (oR * oC * N) (fun i => gr (i / (oR * oC)) o (i % (oR * oC) / oC) (i % (oR * oC) % oC) *
    colFn oR oC kR kC rs cs x i j)

end

/-- Gradient of the columns. -/
def convGradCol [Zero α] [Add α] [Mul α] (O oR oC : Nat) (w : Nat → Nat → α)
    (gr : Nat → Nat → Nat → Nat → α) (j i : Nat) : α :=
  accN O (fun o => w o j * gr (i / (oR * oC)) o (i % (oR * oC) / oC) (i % (oR * oC) % oC))

/-- A loop whose steps keep the shape of an image matrix. -/
theorem forN_img {n : Nat} {b : Nat → Mat α → Out (Mat α)}
    (step : ∀ i, i < n → ∀ v, ∃ v', b i (imgMat N K R C v) = .ok (imgMat N K R C v')) (v : Nat → Nat → Nat → Nat → α) :
    ∃ v', forN n b (imgMat N K R C v) = .ok (imgMat N K R C v') := by
  obtain ⟨s', h1, v', rfl⟩ := forN_inv (n := n) (f := b) (s := imgMat N K R C v)
    (fun _ m => ∃ v', m = imgMat N K R C v') ⟨v, rfl⟩ (by
      rintro i hi _ ⟨v, rfl⟩
      obtain ⟨v', h⟩ := step i hi v
      exact ⟨_, h, v', rfl⟩)
  exact ⟨v', h1⟩

section
variable [Zero α] [One α] [Add α] [Mul α] [Div α] [NatCast α]

/-- The slow back-transform never fails, whatever the scalar operations are. -/
theorem col2im_ok (h1 : 2 * (kR / 2) ≤ R) (h2 : 2 * (kC / 2) ≤ C) (col : Nat → Nat → α) :
    let oR := convOutSize R kR rs
    let oC := convOutSize C kC cs
    ∃ v, ∀ (g : Nat → α) (mIm : Mat α), mIm.WF →
      col2im g (Conv.std R C K kR kC O rs cs) N (Mat.ofFn (kR * kC * K) (oR * oC * N) col) mIm =
        .ok (imgMat N K R C v) := by
  intro oR oC
  have : Inhabited α := ⟨0⟩
  have key : ∃ v, forN N (fun s m => forN oR (fun r m => forN oC (fun c m => forN K (fun ch m =>
      forN kR (fun kr m => forN kC (fun kc m => do
        check (r * rs + kr < R)
        check (c * cs + kc < C)
        let f ← (Mat.ofFn (kR * kC * K) (oR * oC * N) col).get (ch * kR * kC + kr * kC + kc) (s * oC * oR + r * oC + c)
        let x ← m.get s (ch * R * C + (r * rs + kr) * C + (c * cs + kc))
        m.set s (ch * R * C + (r * rs + kr) * C + (c * cs + kc)) (x + f)) m) m) m) m) m)
        (imgMat N K R C (fun _ _ _ _ => (0 : α))) = .ok (imgMat N K R C v) := by
    refine forN_img (fun s hs => ?_) _
    refine forN_img (fun r hr => ?_)
    refine forN_img (fun c hc => ?_)
    refine forN_img (fun ch hch => ?_)
    refine forN_img (fun kr hkr => ?_)
    refine forN_img (fun kc hkc => ?_)
    intro v
    have c1 := conv_in h1 hr hkr
    have c2 := conv_in h2 hc hkc
    have e1 : ch * kR * kC + kr * kC + kc = ch * (kR * kC) + (kr * kC + kc) := by ring
    have e2 : s * oC * oR + r * oC + c = s * (oR * oC) + (r * oC + c) := by ring
    have l1 : ch * (kR * kC) + (kr * kC + kc) < kR * kC * K := px_lt hch hkr hkc
    have l2 : s * (oR * oC) + (r * oC + c) < oR * oC * N := px_lt hs hr hc
    simp only [check_true, c1, c2, bind_ok']
    rw [e1, e2, Mat.get_ofFn l1 l2, bind_ok', get_imgMat hs hch c1 c2 (by ring), bind_ok',
      set_imgMat hs hch c1 c2 (by ring)]
    exact ⟨_, rfl⟩
  obtain ⟨v, hv⟩ := key
  refine ⟨fun s k r c => v s k r c * (1 / ((kR * kC * O : Nat) : α)), fun g mIm hm => ?_⟩
  rw [col2im, check_true (by rfl), bind_ok', check_true (by rfl), bind_ok']
  simp only
  rw [show convOutSize R kR rs = oR from rfl, show convOutSize C kC cs = oC from rfl,
    show K * R * C = R * C * K by ring, Mat.setConstantRC_eq g hm, bind_ok']
  exact (bind_congr_left hv).trans (Mat.scale_ofFn _ _ _ _)

/-- The fast back-transform never fails, whatever the scalar operations are. -/
theorem col2imLUT_ok (h1 : 2 * (kR / 2) ≤ R) (h2 : 2 * (kC / 2) ≤ C) (col : Nat → Nat → α) :
    let oR := convOutSize R kR rs
    let oC := convOutSize C kC cs
    ∃ v, ∀ (g : Nat → α) (mIm : Mat α), mIm.WF →
      col2imLUT g (Conv.std R C K kR kC O rs cs) N (Mat.ofFn (kR * kC * K) (oR * oC * N) col) mIm =
        .ok (imgMat N K R C v) := by
  intro oR oC
  have : Inhabited α := ⟨0⟩
  have key : ∃ v, forN N (fun s m => forN oR (fun r m => forN K (fun ch m =>
      forN kR (fun kr m => forN kC (fun kc m => forN oC (fun c m => do
        let f ← (Mat.ofFn (kR * kC * K) (oR * oC * N) col).get (ch * kR * kC + kr * kC + kc) (s * oC * oR + r * oC + c)
        let x ← m.raw (s * R * C * K + r * rs * C + (kr * C + ch * R * C + kc + c * cs))
        m.setRaw (s * R * C * K + r * rs * C + (kr * C + ch * R * C + kc + c * cs)) (x + f)) m) m) m) m) m)
        (imgMat N K R C (fun _ _ _ _ => (0 : α))) = .ok (imgMat N K R C v) := by
    refine forN_img (fun s hs => ?_) _
    refine forN_img (fun r hr => ?_)
    refine forN_img (fun ch hch => ?_)
    refine forN_img (fun kr hkr => ?_)
    refine forN_img (fun kc hkc => ?_)
    refine forN_img (fun c hc => ?_)
    intro v
    have c1 := conv_in h1 hr hkr
    have c2 := conv_in h2 hc hkc
    have e1 : ch * kR * kC + kr * kC + kc = ch * (kR * kC) + (kr * kC + kc) := by ring
    have e2 : s * oC * oR + r * oC + c = s * (oR * oC) + (r * oC + c) := by ring
    have l1 : ch * (kR * kC) + (kr * kC + kc) < kR * kC * K := px_lt hch hkr hkc
    have l2 : s * (oR * oC) + (r * oC + c) < oR * oC * N := px_lt hs hr hc
    rw [e1, e2, Mat.get_ofFn l1 l2, bind_ok', raw_imgMat hs hch c1 c2 (by ring), bind_ok',
      setRaw_imgMat hs hch c1 c2 (by ring)]
    exact ⟨_, rfl⟩
  obtain ⟨v, hv⟩ := key
  refine ⟨fun s k r c => v s k r c * (1 / ((kR * kC * O : Nat) : α)), fun g mIm hm => ?_⟩
  rw [col2imLUT, check_true (by rfl), bind_ok', check_true (by rfl), bind_ok']
  simp only
  rw [show convOutSize R kR rs = oR from rfl, show convOutSize C kC cs = oC from rfl,
    show K * R * C = R * C * K by ring, Mat.setConstantRC_eq g hm, bind_ok']
  exact (bind_congr_left hv).trans (Mat.scale_ofFn _ _ _ _)

/-- Backward pass, given the result `D` of the back-transform. -/
theorem convBackward_gen (g : Nat → α) (fast first : Bool)
    (x gr : Nat → Nat → Nat → Nat → α) (w : Nat → Nat → α) {st : ConvState α}
    (hst : st.Ok O (kR * kC * K) w) (hs : st.samples = N)
    (hcol : st.im2colT = Mat.ofFn (convOutSize R kR rs * convOutSize C kC cs * N) (kR * kC * K)
      (colFn (convOutSize R kR rs) (convOutSize C kC cs) kR kC rs cs x)) {mGI : Mat α}
    {D : Nat → Nat → Nat → Nat → α} (hback :
      (if fast then col2imLUT g (Conv.std R C K kR kC O rs cs) N
          (Mat.ofFn (kR * kC * K) (convOutSize R kR rs * convOutSize C kC cs * N)
            (convGradCol O (convOutSize R kR rs) (convOutSize C kC cs) w gr)) mGI
        else col2im g (Conv.std R C K kR kC O rs cs) N
          (Mat.ofFn (kR * kC * K) (convOutSize R kR rs * convOutSize C kC cs * N)
            (convGradCol O (convOutSize R kR rs) (convOutSize C kC cs) w gr)) mGI) =
        .ok (imgMat N K R C D)) :
    let oR := convOutSize R kR rs
    let oC := convOutSize C kC cs
    ∃ st', st'.Ok O (kR * kC * K) w ∧
      st'.gradientWeight = Mat.ofFn O (kR * kC * K) (convGradW N oR oC kR kC rs cs x gr) ∧
      convBackward g (Conv.std R C K kR kC O rs cs) fast first st (imgMat N K R C x) (imgMat N O oR oC gr) mGI =
        .ok (st', if first then mGI else imgMat N K R C D) := by
  intro oR oC
  have : Inhabited α := ⟨0⟩
  obtain ⟨t', ht', hr⟩ := reshapeFromOut_eq (N := N) (O := O) (oR := oR) (oC := oC) g
    (p := Conv.std R C K kR kC O rs cs) rfl rfl rfl gr hst.tmp
  refine ⟨⟨N, st.im2colT, t', st.weight, Mat.ofFn O (kR * kC * K) (convGradW N oR oC kR kC rs cs x gr)⟩,
    ⟨hst.col, ht', hst.weight, Mat.ofFn_WF _ _ _⟩, rfl, ?_⟩
  have hcp : Mat.copy g (imgMat N O oR oC gr) = .ok (imgMat N O oR oC gr) := Mat.copy_flat _ _ _ _
  obtain ⟨sa, col, tmp, wt, gw⟩ := st
  obtain ⟨hc, ht, hw, hg⟩ := hst
  simp only at hs hcol hw ht hg hc hr
  subst hs hcol hw
  rw [convBackward, check_true (by rfl), bind_ok', check_true (by rfl), bind_ok', hcp, bind_ok', hr, bind_ok']
  simp only
  rw [Mat.mul_ofFn, bind_ok', Mat.assign_ofFn g hg, bind_ok', check_true (by rfl), bind_ok',
    check_true (by rfl), bind_ok']
  cases first
  · rw [if_neg (by decide), Mat.transpose_ofFn, bind_ok', Mat.mul_ofFn, bind_ok']
    unfold convGradCol at hback
    cases fast
    · rw [if_neg (by decide)] at hback ⊢
      rw [hback, bind_ok', check_true (by rfl), bind_ok', check_true (by rfl), bind_ok']
      rfl
    · rw [if_pos rfl] at hback ⊢
      rw [hback, bind_ok', check_true (by rfl), bind_ok', check_true (by rfl), bind_ok']
      rfl
  · rfl

end

theorem convBackward_eq [AddCommMonoid α] [One α] [Mul α] [Div α] [NatCast α] (g : Nat → α)
    (fast first : Bool) (h1 : 2 * (kR / 2) ≤ R) (h2 : 2 * (kC / 2) ≤ C)
    (x gr : Nat → Nat → Nat → Nat → α) (w : Nat → Nat → α) {st : ConvState α}
    (hst : st.Ok O (kR * kC * K) w) (hs : st.samples = N)
    (hcol : st.im2colT = Mat.ofFn (convOutSize R kR rs * convOutSize C kC cs * N) (kR * kC * K)
      (colFn (convOutSize R kR rs) (convOutSize C kC cs) kR kC rs cs x)) {mGI : Mat α} (hm : mGI.WF) :
    let oR := convOutSize R kR rs
    let oC := convOutSize C kC cs
    ∃ st', st'.Ok O (kR * kC * K) w ∧
      st'.gradientWeight = Mat.ofFn O (kR * kC * K) (convGradW N oR oC kR kC rs cs x gr) ∧
      convBackward g (Conv.std R C K kR kC O rs cs) fast first st (imgMat N K R C x) (imgMat N O oR oC gr) mGI =
        .ok (st', if first then mGI else imgMat N K R C (fun s k r c =>
          col2imFn N K oR oC kR kC rs cs (convGradCol O oR oC w gr) s k r c *
            (1 / ((kR * kC * O : Nat) : α)))) := by
  refine convBackward_gen g fast first x gr w hst hs hcol ?_
  cases fast
  · rw [if_neg (by decide)]; exact col2im_eq g h1 h2 _ hm
  · rw [if_pos rfl]; exact col2imLUT_eq g h1 h2 _ hm

end

end BeeDNN
