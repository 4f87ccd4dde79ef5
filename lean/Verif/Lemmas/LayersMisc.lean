import Verif.Model.LayersMisc
import Verif.Lemmas.LayersBasic
import Verif.Lemmas.Image
import Verif.Spec.LayersMisc

/-! # Closed forms of dropout, noise, flip, CRelu, gated, rectifier and time-distributed layers -/

namespace BeeDNN
open Finset

variable {α : Type}

namespace Mat

theorem setQuickBernoulli_ofFn [Zero α] [One α] (R C : Nat) (f : Nat → Nat → α) (lim : Nat) (rng : Nat → Nat) :
    setQuickBernoulli (ofFn R C f) lim rng =
      .ok (ofFn R C (fun i j => if rng (i * C + j) % 65536 < lim then 1 else 0)) := by
  rw [ofFn_eq_flat, setQuickBernoulli_flat, flat_eq_ofFn]

theorem cwiseProduct_ofFn [Mul α] (R C : Nat) (d e : Nat → Nat → α) :
    cwiseProduct (ofFn R C d) (ofFn R C e) = .ok (ofFn R C (fun i j => d i j * e i j)) := cwise2_ofFn _ _ _ _ _

theorem divScalar_ofFn' [Div α] (R C : Nat) (d : Nat → Nat → α) (b : α) :
    (ofFn R C d).divScalar b = .ok (ofFn R C (fun i j => d i j / b)) := cwise_ofFn _ _ _ _

theorem setConstant_ofFn (R C : Nat) (f : Nat → Nat → α) (b : α) :
    (ofFn R C f).setConstant b = .ok (ofFn R C (fun _ _ => b)) := by
  rw [ofFn_eq_flat, setConstant_flat, flat_eq_ofFn]

theorem setConstantRC_ofFn [Inhabited α] (g : Nat → α) {m : Mat α} (hm : m.WF) (r c : Nat) (b : α) :
    m.setConstantRC g r c b = .ok (ofFn r c (fun _ _ => b)) := by
  rw [setConstantRC_eq g hm, flat_eq_ofFn]

theorem getI_ofFn {R C : Nat} {f : Nat → Nat → α} {i : Nat} (h : i < R * C) :
    (ofFn R C f).getI i = .ok (f (i / C) (i % C)) := by
  rw [ofFn_eq_flat, getI_flat h]

theorem asDiagonal_ofFn [Zero α] (g : Nat → α) (C : Nat) (f : Nat → Nat → α) :
    asDiagonal g (ofFn 1 C f) = .ok (ofFn C C (fun i j => if i = j then f 0 i else 0)) := by
  have : Inhabited α := ⟨0⟩
  unfold asDiagonal
  have hs : (ofFn 1 C f).size = C := by simp
  rw [hs, setConstantRC_ofFn g (by rfl)]
  simp only [bind_ok']
  refine forN_closed' (fun k => ofFn C C (fun i j => if i = j ∧ i < k then f 0 i else 0)) ?_ ?_ ?_
  · simp
  · apply ofFn_congr; intro i j hi _; simp [hi]
  · intro i hi
    have h := raw_ofFn (f := f) (R := 1) (r := 0) (by omega) hi
    rw [Nat.zero_mul, Nat.zero_add] at h
    rw [h, bind_ok', set_ofFn hi hi]
    congr 1
    apply ofFn_congr
    intro a b _ _
    by_cases h1 : a = i
    · subst h1
      by_cases h2 : b = a
      · subst h2; simp
      · simp [h2, Ne.symm h2]
    · have : (a < i + 1) = (a < i) := by rw [eq_iff_iff]; omega
      simp [h1, this]

/-- Reshaping a matrix: the cells are renumbered row by row. -/
theorem viewResize_ofFn {R C r c : Nat} {f : Nat → Nat → α} (h : R * C = r * c) :
    (ofFn R C f).viewResize r c = .ok (ofFn r c (fun i j => f ((i * c + j) / C) ((i * c + j) % C))) := by
  rw [ofFn_eq_flat, viewResize_flat h, flat_eq_ofFn]

theorem resize_ofFn_reshape (g : Nat → α) {a b c d : Nat} (h : c * d = a * b) (f : Nat → Nat → α) :
    (ofFn a b f).resize g c d = ofFn c d (fun i j => f ((i * d + j) / b) ((i * d + j) % b)) := by
  rw [ofFn_eq_flat, resize_flat g _ h, flat_eq_ofFn]

/-- Loop over the samples `i` and columns `j` adding `e i p j` to the entries `(p,j)`. -/
theorem forN_colAcc [AddCommMonoid α] {P N C : Nat} {b : Nat → Nat → Mat α → Out (Mat α)}
    (e : Nat → Nat → Nat → α)
    (step : ∀ i j, i < N → j < C → ∀ f : Nat → Nat → α, b i j (ofFn P C f) =
      .ok (ofFn P C (fun p q => if q = j then f p q + e i p q else f p q))) :
    forN N (fun i m => forN C (b i) m) (ofFn P C (fun _ _ => 0)) =
      .ok (ofFn P C (fun p q => ∑ i ∈ range N, e i p q)) := by
  refine forN_closed' (fun k => ofFn P C (fun p q => ∑ i ∈ range k, e i p q)) ?_ rfl ?_
  · simp
  · intro i hi
    refine forN_closed' (fun k => ofFn P C (fun p q => if q < k then ∑ i ∈ range (i + 1), e i p q
      else ∑ i ∈ range i, e i p q)) ?_ ?_ ?_
    · simp
    · apply ofFn_congr; intro p q _ hq; simp [hq]
    · intro j hj
      rw [step i j hi hj]
      congr 1
      apply ofFn_congr
      intro p q _ _
      by_cases h : q = j
      · subst h
        simp [sum_range_succ]
      · have : (q < j + 1) = (q < j) := by rw [eq_iff_iff]; omega
        simp [h, this]

end Mat

/-! ## Dropout and noise -/

/-- Factor applied by dropout: `0` or `1/(1-rate)`. -/
def dropFactor [Zero α] [One α] [Sub α] [Mul α] [Div α] (lim : α → Nat) (rate : α) (rng : Nat → Nat) (C i j : Nat) : α :=
  (if rng (i * C + j) % 65536 < lim (1 - rate) then 1 else 0) * (1 / (1 - rate))

theorem dropoutForward_train [Zero α] [One α] [Sub α] [Mul α] [Div α] [DecidableEq α] (g : Nat → α) (lim : α → Nat)
    (rate : α) (hr : rate ≠ 0) (rng : Nat → Nat) {mask mOut : Mat α} (hm : mask.WF) (ho : mOut.WF)
    (N C : Nat) (x : Nat → Nat → α) :
    dropoutForward g lim true rate rng mask (Mat.ofFn N C x) mOut =
      .ok (Mat.ofFn N C (dropFactor lim rate rng C),
        Mat.ofFn N C (fun i j => x i j * dropFactor lim rate rng C i j)) := by
  have : Inhabited α := ⟨0⟩
  unfold dropoutForward
  rw [if_pos ⟨rfl, hr⟩]
  obtain ⟨d, hd⟩ := Mat.resize_ofFn g hm N C
  simp only [Mat.ofFn_rows, Mat.ofFn_cols, hd, Mat.setQuickBernoulli_ofFn, bind_ok', Mat.scale_ofFn,
    Mat.cwiseProduct_ofFn, Mat.assign_ofFn g ho, pure_ok]
  rfl

theorem dropoutForward_test [Zero α] [One α] [Sub α] [Mul α] [Div α] [DecidableEq α] (g : Nat → α) (lim : α → Nat)
    (train : Bool) (rate : α) (h : train = false ∨ rate = 0) (rng : Nat → Nat) {mask mOut : Mat α} (ho : mOut.WF)
    (N C : Nat) (x : Nat → Nat → α) :
    dropoutForward g lim train rate rng mask (Mat.ofFn N C x) mOut = .ok (mask, Mat.ofFn N C x) := by
  have : Inhabited α := ⟨0⟩
  unfold dropoutForward
  rw [if_neg (by rintro ⟨h1, h2⟩; rcases h with h | h; · rw [h] at h1; cases h1
                 · exact h2 h)]
  simp only [Mat.assign_ofFn g ho, bind_ok', pure_ok]

theorem dropoutBackward_ofFn [Zero α] [Mul α] [DecidableEq α] (g : Nat → α) (rate : α) (hr : rate ≠ 0) {gIn : Mat α}
    (hg : gIn.WF) (N C : Nat) (m gr : Nat → Nat → α) :
    dropoutBackward g false rate (Mat.ofFn N C m) (Mat.ofFn N C gr) gIn =
      .ok (Mat.ofFn N C (fun i j => gr i j * m i j)) := by
  have : Inhabited α := ⟨0⟩
  unfold dropoutBackward
  rw [if_neg (by decide), if_pos hr, Mat.cwiseProduct_ofFn, bind_ok', Mat.assign_ofFn g hg]

theorem noiseForward_ofFn [Zero α] [Add α] [LT α] [DecidableRel (α := α) (· < ·)] (g : Nat → α) (train : Bool)
    (noise : α) (draw : Nat → α) {mOut : Mat α} (ho : mOut.WF) (N C : Nat) (x : Nat → Nat → α) :
    noiseForward g train noise draw (Mat.ofFn N C x) mOut =
      .ok (Mat.ofFn N C (fun i j => if train = true ∧ 0 < noise then x i j + draw (i * C + j) else x i j)) := by
  have : Inhabited α := ⟨0⟩
  unfold noiseForward
  rw [Mat.assign_ofFn g ho, bind_ok']
  by_cases h : train = true ∧ 0 < noise
  · simp only [if_pos h]
    have hs : (Mat.ofFn N C x).size = N * C := by simp
    rw [hs, Mat.ofFn_eq_flat, Mat.forN_flat (e := fun i => x (i / C) (i % C) + draw i)]
    · rw [Mat.flat_eq_ofFn]
      congr 1
      apply Mat.ofFn_congr
      intro i j _ hj
      rw [idx_div hj, idx_mod hj]
    · intro i hi d' hd
      rw [Mat.getI_flat hi, bind_ok', Mat.setI_flat hi, hd i (Nat.le_refl _)]
  · simp only [if_neg h, pure_ok]

theorem gaussianDropout_fill [Zero α] (C : Nat) (d : Nat → Nat → α) (draw : Nat → α) :
    forN C (fun i m => m.set 0 i (draw i)) (Mat.ofFn 1 C d) = .ok (Mat.ofFn 1 C (fun _ j => draw j)) := by
  refine forN_closed' (fun k => Mat.ofFn 1 C (fun _ j => if j < k then draw j else d 0 j)) ?_ ?_ ?_
  · apply Mat.ofFn_congr; intro i j hi _; simp [show i = 0 by omega]
  · apply Mat.ofFn_congr; intro i j _ hj; simp [hj]
  · intro i hi
    rw [Mat.set_ofFn (by omega) hi]
    congr 1
    apply Mat.ofFn_congr
    intro a b ha _
    obtain rfl : a = 0 := by omega
    by_cases h1 : b = i
    · subst h1; simp
    · have : (b < i + 1) = (b < i) := by rw [eq_iff_iff]; omega
      simp [h1, this]

/-- In training mode everything but the last product succeeds. -/
theorem gaussianDropoutForward_train [Zero α] [Add α] [Mul α] (g : Nat → α) (draw : Nat → α)
    {mask mOut : Mat α} (hm : mask.WF) (N C : Nat) (x : Nat → Nat → α) :
    gaussianDropoutForward g true draw mask (Mat.ofFn N C x) mOut =
      (do
        let t ← Mat.mul g (Mat.ofFn N C x) (Mat.ofFn (N * C) (N * C) (fun i j => if i = j then draw i else 0))
        let mOut ← mOut.assign g t
        return (Mat.ofFn 1 (N * C) (fun _ j => draw j), mOut)) := by
  have : Inhabited α := ⟨0⟩
  unfold gaussianDropoutForward
  rw [if_pos rfl]
  obtain ⟨d, hd⟩ := Mat.resize_ofFn g hm 1 (N * C)
  have hs : (Mat.ofFn N C x).size = N * C := by simp
  have hs' : (Mat.ofFn 1 (N * C) d).size = N * C := by simp
  simp only [hs, hd, hs', gaussianDropout_fill, bind_ok', Mat.asDiagonal_ofFn]

/-! ## RandomFlip -/

theorem reverseData_imgMat {N K H W : Nat} (hW : 0 < W) (v : Nat → Nat → Nat → Nat → α) {s k r : Nat}
    (hs : s < N) (hk : k < K) (hr : r < H) :
    Mat.reverseData (imgMat N K H W v).data (s * (H * W * K) + k * (H * W) + r * W) W =
      .ok (imgMat N K H W (fun s' k' r' c' => if s' = s ∧ k' = k ∧ r' = r then halfMirror W (v s k r) c'
        else v s' k' r' c')).data := by
  set p := s * (H * W * K) + k * (H * W) + r * W with hp
  have hle : p + W ≤ N * (H * W * K) := by
    have h1 : k * (H * W) + (r * W + (W - 1)) < H * W * K := px_lt hk hr (by omega)
    have h2 : s * (H * W * K) + H * W * K ≤ N * (H * W * K) := by
      rw [← Nat.succ_mul]; exact Nat.mul_le_mul_right _ hs
    omega
  have hd : ∀ v : Nat → Nat → Nat → Nat → α, (imgMat N K H W v).data =
      tab (N * (H * W * K)) (fun i => v (i / (H * W * K)) (i % (H * W * K) / (H * W))
        (i % (H * W * K) % (H * W) / W) (i % (H * W * K) % (H * W) % W)) := fun _ => rfl
  rw [hd, hd, Mat.reverseData_tab hW hle]
  congr 1
  apply tab_congr
  intro j hj
  obtain ⟨a1, a2, a3⟩ := idx_decomp hj
  have hHW : 0 < H * W * K := by
    rcases Nat.eq_zero_or_pos (H * W * K) with h | h
    · rw [h] at hj; simp at hj
    · exact h
  have hb : j % (H * W * K) < K * (H * W) := by rw [Nat.mul_comm K]; exact a2
  obtain ⟨b1, b2, b3⟩ := idx_decomp hb
  obtain ⟨c1, c2, c3⟩ := idx_decomp b2
  -- position of a pixel
  have pos : ∀ c, c < W → ((p + c) / (H * W * K) = s ∧ (p + c) % (H * W * K) / (H * W) = k ∧
      (p + c) % (H * W * K) % (H * W) / W = r ∧ (p + c) % (H * W * K) % (H * W) % W = c) := by
    intro c hc
    have e : p + c = s * (H * W * K) + (k * (H * W) + (r * W + c)) := by omega
    have l1 := px_lt hk hr hc
    have l2 := idx_lt hr hc
    rw [e, idx_div l1, idx_mod l1, idx_div l2, idx_mod l2, idx_div hc, idx_mod hc]
    exact ⟨rfl, rfl, rfl, rfl⟩
  by_cases hin : p ≤ j ∧ j < p + W
  · obtain ⟨c, rfl⟩ := Nat.exists_eq_add_of_le hin.1
    have hc : c < W := by omega
    obtain ⟨q1, q2, q3, q4⟩ := pos c hc
    simp only [q1, q2, q3, q4, true_and, and_self, if_true, halfMirror]
    by_cases h2 : c < W / 2
    · obtain ⟨r1, r2, r3, r4⟩ := pos (W - 1 - c) (by omega)
      rw [if_pos ⟨by omega, by omega⟩, if_pos h2]
      rw [show p + W - 1 - (p + c - p) = p + (W - 1 - c) by omega, r1, r2, r3, r4]
    · rw [if_neg (by omega), if_neg h2]
  · rw [if_neg (by omega), if_neg ?_]
    rintro ⟨e1, e2, e3⟩
    apply hin
    have : j = p + j % (H * W * K) % (H * W) % W := by
      rw [e1] at a3; rw [e2] at b3; rw [e3] at c3; omega
    omega

theorem reverseRow_imgMat {N K H W : Nat} (hW : 0 < W) (v : Nat → Nat → Nat → Nat → α) {s k r : Nat}
    (hs : s < N) (hk : k < K) (hr : r < H) :
    (do
      let l ← Mat.reverseData (imgMat N K H W v).data (s * (H * W * K) + k * (H * W) + r * W) W
      return { imgMat N K H W v with data := l } : Out (Mat α)) =
      .ok (imgMat N K H W (fun s' k' r' c' => if s' = s ∧ k' = k ∧ r' = r then halfMirror W (v s k r) c'
        else v s' k' r' c')) := by
  rw [reverseData_imgMat hW v hs hk hr]; rfl

theorem flipSamples_imgMat [Zero α] [DecidableEq α] {N K H W : Nat} (hW : 0 < W) (f : Nat → Nat → α)
    (v : Nat → Nat → Nat → Nat → α) :
    flipSamples H W K N (Mat.ofFn N 1 f) (imgMat N K H W v) =
      .ok (imgMat N K H W (fun s k r => if f s 0 = 0 then v s k r else halfMirror W (v s k r))) := by
  unfold flipSamples
  refine forN_closed' (fun i => imgMat N K H W (fun s k r => if f s 0 = 0 ∨ i ≤ s then v s k r
    else halfMirror W (v s k r))) ?_ ?_ ?_
  · apply imgMat_congr; intro s k r c _ _ _ _; simp
  · apply imgMat_congr; intro s k r c hs _ _ _
    have : ¬ N ≤ s := by omega
    simp [this]
  · intro s hs
    rw [Mat.getI_ofFn_col hs, bind_ok']
    by_cases h0 : f s 0 = 0
    · rw [if_pos h0, pure_ok]
      congr 1
      apply imgMat_congr
      intro s' k r c hs' _ _ _
      by_cases h1 : s' = s
      · subst h1; simp [h0]
      · have : (s + 1 ≤ s') = (s ≤ s') := by rw [eq_iff_iff]; omega
        simp [this]
    · rw [if_neg h0]
      refine forN_closed' (fun i => imgMat N K H W (fun s' k r => if f s' 0 = 0 ∨ s < s' ∨ (s' = s ∧ i ≤ k) then v s' k r
        else halfMirror W (v s' k r))) ?_ ?_ ?_
      · apply imgMat_congr; intro s' k r c _ _ _ _
        have : (s < s' ∨ s' = s ∧ 0 ≤ k) = (s ≤ s') := by rw [eq_iff_iff]; omega
        simp only [this]
      · apply imgMat_congr; intro s' k r c _ hk _ _
        have : (s < s' ∨ s' = s ∧ K ≤ k) = (s + 1 ≤ s') := by rw [eq_iff_iff]; omega
        simp only [this]
      · intro k hk
        have hrows : ∀ v, (imgMat N K H W v : Mat α).rows = N := fun _ => rfl
        have hcols : ∀ v, (imgMat N K H W v : Mat α).cols = H * W * K := fun _ => rfl
        simp only [hrows, hcols, check_true, hs, bind_ok']
        refine forN_closed' (fun i => imgMat N K H W (fun s' k' r => if f s' 0 = 0 ∨ s < s' ∨
          (s' = s ∧ (k < k' ∨ (k' = k ∧ i ≤ r))) then v s' k' r else halfMirror W (v s' k' r))) ?_ ?_ ?_
        · apply imgMat_congr; intro s' k' r c _ _ _ _
          have : (k < k' ∨ k' = k ∧ 0 ≤ r) = (k ≤ k') := by rw [eq_iff_iff]; omega
          simp only [this]
        · apply imgMat_congr; intro s' k' r c _ _ hr _
          have : (k < k' ∨ k' = k ∧ H ≤ r) = (k + 1 ≤ k') := by rw [eq_iff_iff]; omega
          simp only [this]
        · intro r hr
          refine (reverseRow_imgMat hW _ hs hk hr).trans ?_
          congr 1
          apply imgMat_congr
          intro s' k' r' c' _ _ _ _
          by_cases e : s' = s ∧ k' = k ∧ r' = r
          · obtain ⟨rfl, rfl, rfl⟩ := e
            simp [h0]
          · rw [if_neg e]
            have : (s < s' ∨ s' = s ∧ (k < k' ∨ k' = k ∧ r + 1 ≤ r')) =
                (s < s' ∨ s' = s ∧ (k < k' ∨ k' = k ∧ r ≤ r')) := by rw [eq_iff_iff]; omega
            simp only [this]

/-! ## CRelu and gated activations -/

theorem creluForward_ofFn [Zero α] [Neg α] [LE α] [DecidableRel (α := α) (· ≤ ·)] (g : Nat → α) {mOut : Mat α}
    (ho : mOut.WF) (N n : Nat) (x : Nat → Nat → α) :
    creluForward g (Mat.ofFn N n x) mOut = .ok (Mat.ofFn N (n * 2) (fun s j =>
      if j < n then (if 0 ≤ x s j then x s j else 0) else (if 0 ≤ x s (j - n) then 0 else -x s (j - n)))) := by
  have : Inhabited α := ⟨0⟩
  unfold creluForward
  simp only [Mat.ofFn_rows, Mat.ofFn_cols, Mat.setConstantRC_ofFn g ho, bind_ok']
  refine forN_closed' (fun k => Mat.ofFn N (n * 2) (fun s j => if s < k then
      if j < n then (if 0 ≤ x s j then x s j else 0) else (if 0 ≤ x s (j - n) then 0 else -x s (j - n)) else 0)) ?_ ?_ ?_
  · simp
  · apply Mat.ofFn_congr; intro s j hs _; simp [hs]
  · intro r hr
    refine forN_closed' (fun k => Mat.ofFn N (n * 2) (fun s j => if s < r ∨ (s = r ∧ (if j < n then j else j - n) < k) then
      if j < n then (if 0 ≤ x s j then x s j else 0) else (if 0 ≤ x s (j - n) then 0 else -x s (j - n)) else 0)) ?_ ?_ ?_
    · simp
    · apply Mat.ofFn_congr; intro s j hs hj
      have : (s < r ∨ s = r ∧ (if j < n then j else j - n) < n) = (s < r + 1) := by
        rw [eq_iff_iff]; split <;> omega
      simp only [this]
    · intro c hc
      rw [Mat.get_ofFn hr hc, bind_ok']
      by_cases h : 0 ≤ x r c
      · rw [if_pos h, Mat.set_ofFn hr (by omega)]
        congr 1
        apply Mat.ofFn_congr
        intro s j hs hj
        by_cases e1 : s = r
        · subst e1
          by_cases e2 : j = c
          · subst e2; simp [hc, h]
          · by_cases e3 : j < n
            · have : (j < c + 1) = (j < c) := by rw [eq_iff_iff]; omega
              simp [e2, e3, this]
            · by_cases e4 : j - n = c
              · have e5 : j ≠ c := by omega
                simp [e5, e3, e4, h]
              · have : (j - n < c + 1) = (j - n < c) := by rw [eq_iff_iff]; omega
                simp [e2, e3, this]
        · simp [e1]
      · rw [if_neg h, Mat.set_ofFn hr (by omega)]
        congr 1
        apply Mat.ofFn_congr
        intro s j hs hj
        by_cases e1 : s = r
        · subst e1
          by_cases e2 : j = c
          · subst e2
            have : n ≠ 0 := by omega
            simp [hc, h, this]
          · by_cases e3 : j < n
            · have : (j < c + 1) = (j < c) := by rw [eq_iff_iff]; omega
              have h6 : j ≠ c + n := by omega
              simp [e3, this, h6]
            · by_cases e4 : j - n = c
              · have e5 : j = c + n := by omega
                subst e5
                simp [h]
              · have : (j - n < c + 1) = (j - n < c) := by rw [eq_iff_iff]; omega
                have h6 : j ≠ c + n := by omega
                simp [e3, this, h6]
        · simp [e1]

theorem creluBackward_ofFn [Zero α] [Neg α] [LT α] [DecidableRel (α := α) (· < ·)] (g : Nat → α) {gIn : Mat α}
    (hg : gIn.WF) (N n : Nat) (x gr : Nat → Nat → α) :
    creluBackward g false (Mat.ofFn N n x) (Mat.ofFn N (n * 2) gr) gIn =
      .ok (Mat.ofFn N n (fun s j => if 0 < x s j then gr s j else -gr s (j + n))) := by
  have : Inhabited α := ⟨0⟩
  unfold creluBackward
  rw [if_neg (by decide)]
  simp only [Mat.ofFn_rows, Mat.ofFn_cols, Mat.setConstantRC_ofFn g hg, bind_ok']
  apply Mat.forN_rows
  intro r c hr hc f' _
  rw [Mat.get_ofFn hr hc, bind_ok']
  by_cases h : 0 < x r c
  · simp only [if_pos h]
    rw [Mat.get_ofFn hr (by omega), bind_ok', Mat.set_ofFn hr hc]
  · simp only [if_neg h]
    rw [Mat.get_ofFn hr (by omega), bind_ok', Mat.set_ofFn hr hc]

theorem gatedForward_ofFn [Mul α] [Inhabited α] (g : Nat → α) (a1 a2 : α → α) {mOut : Mat α} (ho : mOut.WF) (N n : Nat)
    (x : Nat → Nat → α) :
    gatedForward g a1 a2 (Mat.ofFn N (2 * n) x) mOut =
      .ok (Mat.ofFn N n (fun s j => a1 (x s j) * a2 (x s (j + n)))) := by
  unfold gatedForward
  rw [check_true (by rw [Mat.ofFn_cols]; omega), bind_ok']
  simp only [Mat.ofFn_rows, Mat.ofFn_cols]
  have h2 : 2 * n / 2 = n := by omega
  obtain ⟨d, hd⟩ := Mat.resize_ofFn g ho N n
  simp only [h2, hd]
  apply Mat.forN_rows
  intro r c hr hc f' _
  rw [Mat.get_ofFn hr (by omega), bind_ok', Mat.get_ofFn hr (by omega), bind_ok', Mat.set_ofFn hr hc]

theorem gatedBackward_ofFn [Mul α] [Inhabited α] (g : Nat → α) (a1 a2 d1 d2 : α → α) {gIn : Mat α} (hg : gIn.WF)
    (N n : Nat) (x gr : Nat → Nat → α) :
    gatedBackward g false a1 a2 d1 d2 (Mat.ofFn N (2 * n) x) (Mat.ofFn N n gr) gIn =
      .ok (Mat.ofFn N (2 * n) (fun s j => if j < n then gr s j * a2 (x s (j + n)) * d1 (x s j)
        else gr s (j - n) * a1 (x s (j - n)) * d2 (x s j))) := by
  unfold gatedBackward
  rw [if_neg (by decide)]
  have h2 : 2 * n / 2 = n := by omega
  obtain ⟨d, hd⟩ := Mat.resize_ofFn g hg N (2 * n)
  simp only [Mat.ofFn_rows, Mat.ofFn_cols, h2, hd]
  refine forN_closed' (fun k => Mat.ofFn N (2 * n) (fun s j => if s < k then
    (if j < n then gr s j * a2 (x s (j + n)) * d1 (x s j)
        else gr s (j - n) * a1 (x s (j - n)) * d2 (x s j)) else d s j)) ?_ ?_ ?_
  · simp
  · apply Mat.ofFn_congr; intro s j hs _; simp [hs]
  · intro r hr
    refine forN_closed' (fun k => Mat.ofFn N (2 * n) (fun s j => if s < r ∨ (s = r ∧ (if j < n then j else j - n) < k) then
      (if j < n then gr s j * a2 (x s (j + n)) * d1 (x s j)
        else gr s (j - n) * a1 (x s (j - n)) * d2 (x s j)) else d s j)) ?_ ?_ ?_
    · simp
    · apply Mat.ofFn_congr; intro s j hs hj
      have : (s < r ∨ s = r ∧ (if j < n then j else j - n) < n) = (s < r + 1) := by
        rw [eq_iff_iff]; split <;> omega
      simp only [this]
    · intro c hc
      rw [Mat.get_ofFn hr hc, bind_ok', Mat.get_ofFn hr (by omega), bind_ok', Mat.get_ofFn hr (by omega), bind_ok',
        Mat.set_ofFn hr (by omega), bind_ok', Mat.set_ofFn hr (by omega)]
      congr 1
      apply Mat.ofFn_congr
      intro s j hs hj
      by_cases e1 : s = r
      · subst e1
        by_cases e3 : j < n
        · by_cases e2 : j = c
          · subst e2
            have : n ≠ 0 := by omega
            simp [hc, this]
          · have : (j < c + 1) = (j < c) := by rw [eq_iff_iff]; omega
            have h6 : j ≠ c + n := by omega
            simp [e3, e2, this, h6]
        · by_cases e4 : j = c + n
          · subst e4
            simp
          · have : (j - n < c + 1) = (j - n < c) := by rw [eq_iff_iff]; omega
            have h6 : j ≠ c := by omega
            simp [e3, this, h6, e4]
      · simp [e1]

end BeeDNN
