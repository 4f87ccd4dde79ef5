import Verif.Model.LayersBasic
import Verif.Lemmas.MatrixMore

/-! # Closed forms of the basic layers -/

namespace BeeDNN
variable {α : Type}

namespace Mat

theorem assign_ofFn [Inhabited α] (g : Nat → α) {m : Mat α} (hm : m.WF) (R C : Nat) (d : Nat → Nat → α) :
    m.assign g (ofFn R C d) = .ok (ofFn R C d) := assign_flat g hm R C _

theorem resize_ofFn [Inhabited α] (g : Nat → α) {m : Mat α} (hm : m.WF) (R C : Nat) :
    ∃ d, m.resize g R C = ofFn R C d := by
  obtain ⟨d, hd⟩ := resize_exists g hm R C
  exact ⟨fun i j => d (i * C + j), by rw [hd, flat_eq_ofFn]⟩

theorem scale_ofFn [Mul α] (R C : Nat) (d : Nat → Nat → α) (b : α) :
    (ofFn R C d).scale b = .ok (ofFn R C (fun i j => d i j * b)) := cwise_ofFn _ _ _ _

theorem addScalar_ofFn [Add α] (R C : Nat) (d : Nat → Nat → α) (b : α) :
    (ofFn R C d).addScalar b = .ok (ofFn R C (fun i j => d i j + b)) := cwise_ofFn _ _ _ _

theorem colWiseMean_ofFn [Zero α] [Add α] [Div α] [NatCast α] (g : Nat → α) (R C : Nat)
    (m : Nat → Nat → α) :
    colWiseMean g (ofFn R C m) = .ok (ofFn 1 C (fun _ j => accN R (fun i => m i j) / (R : α))) :=
  colWiseAcc_ofFn _ _ g R C m

theorem mean_ofFn [Zero α] [Add α] [Div α] [NatCast α] (R C : Nat) (d : Nat → Nat → α) :
    (ofFn R C d).mean = .ok (accN (R * C) (fun k => d (k / C) (k % C)) / ((R * C : Nat) : α)) := by
  have h := sum_flat (α := α) R C (fun i => d (i / C) (i % C))
  unfold mean
  rw [ofFn_eq_flat, h]
  rfl

theorem setI_one {f : Nat → Nat → α} (x : α) :
    (ofFn 1 1 f).setI 0 x = .ok (ofFn 1 1 (fun _ _ => x)) := by
  rw [setI_row (by decide)]
  congr 1

/-- `forN_rows` when the inner bound is read from the matrix itself. -/
theorem forN_rows' {R C : Nat} {f e : Nat → Nat → α} {b : Nat → Nat → Mat α → Out (Mat α)}
    (h : ∀ r c, r < R → c < C → ∀ f' : Nat → Nat → α, f' r c = f r c →
      b r c (ofFn R C f') = .ok (ofFn R C (fun i j => if i = r ∧ j = c then e r c else f' i j))) :
    forN R (fun r m => forN m.cols (b r) m) (ofFn R C f) = .ok (ofFn R C e) := by
  refine forN_closed' (fun k => ofFn R C (fun i j => if i < k then e i j else f i j)) ?_ ?_ ?_
  · simp
  · apply ofFn_congr; intro i j hi hj; simp [hi]
  · intro r hr
    rw [ofFn_cols, forN_row (r := r) (e := e)]
    · congr 1
      apply ofFn_congr
      intro i j hi hj
      by_cases h1 : i = r
      · subst h1; simp [hj]
      · have : (i < r + 1) = (i < r) := by rw [eq_iff_iff]; omega
        simp [h1, this]
    · intro c hc f' h1 h2
      apply h r c hr hc
      rw [h1 c (Nat.le_refl c)]
      simp

end Mat

theorem scaleCols_ofFn [Mul α] (R C : Nat) (w m : Nat → Nat → α) :
    scaleCols (Mat.ofFn 1 C w) (Mat.ofFn R C m) = .ok (Mat.ofFn R C (fun i j => m i j * w 0 j)) := by
  unfold scaleCols
  apply Mat.forN_rows'
  intro r c hr hc f' hf
  rw [Mat.get_ofFn hr hc, Mat.getI_ofFn_row hc, hf]
  simp only [bind_ok']
  rw [Mat.set_ofFn hr hc]

section forwards
variable [Zero α]

theorem denseForward_ofFn [Add α] [Mul α] (g : Nat → α) (N n m : Nat) (x W b : Nat → Nat → α)
    {mOut : Mat α} (ho : mOut.WF) :
    denseForward g (Mat.ofFn n m W) (Mat.ofFn 1 m b) (Mat.ofFn N n x) mOut =
      .ok (Mat.ofFn N m (fun s j => accN n (fun k => x s k * W k j) + b 0 j)) := by
  have : Inhabited α := ⟨0⟩
  unfold denseForward
  simp only [Mat.ofFn_rows, Mat.ofFn_cols, check_true, bind_ok', Mat.mul_ofFn,
    Mat.assign_ofFn g ho, Mat.rowWiseAdd_ofFn]
  exact Mat.assign_ofFn g (Mat.ofFn_WF _ _ _) _ _ _

theorem denseBackward_ofFn [One α] [Add α] [Mul α] [Div α] [NatCast α] (g : Nat → α) (first : Bool)
    (N n m : Nat) (x W gr : Nat → Nat → α) {old : Grads α} (h1 : old.gW.WF) (h2 : old.gB.WF)
    (h3 : old.gIn.WF) :
    denseBackward g first (Mat.ofFn n m W) (Mat.ofFn N n x) (Mat.ofFn N m gr) old =
      .ok ⟨Mat.ofFn n m (fun k j => accN N (fun s => x s k * gr s j) * (1 / (N : α))),
        Mat.ofFn 1 m (fun _ j => accN N (fun s => gr s j) / (N : α)),
        if first then old.gIn
        else Mat.ofFn N n (fun s k => accN m (fun j => gr s j * W k j))⟩ := by
  have : Inhabited α := ⟨0⟩
  unfold denseBackward
  simp only [Mat.ofFn_rows, bind_ok', Mat.transpose_ofFn, Mat.mul_ofFn, Mat.assign_ofFn g h1,
    Mat.scale_ofFn, Mat.colWiseMean_ofFn, Mat.assign_ofFn g h2, Mat.assign_ofFn g h3]
  cases first <;> rfl

theorem dotForward_ofFn [Add α] [Mul α] (g : Nat → α) (N n m : Nat) (x W : Nat → Nat → α)
    {mOut : Mat α} (ho : mOut.WF) :
    dotForward g (Mat.ofFn n m W) (Mat.ofFn N n x) mOut =
      .ok (Mat.ofFn N m (fun s j => accN n (fun k => x s k * W k j))) := by
  have : Inhabited α := ⟨0⟩
  unfold dotForward
  simp only [Mat.ofFn_rows, Mat.ofFn_cols, check_true, bind_ok', Mat.mul_ofFn,
    Mat.assign_ofFn g ho]

theorem dotBackward_ofFn [One α] [Add α] [Mul α] [Div α] [NatCast α] (g : Nat → α) (first : Bool)
    (N n m : Nat) (x W gr : Nat → Nat → α) {old : Grads α} (h1 : old.gW.WF) (h3 : old.gIn.WF) :
    dotBackward g first (Mat.ofFn n m W) (Mat.ofFn N n x) (Mat.ofFn N m gr) old =
      .ok ⟨Mat.ofFn n m (fun k j => accN N (fun s => x s k * gr s j) * (1 / (N : α))), old.gB,
        if first then old.gIn
        else Mat.ofFn N n (fun s k => accN m (fun j => gr s j * W k j))⟩ := by
  have : Inhabited α := ⟨0⟩
  unfold dotBackward
  simp only [Mat.ofFn_rows, bind_ok', Mat.transpose_ofFn, Mat.mul_ofFn, Mat.assign_ofFn g h1,
    Mat.scale_ofFn, Mat.assign_ofFn g h3]
  cases first <;> rfl

theorem biasForward_ofFn [Add α] (g : Nat → α) (fresh : Nat → Mat α) (N C : Nat) (hC : 0 < C)
    (x b : Nat → Nat → α) {mOut : Mat α} (ho : mOut.WF) :
    biasForward g fresh (Mat.ofFn 1 C b) (Mat.ofFn N C x) mOut =
      .ok (Mat.ofFn 1 C b, Mat.ofFn N C (fun s j => x s j + b 0 j)) := by
  have : Inhabited α := ⟨0⟩
  unfold biasForward
  have h : ¬ (Mat.ofFn 1 C b).size = 0 := by simp; omega
  simp only [if_neg h, bind_ok', Mat.rowWiseAdd_ofFn, Mat.assign_ofFn g ho, pure_ok]

theorem biasForward_first [Add α] (g : Nat → α) (N C : Nat) (x f : Nat → Nat → α) {b mOut : Mat α}
    (fresh : Nat → Mat α) (hf : fresh C = Mat.ofFn 1 C f) (hb : b.size = 0) (ho : mOut.WF) :
    biasForward g fresh b (Mat.ofFn N C x) mOut =
      .ok (Mat.ofFn 1 C f, Mat.ofFn N C (fun s j => x s j + f 0 j)) := by
  have : Inhabited α := ⟨0⟩
  unfold biasForward
  simp only [if_pos hb, Mat.ofFn_cols, hf, bind_ok', Mat.rowWiseAdd_ofFn, Mat.assign_ofFn g ho, pure_ok]

theorem biasBackward_ofFn [Add α] [Div α] [NatCast α] (g : Nat → α) (first : Bool) (N C : Nat)
    (gr : Nat → Nat → α) {old : Grads α} (h2 : old.gB.WF) (h3 : old.gIn.WF) :
    biasBackward g first (Mat.ofFn N C gr) old =
      .ok ⟨old.gW, Mat.ofFn 1 C (fun _ j => accN N (fun s => gr s j) / (N : α)),
        if first then old.gIn else Mat.ofFn N C gr⟩ := by
  have : Inhabited α := ⟨0⟩
  unfold biasBackward
  simp only [bind_ok', Mat.colWiseMean_ofFn, Mat.assign_ofFn g h2, Mat.assign_ofFn g h3]
  cases first <;> rfl

theorem gainForward_ofFn [One α] [Mul α] (g : Nat → α) (N C : Nat) (hC : 0 < C) (x w : Nat → Nat → α)
    {mOut : Mat α} (ho : mOut.WF) :
    gainForward g (Mat.ofFn 1 C w) (Mat.ofFn N C x) mOut =
      .ok (Mat.ofFn 1 C w, Mat.ofFn N C (fun s j => x s j * w 0 j)) := by
  have : Inhabited α := ⟨0⟩
  unfold gainForward
  have h : ¬ (Mat.ofFn 1 C w).size = 0 := by simp; omega
  simp only [if_neg h, bind_ok', Mat.assign_ofFn g ho, scaleCols_ofFn, pure_ok]

theorem gainForward_first [One α] [Mul α] (g : Nat → α) (N C : Nat) (x : Nat → Nat → α) {w mOut : Mat α}
    (hw : w.WF) (hb : w.size = 0) (ho : mOut.WF) :
    gainForward g w (Mat.ofFn N C x) mOut =
      .ok (Mat.ofFn 1 C (fun _ _ => 1), Mat.ofFn N C (fun s j => x s j * 1)) := by
  have : Inhabited α := ⟨0⟩
  unfold gainForward
  have e : Mat.flat 1 C (fun _ => (1 : α)) = Mat.ofFn 1 C (fun _ _ => 1) := rfl
  simp only [if_pos hb, Mat.ofFn_cols, Mat.setConstantRC_eq g hw, bind_ok', Mat.assign_ofFn g ho, e,
    scaleCols_ofFn, pure_ok]

theorem gainBackward_ofFn [Add α] [Mul α] [Div α] [NatCast α] (g : Nat → α) (first : Bool)
    (N C : Nat) (x w gr : Nat → Nat → α) {old : Grads α} (h1 : old.gW.WF) (h3 : old.gIn.WF) :
    gainBackward g first (Mat.ofFn 1 C w) (Mat.ofFn N C x) (Mat.ofFn N C gr) old =
      .ok ⟨Mat.ofFn 1 C (fun _ j => accN C (fun a => accN N (fun s => x s a * gr s j)) / (C : α)), old.gB,
        if first then old.gIn else Mat.ofFn N C (fun s j => gr s j * w 0 j)⟩ := by
  have : Inhabited α := ⟨0⟩
  unfold gainBackward
  simp only [bind_ok', Mat.transpose_ofFn, Mat.mul_ofFn, Mat.colWiseMean_ofFn, Mat.assign_ofFn g h1,
    Mat.assign_ofFn g h3, scaleCols_ofFn]
  cases first <;> rfl

theorem affineLoop_ofFn [One α] [Add α] [Mul α] (N C : Nat) (x w b d : Nat → Nat → α) :
    forN N (fun i (m : Mat α) => forN m.cols (fun j m => do
      let x ← (Mat.ofFn N C x).get i j
      let y ← (Mat.ofFn 1 C w).getI j
      let z ← (Mat.ofFn 1 C b).getI j
      m.set i j (x * y + z)) m) (Mat.ofFn N C d) =
      .ok (Mat.ofFn N C (fun s j => x s j * w 0 j + b 0 j)) := by
  apply Mat.forN_rows'
  intro r c hr hc f' hf
  rw [Mat.get_ofFn hr hc, Mat.getI_ofFn_row hc, Mat.getI_ofFn_row hc]
  simp only [bind_ok']
  rw [Mat.set_ofFn hr hc]

theorem affineForward_ofFn [One α] [Add α] [Mul α] (g : Nat → α) (N C : Nat) (hC : 0 < C)
    (x w b : Nat → Nat → α) {mOut : Mat α} (ho : mOut.WF) :
    affineForward g (Mat.ofFn 1 C w) (Mat.ofFn 1 C b) (Mat.ofFn N C x) mOut =
      .ok (Mat.ofFn 1 C w, Mat.ofFn 1 C b, Mat.ofFn N C (fun s j => x s j * w 0 j + b 0 j)) := by
  have : Inhabited α := ⟨0⟩
  unfold affineForward
  have h : ¬ (Mat.ofFn 1 C b).size = 0 := by simp; omega
  obtain ⟨d, hd⟩ := Mat.resize_ofFn g ho N C
  simp only [if_neg h, bind_ok', Mat.ofFn_rows, Mat.ofFn_cols, hd, affineLoop_ofFn, pure_ok]

theorem affineForward_first [One α] [Add α] [Mul α] (g : Nat → α) (N C : Nat)
    (x : Nat → Nat → α) {w b mOut : Mat α} (hw : w.WF) (hb : b.WF) (h0 : b.size = 0) (ho : mOut.WF) :
    affineForward g w b (Mat.ofFn N C x) mOut =
      .ok (Mat.ofFn 1 C (fun _ _ => 1), Mat.ofFn 1 C (fun _ _ => 0),
        Mat.ofFn N C (fun s j => x s j * 1 + 0)) := by
  have : Inhabited α := ⟨0⟩
  unfold affineForward
  have e : ∀ z : α, Mat.flat 1 C (fun _ => z) = Mat.ofFn 1 C (fun _ _ => z) := fun _ => rfl
  obtain ⟨d, hd⟩ := Mat.resize_ofFn g ho N C
  simp only [if_pos h0, bind_ok', Mat.setConstantRC_eq g hw, Mat.setConstantRC_eq g hb, e,
    Mat.ofFn_rows, Mat.ofFn_cols, hd, affineLoop_ofFn, pure_ok]

theorem affineBackward_ofFn [Add α] [Mul α] [Div α] [NatCast α] (g : Nat → α) (first : Bool)
    (N C : Nat) (x w gr : Nat → Nat → α) {old : Grads α} (h1 : old.gW.WF) (h2 : old.gB.WF)
    (h3 : old.gIn.WF) :
    affineBackward g first (Mat.ofFn 1 C w) (Mat.ofFn N C x) (Mat.ofFn N C gr) old =
      .ok ⟨Mat.ofFn 1 C (fun _ j => accN C (fun a => accN N (fun s => x s a * gr s j)) / (C : α)),
        Mat.ofFn 1 C (fun _ j => accN N (fun s => gr s j) / (N : α)),
        if first then old.gIn else Mat.ofFn N C (fun s j => gr s j * w 0 j)⟩ := by
  have : Inhabited α := ⟨0⟩
  unfold affineBackward
  simp only [bind_ok', Mat.transpose_ofFn, Mat.mul_ofFn, Mat.colWiseMean_ofFn, Mat.assign_ofFn g h1,
    Mat.assign_ofFn g h2, Mat.assign_ofFn g h3, scaleCols_ofFn]
  cases first <;> rfl

theorem globalBiasForward_ofFn [Add α] (g : Nat → α) (N C : Nat) (x b : Nat → Nat → α) {mOut : Mat α}
    (ho : mOut.WF) :
    globalBiasForward g (Mat.ofFn 1 1 b) (Mat.ofFn N C x) mOut =
      .ok (Mat.ofFn N C (fun s j => x s j + b 0 0)) := by
  have : Inhabited α := ⟨0⟩
  unfold globalBiasForward
  simp only [Mat.getI_ofFn_row (f := b) (C := 1) (i := 0) (by decide), bind_ok', Mat.addScalar_ofFn,
    Mat.assign_ofFn g ho]

theorem globalBiasBackward_ofFn [Add α] [Div α] [NatCast α] (g : Nat → α) (first : Bool) (N C : Nat)
    (gr o : Nat → Nat → α) {old : Grads α} (h2 : old.gB = Mat.ofFn 1 1 o) (h3 : old.gIn.WF) :
    globalBiasBackward g first (Mat.ofFn N C gr) old =
      .ok ⟨old.gW, Mat.ofFn 1 1 (fun _ _ => accN (N * C) (fun k => gr (k / C) (k % C)) / ((N * C : Nat) : α)),
        if first then old.gIn else Mat.ofFn N C gr⟩ := by
  have : Inhabited α := ⟨0⟩
  unfold globalBiasBackward
  simp only [Mat.mean_ofFn, bind_ok', h2, Mat.setI_one, Mat.assign_ofFn g h3]
  cases first <;> rfl

theorem globalGainForward_ofFn [Mul α] (g : Nat → α) (N C : Nat) (x w : Nat → Nat → α) {mOut : Mat α}
    (ho : mOut.WF) :
    globalGainForward g (Mat.ofFn 1 1 w) (Mat.ofFn N C x) mOut =
      .ok (Mat.ofFn N C (fun s j => x s j * w 0 0)) := by
  have : Inhabited α := ⟨0⟩
  unfold globalGainForward
  simp only [Mat.getI_ofFn_row (f := w) (C := 1) (i := 0) (by decide), bind_ok', Mat.scale_ofFn,
    Mat.assign_ofFn g ho]

theorem globalGainBackward_ofFn [Add α] [Mul α] [Div α] [NatCast α] (g : Nat → α) (first : Bool)
    (N C : Nat) (x w gr o : Nat → Nat → α) {old : Grads α} (h1 : old.gW = Mat.ofFn 1 1 o)
    (h3 : old.gIn.WF) :
    globalGainBackward g first (Mat.ofFn 1 1 w) (Mat.ofFn N C x) (Mat.ofFn N C gr) old =
      .ok ⟨Mat.ofFn 1 1 (fun _ _ => accN (C * C) (fun k => accN N (fun s => x s (k / C) * gr s (k % C))) /
          ((C * C : Nat) : α)), old.gB,
        if first then old.gIn else Mat.ofFn N C (fun s j => gr s j * w 0 0)⟩ := by
  have : Inhabited α := ⟨0⟩
  unfold globalGainBackward
  simp only [bind_ok', Mat.transpose_ofFn, Mat.mul_ofFn, Mat.mean_ofFn, h1, Mat.setI_one,
    Mat.getI_ofFn_row (f := w) (C := 1) (i := 0) (by decide), Mat.scale_ofFn, Mat.assign_ofFn g h3]
  cases first <;> rfl

theorem globalAffineForward_ofFn [Add α] [Mul α] (g : Nat → α) (N C : Nat) (x w b : Nat → Nat → α)
    {mOut : Mat α} (ho : mOut.WF) :
    globalAffineForward g (Mat.ofFn 1 1 w) (Mat.ofFn 1 1 b) (Mat.ofFn N C x) mOut =
      .ok (Mat.ofFn N C (fun s j => x s j * w 0 0 + b 0 0)) := by
  have : Inhabited α := ⟨0⟩
  unfold globalAffineForward
  simp only [Mat.getI_ofFn_row (f := w) (C := 1) (i := 0) (by decide),
    Mat.getI_ofFn_row (f := b) (C := 1) (i := 0) (by decide), bind_ok', Mat.scale_ofFn,
    Mat.addScalar_ofFn, Mat.assign_ofFn g ho]

theorem globalAffineBackward_ofFn [Add α] [Mul α] [Div α] [NatCast α] (g : Nat → α) (first : Bool)
    (N C : Nat) (x w gr o o' : Nat → Nat → α) {old : Grads α} (h1 : old.gW = Mat.ofFn 1 1 o)
    (h2 : old.gB = Mat.ofFn 1 1 o') (h3 : old.gIn.WF) :
    globalAffineBackward g first (Mat.ofFn 1 1 w) (Mat.ofFn N C x) (Mat.ofFn N C gr) old =
      .ok ⟨Mat.ofFn 1 1 (fun _ _ => accN (C * C) (fun k => accN N (fun s => x s (k / C) * gr s (k % C))) /
          ((C * C : Nat) : α)),
        Mat.ofFn 1 1 (fun _ _ => accN (N * C) (fun k => gr (k / C) (k % C)) / ((N * C : Nat) : α)),
        if first then old.gIn else Mat.ofFn N C (fun s j => gr s j * w 0 0)⟩ := by
  have : Inhabited α := ⟨0⟩
  unfold globalAffineBackward
  simp only [bind_ok', Mat.transpose_ofFn, Mat.mul_ofFn, Mat.mean_ofFn, h1, h2, Mat.setI_one,
    Mat.getI_ofFn_row (f := w) (C := 1) (i := 0) (by decide), Mat.scale_ofFn, Mat.assign_ofFn g h3]
  cases first <;> rfl

end forwards

theorem activationForward_ofFn [Inhabited α] (g : Nat → α) (act : α → α) (N C : Nat) (x : Nat → Nat → α)
    {mOut : Mat α} (ho : mOut.WF) :
    activationForward g act (Mat.ofFn N C x) mOut = .ok (Mat.ofFn N C (fun s j => act (x s j))) := by
  obtain ⟨d, hd⟩ := Mat.resize_exists g ho N C
  unfold activationForward
  simp only [Mat.ofFn_rows, Mat.ofFn_cols]
  rw [hd]
  simp only [Mat.ofFn_eq_flat, Mat.flat_size]
  apply Mat.forN_flat
  intro i hi d' _
  rw [Mat.getI_flat hi]
  simp only [bind_ok']
  rw [Mat.setI_flat hi]

theorem activationBackward_ofFn [Inhabited α] [Mul α] (g : Nat → α) (first : Bool) (der : α → α)
    (N C : Nat) (x gr : Nat → Nat → α) {gIn : Mat α} (hi : gIn.WF) :
    activationBackward g first der (Mat.ofFn N C x) (Mat.ofFn N C gr) gIn =
      .ok (if first then gIn else Mat.ofFn N C (fun s j => der (x s j) * gr s j)) := by
  obtain ⟨d, hd⟩ := Mat.resize_exists g hi N C
  unfold activationBackward
  simp only [Mat.ofFn_rows, Mat.ofFn_cols, check_true, bind_ok', hd]
  cases first
  · have h1 : forN (Mat.flat N C d).size (fun i m => do
        let x ← (Mat.ofFn N C x).getI i
        m.setI i (der x)) (Mat.flat N C d) = .ok (Mat.ofFn N C (fun s j => der (x s j))) := by
      simp only [Mat.ofFn_eq_flat, Mat.flat_size]
      apply Mat.forN_flat
      intro i hi d' _
      rw [Mat.getI_flat hi]
      simp only [bind_ok']
      rw [Mat.setI_flat hi]
    have h2 : (Mat.ofFn N C (fun s j => der (x s j))).cwiseProduct (Mat.ofFn N C gr) =
        .ok (Mat.ofFn N C (fun s j => der (x s j) * gr s j)) := Mat.cwise2_ofFn _ _ _ _ _
    simp only [Bool.false_eq_true, if_false, h1, bind_ok', h2]
    exact Mat.assign_ofFn g (Mat.ofFn_WF _ _ _) _ _ _
  · rfl

theorem channelBiasForward_ofFn [Inhabited α] [Add α] (g : Nat → α) (N H R C : Nat) (x b : Nat → Nat → α)
    {mOut : Mat α} (ho : mOut.WF) :
    channelBiasForward g H R C (Mat.ofFn 1 H b) (Mat.ofFn N (H * (R * C)) x) mOut =
      .ok (Mat.ofFn N (H * (R * C)) (fun s k => x s k + b 0 (k / (R * C)))) := by
  unfold channelBiasForward
  simp only [Mat.ofFn_rows, Mat.assign_ofFn g ho, bind_ok', Mat.channelWiseAdd_ofFn]

theorem channelBiasBackward_ofFn [Zero α] [One α] [Add α] [Mul α] [Div α] [NatCast α] (g : Nat → α)
    (first : Bool) (N H R C : Nat) (gr : Nat → Nat → α) {old : Grads α} (h2 : old.gB.WF)
    (h3 : old.gIn.WF) :
    channelBiasBackward g first H R C (Mat.ofFn N (H * (R * C)) gr) old =
      .ok ⟨old.gW, Mat.ofFn 1 H (fun _ h => accN (N * (R * C)) (fun k =>
        gr (k / (R * C)) (h * (R * C) + k % (R * C))) * (1 / (N : α) * (R : α) * (C : α))),
        if first then old.gIn else Mat.ofFn N (H * (R * C)) gr⟩ := by
  have : Inhabited α := ⟨0⟩
  unfold channelBiasBackward
  simp only [Mat.ofFn_rows, Mat.channelWiseMean_ofFn, bind_ok', Mat.assign_ofFn g h2,
    Mat.assign_ofFn g h3]
  cases first <;> rfl

end BeeDNN
