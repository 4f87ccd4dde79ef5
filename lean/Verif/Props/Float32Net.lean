import Verif.Lemmas.Float32Net
import Verif.Lemmas.TrainEval

/-!
# Prediction in float arithmetic (C112)

`m : Mlp` is the network with real numbers; `ss` are its layers with floats.
-/

namespace BeeDNN
open Finset

/-- C112: `predict` in float arithmetic gives finite floats that differ from what the exact network gives by at most
`slip`, whatever memory contained before. -/
theorem C112_predict (m : Mlp) (hm : m.Ok) (β : Nat → PlyBound) (X : ℝ) (h : m.Within β X) (ss : List (NumLayer F32))
    (hs : m.FloatIs β X ss) (g : Nat → Nat → F32) (N : Nat) (x : Nat → Nat → ℝ)
    (hx : ∀ s j, s < N → j < m.width 0 → IsFloat (x s j) ∧ |x s j| ≤ X) (o : Mat F32) (ho : o.WF) :
    ∃ y : Nat → Nat → ℝ, predictNum g 0 ss (floatMat N (m.width 0) x) o = .ok (floatMat N (m.width m.depth) y) ∧
      ∀ s j, s < N → j < m.width m.depth → IsFloat (y s j) ∧ |y s j - m.out (x s) j| ≤ m.slip β X := by
  refine predictNum_float hm h g N x ss 0 (by rw [hs.1]; omega) (fun k s hk => ?_) h.pos le_rfl x
    (fun s j h1 h2 => ⟨(hx s j h1 h2).1, (hx s j h1 h2).2, ?_⟩) o ho (fun h0 => ?_)
  · rw [Nat.zero_add]
    exact hs.2 k s hk
  · simp [Mlp.hidden, Mlp.bounds]
  · have := hs.1
    rw [h0] at this
    have := hm.depth
    simp_all

/-- C112: the predicted class is that of the exact network, if it wins by more than twice that bound. -/
theorem C112_class (m : Mlp) (hm : m.Ok) (β : Nat → PlyBound) (X : ℝ) (h : m.Within β X) (ss : List (NumLayer F32))
    (hs : m.FloatIs β X ss) (g : Nat → Nat → F32) (g' : Nat → F32) (N : Nat) (x : Nat → Nat → ℝ)
    (hx : ∀ s j, s < N → j < m.width 0 → IsFloat (x s j) ∧ |x s j| ≤ X) (o c : Mat F32) (ho : o.WF) (hc : c.WF)
    (hd : m.width m.depth ≤ 2 ^ 24) (best : Nat → Nat) (hb : ∀ s, s < N → best s < m.width m.depth)
    (hwin : ∀ s j, s < N → j < m.width m.depth → j ≠ best s → m.out (x s) j + 2 * m.slip β X < m.out (x s) (best s)) :
    (do let p ← predictNum g 0 ss (floatMat N (m.width 0) x) o
        Mat.rowsArgmax g' p c) = .ok (floatMat N 1 (fun s _ => best s)) := by
  obtain ⟨y, e, hy⟩ := C112_predict m hm β X h ss hs g N x hx o ho
  obtain ⟨a, ha, e'⟩ := C101_rowsArgmax g' N (m.width m.depth) (hm.pos _ le_rfl) hd y c hc
  rw [e, bind_ok', floatMat, e']
  refine congrArg Except.ok (Mat.ofFn_congr fun s _ hs _ => ?_)
  have key : a s = best s := by
    by_contra hne
    have h1 := (hy s (a s) hs (ha s).1).2
    have h2 := (hy s (best s) hs (hb s hs)).2
    have h3 := (ha s).2.1 (best s) (hb s hs)
    have h4 := hwin s (a s) hs (ha s).1 hne
    rw [abs_le] at h1 h2
    linarith
  rw [key]

/-- C112: in exact arithmetic this program does what `Net::predict` does (C19 and C83): the same functions are called on floats
and on real numbers. -/
theorem C112_exact (w : World) (n : Nat) (m : Mlp) (hw : Represents w n m) (ss : List (NumLayer ℝ)) (hl : ss.length = m.depth)
    (hs : ∀ i s, ss[i]? = some s → (m.ply i).RealIs (m.width i) (m.width (i + 1)) s) (e : Nat → Env) (g : Nat → Nat → ℝ)
    (N : Nat) (x : Nat → Row) (o : Mat ℝ) (ho : o.WF) :
    ∃ w' r, w.predict e n (Mat.ofFn N (m.width 0) x) o = .ok (w', r) ∧
      predictNum g 0 ss (Mat.ofFn N (m.width 0) x) o = .ok r ∧ r = Mat.ofFn N (m.width m.depth) (fun s => m.out (x s)) := by
  obtain ⟨w', hw', -⟩ := hw.predict (e := e) N x o ho
  refine ⟨w', _, hw', ?_, rfl⟩
  have key : ∀ (ss : List (NumLayer ℝ)) (i : Nat), i + ss.length = m.depth →
      (∀ k s, ss[k]? = some s → (m.ply (i + k)).RealIs (m.width (i + k)) (m.width (i + k + 1)) s) →
      ∀ o : Mat ℝ, o.WF → (ss = [] → o = Mat.ofFn N (m.width i) (fun s => m.hidden (x s) i)) →
      predictNum g i ss (Mat.ofFn N (m.width i) (fun s => m.hidden (x s) i)) o =
        .ok (Mat.ofFn N (m.width m.depth) (fun s => m.out (x s))) := by
    intro ss
    induction ss with
    | nil =>
      intro i hi _ o _ ho
      obtain rfl : i = m.depth := by simpa using hi
      rw [ho rfl]
      rfl
    | cons st ss ih =>
      intro i hi hs o ho _
      simp only [List.length_cons] at hi
      have hst := hs 0 st rfl
      rw [Nat.add_zero] at hst
      have hf := hw.ok.fits i (by omega)
      have hpos := hw.ok.pos (i + 1) (by omega)
      have step : st.forward (g i) (Mat.ofFn N (m.width i) (fun s => m.hidden (x s) i)) o =
          .ok (Mat.ofFn N (m.width (i + 1)) (fun s => m.hidden (x s) (i + 1))) := by
        simp only [Mlp.hidden, Ply.apply]
        cases st with
        | dense W b =>
          obtain ⟨hk, rfl, rfl⟩ := hst
          rw [hk]
          change denseForward _ _ _ _ _ = _
          rw [C19_dense (g i) N _ _ _ _ _ o ho]
          refine congrArg Except.ok (Mat.ofFn_congr fun s j _ _ => ?_)
          rw [accN_eq_sum]
        | dot W =>
          obtain ⟨hk, rfl⟩ := hst
          rw [hk]
          change dotForward _ _ _ _ = _
          rw [dotForward_ofFn (g i) N _ _ _ _ ho]
          refine congrArg Except.ok (Mat.ofFn_congr fun s j _ _ => ?_)
          rw [accN_eq_sum]
        | bias b =>
          obtain ⟨hk, rfl⟩ := hst
          rw [hk] at hf ⊢
          have hC : m.width (i + 1) = m.width i := hf
          rw [hC] at hpos ⊢
          change (do let r ← biasForward (g i) _ _ _ _; return r.2) = _
          rw [biasForward_ofFn (g i) _ N _ hpos _ _ ho]
          rfl
        | act f =>
          obtain ⟨a, hk, rfl⟩ := hst
          rw [hk] at hf ⊢
          rw [hf.1]
          exact activationForward_ofFn (g i) _ N _ _ ho
      rw [predictNum, step, bind_ok', Mat.assign_ofFn (g i) (Mat.ofFn_WF _ _ _), bind_ok']
      exact ih (i + 1) (by omega)
        (fun k s hk => by
          have := hs (k + 1) s (by simpa using hk)
          rw [show i + (k + 1) = i + 1 + k by omega] at this
          exact this) _ (Mat.ofFn_WF _ _ _) (fun _ => rfl)
  have := key ss 0 (by omega) (fun k s hk => by rw [Nat.zero_add]; exact hs k s hk) o ho
    (fun h0 => by have := hw.ok.depth; rw [h0] at hl; simp at hl; omega)
  exact this

/-! ## Activations without and with rounding -/

/-- C112: `Relu` is exact on floats. -/
theorem C112_relu (t : ℝ) : FloatAct t F32.relu Act.relu.apply 0 ∧
    (∀ x y, |Act.relu.apply x - Act.relu.apply y| ≤ 1 * |x - y|) ∧ Act.relu.apply 0 = 0 := by
  refine ⟨fun x hx _ => ?_, fun x y => ?_, by simp [Act.relu]⟩
  · unfold F32.relu
    rw [F32.zero_def]
    rcases lt_or_ge 0 x with h | h
    · exact ⟨x, if_pos ((F32.fin_lt _ _).2 h), hx, by simp [Act.relu, h]⟩
    · exact ⟨0, if_neg fun h' => absurd ((F32.fin_lt _ _).1 h') (not_lt.2 h), isFloat_zero, by simp [Act.relu, not_lt.2 h]⟩
  · simp only [Act.relu, one_mul]
    split_ifs <;> rw [abs_le] <;> constructor <;> cases abs_cases (x - y) <;> linarith

/-- C112: `Absolute` is exact on floats. -/
theorem C112_absolute (t : ℝ) : FloatAct t F32.absolute Act.absolute.apply 0 ∧
    (∀ x y, |Act.absolute.apply x - Act.absolute.apply y| ≤ 1 * |x - y|) ∧ Act.absolute.apply 0 = 0 := by
  refine ⟨fun x hx _ => ?_, fun x y => ?_, by simp [Act.absolute]⟩
  · unfold F32.absolute
    rw [F32.zero_def]
    rcases lt_or_ge x 0 with h | h
    · exact ⟨-x, if_pos ((F32.fin_lt _ _).2 h), isFloat_neg hx, by simp [Act.absolute, abs_of_neg h]⟩
    · exact ⟨x, if_neg fun h' => absurd ((F32.fin_lt _ _).1 h') (not_lt.2 h), hx, by simp [Act.absolute, abs_of_nonneg h]⟩
  · rw [one_mul]
    exact abs_abs_sub_abs_le x y

/-- C112: `HardTanh` is exact on floats. -/
theorem C112_hardTanh (t : ℝ) : FloatAct t F32.hardTanh Act.hardTanh.apply 0 ∧
    (∀ x y, |Act.hardTanh.apply x - Act.hardTanh.apply y| ≤ 1 * |x - y|) ∧ Act.hardTanh.apply 0 = 0 := by
  have h1 : IsFloat 1 := isFloat_of_bits bits_one (by norm_num)
  refine ⟨fun x hx _ => ?_, fun x y => ?_, by norm_num [Act.hardTanh]⟩
  · unfold F32.hardTanh
    rw [F32.one_def, F32.neg_fin]
    refine ⟨if 1 < x then 1 else if x < -1 then -1 else x, by simp only [F32.fin_lt]; split_ifs <;> rfl, ?_, by simp [Act.hardTanh]⟩
    split_ifs
    exacts [h1, isFloat_neg h1, hx]
  · simp only [Act.hardTanh, one_mul]
    split_ifs <;> rw [abs_le] <;> constructor <;> cases abs_cases (x - y) <;> linarith

/-- C112: `Identity` is exact on floats. -/
theorem C112_identity (t : ℝ) : FloatAct t F32.identity Act.identity.apply 0 ∧
    (∀ x y, |Act.identity.apply x - Act.identity.apply y| ≤ 1 * |x - y|) ∧ Act.identity.apply 0 = 0 :=
  ⟨fun x hx _ => ⟨x, rfl, hx, by simp [Act.identity]⟩, fun x y => by simp [Act.identity], rfl⟩

/-- C112: `LeakyRelu` rounds its factor and its product. -/
theorem C112_leakyRelu (t : ℝ) (ht : t ≤ 2 ^ 126) :
    FloatAct t F32.leakyRelu Act.leakyRelu.apply (t * 2 ^ (-29 : ℤ) + 2 ^ (-150 : ℤ)) ∧
    (∀ x y, |Act.leakyRelu.apply x - Act.leakyRelu.apply y| ≤ 1 * |x - y|) ∧ Act.leakyRelu.apply 0 = 0 := by
  refine ⟨fun x hx hxt => ?_, fun x y => ?_, by simp [Act.leakyRelu]⟩
  · have ht0 : 0 ≤ t := (abs_nonneg _).trans hxt
    have z := two_zpow_pos (-150)
    have z' := two_zpow_pos (-29)
    unfold F32.leakyRelu
    rw [F32.zero_def]
    rcases lt_or_ge x 0 with h | h
    · rw [if_pos ((F32.fin_lt _ _).2 h), F32.sci]
      have e := abs_rnd_sub (0.01 : ℝ)
      have hc : F32.round (0.01 : ℝ) = .fin (rnd 0.01) ∧ |rnd (0.01 : ℝ)| ≤ 1 :=
        F32.round_le (by norm_num) bits_one (by norm_num)
      rw [hc.1]
      have hm : |rnd (0.01 : ℝ)| * |x| ≤ 2 ^ 126 := by
        have := mul_le_mul hc.2 (hxt.trans ht) (abs_nonneg _) zero_le_one
        linarith
      obtain ⟨a, b⟩ := F32.mul_le hm (bits_npow 126) (by norm_num)
      refine ⟨_, a, isFloat_of_bits (bits_rnd _) (b.trans_lt (by norm_num)), ?_⟩
      have e2 := abs_rnd_sub (rnd (0.01 : ℝ) * x)
      have hap : Act.leakyRelu.apply x = 0.01 * x := by simp [Act.leakyRelu, not_le.2 h]
      rw [hap]
      have e3 : |rnd (rnd (0.01 : ℝ) * x) - 0.01 * x| ≤ |rnd (rnd (0.01 : ℝ) * x) - rnd 0.01 * x| + |rnd (0.01 : ℝ) - 0.01| * |x| := by
        rw [← abs_mul, sub_mul]
        have : rnd (rnd (0.01 : ℝ) * x) - 0.01 * x = (rnd (rnd (0.01 : ℝ) * x) - rnd 0.01 * x) + (rnd 0.01 * x - 0.01 * x) := by ring
        rw [this]
        exact abs_add_le _ _
      have e4 : |rnd (0.01 : ℝ) - 0.01| ≤ 0.01 * 2 ^ (-24 : ℤ) + 2 ^ (-150 : ℤ) := by
        rwa [abs_of_pos (show (0 : ℝ) < 0.01 by norm_num)] at e
      have e5 : |rnd (0.01 : ℝ)| ≤ 0.0101 := by
        have := abs_sub_abs_le_abs_sub (rnd (0.01 : ℝ)) 0.01
        rw [abs_of_pos (show (0 : ℝ) < 0.01 by norm_num)] at this
        norm_num at e4 ⊢
        linarith
      rw [abs_mul] at e2
      have hx0 := abs_nonneg x
      have e6 : |rnd (0.01 : ℝ)| * |x| ≤ 0.0101 * t := mul_le_mul e5 hxt hx0 (by norm_num)
      have e7 : |rnd (0.01 : ℝ) - 0.01| * |x| ≤ (0.01 * 2 ^ (-24 : ℤ) + 2 ^ (-150 : ℤ)) * t :=
        mul_le_mul e4 hxt hx0 (by positivity)
      refine e3.trans ((add_le_add e2 e7).trans ?_)
      norm_num at e6 ⊢
      linarith
    · exact ⟨x, if_neg fun h' => absurd ((F32.fin_lt _ _).1 h') (not_lt.2 h), hx, by simp [Act.leakyRelu, h]; positivity⟩
  · simp only [Act.leakyRelu, one_mul]
    split_ifs <;> rw [abs_le] <;> constructor <;> cases abs_cases (x - y) <;> norm_num <;> linarith

/-! ## A network that meets the hypotheses -/

/-- Two dense layers with a `Relu` in between. -/
noncomputable def floatNet : Mlp where
  depth := 3
  width _ := 2
  ply
    | 0 => { kind := .dense, weight := fun k j => if k = 0 then (if j = 0 then 1 else -1) else (if j = 0 then 1 / 2 else 1),
             bias := fun _ j => if j = 0 then 1 / 2 else -1 / 2 }
    | 1 => { kind := .act Act.relu }
    | _ => { kind := .dense, weight := fun k j => if k = j then 2 else 0 }

/-- Its bounds. -/
noncomputable def floatNetBounds : Nat → PlyBound
  | 0 => ⟨2, 1 / 2, 0⟩
  | 1 => ⟨1, 0, 0⟩
  | _ => ⟨2, 0, 0⟩

theorem floatNet_ok : floatNet.Ok where
  depth := by simp [floatNet]
  pos _ _ := by simp [floatNet]
  fits i hi := by
    simp only [floatNet] at hi
    interval_cases i
    · trivial
    · exact ⟨rfl, "Relu", by simp [getActivation, activationTable]⟩
    · trivial

theorem floatNet_bounds :
    floatNet.bounds floatNetBounds 4 0 = (4, 0) ∧
    floatNet.bounds floatNetBounds 4 1 = (17 / 2, 3 * 2 ^ (-23 : ℤ) * (17 / 2) + 2 * 2 ^ (-149 : ℤ)) ∧
    floatNet.bounds floatNetBounds 4 2 = (17 / 2, 3 * 2 ^ (-23 : ℤ) * (17 / 2) + 2 * 2 ^ (-149 : ℤ)) := by
  refine ⟨rfl, ?_, ?_⟩ <;> simp [Mlp.bounds, floatNetBounds, floatNet, Ply.rounding] <;> norm_num

theorem floatNet_within : floatNet.Within floatNetBounds 4 where
  pos := by norm_num
  ply i hi := by
    simp only [floatNet] at hi
    interval_cases i
    · refine ⟨by norm_num [floatNetBounds], by norm_num [floatNetBounds], fun j hj => ?_, fun j hj => ?_⟩ <;>
        · simp only [floatNet] at hj
          interval_cases j <;> norm_num [floatNet, floatNetBounds, sum_range_succ]
    · refine ⟨by norm_num [floatNetBounds], by norm_num [floatNetBounds], (C112_relu 0).2.1, ?_⟩
      norm_num [floatNet, floatNetBounds, (C112_relu 0).2.2]
    · refine ⟨by norm_num [floatNetBounds], by norm_num [floatNetBounds], fun j hj => ?_, fun j hj => ?_⟩ <;>
        · simp only [floatNet] at hj
          interval_cases j <;> norm_num [floatNet, floatNetBounds, sum_range_succ]
  width _ _ := by norm_num [floatNet]
  fit i hi := by
    simp only [floatNet] at hi
    obtain ⟨h0, h1, h2⟩ := floatNet_bounds
    interval_cases i <;> simp only [Mlp.reach, h0, h1, h2, floatNetBounds] <;> norm_num

/-- The bound for this network is small. -/
theorem floatNet_slip : floatNet.slip floatNetBounds 4 ≤ 2 ^ (-16 : ℤ) := by
  change (floatNet.bounds floatNetBounds 4 3).2 ≤ _
  rw [Mlp.bounds, floatNet_bounds.2.2]
  simp only [floatNetBounds, floatNet, Ply.rounding]
  norm_num

/-- Its layers in float arithmetic. -/
noncomputable def floatNetLayers : List (NumLayer F32) :=
  [.dense (floatMat 2 2 (floatNet.ply 0).weight) (floatMat 1 2 (floatNet.ply 0).bias), .act F32.relu,
   .dense (floatMat 2 2 (floatNet.ply 2).weight) (floatMat 1 2 (floatNet.ply 2).bias)]

theorem floatNet_is : floatNet.FloatIs floatNetBounds 4 floatNetLayers := by
  have h1 : IsFloat 1 := isFloat_of_bits bits_one (by norm_num)
  have h2 : IsFloat 2 := ⟨2, 0, by norm_num, by norm_num, by norm_num, by norm_num⟩
  have h3 : IsFloat (2⁻¹) := ⟨1, -1, by norm_num, by norm_num, by norm_num, by norm_num⟩
  have h3' : IsFloat (1 / 2) := by rwa [one_div]
  have h4 : IsFloat (-1 / 2) := by rw [neg_div]; exact isFloat_neg h3'
  refine ⟨rfl, fun i s hs => ?_⟩
  match i with
  | 0 =>
    obtain rfl : _ = s := by simpa [floatNetLayers] using hs
    refine ⟨rfl, rfl, rfl, fun k j _ _ => ?_, fun j _ => ?_⟩
    · simp only [floatNet]
      split_ifs
      exacts [h1, isFloat_neg h1, h3', h1]
    · simp only [floatNet]
      split_ifs
      exacts [h3', h4]
  | 1 =>
    obtain rfl : _ = s := by simpa [floatNetLayers] using hs
    exact ⟨_, rfl, (C112_relu _).1⟩
  | 2 =>
    obtain rfl : _ = s := by simpa [floatNetLayers] using hs
    refine ⟨rfl, rfl, rfl, fun k j _ _ => ?_, fun j _ => isFloat_zero⟩
    simp only [floatNet]
    split_ifs
    exacts [h2, isFloat_zero]
  | i + 3 => simp [floatNetLayers] at hs

/-- The hypotheses of `C112_class` are met: for the input `(2, 1)` the exact results are `6` and `0`, so the predicted class is 0. -/
example (g : Nat → Nat → F32) (g' : Nat → F32) (o c : Mat F32) (ho : o.WF) (hc : c.WF) :
    (do let p ← predictNum g 0 floatNetLayers (floatMat 5 2 (fun _ j => if j = 0 then 2 else 1)) o
        Mat.rowsArgmax g' p c) = .ok (floatMat 5 1 (fun _ _ => 0)) := by
  have h1 : IsFloat 1 := isFloat_of_bits bits_one (by norm_num)
  have h2 : IsFloat 2 := ⟨2, 0, by norm_num, by norm_num, by norm_num, by norm_num⟩
  have h := C112_class floatNet floatNet_ok floatNetBounds 4 floatNet_within floatNetLayers floatNet_is g g' 5
    (fun _ j => if j = 0 then 2 else 1) (fun s j _ _ => by
      split_ifs
      · exact ⟨h2, by norm_num⟩
      · exact ⟨h1, by norm_num⟩) o c ho hc (by norm_num [floatNet]) (fun _ => 0) (fun _ _ => by norm_num [floatNet]) (fun s j _ hj hne => by
      obtain rfl : j = 1 := by simp only [floatNet] at hj; omega
      have := floatNet_slip
      have e0 : floatNet.out (fun j => if j = 0 then 2 else 1) 0 = 6 := by
        norm_num [Mlp.out, Mlp.hidden, floatNet, Ply.apply, sum_range_succ, Act.relu]
      have e1 : floatNet.out (fun j => if j = 0 then 2 else 1) 1 = 0 := by
        norm_num [Mlp.out, Mlp.hidden, floatNet, Ply.apply, sum_range_succ, Act.relu]
      rw [e0, e1]
      norm_num at this
      linarith)
  rw [Nat.cast_zero] at h
  exact h

end BeeDNN
