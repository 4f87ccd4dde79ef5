import Verif.Spec.KMeans
import Verif.Lemmas.TrainLoss
import Verif.Lemmas.TrainEval
import Verif.Lemmas.MatrixFn

/-! # Helper lemmas on references -/

namespace BeeDNN
open Finset

theorem IsNearest.unique {n : Nat} {ok : Nat → Prop} {d : Nat → ℝ} {r r' : Nat} (h : IsNearest n ok d r) (h' : IsNearest n ok d r') : r = r' := by
  rcases Nat.lt_trichotomy r r' with hl | hl | hl
  · exact absurd (h'.2.2.2.2 r hl h.2.1) (not_lt.2 (h.2.2.2.1 r' h'.1 h'.2.1))
  · exact hl
  · exact absurd (h.2.2.2.2 r' hl h'.2.1) (not_lt.2 (h'.2.2.2.1 r h.1 h.2.1))

/-- The search for the nearest reference. -/
theorem search_loop {n : Nat} {ok : Nat → Prop} {d : Nat → ℝ} {f : Nat → ℝ × Int → Out (ℝ × Int)}
    (h1 : ∀ q, q < n → ok q → ∀ b, f q b = .ok (if d q < b.1 then (d q, (q : Int)) else b)) (h2 : ∀ q, q < n → ¬ ok q → ∀ b, f q b = .ok b) :
    ∃ b, forN n f (kmFar, -1) = .ok b ∧ ((b.2 = -1 ∧ ∀ q, q < n → ok q → kmFar ≤ d q) ∨ ∃ r : Nat, b.2 = r ∧ IsNearest n ok d r) := by
  refine (forN_inv (fun k (b : ℝ × Int) => (b = (kmFar, -1) ∧ ∀ q, q < k → ok q → kmFar ≤ d q) ∨
    ∃ r : Nat, b = (d r, (r : Int)) ∧ IsNearest k ok d r) (n := n) (f := f) (s := (kmFar, -1)) ?_ ?_).elim ?_
  · exact .inl ⟨rfl, fun q hq => absurd hq (Nat.not_lt_zero q)⟩
  · intro k hk b hb
    by_cases ho : ok k
    · rw [h1 k hk ho]
      refine ⟨_, rfl, ?_⟩
      rcases hb with ⟨rfl, hb⟩ | ⟨r, rfl, hr⟩
      · by_cases hd : d k < kmFar
        · rw [if_pos hd]
          refine .inr ⟨k, rfl, Nat.lt_succ_self k, ho, hd, fun q hq hok => ?_, fun q hq hok => hd.trans_le (hb q hq hok)⟩
          rcases Nat.lt_succ_iff_lt_or_eq.1 hq with hq | rfl
          · exact hd.le.trans (hb q hq hok)
          · exact le_refl _
        · rw [if_neg hd]
          refine .inl ⟨rfl, fun q hq hok => ?_⟩
          rcases Nat.lt_succ_iff_lt_or_eq.1 hq with hq | rfl
          · exact hb q hq hok
          · exact not_lt.1 hd
      · by_cases hd : d k < d r
        · rw [if_pos hd]
          refine .inr ⟨k, rfl, Nat.lt_succ_self k, ho, hd.trans hr.2.2.1, fun q hq hok => ?_, fun q hq hok => hd.trans_le (hr.2.2.2.1 q hq hok)⟩
          rcases Nat.lt_succ_iff_lt_or_eq.1 hq with hq | rfl
          · exact hd.le.trans (hr.2.2.2.1 q hq hok)
          · exact le_refl _
        · rw [if_neg hd]
          refine .inr ⟨r, rfl, hr.1.trans (Nat.lt_succ_self k), hr.2.1, hr.2.2.1, fun q hq hok => ?_, hr.2.2.2.2⟩
          rcases Nat.lt_succ_iff_lt_or_eq.1 hq with hq | rfl
          · exact hr.2.2.2.1 q hq hok
          · exact not_lt.1 hd
    · rw [h2 k hk ho]
      refine ⟨_, rfl, ?_⟩
      rcases hb with ⟨rfl, hb⟩ | ⟨r, rfl, hr⟩
      · refine .inl ⟨rfl, fun q hq hok => ?_⟩
        rcases Nat.lt_succ_iff_lt_or_eq.1 hq with hq | rfl
        · exact hb q hq hok
        · exact absurd hok ho
      · refine .inr ⟨r, rfl, hr.1.trans (Nat.lt_succ_self k), hr.2.1, hr.2.2.1, fun q hq hok => ?_, hr.2.2.2.2⟩
        rcases Nat.lt_succ_iff_lt_or_eq.1 hq with hq | rfl
        · exact hr.2.2.2.1 q hq hok
        · exact absurd hok ho
  · rintro b ⟨hb, h | ⟨r, rfl, hr⟩⟩
    · exact ⟨b, hb, .inl ⟨by rw [h.1], h.2⟩⟩
    · exact ⟨_, hb, .inr ⟨r, rfl, hr⟩⟩

/-- A nearest reference exists as soon as one is within the limit. -/
theorem exists_nearest {n : Nat} {d : Nat → ℝ} {q : Nat} (hq : q < n) (hd : d q < kmFar) : ∃ r, IsNearest n (fun _ => True) d r := by
  obtain ⟨b, -, h | ⟨r, -, hr⟩⟩ := search_loop (n := n) (ok := fun _ => True) (d := d) (f := fun q b => .ok (if d q < b.1 then (d q, (q : Int)) else b))
    (fun _ _ _ _ => rfl) (fun _ _ h => absurd trivial h)
  · exact absurd hd (not_lt.2 (h.2 q hq trivial))
  · exact ⟨r, hr⟩

theorem computeDist_fits {g : Nat → ℝ} {eps : ℝ} {k : KMeans} (hl : k.loss ∈ listLoss) {C : Nat} (hC : 0 < C) {a b : Row} (hf : TruthFits k.loss C C 1 (fun _ => b)) :
    k.computeDist g (fun x => |x|) eps (Mat.ofFn 1 C (fun _ => a)) (Mat.ofFn 1 C (fun _ => b)) = .ok (sampleLoss eps k.loss C a b) := by
  obtain ⟨M, h1, -, h2⟩ := Trainer.lossCompute_fits (t := { loss := k.loss }) (eps := eps) (P := fun _ => a) hl rfl hC hf g (o := ⟨0, 0, []⟩) rfl
  unfold Trainer.lossCompute at h1
  unfold KMeans.computeDist
  simp only [Mat.ofFn_rows, Mat.ofFn_cols]
  rw [check_true trivial, bind_ok', bind_ok', bind_ok']
  dsimp only at h1 h2 ⊢
  cases hc : createLoss g (fun x => |x|) eps k.loss with
  | none => rw [hc] at h1; cases h1
  | some ℓ =>
    rw [hc] at h1
    dsimp only at h1 ⊢
    rw [h1, bind_ok', h2]
    congr 1
    by_cases hs : k.loss ∈ sumLosses
    · rw [if_pos hs]; simp
    · rw [if_neg hs]; simp

/-- What `compute_dist` must deliver. -/
def DistOk (g : Nat → ℝ) (ab : ℝ → ℝ) (eps : ℝ) (k : KMeans) (C : Nat) (D : Row → Row → ℝ) (V : Nat → Row) (n : Nat) : Prop :=
  ∀ a r, r < n → k.computeDist g ab eps (Mat.ofFn 1 C (fun _ => a)) (Mat.ofFn 1 C (fun _ => V r)) = .ok (D a (V r))

theorem getInt_col {n : Nat} {f : Nat → Nat → ℝ} {r : Nat} (h : r < n) : (Mat.ofFn n 1 f).getInt (r : Int) = .ok (f r 0) := by
  unfold Mat.getInt
  rw [check_true (by simpa using h), bind_ok', if_neg (by omega)]
  have := Mat.getI_ofFn_col (f := f) h
  unfold Mat.getI at this
  rw [check_true (by simpa using h), bind_ok'] at this
  simpa using this

namespace KMeans

/-- Body of the loop over the samples (KMeans.cpp:83-101). -/
theorem predict_sample {g : Nat → ℝ} {ab : ℝ → ℝ} {eps : ℝ} {k : KMeans} {n C : Nat} {D : Row → Row → ℝ} {V : Nat → Row}
    (hr : k.refs = Mat.ofFn n C V) (hd : DistOk g ab eps k C D V n) (a : Row) :
    ∃ b, forN k.refs.rows (fun iR (b : ℝ × Int) => do
        let r ← k.refs.row iR
        let d ← k.computeDist g ab eps (Mat.ofFn 1 C (fun _ => a)) r
        return if d < b.1 then (d, (iR : Int)) else b) (kmFar, -1) = .ok b ∧
      ((b.2 = -1 ∧ ∀ q, q < n → kmFar ≤ D a (V q)) ∨ ∃ r : Nat, b.2 = r ∧ IsNearest n (fun _ => True) (fun q => D a (V q)) r) := by
  rw [hr, Mat.ofFn_rows]
  obtain ⟨b, h1, h2⟩ := search_loop (n := n) (ok := fun _ => True) (d := fun q => D a (V q)) (f := fun iR (b : ℝ × Int) => do
        let r ← (Mat.ofFn n C V).row iR
        let d ← k.computeDist g ab eps (Mat.ofFn 1 C (fun _ => a)) r
        return if d < b.1 then (d, (iR : Int)) else b) (fun q hq _ b => by
      rw [Mat.row_ofFn hq, bind_ok', hd a q hq, bind_ok']
      rfl) (fun _ _ h => absurd trivial h)
  refine ⟨b, h1, ?_⟩
  rcases h2 with h2 | h2
  · exact .inl ⟨h2.1, fun q hq => h2.2 q hq trivial⟩
  · exact .inr h2

theorem predict_ok {g : Nat → ℝ} {ab : ℝ → ℝ} {eps : ℝ} {k : KMeans} {n C : Nat} (hn : 0 < n) (hC : 0 < C) {D : Row → Row → ℝ} {V : Nat → Row} {cls : Nat → ℝ}
    (hr : k.refs = Mat.ofFn n C V) (hc : k.cls = Mat.ofFn n 1 (fun r _ => cls r)) (hd : DistOk g ab eps k C D V n) {N : Nat} {x : Nat → Row}
    {o : Mat ℝ} (ho : o.WF) (ρ : Nat → Nat) (hρ : ∀ i, i < N → IsNearest n (fun _ => True) (fun q => D (x i) (V q)) (ρ i)) :
    k.predictClasses g ab eps (Mat.ofFn N C x) o = .ok (Mat.ofFn N 1 (fun i _ => cls (ρ i))) := by
  unfold predictClasses
  rw [if_neg (by rw [hr, Mat.ofFn_size]; exact (Nat.mul_pos hn hC).ne'), Mat.ofFn_rows]
  obtain ⟨d, hd'⟩ := Mat.resize_exists g ho N 1
  rw [hd', Mat.flat_eq_ofFn]
  refine Mat.forN_eachRow (fun i hi f' _ => ?_)
  rw [Mat.row_ofFn hi, bind_ok']
  obtain ⟨b, h1, h2⟩ := predict_sample hr hd (x i)
  erw [h1, bind_ok']
  rcases h2 with h2 | ⟨r, h2, h3⟩
  · exact absurd (hρ i hi).2.2.1 (not_lt.2 (h2.2 _ (hρ i hi).1))
  · obtain rfl := h3.unique (hρ i hi)
    rw [h2, check_true (by omega), bind_ok', hc, getInt_col h3.1, bind_ok', Mat.setI_col hi]

theorem predict_far {g : Nat → ℝ} {ab : ℝ → ℝ} {eps : ℝ} {k : KMeans} {n C : Nat} (hn : 0 < n) (hC : 0 < C) {D : Row → Row → ℝ} {V : Nat → Row} {cls : Nat → ℝ}
    (hr : k.refs = Mat.ofFn n C V) (hc : k.cls = Mat.ofFn n 1 (fun r _ => cls r)) (hd : DistOk g ab eps k C D V n) {N : Nat} {x : Nat → Row}
    {o : Mat ℝ} (ho : o.WF) (h : ¬ KmNear n D V N x) : k.predictClasses g ab eps (Mat.ofFn N C x) o = .error .assertFail := by
  obtain ⟨i, hi, hmin⟩ : ∃ i, (i < N ∧ ∀ q, q < n → kmFar ≤ D (x i) (V q)) ∧ ∀ j, j < i → ∃ q, q < n ∧ D (x j) (V q) < kmFar := by
    unfold KmNear at h
    push Not at h
    classical
    refine ⟨Nat.find h, Nat.find_spec h, fun j hj => ?_⟩
    have := Nat.find_min h hj
    push Not at this
    exact this (hj.trans (Nat.find_spec h).1)
  have hρ : ∀ j, j < i → ∃ r, IsNearest n (fun _ => True) (fun q => D (x j) (V q)) r := fun j hj => by
    obtain ⟨q, hq, hq'⟩ := hmin j hj
    exact exists_nearest hq hq'
  choose! ρ hρ using hρ
  have key := predict_ok (N := i) (x := x) hn hC hr hc hd ho ρ hρ
  unfold predictClasses at key ⊢
  rw [if_neg (by rw [hr, Mat.ofFn_size]; exact (Nat.mul_pos hn hC).ne'), Mat.ofFn_rows] at key ⊢
  obtain ⟨d, hd'⟩ := Mat.resize_exists g ho N 1
  rw [hd', Mat.flat_eq_ofFn]
  refine forN_error (k := i) hi.1 (t := Mat.ofFn N 1 (fun r c => if r < i then cls (ρ r) else d (r * 1 + c))) ?_ ?_
  · refine forN_closed' (fun m => Mat.ofFn N 1 (fun r c => if r < m then cls (ρ r) else d (r * 1 + c))) ?_ rfl (fun j hj => ?_)
    · simp
    · have hjN := hj.trans hi.1
      rw [Mat.row_ofFn hjN, bind_ok']
      obtain ⟨b, h1, h2⟩ := predict_sample hr hd (x j)
      erw [h1, bind_ok']
      rcases h2 with h2 | ⟨r, h2, h3⟩
      · exact absurd (hρ j hj).2.2.1 (not_lt.2 (h2.2 _ (hρ j hj).1))
      · obtain rfl := h3.unique (hρ j hj)
        rw [h2, check_true (by omega), bind_ok', hc, getInt_col h3.1, bind_ok', Mat.setI_col hjN]
        congr 1
        refine Mat.ofFn_congr fun a b _ _ => ?_
        by_cases haj : a = j
        · subst haj
          rw [if_pos rfl, if_pos (Nat.lt_succ_self a)]
        · rw [if_neg haj]
          have : a < j + 1 ↔ a < j := by omega
          simp only [this]
  · rw [Mat.row_ofFn hi.1, bind_ok']
    obtain ⟨b, h1, h2⟩ := predict_sample hr hd (x i)
    erw [h1, bind_ok']
    rcases h2 with h2 | ⟨r, h2, h3⟩
    · rw [check_false (by rw [h2.1]; simp)]
      rfl
    · exact absurd h3.2.2.1 (not_lt.2 (hi.2 r h3.1))

end KMeans

end BeeDNN
