import Verif.Lemmas.KMeans
import Verif.Lemmas.LayersMisc
import Verif.Lemmas.MatrixMore

/-! # Helper lemmas on the training of references -/

namespace BeeDNN
open Finset

theorem whileF_either {σ : Type} {c : σ → Bool} {b : σ → Out σ} (P : Nat → σ → Prop) {R : Prop} {e : Fault} {m : Nat} (hc : ∀ k s, P k s → (c s = true ↔ k < m))
    (hb : ∀ k s, k < m → P k s → (∃ s', b s = .ok s' ∧ P (k + 1) s') ∨ (b s = .error e ∧ R)) :
    ∀ (j fuel : Nat) (s : σ), j ≤ m → j ≤ fuel → P (m - j) s → (∃ s', whileF fuel c b s = .ok s' ∧ P m s') ∨ (whileF fuel c b s = .error e ∧ R)
  | 0, fuel, s, _, _, h => by
    have : c s = false := by
      have := hc _ s h
      cases hcs : c s
      · rfl
      · exact absurd (this.1 hcs) (by omega)
    cases fuel <;> exact .inl ⟨s, by simp [whileF, this], h⟩
  | j + 1, 0, s, _, h, _ => absurd h (by omega)
  | j + 1, fuel + 1, s, hj, hf, h => by
    have hk : m - (j + 1) < m := by omega
    rcases hb _ s hk h with ⟨s', h1, h2⟩ | ⟨h1, h2⟩
    · have := whileF_either P hc hb j fuel s' (by omega) (by omega) (by rw [show m - j = m - (j + 1) + 1 by omega]; exact h2)
      rw [whileF, if_pos ((hc _ s h).2 hk), h1]
      exact this
    · rw [whileF, if_pos ((hc _ s h).2 hk), h1]
      exact .inr ⟨rfl, h2⟩

theorem forN_either {σ : Type} (P : Nat → σ → Prop) {R : Prop} {e : Fault} {n : Nat} {f : Nat → σ → Out σ} {s : σ} (h0 : P 0 s)
    (hs : ∀ i, i < n → ∀ s, P i s → (∃ s', f i s = .ok s' ∧ P (i + 1) s') ∨ (f i s = .error e ∧ R)) :
    (∃ s', forN n f s = .ok s' ∧ P n s') ∨ (forN n f s = .error e ∧ R) := by
  induction n with
  | zero => exact .inl ⟨s, rfl, h0⟩
  | succ n ih =>
    rw [forN_succ]
    rcases ih (fun i hi => hs i (hi.trans (Nat.lt_succ_self n))) with ⟨s', h1, h2⟩ | ⟨h1, h2⟩
    · rw [h1]
      exact hs n (Nat.lt_succ_self n) s' h2
    · rw [h1]
      exact .inr ⟨rfl, h2⟩

theorem toInt_int {c : Int} (h1 : -2147483649 < c) (h2 : c < 2147483648) : toInt (c : ℝ) = .ok c := by
  unfold toInt
  rw [if_pos ⟨by exact_mod_cast h1, by exact_mod_cast h2⟩]
  split <;> simp

theorem HasRefs.dist {k : KMeans} {n C : Nat} {V : Nat → Row} {cls : Nat → ℝ} {loss : String} (h : HasRefs k n C V cls loss) (hl : DistLoss loss C) (hC : 0 < C)
    (g : Nat → ℝ) (eps : ℝ) : DistOk g (fun x => |x|) eps k C (sampleLoss eps loss C) V n := by
  intro a r _
  rw [computeDist_fits (by rw [h.loss]; exact hl.mem) hC, h.loss]
  rw [h.loss, TruthFits, if_neg hl.sparse]
  exact ⟨rfl, hl.binary⟩

theorem HasRefs.predict {k : KMeans} {n C : Nat} {V : Nat → Row} {cls : Nat → ℝ} {loss : String} (h : HasRefs k n C V cls loss) (hl : DistLoss loss C) (hn : 0 < n)
    (hC : 0 < C) (g : Nat → ℝ) (eps : ℝ) (N : Nat) (x : Nat → Row) {o : Mat ℝ} (ho : o.WF) :
    (KmNear n (sampleLoss eps loss C) V N x ∧ ∃ ρ : Nat → Nat, (∀ i, i < N → IsNearest n (fun _ => True) (fun q => sampleLoss eps loss C (x i) (V q)) (ρ i)) ∧
      k.predictClasses g (fun x => |x|) eps (Mat.ofFn N C x) o = .ok (Mat.ofFn N 1 (fun i _ => cls (ρ i)))) ∨
    (¬ KmNear n (sampleLoss eps loss C) V N x ∧ k.predictClasses g (fun x => |x|) eps (Mat.ofFn N C x) o = .error .assertFail) := by
  by_cases hk : KmNear n (sampleLoss eps loss C) V N x
  · refine .inl ⟨hk, ?_⟩
    have hρ : ∀ j, j < N → ∃ r, IsNearest n (fun _ => True) (fun q => sampleLoss eps loss C (x j) (V q)) r := fun j hj => by
      obtain ⟨q, hq, hq'⟩ := hk j hj
      exact exists_nearest hq hq'
    choose! ρ hρ using hρ
    exact ⟨ρ, hρ, KMeans.predict_ok hn hC h.refs h.cls (h.dist hl hC g eps) ho ρ hρ⟩
  · exact .inr ⟨hk, KMeans.predict_far hn hC h.refs h.cls (h.dist hl hC g eps) ho hk⟩

theorem kmRight_add {n : Nat} {D : Row → Row → ℝ} {cls : Nat → ℝ} {V : Nat → Row} {a k : Nat} {x : Nat → Row} {lab : Nat → ℝ} :
    kmRight n D cls V (a + k) x lab = kmRight n D cls V a x lab + kmRight n D cls V k (fun i => x (a + i)) (fun i => lab (a + i)) := by
  unfold kmRight
  simp only [card_filter]
  rw [sum_range_add]

namespace KMeansTrain

theorem goodClasses_ok {n N : Nat} {D : Row → Row → ℝ} {cls : Nat → ℝ} {V : Nat → Row} {x : Nat → Row} {lab : Nat → ℝ} {ρ : Nat → Nat}
    (hρ : ∀ i, i < N → IsNearest n (fun _ => True) (fun q => D (x i) (V q)) (ρ i)) :
    goodClasses N (Mat.ofFn N 1 (fun i _ => cls (ρ i))) (Mat.ofFn N 1 (fun i _ => lab i)) = .ok (kmRight n D cls V N x lab) := by
  unfold goodClasses
  refine forN_closed' (fun k => kmRight n D cls V k x lab) (by simp [kmRight]) rfl (fun i hi => ?_)
  rw [Mat.getI_ofFn_col hi, bind_ok', Mat.getI_ofFn_col hi, bind_ok']
  unfold kmRight
  simp only [card_filter]
  rw [sum_range_succ]
  have : (∃ r, IsNearest n (fun _ => True) (fun q => D (x i) (V q)) r ∧ cls r = lab i) ↔ cls (ρ i) = lab i :=
    ⟨fun ⟨r, h, h'⟩ => by rw [← h.unique (hρ i hi)]; exact h', fun h => ⟨ρ i, hρ i hi, h⟩⟩
  simp only [this]
  rfl

theorem KmNear_add {n : Nat} {D : Row → Row → ℝ} {V : Nat → Row} {a k : Nat} {x : Nat → Row} :
    KmNear n D V (a + k) x ↔ KmNear n D V a x ∧ KmNear n D V k (fun i => x (a + i)) := by
  constructor
  · exact fun h => ⟨fun i hi => h i (by omega), fun i hi => h (a + i) (by omega)⟩
  · rintro ⟨h1, h2⟩ i hi
    by_cases hia : i < a
    · exact h1 i hia
    · have := h2 (i - a) (by omega)
      dsimp only at this
      rwa [show a + (i - a) = i by omega] at this

theorem computeAccuracy_either {e : KmEnv} (hab : e.ab = fun x => |x|) {t : KMeansTrain} (hv : 0 < t.valBatch) {k : KMeans} {n C : Nat} {V : Nat → Row} {cls : Nat → ℝ} {loss : String}
    (h : HasRefs k n C V cls loss) (hl : DistLoss loss C) (hn : 0 < n) (hC : 0 < C) {N : Nat} (hN : 0 < N) (x : Nat → Row) (lab : Nat → ℝ) :
    (KmNear n (sampleLoss e.eps loss C) V N x ∧ t.computeAccuracy e k (Mat.ofFn N C x) (Mat.ofFn N 1 (fun i _ => lab i)) =
      .ok (100 * kmRight n (sampleLoss e.eps loss C) cls V N x lab / N)) ∨
    (¬ KmNear n (sampleLoss e.eps loss C) V N x ∧ t.computeAccuracy e k (Mat.ofFn N C x) (Mat.ofFn N 1 (fun i _ => lab i)) = .error .assertFail) := by
  obtain ⟨D, hD⟩ : ∃ D, D = sampleLoss e.eps loss C := ⟨_, rfl⟩
  obtain ⟨B, hB⟩ : ∃ B, B = t.valBatch := ⟨_, rfl⟩
  rw [← hD]
  rw [← hB] at hv
  unfold computeAccuracy
  rw [Mat.ofFn_rows, ← hB]
  have key := whileF_either (c := fun (s : AccSt) => decide (s.iStart < N)) (b := fun s => do
    let iEnd := if s.iStart + B > N then N else s.iStart + B
    let x ← (Mat.ofFn N C x).viewRow s.iStart iEnd
    let x ← s.mSamples.assign e.g x
    let y ← (Mat.ofFn N 1 (fun i _ => lab i)).viewRow s.iStart iEnd
    let y ← s.mTruth.assign e.g y
    let o ← k.predictClasses e.g e.ab e.eps x s.mOut
    let n ← goodClasses (iEnd - s.iStart) o y
    return ⟨s.iStart + B, x, y, o, s.good + n⟩) (fun j (s : AccSt) => s.iStart = j * B ∧ s.mSamples.WF ∧ s.mTruth.WF ∧ s.mOut.WF ∧
      KmNear n D V (min (j * B) N) x ∧ s.good = kmRight n D cls V (min (j * B) N) x lab) (R := ¬ KmNear n D V N x) (e := .assertFail)
      (m := nbBatches N B) ?_ ?_ (nbBatches N B) N ⟨0, ⟨0, 0, []⟩, ⟨0, 0, []⟩, ⟨0, 0, []⟩, 0⟩ le_rfl (nbBatches_le hv) ?_
  · have hge : N ≤ nbBatches N B * B := by
      by_contra hlt
      exact absurd ((nbBatches_lt hv).2 (by omega)) (lt_irrefl (nbBatches N B))
    rcases key with ⟨s, h1, h2, h3, h4, h5, h6, h7⟩ | ⟨h1, h2⟩
    · rw [min_eq_right hge] at h6 h7
      refine .inl ⟨h6, ?_⟩
      erw [h1, bind_ok']
      rw [h7, fdiv, if_neg hN.ne']
      rfl
    · refine .inr ⟨h2, ?_⟩
      erw [h1]
      rfl
  · rintro j s ⟨h1, -⟩
    rw [h1, decide_eq_true_eq, nbBatches_lt hv]
  · rintro j ⟨iStart, mS, mT, mO, good⟩ hj ⟨h1, h2, h3, h4, h5, h6⟩
    dsimp only at h1 h2 h3 h4 h5 h6 ⊢
    subst h1
    have hjN := (nbBatches_lt hv).1 hj
    have he : (if j * B + B > N then N else j * B + B) = min ((j + 1) * B) N := by
      rw [Nat.add_mul, Nat.one_mul]
      split <;> omega
    rw [he, Nat.min_eq_left hjN.le] at *
    have hlt : j * B < min ((j + 1) * B) N := lt_min (by nlinarith) hjN
    obtain ⟨m, hm⟩ : ∃ m, min ((j + 1) * B) N = j * B + m := ⟨_, (Nat.add_sub_cancel' hlt.le).symm⟩
    have hle : j * B + m ≤ N := by rw [← hm]; exact min_le_right _ _
    rw [hm] at hlt ⊢
    rw [Mat.viewRow_ofFn _ hlt hle, bind_ok', Mat.assign_ofFn _ h2, bind_ok', Mat.viewRow_ofFn _ hlt hle, bind_ok', Mat.assign_ofFn _ h3, bind_ok',
      Nat.add_sub_cancel_left, hab]
    rcases h.predict hl hn hC e.g e.eps m (fun i => x (j * B + i)) h4 with ⟨p1, ρ, p2, p3⟩ | ⟨p1, p2⟩
    · left
      rw [← hD] at p1 p2
      refine ⟨⟨j * B + B, Mat.ofFn m C (fun i => x (j * B + i)), Mat.ofFn m 1 (fun i _ => lab (j * B + i)), Mat.ofFn m 1 (fun i _ => cls (ρ i)),
        good + kmRight n D cls V m (fun i => x (j * B + i)) (fun i => lab (j * B + i))⟩, ?_, ?_, Mat.ofFn_WF _ _ _, Mat.ofFn_WF _ _ _, Mat.ofFn_WF _ _ _,
        ?_, ?_⟩
      · erw [p3, bind_ok', goodClasses_ok p2, bind_ok']
        rfl
      · dsimp only
        ring
      · rw [KmNear_add]
        exact ⟨h5, p1⟩
      · dsimp only
        rw [h6, kmRight_add]
    · right
      rw [← hD] at p1
      refine ⟨?_, fun hh => p1 ?_⟩
      · erw [p2]
        rfl
      · intro i hi
        exact hh _ (by omega)
  · rw [Nat.sub_self, Nat.zero_mul, Nat.zero_min]
    exact ⟨rfl, rfl, rfl, rfl, fun i hi => absurd hi (Nat.not_lt_zero i), by simp [kmRight]⟩

theorem nearest_ok {e : KmEnv} (hab : e.ab = fun x => |x|) {k : KMeans} {n C : Nat} {V : Nat → Row} {cls : Nat → ℝ} {loss : String}
    (h : HasRefs k n C V cls loss) (hl : DistLoss loss C) (hC : 0 < C) {N : Nat} (x : Nat → Row) {i : Nat} (hi : i < N) (c : Int) :
    ∃ b, nearest e k (Mat.ofFn N C x) i c = .ok b ∧
      ((b.2 = -1 ∧ ∀ r, ¬ IsNearest n (fun q => cls q = (c : ℝ)) (fun q => sampleLoss e.eps loss C (x i) (V q)) r) ∨
        ∃ r : Nat, b.2 = r ∧ IsNearest n (fun q => cls q = (c : ℝ)) (fun q => sampleLoss e.eps loss C (x i) (V q)) r) := by
  have hd := h.dist hl hC e.g e.eps
  unfold nearest
  rw [h.refs, Mat.ofFn_rows, h.cls]
  obtain ⟨b, h1, h2⟩ := search_loop (n := n) (ok := fun q => cls q = (c : ℝ)) (d := fun q => sampleLoss e.eps loss C (x i) (V q))
    (f := fun iR (b : ℝ × Int) => do
      let c' ← (Mat.ofFn n 1 (fun r _ => cls r)).getI iR
      if c' = (c : ℝ) then do
        let a ← (Mat.ofFn N C x).row i
        let r ← (Mat.ofFn n C V).row iR
        let d ← k.computeDist e.g e.ab e.eps a r
        return if d < b.1 then (d, (iR : Int)) else b
      else return b)
    (fun q hq hok b => by
      rw [Mat.getI_ofFn_col hq, bind_ok', if_pos hok, Mat.row_ofFn hi, bind_ok', Mat.row_ofFn hq, bind_ok', hab, hd (x i) q hq, bind_ok']
      rfl)
    (fun q hq hok b => by
      rw [Mat.getI_ofFn_col hq, bind_ok', if_neg hok]
      rfl)
  refine ⟨b, h1, ?_⟩
  rcases h2 with h2 | h2
  · exact .inl ⟨h2.1, fun r hr => absurd hr.2.2.1 (not_lt.2 (h2.2 r hr.1 hr.2.1))⟩
  · exact .inr h2

/-- The state of an epoch after the places `S` of the current batch. -/
structure EpOk (s : EpSt) (n C : Nat) (D : Row → Row → ℝ) (cls : Nat → ℝ) (loss : String) (X : Nat → Row) (lab : Nat → ℝ) (V : Nat → Row) (S : Finset Nat) : Prop where
  km : HasRefs s.km n C V cls loss
  cen : s.cen = Mat.ofFn n C (fun r j => ∑ i ∈ wonBy n D cls X lab V S r, X i j)
  cnt : s.cnt = Mat.ofFn n 1 (fun r _ => ((wonBy n D cls X lab V S r).card : ℝ))

theorem wonBy_subset {n : Nat} {D : Row → Row → ℝ} {cls : Nat → ℝ} {X : Nat → Row} {lab : Nat → ℝ} {V : Nat → Row} {S : Finset Nat} {r : Nat} :
    wonBy n D cls X lab V S r ⊆ S := by
  classical
  exact filter_subset _ _

theorem wonBy_insert_of {n : Nat} {D : Row → Row → ℝ} {cls : Nat → ℝ} {X : Nat → Row} {lab : Nat → ℝ} {V : Nat → Row} {S : Finset Nat} {r i : Nat}
    (h : IsNearest n (fun q => cls q = lab i) (fun q => D (X i) (V q)) r) :
    wonBy n D cls X lab V (insert i S) r = insert i (wonBy n D cls X lab V S r) := by
  unfold wonBy
  rw [filter_insert, if_pos h]

theorem wonBy_insert_of_not {n : Nat} {D : Row → Row → ℝ} {cls : Nat → ℝ} {X : Nat → Row} {lab : Nat → ℝ} {V : Nat → Row} {S : Finset Nat} {r i : Nat}
    (h : ¬ IsNearest n (fun q => cls q = lab i) (fun q => D (X i) (V q)) r) :
    wonBy n D cls X lab V (insert i S) r = wonBy n D cls X lab V S r := by
  unfold wonBy
  rw [filter_insert, if_neg h]

theorem add_step {e : KmEnv} (hab : e.ab = fun x => |x|) {s : EpSt} {n C : Nat} {V : Nat → Row} {cls : Nat → ℝ} {loss : String} (hl : DistLoss loss C) (hC : 0 < C)
    {N : Nat} (x : Nat → Row) {X : Nat → Row} {lab : Nat → ℝ} {S : Finset Nat} (h : EpOk s n C (sampleLoss e.eps loss C) cls loss X lab V S)
    {i p : Nat} (hp : p < N) (hi : i ∉ S) (hX : X i = x p) {c : Int} (hc : lab i = c) :
    ∃ s', (do let b ← nearest e s.km (Mat.ofFn N C x) p c; addSample (Mat.ofFn N C x) p b.2 s) = .ok s' ∧ s'.next = s.next ∧
      EpOk s' n C (sampleLoss e.eps loss C) cls loss X lab V (insert i S) := by
  obtain ⟨b, h1, h2⟩ := nearest_ok hab h.km hl hC x hp c
  rw [h1, bind_ok']
  unfold addSample
  rw [← hX, ← hc] at h2
  rcases h2 with ⟨h2, h3⟩ | ⟨r, h2, h3⟩
  · rw [if_pos h2]
    refine ⟨s, rfl, rfl, h.km, ?_, ?_⟩
    · rw [h.cen]
      refine Mat.ofFn_congr fun q j _ _ => ?_
      rw [wonBy_insert_of_not (h3 q)]
    · rw [h.cnt]
      refine Mat.ofFn_congr fun q j _ _ => ?_
      rw [wonBy_insert_of_not (h3 q)]
  · have hni : i ∉ wonBy n (sampleLoss e.eps loss C) cls X lab V S r := fun hh => hi (wonBy_subset hh)
    rw [if_neg (by rw [h2]; omega), h2, Int.toNat_natCast, Mat.row_ofFn hp, bind_ok', h.cen, Mat.rowVecAssign_ofFn _ h3.1, bind_ok', h.cnt,
      Mat.getI_ofFn_col h3.1, bind_ok', Mat.setI_col h3.1, bind_ok']
    refine ⟨_, rfl, rfl, h.km, ?_, ?_⟩
    · dsimp only
      refine Mat.ofFn_congr fun q j _ _ => ?_
      by_cases hq : q = r
      · subst hq
        simp only [if_true]
        rw [wonBy_insert_of h3, sum_insert hni, hX, add_comm]
      · simp only [if_neg hq]
        rw [wonBy_insert_of_not (fun hh => hq (hh.unique h3))]
    · dsimp only
      refine Mat.ofFn_congr fun q j _ _ => ?_
      by_cases hq : q = r
      · subst hq
        simp only [if_true]
        rw [wonBy_insert_of h3, card_insert_of_notMem hni]
        push_cast
        rfl
      · simp only [if_neg hq]
        rw [wonBy_insert_of_not (fun hh => hq (hh.unique h3))]

theorem update_step {s : EpSt} {n C : Nat} {D : Row → Row → ℝ} {V : Nat → Row} {cls : Nat → ℝ} {loss : String} {X : Nat → Row} {lab : Nat → ℝ} {S : Finset Nat}
    (h : EpOk s n C D cls loss X lab V S) (b : Int) :
    ∃ (s' : EpSt) (V' : Nat → Row), update b s = .ok s' ∧ s'.next = s.next + b ∧ MeansOf n C D cls X lab S V V' ∧ EpOk s' n C D cls loss X lab V' ∅ := by
  obtain ⟨V', hV'⟩ : ∃ V' : Nat → Row, V' = fun r j =>
    if ((wonBy n D cls X lab V S r).card : ℝ) ≠ 0 then (∑ i ∈ wonBy n D cls X lab V S r, X i j) / (wonBy n D cls X lab V S r).card else V r j := ⟨_, rfl⟩
  refine ⟨⟨{ s.km with refs := Mat.ofFn n C V' }, Mat.ofFn n C (fun _ _ => 0), Mat.ofFn n 1 (fun _ _ => 0), s.next + b⟩, V', ?_, ?_⟩
  · unfold update
    rw [h.km.refs, h.cen, h.cnt, Mat.ofFn_rows]
    rw [Mat.forN_eachRow (e := V')
      (fun r hr f' hf' => by
        rw [Mat.getI_ofFn_col hr, bind_ok']
        by_cases hc : ((wonBy n D cls X lab V S r).card : ℝ) ≠ 0
        · rw [if_pos hc, Mat.row_ofFn hr, bind_ok', Mat.divScalar_ofFn, bind_ok', Mat.rowAssign_ofFn hr]
          simp only [hV', if_pos hc]
        · rw [if_neg hc]
          refine congrArg Except.ok (Mat.ofFn_congr fun i j _ hj => ?_)
          by_cases hir : i = r
          · subst hir
            simp only [if_true, hV', if_neg hc]
            exact hf' j hj
          · simp only [if_neg hir]), bind_ok', Mat.setConstant_ofFn, bind_ok', Mat.setConstant_ofFn, bind_ok']
    rfl
  · refine ⟨rfl, fun r hr j hj => ⟨fun he => ?_, fun he => ?_⟩, ⟨rfl, h.km.cls, h.km.loss⟩, ?_, ?_⟩
    · simp [he, hV']
    · have : ((wonBy n D cls X lab V S r).card : ℝ) ≠ 0 := Nat.cast_ne_zero.2 (card_pos.2 he).ne'
      simp only [hV', if_pos this]
    · dsimp only
      exact Mat.ofFn_congr fun q j _ _ => by simp [wonBy]
    · dsimp only
      exact Mat.ofFn_congr fun q j _ _ => by simp [wonBy]

/-- The sum of the batch sizes reached when place `i` is treated. -/
def nextUpdate (b : Int) (i : Nat) : Int := ((kmBatchOf b i : Nat) + 1) * b

theorem kmBatchOf_zero (b : Int) : kmBatchOf b 0 = 0 := by
  unfold kmBatchOf
  split <;> simp

theorem kmBatchOf_step {b : Int} (hb : b ≠ 0) (i : Nat) :
    (nextUpdate b i ≤ i → kmBatchOf b (i + 1) = kmBatchOf b i + 1) ∧ (¬ nextUpdate b i ≤ i → kmBatchOf b (i + 1) = kmBatchOf b i) := by
  unfold nextUpdate kmBatchOf
  by_cases h : b < 0
  · simp only [if_pos h]
    refine ⟨fun _ => trivial, fun hh => absurd ?_ hh⟩
    nlinarith
  · simp only [if_neg h]
    obtain ⟨B, rfl⟩ : ∃ B : Nat, b = B := ⟨b.toNat, by omega⟩
    have hB : 0 < B := by omega
    simp only [Int.toNat_natCast, Nat.add_sub_cancel]
    have h1 := Nat.div_mul_le_self (i - 1) B
    have h2 := Nat.lt_div_mul_add (a := i - 1) hB
    obtain ⟨k, hk⟩ : ∃ k, (i - 1) / B = k := ⟨_, rfl⟩
    rw [hk] at h1 h2 ⊢
    have hc : (((k : Nat) : Int) + 1) * (B : Int) ≤ i ↔ k * B + B ≤ i := by
      rw [show (((k : Nat) : Int) + 1) * (B : Int) = ((k * B + B : Nat) : Int) by push_cast; ring]
      omega
    rw [hc]
    constructor
    · intro hle
      have : i = (k + 1) * B := by
        rw [Nat.add_mul, Nat.one_mul]
        omega
      rw [this, Nat.mul_div_cancel _ hB]
    · intro hle
      rw [Nat.div_eq_iff hB]
      constructor <;> omega

theorem kmBatchOf_mono {b : Int} (hb : b ≠ 0) {i j : Nat} (h : i ≤ j) : kmBatchOf b i ≤ kmBatchOf b j := by
  induction j, h using Nat.le_induction with
  | base => exact le_refl _
  | succ j _ ih =>
    by_cases hc : nextUpdate b j ≤ j
    · rw [(kmBatchOf_step hb j).1 hc]; omega
    · rw [(kmBatchOf_step hb j).2 hc]; exact ih

theorem epoch_ok {e : KmEnv} (hab : e.ab = fun x => |x|) {n C : Nat} {V : Nat → Row} {cls : Nat → ℝ} {loss : String} (hl : DistLoss loss C) (hC : 0 < C)
    {N : Nat} (hN : 0 < N) {b : Int} (hb : b ≠ 0) (x : Nat → Row) (lab : Nat → Int) (hlab : ∀ i, i < N → -2147483649 < lab i ∧ lab i < 2147483648) {p : List Nat}
    (hp : p.Perm (List.range N)) {s : EpSt} (h1 : HasRefs s.km n C V cls loss) (h2 : s.cen = Mat.ofFn n C (fun _ _ => 0)) (h3 : s.cnt = Mat.ofFn n 1 (fun _ _ => 0)) :
    ∃ (s' : EpSt) (V' : Nat → Row), epoch e b (Mat.ofFn N C x) (Mat.ofFn N 1 (fun i _ => (lab i : ℝ))) p s = .ok s' ∧
      KmEpoch n C (sampleLoss e.eps loss C) cls N b x (fun i => (lab i : ℝ)) V V' ∧
      HasRefs s'.km n C V' cls loss ∧ s'.cen = Mat.ofFn n C (fun _ _ => 0) ∧ s'.cnt = Mat.ofFn n 1 (fun _ _ => 0) := by
  obtain ⟨σ, hσ⟩ : ∃ σ : Nat → Nat, ∀ i, σ i = p.getD i 0 := ⟨_, fun _ => rfl⟩
  have hlen : p.length = N := by rw [hp.length_eq, List.length_range]
  have hmap : (List.range N).map σ = p := by
    apply List.ext_getElem
    · simp [hlen]
    · intro i hi hi'
      simp [hσ, List.getElem?_eq_getElem hi']
  have hrd : ∀ i, i < N → rd p i = .ok (σ i) ∧ σ i < N := fun i hi => by
    have hi' : i < p.length := by omega
    have : σ i = p[i] := by simp [hσ, List.getElem?_eq_getElem hi']
    rw [this]
    exact ⟨rd_of_lt hi', List.mem_range.1 (hp.mem_iff.1 (List.getElem_mem hi'))⟩
  obtain ⟨D, hD⟩ : ∃ D, D = sampleLoss e.eps loss C := ⟨_, rfl⟩
  have body : ∀ i, i < N → ∀ (s : EpSt) (W : Nat → Row) (S : Finset Nat), i ∉ S →
      EpOk s n C D cls loss (fun s => x (σ s)) (fun s => (lab (σ s) : ℝ)) W S →
      ∃ s', s'.next = s.next ∧ EpOk s' n C D cls loss (fun s => x (σ s)) (fun s => (lab (σ s) : ℝ)) W (insert i S) ∧
      (do
        let iSample ← rd p i
        let c ← (Mat.ofFn N 1 (fun i _ => (lab i : ℝ))).getI iSample
        let iClass ← toInt c
        let n ← nearest e s.km (Mat.ofFn N C x) iSample iClass
        let s ← addSample (Mat.ofFn N C x) iSample n.2 s
        if s.next ≤ (i : Int) ∨ i = N - 1 then update b s else return s) = (if s.next ≤ (i : Int) ∨ i = N - 1 then update b s' else return s') := by
    intro i hi s W S hiS hs
    obtain ⟨q1, q2⟩ := hrd i hi
    rw [hD] at hs ⊢
    obtain ⟨s', r1, r2, r3⟩ := add_step hab hl hC (N := N) x hs q2 hiS rfl (c := lab (σ i)) rfl
    refine ⟨s', r2, r3, ?_⟩
    rw [q1, bind_ok', Mat.getI_ofFn_col q2, bind_ok', toInt_int (hlab _ q2).1 (hlab _ q2).2, bind_ok', ← r2]
    rw [← bind_assoc, r1, bind_ok']
  have hins : ∀ i, insert i ((range i).filter (fun s => kmBatchOf b s = kmBatchOf b i)) = (range (i + 1)).filter (fun s => kmBatchOf b s = kmBatchOf b i) := fun i => by
    rw [range_add_one, filter_insert, if_pos rfl]
  have loop := forN_inv (fun i (s : EpSt) => ∃ W : Nat → Nat → Row, W 0 = V ∧
      (∀ q, q < kmBatchOf b i → MeansOf n C D cls (fun s => x (σ s)) (fun s => (lab (σ s) : ℝ)) (kmBatch N b q) (W q) (W (q + 1))) ∧
      EpOk s n C D cls loss (fun s => x (σ s)) (fun s => (lab (σ s) : ℝ)) (W (kmBatchOf b i)) ((range i).filter (fun s => kmBatchOf b s = kmBatchOf b i)) ∧
      s.next = nextUpdate b i) (n := N - 1) (f := fun i s => (do
        let iSample ← rd p i
        let c ← (Mat.ofFn N 1 (fun i _ => (lab i : ℝ))).getI iSample
        let iClass ← toInt c
        let n ← nearest e s.km (Mat.ofFn N C x) iSample iClass
        let s ← addSample (Mat.ofFn N C x) iSample n.2 s
        if s.next ≤ (i : Int) ∨ i = N - 1 then update b s else return s)) (s := { s with next := b }) ?_ ?_
  · obtain ⟨s₁, l1, W, l2, l3, l4, l5⟩ := loop
    obtain ⟨s₂, b1, b2, b3⟩ := body (N - 1) (by omega) s₁ _ _ (by simp) l4
    rw [hins, show N - 1 + 1 = N by omega] at b2
    obtain ⟨s₃, V', u1, u2, u3, u4⟩ := update_step b2 b
    refine ⟨s₃, V', ?_, ⟨σ, fun k => if k ≤ kmBatchOf b (N - 1) then W k else V', ?_, ?_, ?_, ?_⟩, u4.km, ?_, ?_⟩
    · unfold epoch
      rw [Mat.ofFn_rows]
      obtain ⟨M, rfl⟩ : ∃ M, N = M + 1 := ⟨N - 1, by omega⟩
      rw [forN_succ]
      erw [l1]
      simp only [Except.bind]
      rw [show M + 1 - 1 = M by omega] at b3
      erw [b3]
      rw [if_pos (.inr rfl), u1]
    · rw [hmap]
      exact hp
    · simp only [Nat.zero_le, if_true, l2]
    · simp only [kmBatches]
      exact if_neg (by omega)
    · intro k hk
      rw [kmBatches] at hk
      rw [← hD]
      simp only [if_pos (show k ≤ kmBatchOf b (N - 1) by omega)]
      by_cases hk' : k = kmBatchOf b (N - 1)
      · subst hk'
        simp only [if_neg (show ¬ kmBatchOf b (N - 1) + 1 ≤ kmBatchOf b (N - 1) by omega)]
        exact u3
      · simp only [if_pos (show k + 1 ≤ kmBatchOf b (N - 1) by omega)]
        exact l3 k (by omega)
    · rw [u4.cen]
      exact Mat.ofFn_congr fun q j _ _ => by simp [wonBy]
    · rw [u4.cnt]
      exact Mat.ofFn_congr fun q j _ _ => by simp [wonBy]
  · refine ⟨fun _ => V, rfl, fun q hq => absurd hq (by rw [kmBatchOf_zero]; omega), ⟨h1, ?_, ?_⟩, ?_⟩
    · rw [h2]
      exact Mat.ofFn_congr fun q j _ _ => by simp [wonBy]
    · rw [h3]
      exact Mat.ofFn_congr fun q j _ _ => by simp [wonBy]
    · simp [nextUpdate, kmBatchOf_zero]
  · rintro i hi s ⟨W, l2, l3, l4, l5⟩
    obtain ⟨s₂, b1, b2, b3⟩ := body i (by omega) s _ _ (by simp) l4
    rw [hins] at b2
    rw [b3, l5]
    by_cases hc : nextUpdate b i ≤ (i : Int)
    · rw [if_pos (.inl hc)]
      obtain ⟨s₃, V', u1, u2, u3, u4⟩ := update_step b2 b
      have hk := (kmBatchOf_step hb i).1 hc
      refine ⟨s₃, u1, fun k => if k ≤ kmBatchOf b i then W k else V', ?_, ?_, ?_, ?_⟩
      · simp only [Nat.zero_le, if_true, l2]
      · intro k hk'
        rw [hk] at hk'
        simp only [if_pos (show k ≤ kmBatchOf b i by omega)]
        by_cases hkk : k = kmBatchOf b i
        · subst hkk
          simp only [if_neg (show ¬ kmBatchOf b i + 1 ≤ kmBatchOf b i by omega)]
          have : kmBatch N b (kmBatchOf b i) = (range (i + 1)).filter (fun s => kmBatchOf b s = kmBatchOf b i) := by
            ext q
            simp only [kmBatch, mem_filter, mem_range]
            refine ⟨fun hq => ⟨?_, hq.2⟩, fun hq => ⟨by omega, hq.2⟩⟩
            by_contra hqi
            have := kmBatchOf_mono hb (show i + 1 ≤ q by omega)
            omega
          rw [this]
          exact u3
        · simp only [if_pos (show k + 1 ≤ kmBatchOf b i by omega)]
          exact l3 k (by omega)
      · rw [hk]
        simp only [if_neg (show ¬ kmBatchOf b i + 1 ≤ kmBatchOf b i by omega)]
        have : (range (i + 1)).filter (fun s => kmBatchOf b s = kmBatchOf b i + 1) = ∅ := by
          rw [filter_eq_empty_iff]
          intro q hq hq'
          have := kmBatchOf_mono hb (show q ≤ i by have := mem_range.1 hq; omega)
          omega
        rw [this]
        exact u4
      · rw [u2, b1, l5]
        unfold nextUpdate
        rw [hk]
        push_cast
        ring
    · rw [if_neg (by rintro (hh | hh); exacts [hc hh, by omega])]
      have hk := (kmBatchOf_step hb i).2 hc
      refine ⟨s₂, rfl, W, l2, ?_, ?_, ?_⟩
      · rw [hk]; exact l3
      · rw [hk]; exact b2
      · rw [b1, l5]; unfold nextUpdate; rw [hk]

theorem epochs_ok {e : KmEnv} (hab : e.ab = fun x => |x|) {n C : Nat} {V₀ : Nat → Row} {cls : Nat → ℝ} {loss : String} (hl : DistLoss loss C) (hC : 0 < C)
    {N : Nat} (hN : 0 < N) {b : Int} (hb : b ≠ 0) (x : Nat → Row) (lab : Nat → Int) (hlab : ∀ i, i < N → -2147483649 < lab i ∧ lab i < 2147483648)
    {s : EpSt} (h1 : HasRefs s.km n C V₀ cls loss) (h2 : s.cen = Mat.ofFn n C (fun _ _ => 0)) (h3 : s.cnt = Mat.ofFn n 1 (fun _ _ => 0)) (E : Nat) :
    ∃ (S : Nat → EpSt) (V : Nat → Nat → Row), S 0 = s ∧ V 0 = V₀ ∧ (∀ k, k ≤ E → HasRefs (S k).km n C (V k) cls loss ∧
        (S k).cen = Mat.ofFn n C (fun _ _ => 0) ∧ (S k).cnt = Mat.ofFn n 1 (fun _ _ => 0)) ∧
      ∀ k, k < E → KmEpoch n C (sampleLoss e.eps loss C) cls N b x (fun i => (lab i : ℝ)) (V k) (V (k + 1)) ∧
        ∃ p, randPerm (e.shuffle k) N = .ok p ∧ epoch e b (Mat.ofFn N C x) (Mat.ofFn N 1 (fun i _ => (lab i : ℝ))) p (S k) = .ok (S (k + 1)) := by
  induction E with
  | zero => exact ⟨fun _ => s, fun _ => V₀, rfl, rfl, fun k _ => ⟨h1, h2, h3⟩, fun k hk => absurd hk (Nat.not_lt_zero k)⟩
  | succ E ih =>
    obtain ⟨S, V, i1, i2, i3, i4⟩ := ih
    obtain ⟨p, p1, p2⟩ := randPerm_perm (e.shuffle E) N
    obtain ⟨j1, j2, j3⟩ := i3 E (le_refl E)
    obtain ⟨s', V', q1, q2, q3, q4, q5⟩ := epoch_ok hab hl hC hN hb x lab hlab p2 j1 j2 j3
    refine ⟨fun k => if k ≤ E then S k else s', fun k => if k ≤ E then V k else V', ?_, ?_, fun k hk => ?_, fun k hk => ?_⟩
    · simp only [Nat.zero_le, if_true, i1]
    · simp only [Nat.zero_le, if_true, i2]
    · by_cases hk' : k ≤ E
      · simp only [if_pos hk']
        exact i3 k hk'
      · simp only [if_neg hk']
        exact ⟨q3, q4, q5⟩
    · by_cases hk' : k < E
      · simp only [if_pos hk'.le, if_pos (show k + 1 ≤ E by omega)]
        exact i4 k hk'
      · obtain rfl : k = E := by omega
        simp only [le_refl, if_true, if_neg (show ¬ k + 1 ≤ k by omega)]
        exact ⟨q2, p, p1, q1⟩

/-- Before the first epoch the references are samples with their classes. -/
theorem initRefs_ok (e : KmEnv) {k : KMeans} {n C : Nat} {V : Nat → Row} {cls : Nat → ℝ} {loss : String} (h : HasRefs k n C V cls loss) {N : Nat} (hN : 0 < N)
    (x : Nat → Row) (y : Nat → ℝ) :
    ∃ k', initRefs e (Mat.ofFn N C x) (Mat.ofFn N 1 (fun i _ => y i)) k = .ok k' ∧
      HasRefs k' n C (fun r => x (e.pick r % N)) (fun r => y (e.pick r % N)) loss := by
  unfold initRefs
  rw [h.refs, Mat.ofFn_rows]
  refine (forN_inv (fun i (k : KMeans) => HasRefs k n C (fun r j => if r < i then x (e.pick r % N) j else V r j)
    (fun r => if r < i then y (e.pick r % N) else cls r) loss) (n := n) (f := fun i (km : KMeans) => do
    if (Mat.ofFn N C x).rows = 0 then .error .divByZero
    else do
      let p := e.pick i % (Mat.ofFn N C x).rows
      let r ← (Mat.ofFn N C x).row p
      let refs ← km.refs.rowAssign i r
      let c ← (Mat.ofFn N 1 (fun i _ => y i)).row p
      let cls ← km.cls.rowAssign i c
      return { km with refs := refs, cls := cls }) (s := k) ?_ ?_).elim ?_
  · simpa using h
  · intro i hi k' hk
    have hp : e.pick i % N < N := Nat.mod_lt _ hN
    rw [Mat.ofFn_rows, if_neg hN.ne']
    dsimp only
    rw [Mat.row_ofFn hp, bind_ok', hk.refs, Mat.rowAssign_ofFn hi, bind_ok', Mat.row_ofFn hp, bind_ok', hk.cls, Mat.rowAssign_ofFn hi, bind_ok']
    refine ⟨_, rfl, ?_, ?_, hk.loss⟩
    · dsimp only
      refine Mat.ofFn_congr fun r j _ _ => ?_
      by_cases hr : r = i
      · subst hr
        simp
      · simp only [if_neg hr, show r < i + 1 ↔ r < i by omega]
    · dsimp only
      refine Mat.ofFn_congr fun r j _ _ => ?_
      by_cases hr : r = i
      · subst hr
        simp
      · simp only [if_neg hr, show r < i + 1 ↔ r < i by omega]
  · rintro k' ⟨h1, h2⟩
    refine ⟨k', h1, ?_, ?_, h2.loss⟩
    · rw [h2.refs]
      exact Mat.ofFn_congr fun r j hr _ => by simp [hr]
    · rw [h2.cls]
      exact Mat.ofFn_congr fun r j hr _ => by simp [hr]

theorem assign_refs (g : Nat → ℝ) {k k' : KMeans} (hr : k.refs.WF) (hc : k.cls.WF) {n C : Nat} {V : Nat → Row} {cls : Nat → ℝ} {loss : String} (h : HasRefs k' n C V cls loss) :
    ∃ k'', k.assign g k' = .ok k'' ∧ HasRefs k'' n C V cls loss := by
  unfold KMeans.assign
  rw [h.refs, h.cls, Mat.assign_ofFn g hr, bind_ok', Mat.assign_ofFn g hc, bind_ok']
  exact ⟨_, rfl, rfl, rfl, h.loss⟩

theorem _root_.BeeDNN.HasRefs.wf {k : KMeans} {n C : Nat} {V : Nat → Row} {cls : Nat → ℝ} {loss : String} (h : HasRefs k n C V cls loss) : k.refs.WF ∧ k.cls.WF := by
  rw [h.refs, h.cls]
  exact ⟨Mat.ofFn_WF _ _ _, Mat.ofFn_WF _ _ _⟩

/-- The accuracy on the data that decide. -/
theorem epochAcc_either {e : KmEnv} (hab : e.ab = fun x => |x|) {t : KMeansTrain} (hv : 0 < t.valBatch) {k : KMeans} {n C : Nat} {V : Nat → Row} {cls : Nat → ℝ} {loss : String}
    (h : HasRefs k n C V cls loss) (hl : DistLoss loss C) (hn : 0 < n) (hC : 0 < C) {N : Nat} (hN : 0 < N) {x : Nat → Row} {y : Nat → ℝ}
    {M : Nat} (hM : 0 < M) {xv : Nat → Row} {yv : Nat → ℝ} (hE : KmEval t C N x y M xv yv) (a : ℝ)
    (ha : t.valid = none → a = 100 * kmRight n (sampleLoss e.eps loss C) cls V N x y / N) (hne : t.valid = none → KmNear n (sampleLoss e.eps loss C) V N x) :
    (KmNear n (sampleLoss e.eps loss C) V M xv ∧ scoreEpoch e t k a =
      .ok (if t.valid = none then t else { t with valAcc := 100 * kmRight n (sampleLoss e.eps loss C) cls V M xv yv / M },
        100 * kmRight n (sampleLoss e.eps loss C) cls V M xv yv / M)) ∨
    (¬ KmNear n (sampleLoss e.eps loss C) V M xv ∧ scoreEpoch e t k a = .error .assertFail) := by
  unfold scoreEpoch
  rcases hE with ⟨h1, rfl, rfl, rfl⟩ | h1
  · left
    refine ⟨hne h1, ?_⟩
    rw [h1, if_pos rfl]
    dsimp only
    rw [ha h1]
  · rw [h1]
    dsimp only
    rw [if_neg (by simp)]
    rcases computeAccuracy_either hab hv h hl hn hC hM xv yv with ⟨p1, p2⟩ | ⟨p1, p2⟩
    · rw [p2]
      exact .inl ⟨p1, rfl⟩
    · rw [p2]
      exact .inr ⟨p1, rfl⟩

theorem firstBest_either {e : KmEnv} (hab : e.ab = fun x => |x|) {t : KMeansTrain} (hv : 0 < t.valBatch) {k : KMeans} {n C : Nat} {V : Nat → Row} {cls : Nat → ℝ} {loss : String}
    (h : HasRefs k n C V cls loss) (hl : DistLoss loss C) (hn : 0 < n) (hC : 0 < C) {N : Nat} {x : Nat → Row} {y : Nat → ℝ}
    {M : Nat} (hM : 0 < M) {xv : Nat → Row} {yv : Nat → ℝ} (hE : KmEval t C N x y M xv yv) :
    ((t.keepBest = true → KmNear n (sampleLoss e.eps loss C) V M xv) ∧ ∃ a best, firstBest e t k (Mat.ofFn N C x) (Mat.ofFn N 1 (fun i _ => y i)) = .ok (a, best) ∧
      best.refs.WF ∧ best.cls.WF ∧
      (t.keepBest = true → a = 100 * kmRight n (sampleLoss e.eps loss C) cls V M xv yv / M ∧ HasRefs best n C V cls loss)) ∨
    (t.keepBest = true ∧ ¬ KmNear n (sampleLoss e.eps loss C) V M xv ∧ firstBest e t k (Mat.ofFn N C x) (Mat.ofFn N 1 (fun i _ => y i)) = .error .assertFail) := by
  by_cases hk : t.keepBest = true
  · have key : firstBest e t k (Mat.ofFn N C x) (Mat.ofFn N 1 (fun i _ => y i)) = (do
        let a ← t.computeAccuracy e k (Mat.ofFn M C xv) (Mat.ofFn M 1 (fun i _ => yv i))
        let best ← ({} : KMeans).assign e.g k
        return (a, best)) := by
      unfold firstBest
      rw [if_pos hk]
      rcases hE with ⟨h1, rfl, rfl, rfl⟩ | h1
      · rw [h1]
      · rw [h1]
    rw [key]
    obtain ⟨k', h1, h2⟩ := assign_refs e.g (k := {}) rfl rfl h
    rcases computeAccuracy_either hab hv h hl hn hC hM xv yv with ⟨p1, p2⟩ | ⟨p1, p2⟩
    · left
      refine ⟨fun _ => p1, 100 * kmRight n (sampleLoss e.eps loss C) cls V M xv yv / M, k', ?_, h2.wf.1, h2.wf.2, fun _ => ⟨rfl, h2⟩⟩
      rw [p2, bind_ok', h1]
      rfl
    · right
      refine ⟨hk, p1, ?_⟩
      rw [p2]
      rfl
  · unfold firstBest
    rw [if_neg hk]
    exact .inl ⟨fun h => absurd h hk, 0, {}, rfl, rfl, rfl, fun h => absurd h hk⟩

/-- All of `fit`. -/
theorem fit_either {e : KmEnv} (hab : e.ab = fun x => |x|) {t : KMeansTrain} (hv : 0 < t.valBatch) {k : KMeans} {n C : Nat} {V₀ : Nat → Row} {cls₀ : Nat → ℝ} {loss : String}
    (h : HasRefs k n C V₀ cls₀ loss) (hl : DistLoss loss C) (hn : 0 < n) (hC : 0 < C) {N : Nat} (hN : 0 < N) (x : Nat → Row) (lab : Nat → Int)
    (hlab : ∀ i, i < N → -2147483649 < lab i ∧ lab i < 2147483648) (ht : t.train = some (Mat.ofFn N C x, Mat.ofFn N 1 (fun i _ => (lab i : ℝ))))
    {M : Nat} (hM : 0 < M) {xv : Nat → Row} {yv : Nat → ℝ} (hE : KmEval t C N x (fun i => (lab i : ℝ)) M xv yv) :
    ∃ (V : Nat → Nat → Row) (cls : Nat → ℝ), (∀ r, r < n → V 0 r = x (e.pick r % N) ∧ cls r = lab (e.pick r % N)) ∧
      (∀ i, i < t.epochs.toNat → KmEpoch n C (sampleLoss e.eps loss C) cls N (kmAdjusted t.batchSize N) x (fun i => (lab i : ℝ)) (V i) (V (i + 1))) ∧
      (((t.keepBest = true → KmNear n (sampleLoss e.eps loss C) V₀ M xv) ∧
          ∀ i, i < t.epochs.toNat → KmNear n (sampleLoss e.eps loss C) (V (i + 1)) N x ∧ KmNear n (sampleLoss e.eps loss C) (V (i + 1)) M xv) →
        ∃ t' k', t.fit e (some k) = .ok (t', some k') ∧
          (t.keepBest = false → HasRefs k' n C (V t.epochs.toNat) cls loss) ∧
          (t.keepBest = true → ∃ j, j ≤ t.epochs.toNat ∧ HasRefs k' n C (if j = 0 then V₀ else V j) (if j = 0 then cls₀ else cls) loss ∧
            (∀ i, i ≤ t.epochs.toNat → kmRight n (sampleLoss e.eps loss C) (if i = 0 then cls₀ else cls) (if i = 0 then V₀ else V i) M xv yv ≤
              kmRight n (sampleLoss e.eps loss C) (if j = 0 then cls₀ else cls) (if j = 0 then V₀ else V j) M xv yv) ∧
            ∀ i, i < j → kmRight n (sampleLoss e.eps loss C) (if i = 0 then cls₀ else cls) (if i = 0 then V₀ else V i) M xv yv <
              kmRight n (sampleLoss e.eps loss C) (if j = 0 then cls₀ else cls) (if j = 0 then V₀ else V j) M xv yv) ∧
          (0 < t.epochs.toNat → t'.trainAcc = 100 * kmRight n (sampleLoss e.eps loss C) cls (V t.epochs.toNat) N x (fun i => (lab i : ℝ)) / N ∧
            (t.valid ≠ none → t'.valAcc = 100 * kmRight n (sampleLoss e.eps loss C) cls (V t.epochs.toNat) M xv yv / M))) ∧
      (¬ ((t.keepBest = true → KmNear n (sampleLoss e.eps loss C) V₀ M xv) ∧
          ∀ i, i < t.epochs.toNat → KmNear n (sampleLoss e.eps loss C) (V (i + 1)) N x ∧ KmNear n (sampleLoss e.eps loss C) (V (i + 1)) M xv) →
        t.fit e (some k) = .error .assertFail) := by
  obtain ⟨D, hD⟩ : ∃ D, D = sampleLoss e.eps loss C := ⟨_, rfl⟩
  obtain ⟨E, hEE⟩ : ∃ E, E = t.epochs.toNat := ⟨_, rfl⟩
  obtain ⟨b, hb⟩ : ∃ b, b = kmAdjusted t.batchSize N := ⟨_, rfl⟩
  have hb0 : b ≠ 0 := by
    rw [hb]
    unfold kmAdjusted
    split <;> omega
  obtain ⟨t₁, ht₁⟩ : ∃ t₁ : KMeansTrain, t₁ = { t with trainAcc := 0, valAcc := 0 } := ⟨_, rfl⟩
  have hE₁ : KmEval t₁ C N x (fun i => (lab i : ℝ)) M xv yv := by rw [ht₁]; exact hE
  obtain ⟨k₁, i1, i2⟩ := initRefs_ok e h hN x (fun i => (lab i : ℝ))
  obtain ⟨S, V, e1, e2, e3, e4⟩ := epochs_ok hab hl hC hN hb0 x lab hlab (s := ⟨k₁, Mat.ofFn n C (fun _ _ => 0), Mat.ofFn n 1 (fun _ _ => 0), b⟩) i2 rfl rfl E
  refine ⟨V, fun r => (lab (e.pick r % N) : ℝ), fun r _ => ⟨by rw [e2], rfl⟩, ?_, ?_⟩
  · rw [← hEE, ← hb]
    exact fun i hi => (e4 i hi).1
  obtain ⟨cls, hcls⟩ : ∃ cls : Nat → ℝ, cls = fun r => (lab (e.pick r % N) : ℝ) := ⟨_, rfl⟩
  rw [← hEE, ← hD, ← hcls]
  simp only [← hD, ← hcls] at e3 e4
  obtain ⟨R, hR⟩ : ∃ R : Prop, R ↔ ((t.keepBest = true → KmNear n D V₀ M xv) ∧ ∀ i, i < E → KmNear n D (V (i + 1)) N x ∧ KmNear n D (V (i + 1)) M xv) := ⟨_, Iff.rfl⟩
  obtain ⟨sc, hsc⟩ : ∃ sc : Nat → Nat, ∀ i, sc i = kmRight n D (if i = 0 then cls₀ else cls) (if i = 0 then V₀ else V i) M xv yv := ⟨_, fun _ => rfl⟩
  simp only [← hR, ← hsc]
  have hMpos : (0 : ℝ) < M := Nat.cast_pos.2 hM
  -- the code
  have hfit : t.fit e (some k) = (do
      let (maxAcc, best) ← firstBest e t₁ k (Mat.ofFn N C x) (Mat.ofFn N 1 (fun i _ => (lab i : ℝ)))
      let s ← forN E (epochStep e b (Mat.ofFn N C x) (Mat.ofFn N 1 (fun i _ => (lab i : ℝ)))) ⟨t₁, S 0, maxAcc, best⟩
      if t.keepBest then do
        let km ← s.ep.km.assign e.g s.best
        return (s.t, some km)
      else return (s.t, some s.ep.km)) := by
    have ht₂ : ({ t with train := some (Mat.ofFn N C x, Mat.ofFn N 1 (fun i _ => (lab i : ℝ))), trainAcc := 0, valAcc := 0 } : KMeansTrain) = t₁ := by rw [ht₁, ← ht]
    unfold fit
    dsimp only
    rw [ht]
    dsimp only
    rw [h.refs, Mat.ofFn_rows, Mat.ofFn_cols, Mat.setConstantRC_ofFn _ (by rfl), bind_ok', Mat.setConstantRC_ofFn _ (by rfl), bind_ok', ← ht₂, ← hEE, i1, e1, hb]
    have : (if t.batchSize > ((Mat.ofFn N C x).rows : Int) ∨ t.batchSize = 0 then ((Mat.ofFn N C x).rows : Int) else t.batchSize) = kmAdjusted t.batchSize N := by
      rw [Mat.ofFn_rows]
      unfold kmAdjusted
      split <;> split <;> omega
    rw [this]
    rfl
  have hkb : t₁.keepBest = t.keepBest := by rw [ht₁]
  rcases firstBest_either hab (t := t₁) (by rw [ht₁]; exact hv) h hl hn hC hM hE₁ with ⟨f1, a, best, f2, f3, f4, f5⟩ | ⟨f1, f2, f3⟩
  rotate_left
  · rw [← hD] at f2
    rw [hkb] at f1
    have hnR : ¬ R := fun hr => f2 ((hR.1 hr).1 f1)
    refine ⟨fun hr => absurd hr hnR, fun _ => ?_⟩
    rw [hfit, f3]
    rfl
  rw [← hD, hkb] at f1 f5
  rw [f2, bind_ok'] at hfit
  dsimp only at hfit
  have loop := forN_either (fun i (s : FitSt) => s.ep = S i ∧ s.t.valBatch = t.valBatch ∧ s.t.keepBest = t.keepBest ∧ s.t.valid = t.valid ∧ s.best.refs.WF ∧ s.best.cls.WF ∧
      (∀ q, q < i → KmNear n D (V (q + 1)) N x ∧ KmNear n D (V (q + 1)) M xv) ∧
      (0 < i → s.t.trainAcc = 100 * kmRight n D cls (V i) N x (fun i => (lab i : ℝ)) / N ∧ (t.valid ≠ none → s.t.valAcc = 100 * kmRight n D cls (V i) M xv yv / M)) ∧
      (t.keepBest = true → ∃ j, j ≤ i ∧ HasRefs s.best n C (if j = 0 then V₀ else V j) (if j = 0 then cls₀ else cls) loss ∧ s.maxAcc = 100 * sc j / M ∧
        (∀ q, q ≤ i → sc q ≤ sc j) ∧ ∀ q, q < j → sc q < sc j))
    (R := ¬ R) (e := .assertFail) (n := E) (f := epochStep e b (Mat.ofFn N C x) (Mat.ofFn N 1 (fun i _ => (lab i : ℝ)))) (s := ⟨t₁, S 0, a, best⟩) ?_ ?_
  rotate_left
  · refine ⟨rfl, by rw [ht₁], hkb, by rw [ht₁], f3, f4, fun q hq => absurd hq (Nat.not_lt_zero q), fun hh => absurd hh (lt_irrefl 0), fun hk => ?_⟩
    obtain ⟨g1, g2⟩ := f5 hk
    refine ⟨0, le_refl 0, ?_, ?_, fun q hq => ?_, fun q hq => absurd hq (Nat.not_lt_zero q)⟩
    · simpa using g2
    · dsimp only
      rw [g1, hsc, if_pos rfl, if_pos rfl]
    · obtain rfl : q = 0 := by omega
      exact le_refl _
  · rintro i hi ⟨tt, ep, maxAcc, bst⟩ ⟨p1, p2, p3, p4, p5, p6, p7, p8, p9⟩
    dsimp only at p1 p2 p3 p4 p5 p6 p7 p8 p9
    subst p1
    obtain ⟨-, p, p10, p11⟩ := e4 i hi
    obtain ⟨q1, -, -⟩ := e3 (i + 1) (by omega)
    unfold epochStep
    rw [Mat.ofFn_rows, p10, bind_ok', p11, bind_ok']
    dsimp only
    rcases computeAccuracy_either hab (t := tt) (by rw [p2]; exact hv) q1 hl hn hC hN x (fun i => (lab i : ℝ)) with ⟨a1, a2⟩ | ⟨a1, a2⟩
    rotate_left
    · rw [← hD] at a1
      right
      refine ⟨?_, fun hr => a1 ((hR.1 hr).2 i hi).1⟩
      rw [a2]
      rfl
    rw [a2, bind_ok']
    rw [← hD] at a1 ⊢
    obtain ⟨ta, hta⟩ : ∃ ta : KMeansTrain, ta = { tt with trainAcc := 100 * kmRight n D cls (V (i + 1)) N x (fun i => (lab i : ℝ)) / N } := ⟨_, rfl⟩
    rw [← hta]
    have hva : ta.valid = t.valid := by rw [hta]; exact p4
    have hEa : KmEval ta C N x (fun i => (lab i : ℝ)) M xv yv := by
      unfold KmEval at hE ⊢
      rw [hva]
      exact hE
    rcases epochAcc_either hab (t := ta) (by rw [hta]; dsimp only; rw [p2]; exact hv) q1 hl hn hC hN hM hEa (100 * kmRight n D cls (V (i + 1)) N x (fun i => (lab i : ℝ)) / N)
      (fun _ => by rw [hD]) (fun _ => by rw [← hD]; exact a1) with ⟨b1, b2⟩ | ⟨b1, b2⟩
    rotate_left
    · rw [← hD] at b1
      right
      refine ⟨?_, fun hr => b1 ((hR.1 hr).2 i hi).2⟩
      rw [b2]
      rfl
    rw [← hD] at b1
    left
    rw [b2, bind_ok']
    dsimp only
    obtain ⟨tb, htb⟩ : ∃ tb : KMeansTrain, tb = (if ta.valid = none then ta else { ta with valAcc := 100 * kmRight n D cls (V (i + 1)) M xv yv / M }) := ⟨_, rfl⟩
    rw [← hD, ← htb]
    have w1 : tb.valBatch = t.valBatch := by rw [htb]; split <;> (rw [hta]; exact p2)
    have w2 : tb.keepBest = t.keepBest := by rw [htb]; split <;> (rw [hta]; exact p3)
    have w3 : tb.valid = t.valid := by rw [htb]; split <;> (rw [hta]; exact p4)
    have w4 : tb.trainAcc = 100 * kmRight n D cls (V (i + 1)) N x (fun i => (lab i : ℝ)) / N := by rw [htb]; split <;> rw [hta]
    have w5 : t.valid ≠ none → tb.valAcc = 100 * kmRight n D cls (V (i + 1)) M xv yv / M := fun hne => by rw [htb, if_neg (by rw [hva]; exact hne)]
    have w6 : ∀ q, q < i + 1 → KmNear n D (V (q + 1)) N x ∧ KmNear n D (V (q + 1)) M xv := fun q hq => by
      rcases Nat.lt_succ_iff_lt_or_eq.1 hq with hq | rfl
      · exact p7 q hq
      · exact ⟨a1, b1⟩
    have hs1 : kmRight n D cls (V (i + 1)) M xv yv = sc (i + 1) := by rw [hsc, if_neg (by omega), if_neg (by omega)]
    rw [hs1] at w5 ⊢
    by_cases hc : tb.keepBest = true ∧ maxAcc < 100 * (sc (i + 1) : ℝ) / M
    · rw [if_pos hc]
      obtain ⟨k', c1, c2⟩ := assign_refs e.g p5 p6 q1
      rw [c1, bind_ok']
      refine ⟨_, rfl, rfl, w1, w2, w3, c2.wf.1, c2.wf.2, w6, fun _ => ⟨w4, w5⟩, fun hk => ?_⟩
      obtain ⟨j, j1, j2, j3, j4, j5⟩ := p9 hk
      have hlt : sc j < sc (i + 1) := by
        have := hc.2
        rw [j3, div_lt_div_iff_of_pos_right hMpos] at this
        have : (sc j : ℝ) < sc (i + 1) := by linarith
        exact_mod_cast this
      refine ⟨i + 1, le_refl _, ?_, rfl, fun q hq => ?_, fun q hq => ?_⟩
      · rw [if_neg (by omega), if_neg (by omega)]
        exact c2
      · rcases Nat.lt_succ_iff_lt_or_eq.1 (Nat.lt_succ_of_le hq) with hq | rfl
        · exact (j4 q (by omega)).trans hlt.le
        · exact le_refl _
      · exact (j4 q (by omega)).trans_lt hlt
    · rw [if_neg hc]
      refine ⟨_, rfl, rfl, w1, w2, w3, p5, p6, w6, fun _ => ⟨w4, w5⟩, fun hk => ?_⟩
      obtain ⟨j, j1, j2, j3, j4, j5⟩ := p9 hk
      have hle : sc (i + 1) ≤ sc j := by
        have : ¬ maxAcc < 100 * (sc (i + 1) : ℝ) / M := fun hh => hc ⟨by rw [w2]; exact hk, hh⟩
        rw [j3, div_lt_div_iff_of_pos_right hMpos] at this
        have : (sc (i + 1) : ℝ) ≤ sc j := by linarith
        exact_mod_cast this
      refine ⟨j, by omega, j2, j3, fun q hq => ?_, j5⟩
      rcases Nat.lt_succ_iff_lt_or_eq.1 (Nat.lt_succ_of_le hq) with hq | rfl
      · exact j4 q (by omega)
      · exact hle
  · rcases loop with ⟨s', l1, p1, p2, p3, p4, p5, p6, p7, p8, p9⟩ | ⟨l1, l2⟩
    · have hr : R := hR.2 ⟨fun hk => f1 hk, p7⟩
      refine ⟨fun _ => ?_, fun hn => absurd hr hn⟩
      rw [hfit, l1, bind_ok']
      by_cases hk : t.keepBest = true
      · obtain ⟨j, j1, j2, j3, j4, j5⟩ := p9 hk
        have hw := (e3 E (le_refl E)).1
        rw [← p1] at hw
        obtain ⟨k', c1, c2⟩ := assign_refs e.g hw.wf.1 hw.wf.2 j2
        rw [if_pos hk, c1, bind_ok']
        exact ⟨_, _, rfl, fun hh => absurd (hk.symm.trans hh) (by decide), fun _ => ⟨j, j1, c2, j4, j5⟩, p8⟩
      · rw [if_neg hk]
        refine ⟨_, _, rfl, fun _ => ?_, fun hh => absurd hh hk, p8⟩
        rw [p1]
        exact (e3 E (le_refl E)).1
    · refine ⟨fun hr => absurd hr l2, fun _ => ?_⟩
      rw [hfit, l1]
      rfl

end KMeansTrain

end BeeDNN
