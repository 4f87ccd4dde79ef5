import Verif.Spec.SamplesKm
import Verif.Props.KMeansTwin
import Verif.Props.Samples

/-! # The KMeans sample: C114 -/

namespace BeeDNN.Samples
open Data Finset

theorem l3_eq (eps : ℝ) (a b : Row) : sampleLoss eps "L3" 784 a b = cubeDist a b / (784 : Nat) := rfl

theorem cube_near {eps : ℝ} {a b : Row} (ha : ∀ j, j < 784 → |a j| ≤ 10 ^ 12) (hb : ∀ j, j < 784 → |b j| ≤ 10 ^ 12) : sampleLoss eps "L3" 784 a b < kmFar := by
  rw [l3_eq, div_lt_iff₀ (by norm_num)]
  have h : cubeDist a b ≤ ∑ j ∈ range 784, (2 * 10 ^ 12 : ℝ) ^ 3 := by
    refine sum_le_sum fun j hj => pow_le_pow_left₀ (abs_nonneg _) ?_ 3
    have := abs_sub (a j) (b j)
    have := ha j (mem_range.1 hj)
    have := hb j (mem_range.1 hj)
    linarith
  rw [sum_const, card_range, nsmul_eq_mul] at h
  refine h.trans_lt ?_
  unfold kmFar
  norm_num

theorem cube_far {eps : ℝ} {a : Row} (ha : ∀ j, j < 784 → |a j| ≤ 1) {v : ℝ} (hv : 10 ^ 13 ≤ |v|) : kmFar ≤ sampleLoss eps "L3" 784 a (fun _ => v) := by
  rw [l3_eq, le_div_iff₀ (by norm_num)]
  have h : ∑ j ∈ range 784, (10 ^ 13 - 1 : ℝ) ^ 3 ≤ cubeDist a (fun _ => v) := by
    refine sum_le_sum fun j hj => pow_le_pow_left₀ (by norm_num) ?_ 3
    have := abs_sub_abs_le_abs_sub v (a j)
    rw [abs_sub_comm] at this
    have := ha j (mem_range.1 hj)
    linarith
  rw [sum_const, card_range, nsmul_eq_mul] at h
  refine le_trans ?_ h
  unfold kmFar
  norm_num

theorem kmMeasure_ok (r : RunEnv) {e : KmEnv} (hab : e.ab = fun x => |x|) {k : KMeans} {V : Nat → Row} {cls : Nat → ℝ} (h : HasRefs k 100 784 V cls "L3")
    (hV : ∀ q, q < 100 → ∀ j, j < 784 → |V q j| ≤ 10 ^ 12) (hc : ∀ q, q < 100 → |cls q| ≤ 10 ^ 12) {N : Nat} (hN : 0 < N) (x : Nat → Row)
    (hx : ∀ i, i < N → ∀ j, j < 784 → |x i j| ≤ 1) (lab : Nat → Nat) (hl : ∀ i, i < N → lab i < 10) :
    ∃ m, kmMeasure r e k (Mat.ofFn N 784 x) (Mat.ofFn N 1 fun i _ => (lab i : ℝ)) = .ok m ∧ KmJudged V cls N x lab m := by
  obtain ⟨ρ, h1, h2⟩ := (C73_nearest_partial e.g e.eps (by omega) (by omega) h (by decide)
    (by rw [TruthFits, if_neg (by decide)]; exact ⟨rfl, fun h => absurd h (by decide)⟩) N x (o := ⟨0, 0, []⟩) rfl).1
    (fun i hi => ⟨0, by omega, cube_near (fun j hj => (hx i hi j hj).trans (by norm_num)) (hV 0 (by omega))⟩)
  obtain ⟨t, ht, htm⟩ := Finset.exists_max_image (Finset.range N) lab ⟨0, Finset.mem_range.2 hN⟩
  have ht := Finset.mem_range.1 ht
  have htm : ∀ i, i < N → lab i ≤ lab t := fun i hi => htm i (Finset.mem_range.2 hi)
  obtain ⟨m, C, m1, -, -, -, -, m2, m3, -⟩ := C75_confusion_partial r.g r.div0 (m := {}) (N := N) (K := lab t + 1) (y := fun i => (lab i : ℝ)) (p := fun i => cls (ρ i)) (nb := 0)
    rfl rfl hN ⟨by omega, .inr ⟨rfl, t, ht, by simp [refClass], fun j hj => by
      show (lab j : ℝ) ≤ lab t
      exact_mod_cast htm j hj⟩⟩
    (fun i hi => ⟨by have : (0 : ℝ) ≤ lab i := by positivity
                     linarith, by have : (lab i : ℝ) < 10 := by exact_mod_cast hl i hi
                                  linarith, by simp only [refClass, Nat.floor_natCast]; have := htm i hi; omega⟩)
    (fun i hi => (hc _ (h1 i hi).1).trans (by norm_num))
  refine ⟨m, ?_, ρ, lab t, fun i hi => ⟨(h1 i hi).1, fun q hq => ?_, fun q hq => ?_⟩, htm, ⟨t, ht, rfl⟩, ?_⟩
  · unfold kmMeasure
    rw [hab, h2, bind_ok']
    exact m1
  · exact (div_le_div_iff_of_pos_right (by norm_num)).1 ((h1 i hi).2.2.2.1 q hq trivial)
  · exact (div_lt_div_iff_of_pos_right (by norm_num)).1 ((h1 i hi).2.2.2.2 q hq trivial)
  · rw [m3, m2]
    unfold nbHits
    congr 4
    refine Finset.filter_congr fun i _ => ?_
    simp only [predClass, refClass, Nat.floor_natCast, Nat.add_sub_cancel]

/-- The pixels as the reader gives them. -/
noncomputable def pixels (px : List Byte) (i j : Nat) : ℝ := byteAt px (i * 784 + j) / 256

theorem pixels_le (px : List Byte) (i j : Nat) : |pixels px i j| ≤ 1 := by
  have h : byteAt px (i * 784 + j) < 256 := by
    unfold byteAt
    exact_mod_cast (px.getD (i * 784 + j) 0).isLt
  have h0 : 0 ≤ byteAt px (i * 784 + j) := by
    unfold byteAt
    positivity
  unfold pixels
  rw [abs_of_nonneg (by positivity), div_le_one (by norm_num)]
  exact h.le

theorem kmStart (r : RunEnv) (e : KmEnv) : ∃ k, (KMeans.setSizes r.g {} 784 (10 * 10)).setLoss r.g e.ab e.eps "L3" = .ok k ∧
    HasRefs k 100 784 (fun q j => r.g (q * 784 + j)) (fun q => r.g q) "L3" := by
  have h := KMeans.setSizes_sized r.g (n := 100) (C := 784) (by omega) (by omega)
  refine ⟨{ KMeans.setSizes r.g {} 784 (10 * 10) with loss := "L3" }, ?_, ⟨h.refs, h.cls, rfl⟩⟩
  unfold KMeans.setLoss
  rw [check_true (by rfl), bind_ok']
  rfl

theorem kmSettings_train (N M : Nat) (px lab px' lab' : List Byte) : (kmSettings (mnistData N M px lab px' lab')).train =
    some (Mat.ofFn N 784 (pixels px), Mat.ofFn N 1 (fun i _ => (((fun i => ((lab.getD i 0).val : Int) : Nat → Int) i : Int) : ℝ))) := by
  refine congrArg some (Prod.ext rfl ?_)
  exact Mat.ofFn_congr fun i j _ _ => (Int.cast_natCast (R := ℝ) (lab.getD i 0).val).symm

theorem kmSettings_valid (N M : Nat) (px lab px' lab' : List Byte) : (kmSettings (mnistData N M px lab px' lab')).valid =
    some (Mat.ofFn M 784 (pixels px'), Mat.ofFn M 1 (fun i _ => (((lab'.getD i 0).val : Nat) : ℝ))) := rfl

/-- The training of the program: `V₀`, `cls₀` are the references and classes that the memory holds. -/
theorem kmFit {e : KmEnv} (hab : e.ab = fun x => |x|) {N M : Nat} {px lab px' lab' : List Byte} {fs : String → Option (List Byte)} (h : MnistFiles fs N M px lab px' lab')
    {k : KMeans} {V₀ : Nat → Row} {cls₀ : Nat → ℝ} (hk : HasRefs k 100 784 V₀ cls₀ "L3") (hV : ∀ q, q < 100 → ∀ j, j < 784 → |V₀ q j| ≤ 10 ^ 12) (hc : ∀ q, q < 100 → |cls₀ q| ≤ 10 ^ 12) :
    ∃ t' k' V cls, (kmSettings (mnistData N M px lab px' lab')).fit e (some k) = .ok (t', some k') ∧ HasRefs k' 100 784 V cls "L3" ∧
      (∀ q, q < 100 → ∀ j, j < 784 → |V q j| ≤ 10 ^ 12) ∧ (∀ q, q < 100 → |cls q| ≤ 10 ^ 12) ∧
      ((V = V₀ ∧ cls = cls₀) ∨
        kmRight 100 (sampleLoss e.eps "L3" 784) cls₀ V₀ M (pixels px') (fun i => ((lab'.getD i 0).val : ℝ)) < kmRight 100 (sampleLoss e.eps "L3" 784) cls V M (pixels px') (fun i => ((lab'.getD i 0).val : ℝ))) := by
  obtain ⟨t, ht⟩ : ∃ t, t = kmSettings (mnistData N M px lab px' lab') := ⟨_, rfl⟩
  have htr := kmSettings_train N M px lab px' lab'
  have htv := kmSettings_valid N M px lab px' lab'
  rw [← ht] at htr htv ⊢
  obtain ⟨V, cls, f1, f2, f3, -⟩ := C74_fit_partial hab (t := t) (by rw [ht]; exact (by decide : 0 < 1024)) hk ⟨by decide, by decide, fun h => absurd h (by decide)⟩ (by omega) (by omega) h.some.1 (pixels px)
    (fun i => ((lab.getD i 0).val : Int)) (fun i hi => by have := h.digits.1 i hi; omega) htr h.some.2 (.inr htv)
  have hV1 : ∀ i, i ≤ t.epochs.toNat → ∀ q, q < 100 → ∀ j, j < 784 → |V i q j| ≤ 1 := by
    intro i
    induction i with
    | zero =>
      intro _ q hq j _
      obtain ⟨e1, -⟩ := f1 q hq
      rw [e1]
      exact pixels_le px _ j
    | succ i ih => exact fun hi => (f2 i (by omega)).within (fun i _ j _ => pixels_le px i j) (ih (by omega))
  have hnear : ∀ (W : Nat → Row), (∀ q, q < 100 → ∀ j, j < 784 → |W q j| ≤ 10 ^ 12) → ∀ (K : Nat) (p : List Byte), KmNear 100 (sampleLoss e.eps "L3" 784) W K (pixels p) :=
    fun W hW K p i hi => ⟨0, by omega, cube_near (fun j _ => (pixels_le p i j).trans (by norm_num)) (hW 0 (by omega))⟩
  have hV' : ∀ i, i ≤ t.epochs.toNat → ∀ q, q < 100 → ∀ j, j < 784 → |V i q j| ≤ 10 ^ 12 := fun i hi q hq j hj => (hV1 i hi q hq j hj).trans (by norm_num)
  obtain ⟨t', k', q1, -, q3, -⟩ := f3 ⟨fun _ => hnear _ hV M px', fun i hi => ⟨hnear _ (hV' (i + 1) hi) N px, hnear _ (hV' (i + 1) hi) M px'⟩⟩
  obtain ⟨j, hj, q4, -, q5⟩ := q3 (by rw [ht]; rfl)
  rcases Nat.eq_zero_or_pos j with rfl | hj0
  · rw [if_pos rfl, if_pos rfl] at q4
    exact ⟨t', k', V₀, cls₀, q1, q4, hV, hc, .inl ⟨rfl, rfl⟩⟩
  · rw [if_neg (by omega), if_neg (by omega)] at q4
    refine ⟨t', k', V j, cls, q1, q4, hV' j hj, fun q hq => ?_, .inr ?_⟩
    · obtain ⟨p, hp, e2⟩ : ∃ p, p < N ∧ cls q = (((lab.getD p 0).val : Int) : ℝ) := ⟨_, Nat.mod_lt _ h.some.1, (f1 q hq).2⟩
      rw [e2]
      have := h.digits.1 p hp
      have h2 : ((lab.getD p 0).val : ℝ) < 10 := by exact_mod_cast this
      have h3 : (0 : ℝ) ≤ (lab.getD p 0).val := by positivity
      rw [Int.cast_natCast, abs_of_nonneg h3]
      linarith
    · have := q5 0 hj0
      rw [if_pos rfl, if_pos rfl, if_neg (by omega), if_neg (by omega)] at this
      exact this

/-- The program on a memory below `1e12`. -/
theorem kmProgram (r : RunEnv) {e : KmEnv} (hab : e.ab = fun x => |x|) {N M : Nat} {px lab px' lab' : List Byte} (h : MnistFiles r.files N M px lab px' lab')
    (hg : ∀ i, |r.g i| ≤ 10 ^ 12) :
    ∃ res V cls, kmeansMnist r e = .ok (some res) ∧ HasRefs res.km 100 784 V cls "L3" ∧ KmJudged V cls N (pixels px) (fun i => (lab.getD i 0).val) res.train ∧
      KmJudged V cls M (pixels px') (fun i => (lab'.getD i 0).val) res.val ∧ ((V = (fun q j => r.g (q * 784 + j)) ∧ cls = fun q => r.g q) ∨
        kmRight 100 (sampleLoss e.eps "L3" 784) (fun q => r.g q) (fun q j => r.g (q * 784 + j)) M (pixels px') (fun i => ((lab'.getD i 0).val : ℝ)) <
          kmRight 100 (sampleLoss e.eps "L3" 784) cls V M (pixels px') (fun i => ((lab'.getD i 0).val : ℝ))) := by
  obtain ⟨k, k1, k2⟩ := kmStart r e
  obtain ⟨t', k', V, cls, q1, q4, b1, b2, q5⟩ := kmFit hab h k2 (fun _ _ _ _ => hg _) (fun _ _ => hg _)
  obtain ⟨m, m1, m2⟩ := kmMeasure_ok r hab q4 b1 b2 h.some.1 (pixels px) (fun i _ j _ => pixels_le px i j) _ h.digits.1
  obtain ⟨m', n1, n2⟩ := kmMeasure_ok r hab q4 b1 b2 h.some.2 (pixels px') (fun i _ j _ => pixels_le px' i j) _ h.digits.2
  refine ⟨⟨k', m, m'⟩, V, cls, ?_, q4, m2, n2, q5⟩
  unfold kmeansMnist
  rw [mnist_load h, bind_ok']
  dsimp only
  rw [if_neg (by decide), k1, bind_ok', q1, bind_ok']
  dsimp only
  have e1 : kmMeasure r e k' (mnistData N M px lab px' lab').trainData (mnistData N M px lab px' lab').trainTruth = .ok m := m1
  have e2 : kmMeasure r e k' (mnistData N M px lab px' lab').valData (mnistData N M px lab px' lab').valTruth = .ok m' := n1
  rw [e1, bind_ok', e2, bind_ok']
  rfl

/-- C114: on MNIST files `sample_KMeans_MNIST` runs to the end and prints the accuracies of the references that it ends with.  What is missing: the content of uninitialised
memory must be below `1e12`. -/
theorem C114_runs_partial (r : RunEnv) {e : KmEnv} (hab : e.ab = fun x => |x|) {N M : Nat} {px lab px' lab' : List Byte} (h : MnistFiles r.files N M px lab px' lab')
    (hg : ∀ i, |r.g i| ≤ 10 ^ 12) :
    KmWorks (kmeansMnist r e) N M (fun i j => byteAt px (i * 784 + j) / 256) (fun i j => byteAt px' (i * 784 + j) / 256) (fun i => (lab.getD i 0).val) (fun i => (lab'.getD i 0).val) := by
  obtain ⟨res, V, cls, h1, h2, h3, h4, -⟩ := kmProgram r hab h hg
  exact ⟨res, V, cls, h1, h2, h3, h4⟩

/-- C114, the code disagrees: when the memory of the references holds `1e13` or more, the program ends in a failed assertion before training, on every MNIST data set. -/
theorem C114_memory_wrong (r : RunEnv) {e : KmEnv} (hab : e.ab = fun x => |x|) {N M : Nat} {px lab px' lab' : List Byte} (h : MnistFiles r.files N M px lab px' lab')
    {v : ℝ} (hv : 10 ^ 13 ≤ |v|) (hg : ∀ i, r.g i = v) : kmeansMnist r e = .error .assertFail := by
  obtain ⟨k, k1, k2⟩ := kmStart r e
  obtain ⟨t, ht⟩ : ∃ t, t = kmSettings (mnistData N M px lab px' lab') := ⟨_, rfl⟩
  have htr := kmSettings_train N M px lab px' lab'
  have htv := kmSettings_valid N M px lab px' lab'
  rw [← ht] at htr htv
  obtain ⟨V, cls, -, -, -, f⟩ := C74_fit_partial hab (t := t) (by rw [ht]; exact (by decide : 0 < 1024)) k2 ⟨by decide, by decide, fun h => absurd h (by decide)⟩ (by omega) (by omega) h.some.1 (pixels px)
    (fun i => ((lab.getD i 0).val : Int)) (fun i hi => by have := h.digits.1 i hi; omega) htr h.some.2 (.inr htv)
  have hf := f fun hh => by
    obtain ⟨q, -, hd⟩ := hh.1 (by rw [ht]; rfl) 0 h.some.2
    rw [show (fun q j => r.g (q * 784 + j)) q = (fun _ => v) from funext fun j => hg _] at hd
    exact absurd hd (not_lt.2 (cube_far (fun j _ => pixels_le px' 0 j) hv))
  unfold kmeansMnist
  rw [mnist_load h, bind_ok']
  dsimp only
  rw [if_neg (by decide), k1, bind_ok', ← ht, hf]
  rfl

/-- C114, the code disagrees: the program can train for ten epochs and then end with the content of uninitialised memory as its references: here when all validation images have
the same label and the memory holds that number everywhere. -/
theorem C114_untrained_wrong (r : RunEnv) {e : KmEnv} (hab : e.ab = fun x => |x|) {N M : Nat} {px lab px' lab' : List Byte} (h : MnistFiles r.files N M px lab px' lab')
    {d : Nat} (hd : ∀ i, i < M → (lab'.getD i 0).val = d) (hg : ∀ i, r.g i = d) :
    ∃ res, kmeansMnist r e = .ok (some res) ∧ res.km.refs = Mat.ofFn 100 784 (fun _ _ => (d : ℝ)) := by
  classical
  have hd10 : d < 10 := by
    rw [← hd 0 h.some.2]
    exact h.digits.2 0 h.some.2
  have hd' : |(d : ℝ)| ≤ 10 ^ 12 := by
    rw [Nat.abs_cast]
    have : (d : ℝ) < 10 := by exact_mod_cast hd10
    linarith
  obtain ⟨res, V, cls, h1, h2, -, -, h5⟩ := kmProgram r hab h (fun i => by rw [hg]; exact hd')
  refine ⟨res, h1, ?_⟩
  rcases h5 with ⟨rfl, -⟩ | h5
  · rw [h2.refs]
    exact Mat.ofFn_congr fun _ _ _ _ => hg _
  · exfalso
    have hfull : kmRight 100 (sampleLoss e.eps "L3" 784) (fun q => r.g q) (fun q j => r.g (q * 784 + j)) M (pixels px') (fun i => ((lab'.getD i 0).val : ℝ)) = M := by
      unfold kmRight
      rw [filter_true_of_mem fun i hi => ?_, card_range]
      obtain ⟨q, hq⟩ := exists_nearest (d := fun q => sampleLoss e.eps "L3" 784 (pixels px' i) ((fun q j => r.g (q * 784 + j)) q)) (n := 100) (q := 0) (by omega)
        (cube_near (eps := e.eps) (fun j _ => (pixels_le px' i j).trans (by norm_num)) (fun j _ => by dsimp only; rw [hg]; exact hd'))
      exact ⟨q, hq, by dsimp only; rw [hg, hd i (mem_range.1 hi)]⟩
    rw [hfull] at h5
    refine absurd h5 (not_lt.2 ?_)
    unfold kmRight
    exact (card_filter_le _ _).trans (card_range M).le

/-- C114: without one of the MNIST files, or with a file that has a wrong start, the program stops with the exit code -1 and does nothing else. -/
theorem C114_no_data (r : RunEnv) (e : KmEnv)
    (h : BadFile (r.files "./train-images.idx3-ubyte") ∨ BadFile (r.files "./train-labels.idx1-ubyte") ∨
      BadFile (r.files "./t10k-images.idx3-ubyte") ∨ BadFile (r.files "./t10k-labels.idx1-ubyte")) : kmeansMnist r e = .ok none := by
  obtain ⟨d, hd, -⟩ := C80_refused r.u r.g r.files "." (d := .new) ⟨rfl, rfl, rfl, rfl⟩ h
  unfold kmeansMnist
  rw [hd, bind_ok']
  rfl

/-- The hypotheses are met by the two images of Props/Samples and memory of zeros, of `1e13` and of the label 7. -/
example (u : Nat → Nat → Nat → Byte) (b : Nat → Env) (f : Trainer.FitEnv) (p : Nat → Nat → Env) :
    KmWorks (kmeansMnist ⟨twoImages, u, b, f, p, fun _ => 0, 0⟩ (kmRun 5)) 1 1 (fun i j => byteAt (List.replicate 784 0) (i * 784 + j) / 256)
      (fun i j => byteAt (List.replicate 784 0) (i * 784 + j) / 256) (fun i => (([3] : List Byte).getD i 0).val) (fun i => (([7] : List Byte).getD i 0).val) ∧
    kmeansMnist ⟨twoImages, u, b, f, p, fun _ => 10 ^ 13, 0⟩ (kmRun 5) = .error .assertFail ∧
    ∃ res, kmeansMnist ⟨twoImages, u, b, f, p, fun _ => (7 : Nat), 0⟩ (kmRun 5) = .ok (some res) ∧ res.km.refs = Mat.ofFn 100 784 (fun _ _ => ((7 : Nat) : ℝ)) :=
  ⟨C114_runs_partial ⟨twoImages, u, b, f, p, fun _ => 0, 0⟩ (e := kmRun 5) rfl twoImages_files (fun _ => by dsimp only; rw [abs_zero]; positivity),
   C114_memory_wrong ⟨twoImages, u, b, f, p, fun _ => 10 ^ 13, 0⟩ (e := kmRun 5) rfl twoImages_files (v := 10 ^ 13) (le_abs_self _) (fun _ => rfl),
   C114_untrained_wrong ⟨twoImages, u, b, f, p, fun _ => (7 : Nat), 0⟩ (e := kmRun 5) rfl twoImages_files (d := 7) (fun i hi => by
     obtain rfl : i = 0 := by omega
     rfl) (fun _ => rfl)⟩

end BeeDNN.Samples
