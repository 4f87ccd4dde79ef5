import Verif.Lemmas.Meta
import Verif.Props.Factory
import Verif.Props.Net
import Verif.Props.TrainSettings

/-!
# The meta-optimizer (MetaOptimizer.cpp)
-/

namespace BeeDNN
open Meta

/-! ## The best accuracy under interleaving -/

/-- C83 as claimed fails in the worst way: as soon as two threads report and one of them has something better than -1, there is an
interleaving with a data race on `_fBestAccuracy`, that is undefined behaviour. -/
theorem C83_race (cb : Bool) {reports : List (List ℝ)} {i j : Nat} {a : ℝ} {r q : List ℝ} (hij : i ≠ j) (hi : reports[i]? = some (a :: r))
    (hj : reports[j]? = some q) (hq : q ≠ []) (ha : -1 < a) : ∃ sched s, run cb sched (startRound reports []) = .ok s ∧ Conflict s := by
  have h1 : (startRound reports []).threads[i]? = some ⟨a :: r, .idle⟩ := by
    simp only [startRound, List.getElem?_map, hi, Option.map_some]
  have h2 : (startRound reports []).threads[j]? = some ⟨q, .idle⟩ := by
    simp only [startRound, List.getElem?_map, hj, Option.map_some]
  have hil : i < (startRound reports []).threads.length := by
    by_contra hc
    rw [List.getElem?_eq_none (not_lt.1 hc)] at h1
    cases h1
  have hs : step cb i (startRound reports []) = .ok { startRound reports [] with threads := (startRound reports []).threads.set i ⟨a :: r, .write⟩ } := by
    unfold step
    rw [h1]
    dsimp only
    rw [if_pos (show a > (startRound reports []).best from ha)]
  refine ⟨[i], _, by rw [run, hs, bind_ok', run], i, j, ⟨a :: r, .write⟩, ⟨q, .idle⟩, hij, ?_, ?_, ⟨by simp, rfl⟩, hq, .inr rfl⟩
  · exact List.getElem?_set_self hil
  · show ((startRound reports []).threads.set i ⟨a :: r, .write⟩)[j]? = _
    rw [List.getElem?_set_ne hij, h2]

/-- C83 as claimed fails even when the accesses are indivisible: of two threads the one with the lower accuracy may write last. -/
theorem C83_lost_update {a b : ℝ} (hb : -1 < b) (hab : b < a) :
    ∃ p q s s', run true p (startRound [[b], [a]] []) = .ok s ∧ s.best = a ∧ run true q s = .ok s' ∧ Done s' ∧ s'.best = b ∧ s'.best < maxOf [b, a] := by
  have h1 : run true [0, 1, 1] (startRound [[b], [a]] []) = .ok ⟨a, [⟨[b], .write⟩, ⟨[a], .call⟩], []⟩ := by
    simp only [run, startRound, step, List.map_cons, List.map_nil, List.getElem?_cons_zero, List.getElem?_cons_succ]
    rw [if_pos (show b > -1 from hb)]
    simp only [bind_ok', List.set_cons_zero, List.getElem?_cons_succ, List.getElem?_cons_zero, List.set_cons_succ]
    rw [if_pos (show a > -1 from hb.trans hab)]
    simp only [bind_ok', List.set_cons_zero, List.getElem?_cons_succ, List.getElem?_cons_zero, List.set_cons_succ]
  refine ⟨[0, 1, 1], [0, 0, 1], _, ⟨b, [⟨[], .idle⟩, ⟨[], .idle⟩], [(0, b), (1, a)]⟩, h1, rfl, ?_, ?_, rfl, ?_⟩
  · simp [run, step, bind_ok']
  · intro t ht
    simp at ht
    rw [ht]
  · have : maxOf [b, a] = a := maxOf_eq (hb.trans hab).le (by
      intro x hx
      simp only [List.mem_cons, List.not_mem_nil, or_false] at hx
      rcases hx with rfl | rfl
      · exact hab.le
      · exact le_refl _) (.inr (by simp))
    rw [this]
    exact hab

/-- C83: in every interleaving of any number of threads the recorded value is -1 or was reported, and the user's function is only
called for accuracies that the thread reported and that are above -1. -/
theorem C83_reported {cb : Bool} {reports : List (List ℝ)} {sched : List Nat} {s : Shared} (h : run cb sched (startRound reports []) = .ok s) :
    (s.best = -1 ∨ ∃ r ∈ reports, s.best ∈ r) ∧ ∀ p ∈ s.log, -1 < p.2 ∧ ∃ r, reports[p.1]? = some r ∧ p.2 ∈ r := by
  have := run_inv (P := Any reports) any_step sched (any_start reports) h
  exact ⟨this.best, this.log⟩

/-- C83 with a lock around `new_epoch` (the source says "todo add locks"): for any number of threads, any reports and any interleaving, the recorded value
never decreases, at the end it is the greatest accuracy reported (or -1), the user's function is called with increasing accuracies,
and the last call is for the best.
Missing: the code has no lock (`C83_race`, `C83_lost_update`). -/
theorem C83_locked_partial {cb : Bool} {reports : List (List ℝ)} {sched : List Nat} {s : Shared} (hl : Locked cb sched (startRound reports []))
    (h : run cb sched (startRound reports []) = .ok s) :
    (∀ p q s₁, sched = p ++ q → run cb p (startRound reports []) = .ok s₁ → s₁.best ≤ s.best) ∧
    (s.log.map Prod.snd).Pairwise (· < ·) ∧
    (Done s → s.best = maxOf reports.flatten ∧ (s.best = -1 ∨ s.best ∈ s.log.map Prod.snd)) := by
  obtain ⟨k, -⟩ := excl_run sched (excl_start reports) hl h
  refine ⟨?_, k.inc, ?_⟩
  · rintro p q s₁ rfl h1
    obtain ⟨l1, l2⟩ := locked_prefix (s1 := s₁) p q hl
    obtain ⟨k1, -⟩ := excl_run p (excl_start reports) l1 h1
    rw [run_append, h1] at h
    exact (excl_run q k1 (l2 h1) h).2
  · intro hd
    have htodo : ∀ (i : Nat) (t : Thread), s.threads[i]? = some t → t.todo = [] := fun i t ht => hd t (List.mem_of_getElem? ht)
    refine ⟨(maxOf_eq k.any.low ?_ ?_).symm, ?_⟩
    · intro x hx
      rw [List.mem_flatten] at hx
      obtain ⟨r, hr, hx⟩ := hx
      obtain ⟨i, hi, rfl⟩ := List.getElem_of_mem hr
      have hi' : i < s.threads.length := by rw [k.len]; exact hi
      obtain ⟨d, hd1, hd2⟩ := k.done i _ (List.getElem?_eq_getElem hi')
      rw [htodo i _ (List.getElem?_eq_getElem hi'), List.append_nil, List.getElem?_eq_getElem hi] at hd1
      injection hd1 with hd1
      exact hd2 x (hd1 ▸ hx)
    · rcases k.any.best with h | ⟨r, hr, h⟩
      · exact .inl h
      · exact .inr (List.mem_flatten.2 ⟨r, hr, h⟩)
    · rcases k.last with h | h | ⟨i, t, r, ht, _, h⟩
      · exact .inl h
      · exact .inr h
      · rw [htodo i t ht] at h
        cases h

/-- Two threads, one after the other. -/
example : Locked true [0, 0, 0, 1, 1, 1] (startRound [[1 / 4], [1 / 2]] []) ∧
    ∃ s, run true [0, 0, 0, 1, 1, 1] (startRound [[1 / 4], [1 / 2]] []) = .ok s ∧ Done s ∧ s.best = 1 / 2 := by
  have e0 : step true 0 (startRound [[1 / 4], [1 / 2]] []) = .ok ⟨-1, [⟨[1 / 4], .write⟩, ⟨[1 / 2], .idle⟩], []⟩ := by
    simp [step, startRound]; norm_num
  have e1 : step true 0 ⟨-1, [⟨[1 / 4], .write⟩, ⟨[1 / 2], .idle⟩], []⟩ = .ok ⟨1 / 4, [⟨[1 / 4], .call⟩, ⟨[1 / 2], .idle⟩], []⟩ := by simp [step]
  have e2 : step true 0 ⟨1 / 4, [⟨[1 / 4], .call⟩, ⟨[1 / 2], .idle⟩], []⟩ = .ok ⟨1 / 4, [⟨[], .idle⟩, ⟨[1 / 2], .idle⟩], [(0, 1 / 4)]⟩ := by simp [step]
  have e3 : step true 1 ⟨1 / 4, [⟨[], .idle⟩, ⟨[1 / 2], .idle⟩], [(0, 1 / 4)]⟩ = .ok ⟨1 / 4, [⟨[], .idle⟩, ⟨[1 / 2], .write⟩], [(0, 1 / 4)]⟩ := by
    simp [step]; norm_num
  have e4 : step true 1 ⟨1 / 4, [⟨[], .idle⟩, ⟨[1 / 2], .write⟩], [(0, 1 / 4)]⟩ = .ok ⟨1 / 2, [⟨[], .idle⟩, ⟨[1 / 2], .call⟩], [(0, 1 / 4)]⟩ := by simp [step]
  have e5 : step true 1 ⟨1 / 2, [⟨[], .idle⟩, ⟨[1 / 2], .call⟩], [(0, 1 / 4)]⟩ = .ok ⟨1 / 2, [⟨[], .idle⟩, ⟨[], .idle⟩], [(0, 1 / 4), (1, 1 / 2)]⟩ := by simp [step]
  have two : ∀ {i : Nat} {x y : Thread}, (i = 0 → y.pc = .idle) → (i = 1 → x.pc = .idle) → (i = 0 ∨ i = 1) →
      ∀ (j : Nat) (t : Thread), j ≠ i → [x, y][j]? = some t → t.pc = .idle := by
    intro i x y h0 h1 hi j t hj ht
    match j, ht with
    | 0, ht => injection ht with ht; rw [← ht]; exact h1 (by omega)
    | 1, ht => injection ht with ht; rw [← ht]; exact h0 (by omega)
    | k + 2, ht => cases ht
  refine ⟨⟨two (by simp) (by simp) (by simp), fun s h => ?_⟩, _, by simp only [run, e0, e1, e2, e3, e4, e5, bind_ok']; rfl, ?_, rfl⟩
  · rw [e0] at h; injection h with h; subst h
    refine ⟨two (by simp) (by simp) (by simp), fun s h => ?_⟩
    rw [e1] at h; injection h with h; subst h
    refine ⟨two (by simp) (by simp) (by simp), fun s h => ?_⟩
    rw [e2] at h; injection h with h; subst h
    refine ⟨two (by simp) (by simp) (by simp), fun s h => ?_⟩
    rw [e3] at h; injection h with h; subst h
    refine ⟨two (by simp) (by simp) (by simp), fun s h => ?_⟩
    rw [e4] at h; injection h with h; subst h
    exact ⟨two (by simp) (by simp) (by simp), fun s h => trivial⟩
  · intro t ht
    simp at ht
    rw [ht]

/-- C83 with one thread (`set_nb_thread(1)`): the recorded value never decreases, at the end it is the greatest accuracy reported (or -1), and the user's function
was called once for every report that was better than all before, in this order. -/
theorem C83_one_thread {cb : Bool} {r : List ℝ} {sched : List Nat} {s : Shared} (h : run cb sched (startRound [r] []) = .ok s) :
    (∀ p q s₁, sched = p ++ q → run cb p (startRound [r] []) = .ok s₁ → s₁.best ≤ s.best) ∧
    (Done s → s.best = maxOf r ∧ s.log.map Prod.snd = recordsFrom (-1) r) := by
  refine ⟨?_, ?_⟩
  · rintro p q s₁ rfl h1
    rw [run_append, h1] at h
    exact one_mono q (run_inv one_step p (one_start r) h1) h
  · intro hd
    obtain ⟨t, h1, h2, _, h4, _, h6⟩ := run_inv one_step sched (one_start r) h
    have ht : t.todo = [] := hd t (by rw [h1]; simp)
    have hp := h4 ht
    rw [ht] at h6
    refine ⟨h6, ?_⟩
    rw [← h2]
    unfold Thread.future
    rw [hp, ht]
    simp [recordsFrom]

/-- C83 as claimed fails across repetitions: every repetition forgets the best accuracy, so that the user's function is called for a model that is
worse than the best one before, and the value at the end is that of the last repetition. -/
theorem C83_repeat {a b : ℝ} (hb : -1 < b) (hab : b < a) :
    ∃ s s', run true [0, 0, 0] (startRound [[a]] []) = .ok s ∧ Done s ∧ run true [0, 0, 0] (startRound [[b]] s.log) = .ok s' ∧ Done s' ∧
      s'.best = b ∧ s'.log = [(0, a), (0, b)] := by
  have key : ∀ (x : ℝ) (l : List (Nat × ℝ)), -1 < x → run true [0, 0, 0] (startRound [[x]] l) = .ok ⟨x, [⟨[], .idle⟩], l ++ [(0, x)]⟩ := by
    intro x l hx
    simp only [run, startRound, step, List.map_cons, List.map_nil, List.getElem?_cons_zero]
    rw [if_pos (show x > -1 from hx)]
    simp [bind_ok']
  refine ⟨_, _, key a [] (hb.trans hab), ?_, key b _ hb, ?_, rfl, rfl⟩
  · intro t ht
    simp at ht
    rw [ht]
  · intro t ht
    simp at ht
    rw [ht]

/-- C83: without validation data every report is 0 (NetTrain.cpp:437): only the first epoch counts, the user never gets a trained model. -/
theorem C83_no_validation {cb : Bool} {k : Nat} {sched : List Nat} {s : Shared} (h : run cb sched (startRound [List.replicate (k + 1) 0] []) = .ok s) (hd : Done s) :
    s.log.map Prod.snd = [0] := by
  rw [((C83_one_thread h).2 hd).2]
  have : ∀ k, recordsFrom 0 (List.replicate k 0) = [] := by
    intro k
    induction k with
    | zero => rfl
    | succ k ih => rw [List.replicate_succ, recordsFrom, if_neg (lt_irrefl _), ih]
  rw [List.replicate_succ, recordsFrom, if_pos (by norm_num), this]

/-- C83: when the user did not set a function, the first report above -1 ends the program. -/
theorem C83_no_callback {reports : List (List ℝ)} {i : Nat} {a : ℝ} {r : List ℝ} (hi : reports[i]? = some (a :: r)) (ha : -1 < a) :
    run false [i, i, i] (startRound reports []) = .error .exception := by
  have h1 : (startRound reports []).threads[i]? = some ⟨a :: r, .idle⟩ := by
    simp only [startRound, List.getElem?_map, hi, Option.map_some]
  have hil : i < (startRound reports []).threads.length := by
    by_contra hc
    rw [List.getElem?_eq_none (not_lt.1 hc)] at h1
    cases h1
  have hs : step false i (startRound reports []) = .ok { startRound reports [] with threads := (startRound reports []).threads.set i ⟨a :: r, .write⟩ } := by
    unfold step
    rw [h1]
    dsimp only
    rw [if_pos (show a > (startRound reports []).best from ha)]
  rw [run, hs, bind_ok', run]
  have hs2 : step false i { startRound reports [] with threads := (startRound reports []).threads.set i ⟨a :: r, .write⟩ } =
      .ok { startRound reports [] with best := a, threads := ((startRound reports []).threads.set i ⟨a :: r, .write⟩).set i ⟨a :: r, .call⟩ } := by
    unfold step
    dsimp only
    rw [List.getElem?_set_self hil]
  rw [hs2, bind_ok', run]
  have hs3 : step false i { startRound reports [] with best := a, threads := ((startRound reports []).threads.set i ⟨a :: r, .write⟩).set i ⟨a :: r, .call⟩ } =
      .error .exception := by
    unfold step
    dsimp only
    rw [List.getElem?_set_self (by rw [List.length_set]; exact hil)]
    rfl
  rw [hs3]
  rfl

/-- C83: the number of threads: what was asked for; for 0 what the library tells, which may be 0, and then nothing is trained. -/
theorem C83_threads (k : Int) (hw : Nat) :
    (0 < k → nbThreads k hw = .ok k.toNat) ∧ nbThreads 0 hw = .ok hw ∧ (k < 0 → nbThreads k hw = .error .exception) ∧ Done (startRound [] []) := by
  refine ⟨fun h => ?_, rfl, fun h => ?_, by simp [Done, startRound]⟩
  · unfold nbThreads
    rw [if_neg (by omega), if_neg (by omega)]
  · unfold nbThreads
    rw [if_neg (by omega), if_pos h]

/-! ## Variations -/

/-- C84: the layers after the variation: their number is that before, each is either the original object, unchanged, or a new one that the factory made
from a variation registered for this place; no other network is touched.
Missing: the optimizer (`C84_optimizer_unused`). -/
theorem C84_layers_partial {e : Nat → Env} {d : Nat → Nat} {vs : List LayerVariation} {n : Nat} {w w' : World} (ho : Owned w)
    (h : varyLayers e d vs n w = .ok w') :
    (w'.nets n).layers.length = (w.nets n).layers.length ∧
    (∀ i a, (w.nets n).layers[i]? = some a → ∃ a', (w'.nets n).layers[i]? = some a' ∧
      ((a' = a ∧ w'.heap[a]? = w.heap[a]?) ∨ ∃ l, Made vs i l ∧ w'.heap[a']? = some (some l))) ∧
    (∀ m, m ≠ n → w'.nets m = w.nets m ∧ ∀ a ∈ (w.nets m).layers, w'.heap[a]? = w.heap[a]?) ∧ Owned w' := by
  obtain ⟨h1, h2, h3, -⟩ := vary_prefix ho _ (le_refl _) h
  refine ⟨h2, ?_, fun m hm => ⟨h1.nets m hm, h1.layers m hm⟩, h1.owned⟩
  intro i a ha
  obtain ⟨b, a', v1, v2, v3⟩ := h3 i (List.getElem?_eq_some_iff.1 ha).1
  rw [ha] at v1
  injection v1 with v1
  subst v1
  refine ⟨a', v2, ?_⟩
  cases hc : choice vs i (d i) with
  | none =>
    rw [hc] at v3
    exact .inl v3
  | some v =>
    rw [hc] at v3
    obtain ⟨l, hl, v4⟩ := v3
    have hm := (varyLayer_some (e := e i) (n := n) (w := w) hc).1
    exact .inr ⟨l, ⟨v, hm.1, hm.2, e i, hl⟩, v4⟩

/-- C84: which one it is: the choice of the draw. -/
theorem C84_choice {e : Nat → Env} {d : Nat → Nat} {vs : List LayerVariation} {n : Nat} {w w' : World} (ho : Owned w) (h : varyLayers e d vs n w = .ok w')
    {i : Nat} (hi : i < (w.nets n).layers.length) : Varied e d vs n w w' i := (vary_prefix ho _ (le_refl _) h).2.2.1 i hi

/-- C84: every registered variation and the original can be drawn. -/
theorem C84_reachable (vs : List LayerVariation) (i : Nat) :
    (∃ d, choice vs i d = none) ∧ ∀ v ∈ vs, v.iLayer = (i : Int) → ∃ d, choice vs i d = some v := by
  refine ⟨⟨0, by unfold choice; rw [if_pos (Nat.zero_mod _)]⟩, ?_⟩
  intro v hv hi
  have hm : v ∈ vs.filter (fun v => v.iLayer = (i : Int)) := List.mem_filter.2 ⟨hv, by simpa using hi⟩
  obtain ⟨j, hj, hv⟩ := List.getElem_of_mem hm
  refine ⟨j + 1, ?_⟩
  unfold choice
  have : (j + 1) % ((vs.filter (fun v => v.iLayer = (i : Int))).length + 1) = j + 1 := Nat.mod_eq_of_lt (by omega)
  rw [this, if_neg (by omega), Nat.add_sub_cancel, List.getElem?_eq_getElem hj, hv]

/-- C84: without variations for the layers of the network nothing happens. -/
theorem C84_none {e : Nat → Env} {d : Nat → Nat} {vs : List LayerVariation} {n : Nat} {w : World} (h : ∀ v ∈ vs, v.iLayer < 0 ∨ ((w.nets n).layers.length : Int) ≤ v.iLayer) :
    varyLayers e d vs n w = .ok w := by
  unfold varyLayers
  refine forN_closed' (fun _ => w) rfl rfl ?_
  intro i hi
  have hc : choice vs i (d i) = none := by
    unfold choice
    have : vs.filter (fun v => v.iLayer = (i : Int)) = [] := by
      rw [List.filter_eq_nil_iff]
      intro v hv
      have := h v hv
      simp
      omega
    rw [this]
    simp
  exact (varyLayer_none hc).1

/-- C84: when the factory makes a layer of every variation, the choice never fails. -/
theorem C84_ok {e : Nat → Env} {d : Nat → Nat} {vs : List LayerVariation} {n : Nat} {w : World} (ho : Owned w)
    (hv : ∀ v ∈ vs, ∀ e, ∃ l, Factory.create e v.sType v.a1 v.a2 v.a3 v.a4 v.a5 = .ok l) : ∃ w', varyLayers e d vs n w = .ok w' := by
  unfold varyLayers
  obtain ⟨w', h1, -⟩ := forN_inv (P := fun _ w' => Owned w' ∧ (w'.nets n).layers.length = (w.nets n).layers.length)
    (n := (w.nets n).layers.length) (f := fun i w => varyLayer (e i) (d i) vs n i w) (s := w) ⟨ho, rfl⟩ (by
      rintro i hi s ⟨hs1, hs2⟩
      cases hc : choice vs i (d i) with
      | none => exact ⟨s, (varyLayer_none hc).1, hs1, hs2⟩
      | some v =>
        obtain ⟨⟨k1, k2⟩, k3⟩ := varyLayer_some (e := e i) (n := n) (w := s) hc
        obtain ⟨l, hl⟩ := hv v k1 (e i)
        obtain ⟨s', r1, r2, r3, -⟩ := replace_eq hs1 (l := l) (by omega : i < (s.nets n).layers.length)
        refine ⟨s', by rw [k3, hl, bind_ok', r1], r2.owned, by rw [r3, List.length_set, hs2]⟩)
  exact ⟨w', h1⟩

/-- Two layers and a variation of each. -/
example (e : Nat → Env) (d : Nat → Nat) : ∃ w', varyLayers e d [⟨0, "Dot", 2, 1, 0, 0, 0⟩, ⟨1, "Tanh", 0, 0, 0, 0, 0⟩] 0 netWitness = .ok w' := by
  refine C84_ok netWitness_owned ?_
  intro v hv e
  simp only [List.mem_cons, List.not_mem_nil, or_false] at hv
  rcases hv with rfl | rfl
  · obtain ⟨l, h, _⟩ := C86_create (s := "Dot") (k := 2) (f := fun i o _ _ => .dot i o)
      (by unfold Factory.table; exact List.mem_cons_of_mem _ List.mem_cons_self) e
      (a := fun i => if i = 0 then 2 else if i = 1 then 1 else 0) (n := fun i => if i = 0 then 2 else 1) (by
        intro i hi
        match i, hi with
        | 0, _ => simp only [Factory.Size]; norm_num
        | 1, _ => simp only [Factory.Size]; norm_num)
    exact ⟨l, by simpa using h⟩
  · obtain ⟨l, _, h, _⟩ := C86_activation (s := "Tanh") (by decide +kernel) e 0 0 0 0 0
    exact ⟨l, h⟩

/-- C84: drawing a variation that the factory cannot make is a fault. -/
theorem C84_bad {e : Nat → Env} {d : Nat → Nat} {vs : List LayerVariation} {n i : Nat} {w : World} (ho : Owned w) (hi : i < (w.nets n).layers.length)
    {v : LayerVariation} (hc : choice vs i (d i) = some v) (h1 : v.sType ∉ Factory.names) (h2 : v.sType ∉ availableActivations) :
    ∃ f, varyLayers e d vs n w = .error f := by
  cases h : varyLayers e d vs n w with
  | error f => exact ⟨f, rfl⟩
  | ok w' =>
    obtain ⟨_, _, _, _, h3⟩ := C84_choice ho h hi
    rw [hc] at h3
    obtain ⟨l, h3, _⟩ := h3
    rw [C86_unknown h1 h2] at h3
    cases h3

/-- C84 as claimed fails: the optimizer that is drawn is written to the shared trainer after the run has taken its copy.  Whatever the variations
and draws are, the run trains with the optimizer and learning rate that the shared trainer had before. -/
theorem C84_optimizer_unused {ab : ℝ → ℝ} {eps : ℝ} {e : RunEnv} {vs : List LayerVariation} {os : List OptVariation} {w w' : World} {p p' t : Trainer} {src n : Nat}
    (hp : p.Built) (h : prepare ab eps e vs os w p src n = .ok (w', t, p')) : t.optName = p.optName ∧ t.lr = p.lr := by
  unfold prepare at h
  obtain ⟨w1, _, h⟩ := ok_bind h
  obtain ⟨t1, h1, h⟩ := ok_bind h
  obtain ⟨w2, _, h⟩ := ok_bind h
  obtain ⟨p1, _, h⟩ := ok_bind h
  injection h with h
  injection h with _ h
  injection h with h _
  obtain ⟨t', k1, _, _, _, _, _, _, _, _, k2, k3, _⟩ := C58_copy_partial e.fit.g ab eps {} p hp
  rw [h1] at k1
  injection k1 with k1
  rw [← h, k1]
  exact ⟨k2, k3⟩

/-- C84: the draw is written to the trainer that the user passed: its optimizer and learning rate become those of one of the variations. -/
theorem C84_optimizer_shared {ab : ℝ → ℝ} {eps : ℝ} {e : RunEnv} {vs : List LayerVariation} {os : List OptVariation} {w w' : World} {p p' t : Trainer} {src n : Nat}
    (h : prepare ab eps e vs os w p src n = .ok (w', t, p')) :
    (os = [] → p' = p) ∧ (os ≠ [] → ∃ o ∈ os, os[e.drawOpt % os.length]? = some o ∧ p'.optName = o.name ∧ p'.lr = o.lr) := by
  unfold prepare at h
  obtain ⟨w1, _, h⟩ := ok_bind h
  obtain ⟨t1, h1, h⟩ := ok_bind h
  obtain ⟨w2, _, h⟩ := ok_bind h
  obtain ⟨p1, h2, h⟩ := ok_bind h
  injection h with h
  injection h with _ h
  injection h with _ h
  subst h
  unfold varyOptimizer at h2
  refine ⟨?_, ?_⟩
  · rintro rfl
    rw [if_neg (by simp)] at h2
    injection h2 with h2
    exact h2.symm
  · intro hne
    rw [if_pos (by simpa using hne)] at h2
    split at h2
    · cases h2
    · rename_i o ho
      injection h2 with h2
      rw [← h2]
      exact ⟨o, List.mem_of_getElem? ho, ho, rfl, rfl⟩

/-- C84: so a run trains with the optimizer that was drawn for the run before. -/
theorem C84_optimizer_late {ab : ℝ → ℝ} {eps : ℝ} {e e' : RunEnv} {vs vs' : List LayerVariation} {os os' : List OptVariation} {w w' w₁ w₂ : World} {p p' p₂ t t' : Trainer}
    {src n src' n' : Nat} (hp : p.Built) (h : prepare ab eps e vs os w p src n = .ok (w', t, p')) (h' : prepare ab eps e' vs' os' w₁ p' src' n' = .ok (w₂, t', p₂))
    (hne : os ≠ []) : ∃ o, os[e.drawOpt % os.length]? = some o ∧ t'.optName = o.name ∧ t'.lr = o.lr := by
  obtain ⟨o, _, h1, h2, h3⟩ := (C84_optimizer_shared h).2 hne
  have hb : p'.Built := by
    unfold prepare at h
    obtain ⟨_, _, h⟩ := ok_bind h
    obtain ⟨_, _, h⟩ := ok_bind h
    obtain ⟨_, _, h⟩ := ok_bind h
    obtain ⟨p1, hv, h⟩ := ok_bind h
    injection h with h
    injection h with _ h
    injection h with _ h
    subst h
    clear h1 h2 h3
    unfold varyOptimizer at hv
    split at hv
    · split at hv
      · cases hv
      · injection hv with hv
        rw [← hv]
        exact .other hp rfl rfl
    · injection hv with hv
      rw [← hv]
      exact hp
  obtain ⟨k1, k2⟩ := C84_optimizer_unused hb h'
  exact ⟨o, h1, k1.trans h2, k2.trans h3⟩

/-- The preparation succeeds: network 0 of the example, copied to place 1, with a variation of a layer and one of the optimizer. -/
example (ab : ℝ → ℝ) (eps : ℝ) (e : RunEnv) :
    ∃ w t p, prepare ab eps e [⟨1, "Tanh", 0, 0, 0, 0, 0⟩] [⟨"SGD", 1⟩] netWitness {} 0 1 = .ok (w, t, p) ∧ t.optName = "Adam" ∧ p.optName = "SGD" := by
  obtain ⟨φ, hφ⟩ := netWitness_fn
  obtain ⟨w1, h1, _, _, _, _, _, _, _, _, ho⟩ := C48_assign e.copy netWitness netWitness_owned 1 0 (by decide) netWitness_valid 2 1 φ hφ
  obtain ⟨t, h2, _⟩ := C58_copy_partial e.fit.g ab eps {} {} .new
  obtain ⟨w2, h3⟩ := C84_ok (e := e.make) (d := e.draw) (vs := [⟨1, "Tanh", 0, 0, 0, 0, 0⟩]) (n := 1) ho (by
    intro v hv e
    rw [List.mem_singleton] at hv
    subst hv
    obtain ⟨l, _, h, _⟩ := C86_activation (s := "Tanh") (by decide +kernel) e 0 0 0 0 0
    exact ⟨l, h⟩)
  have h4 : varyOptimizer e.fit.g e.drawOpt [⟨"SGD", 1⟩] {} = .ok ((Trainer.setOptimizer {} "SGD").setLearningRate e.fit.g 1) := by
    unfold varyOptimizer
    rw [if_pos (by simp)]
    simp [Nat.mod_one]
  have hr : prepare ab eps e [⟨1, "Tanh", 0, 0, 0, 0, 0⟩] [⟨"SGD", 1⟩] netWitness {} 0 1 =
      .ok (w2, t, (Trainer.setOptimizer {} "SGD").setLearningRate e.fit.g 1) := by
    unfold prepare
    rw [h1, bind_ok', h2, bind_ok', h3, bind_ok', h4, bind_ok']
    rfl
  exact ⟨_, _, _, hr, (C84_optimizer_unused .new hr).1, rfl⟩

end BeeDNN
