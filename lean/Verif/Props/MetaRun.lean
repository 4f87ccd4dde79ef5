import Verif.Lemmas.MetaRun

/-! # Runs of the meta-optimizer: C115 -/

namespace BeeDNN
open Meta

/-- C115: threads that run one after the other train to their end, for every number of threads and rounds, all variations that fit and all draws.
The network and its layers are as before, all other networks are deleted, and every round is as it should be (`RoundGood`).
Missing: in the program the threads run at the same time, without locks (`C115_race_wrong`). -/
theorem C115_alone_partial {w : World} {p : Trainer} {vs : List LayerVariation} {os : List OptVariation} {src n b depth : Nat} {form : Nat → Form} {N D : Nat} {x y : Nat → Row}
    (h : MetaSetup w p vs os src n b depth form N D x y) (eps : ℝ) {e : Nat → Nat → RunEnv} (he : ∀ i j, (e i j).fit.Exact) (repeats k : Nat) :
    ∃ w' p' rounds, fitAlone (fun x => |x|) eps vs os src n b repeats k e w p = .ok (w', p', rounds) ∧
      w'.nets src = w.nets src ∧ (∀ a ∈ (w.nets src).layers, w'.heap[a]? = w.heap[a]?) ∧ (w'.nets n).layers = [] ∧ (w'.nets b).layers = [] ∧ Owned w' ∧
      (∃ name lr opts, p' = { p with optName := name, lr := lr, opts := opts } ∧ Chosen p os name lr) ∧
      rounds.length = repeats ∧ ∀ q ∈ rounds, RoundGood (fun x => |x|) eps p (w.kinds src) vs os n k q := by
  obtain ⟨w', p', rounds, h1, h2, h3, h4, h5, -⟩ := fitAlone_ok h eps he repeats k
  exact ⟨w', p', rounds, h1, h2.net, h2.heap, h2.fresh.1, h2.fresh.2, h2.owned, h3, h4, h5⟩

/-- C115, the code disagrees: the first run does not train with any of the optimizers that the user registered, but with that of the trainer. -/
theorem C115_first_run_wrong {w : World} {p : Trainer} {vs : List LayerVariation} {os : List OptVariation} {src n b depth : Nat} {form : Nat → Form} {N D : Nat} {x y : Nat → Row}
    (h : MetaSetup w p vs os src n b depth form N D x y) (eps : ℝ) {e : Nat → Nat → RunEnv} (he : ∀ i j, (e i j).fit.Exact) (repeats k : Nat) :
    ∃ w' p' q qs r rs, fitAlone (fun x => |x|) eps vs os src n b (repeats + 1) (k + 1) e w p = .ok (w', p', q :: qs) ∧
      q.runs = r :: rs ∧ r.before.optName = p.optName ∧ r.before.lr = p.lr := by
  obtain ⟨w', p', rounds, h1, h2, h3, h4, h5, h6⟩ := fitAlone_ok h eps he (repeats + 1) (k + 1)
  cases hq : rounds with
  | nil => rw [hq] at h4; cases h4
  | cons q qs =>
    cases hr : q.runs with
    | nil =>
      have := (h5 q (by rw [hq]; exact List.mem_cons_self)).count
      rw [hr] at this
      cases this
    | cons r rs =>
      exact ⟨w', p', q, qs, r, rs, by rw [h1, hq], hr, h6 q (by rw [hq]; rfl) r (by rw [hr]; rfl)⟩

/-- C115, the code disagrees: when the runs of a round with at least two threads, the first of which reports an accuracy above -1 (all are), report at the same time, there is an
interleaving with a data race on the best accuracy, undefined in C++. -/
theorem C115_race_wrong {ab : ℝ → ℝ} {eps : ℝ} {p : Trainer} {ks : List (Option LayerKind)} {vs : List LayerVariation} {os : List OptVariation} {n k : Nat} {q : Round}
    (h : RoundGood ab eps p ks vs os n (k + 2) q) (he : 0 < p.epochs) (ha : ∀ r ∈ q.runs, ∀ a ∈ r.reports, -1 < a.1) (cb : Bool) :
    ∃ sched s, Meta.run cb sched (startRound (q.runs.map fun r => r.reports.map Prod.fst) []) = .ok s ∧ Conflict s := by
  have hl := h.count
  have h0 : 0 < q.runs.length := by omega
  have h1 : 1 < q.runs.length := by omega
  have ne : ∀ r ∈ q.runs, ∃ a l, r.reports = a :: l := fun r hr => by
    have := (h.runs r hr).epochs
    cases hr' : r.reports with
    | nil => rw [hr', List.length_nil] at this; omega
    | cons a l => exact ⟨a, l, rfl⟩
  obtain ⟨a, l, e1⟩ := ne _ (List.getElem_mem h0)
  obtain ⟨a', l', e2⟩ := ne _ (List.getElem_mem h1)
  exact C83_race cb (i := 0) (j := 1) (a := a.1) (r := l.map Prod.fst) (q := a'.1 :: l'.map Prod.fst) (by decide)
    (by rw [List.getElem?_map, List.getElem?_eq_getElem h0, Option.map_some, e1]; rfl)
    (by rw [List.getElem?_map, List.getElem?_eq_getElem h1, Option.map_some, e2]; rfl) (by simp)
    (ha _ (List.getElem_mem h0) a (by rw [e1]; simp))

end BeeDNN
