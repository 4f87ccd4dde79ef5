import Verif.Lemmas.TrainSchedule

/-! # Training: a batch reaches only live layers -/

namespace BeeDNN
open HasWF

namespace Mat
variable {α : Type}

theorem setI_rows {m m' : Mat α} {i : Nat} {x : α} (h : m.setI i x = .ok m') : m'.rows = m.rows := by
  unfold setI at h
  obtain ⟨_, _, h⟩ := ok_bind h
  obtain ⟨_, _, h⟩ := ok_bind h
  injection h with h
  rw [← h]

theorem setRaw_rows {m m' : Mat α} {i : Nat} {x : α} (h : m.setRaw i x = .ok m') : m'.rows = m.rows := by
  unfold setRaw at h
  obtain ⟨_, _, h⟩ := ok_bind h
  injection h with h
  rw [← h]

theorem resize_rows (g : Nat → α) (m : Mat α) (r c : Nat) : (m.resize g r c).rows = r := by
  unfold resize
  split
  · rename_i h
    exact h.2.symm
  · split <;> rfl

theorem assign_rows {g : Nat → α} {m b m' : Mat α} (h : m.assign g b = .ok m') : m'.rows = b.rows := by
  unfold assign at h
  refine forN_ok_inv (P := fun q : Mat α => q.rows = b.rows) ?_ (resize_rows g m b.rows b.cols) h
  intro i q q' hq h
  obtain ⟨x, _, h⟩ := ok_bind h
  exact (setI_rows h).trans hq

theorem applyRowPermutation_rows {g : Nat → α} {p : List Nat} {m o m' : Mat α} (h : m.applyRowPermutation g p o = .ok m') : m'.rows = m.rows := by
  unfold applyRowPermutation at h
  obtain ⟨_, _, h⟩ := ok_bind h
  refine forN_ok_inv (P := fun q : Mat α => q.rows = m.rows) ?_ (resize_rows g o m.rows m.cols) h
  intro i q q' hq h
  obtain ⟨ip, _, h⟩ := ok_bind h
  obtain ⟨_, _, h⟩ := ok_bind h
  refine forN_ok_inv (P := fun q : Mat α => q.rows = m.rows) ?_ hq h
  intro j q q' hq h
  obtain ⟨x, _, h⟩ := ok_bind h
  exact (setRaw_rows h).trans hq

end Mat

namespace Trainer

theorem epochData_rows {g : Nat → ℝ} {perm : Nat → Nat} {sh : Bool} {x y x' y' : Mat ℝ} (h : epochData g perm sh x y = .ok (x', y')) : x'.rows = x.rows := by
  unfold epochData at h
  split at h
  · obtain ⟨p, -, h⟩ := ok_bind h
    obtain ⟨x₁, h1, h⟩ := ok_bind h
    obtain ⟨y₁, -, h⟩ := ok_bind h
    injection h with h
    injection h with e1 _
    subst e1
    exact Mat.applyRowPermutation_rows h1
  · obtain ⟨x₁, h1, h⟩ := ok_bind h
    obtain ⟨y₁, -, h⟩ := ok_bind h
    injection h with h
    injection h with e1 _
    subst e1
    exact Mat.assign_rows h1

theorem optStep_live {g : Nat → ℝ} {ab : ℝ → ℝ} {r : Option Reg} {b : Bool} {a a' : Nat} {o o' : Opt ℝ} {w w' : World} {as : List Nat}
    (hv : AllValid w as) (h1 : ∀ l, w.heap[a]? = some (some l) → a ∈ as ∧ uses b l.kind = true)
    (h2 : ∀ l, w.heap[a']? = some (some l) → a' ∈ as) (h : optStep g ab r b a a' o w = .ok (w', o')) : ∃ l, w.heap[a]? = some (some l) := by
  obtain ⟨w₁, hr, h⟩ := ok_bind h
  have e1 := regStep_inv hv h1 h2 hr
  obtain ⟨l, hl, h⟩ := ok_bind h
  obtain ⟨l₀, k1, -⟩ := e1.keep a l (World.deref_inv hl)
  exact ⟨l₀, k1⟩

theorem optLoop_live {e : Nat → Env} {ab : ℝ → ℝ} {r : Option Reg} {b : Bool} {ps gs : List Nat} {off : Nat}
    {s s' : World × List (Opt ℝ)} {as : List Nat} (hv : AllValid s.1 as) (ho : wf s.2) (hp : PtrOk b s.1 as ps)
    (hg : ∀ a ∈ gs, ∀ l, s.1.heap[a]? = some (some l) → a ∈ as) (h : optLoop e ab r b ps gs off s = .ok s') :
    ∀ a ∈ ps, ∃ l, s.1.heap[a]? = some (some l) := by
  have key := forN_ok_idx (P := fun i (q : World × List (Opt ℝ)) => Evolve as s.1 q.1 ∧ wf q.2 ∧
      ∀ j a, j < i → ps[j]? = some a → ∃ l, s.1.heap[a]? = some (some l)) (fun i q q' hq h => by
    obtain ⟨w, os⟩ := q
    obtain ⟨h1, h2, h3⟩ := hq
    obtain ⟨a, ha, h⟩ := ok_bind h
    obtain ⟨a', ha', h⟩ := ok_bind h
    obtain ⟨o, hoo, h⟩ := ok_bind h
    obtain ⟨⟨w₁, o₁⟩, hs, h⟩ := ok_bind h
    obtain ⟨os₁, hos, h⟩ := ok_bind h
    injection h with h
    subst h
    have c1 : ∀ l, w.heap[a]? = some (some l) → a ∈ as ∧ uses b l.kind = true := fun l hl => (hp.evolve h1 a (rd_mem ha)).2 l hl
    have c2 : ∀ l, w.heap[a']? = some (some l) → a' ∈ as := fun l hl => by
      obtain ⟨l₀, c1, -⟩ := h1.keep a' l hl
      exact hg a' (rd_mem ha') l₀ c1
    obtain ⟨k1, k2, -⟩ := optStep_inv (as := as) (hv.evolve h1) (h2 o (rd_mem hoo)) c1 c2 hs
    refine ⟨h1.trans k1, wr_wf h2 k2 hos, fun j c hj hc => ?_⟩
    by_cases hji : j < i
    · exact h3 j c hji hc
    · obtain rfl : j = i := by omega
      rw [rd_inv ha] at hc
      injection hc with hc
      subst hc
      obtain ⟨l, hl⟩ := optStep_live (hv.evolve h1) c1 c2 hs
      obtain ⟨l₀, d1, -⟩ := h1.keep a l hl
      exact ⟨l₀, d1⟩) ⟨Evolve.refl _ _, ho, fun j a hj => absurd hj (Nat.not_lt_zero j)⟩ h
  intro a ha
  obtain ⟨j, hj⟩ := List.getElem?_of_mem ha
  exact key.2.2 j a (List.getElem?_eq_some_iff.1 hj).1 hj

/-- All parameters that the trainer points to are in live layers. -/
def Live (t : Trainer) (w : World) : Prop := ∀ a ∈ t.pWeights ++ t.pBiases, ∃ l, w.heap[a]? = some (some l)

theorem trainBatch_live {ab : ℝ → ℝ} {eps : ℝ} {e : Nat → Nat → Env} {w w' : World} {t t' : Trainer} {x y : Mat ℝ} {n : Nat}
    (hn : t.net = some n) (hv : AllValid w (w.nets n).layers) (ht : t.Ok) (hp : t.Ptrs w (w.nets n).layers)
    (h : trainBatch ab eps e w t x y = .ok (w', t')) : t.Live w := by
  unfold trainBatch at h
  rw [hn] at h
  dsimp only at h
  obtain ⟨x0, hx0, h⟩ := ok_bind h
  obtain ⟨x1, hx1, h⟩ := ok_bind h
  obtain ⟨io, hio, h⟩ := ok_bind h
  obtain ⟨⟨w₁, io₁⟩, hf, h⟩ := ok_bind h
  obtain ⟨p, hpp, h⟩ := ok_bind h
  obtain ⟨g0, hg0, h⟩ := ok_bind h
  obtain ⟨g1, hg1, h⟩ := ok_bind h
  obtain ⟨gs, hgs, h⟩ := ok_bind h
  obtain ⟨⟨w₂, gs₁⟩, hb, h⟩ := ok_bind h
  obtain ⟨⟨w₃, os⟩, ho1, h⟩ := ok_bind h
  obtain ⟨⟨w₄, os₁⟩, ho2, h⟩ := ok_bind h
  have k0 : wf io := wr_wf (σ := Mat ℝ) ht.inOut (Mat.assign_safe (ht.inOut x0 (rd_mem hx0)) _ hx1) hio
  obtain ⟨a1, a2, a3⟩ := fwdLoop_inv (s := (w, io)) hv k0 hf
  have k1 : wf gs := wr_wf (σ := Mat ℝ) ht.gradient (lossGradient_safe (ht.gradient g0 (rd_mem hg0)) _ hg1) hgs
  have hv1 := hv.evolve a1
  obtain ⟨b1, b2, b3⟩ := bwdLoop_inv (s := (w₁, gs)) (by rw [a1.nets]; exact hv1) a2 k1 hb
  rw [a1.nets] at b1
  have ab1 := a1.trans b1
  have hp1 := hp.evolve ab1
  have g1 : ∀ a ∈ t.pGradWeights, ∀ l, w₂.heap[a]? = some (some l) → a ∈ (w.nets n).layers :=
    fun a ha l hl => (hp1.weights a (hp1.gradW ▸ ha)).2 l hl |>.1
  obtain ⟨c1, c2, c3⟩ := optLoop_inv (s := (w₂, t.opts)) (hv.evolve ab1) ht.opts hp1.weights g1 ho1
  have l1 := optLoop_live (s := (w₂, t.opts)) (hv.evolve ab1) ht.opts hp1.weights g1 ho1
  have abc := ab1.trans c1
  have hp2 := hp.evolve abc
  have l2 := optLoop_live (s := (w₃, os)) (hv.evolve abc) c2 hp2.biases
    (fun a ha l hl => (hp2.biases a (hp2.gradB ▸ ha)).2 l hl |>.1) ho2
  intro a ha
  rcases List.mem_append.1 ha with ha | ha
  · obtain ⟨l, hl⟩ := l1 a ha
    obtain ⟨l₀, d1, -⟩ := ab1.keep a l hl
    exact ⟨l₀, d1⟩
  · obtain ⟨l, hl⟩ := l2 a ha
    obtain ⟨l₀, d1, -⟩ := abc.keep a l hl
    exact ⟨l₀, d1⟩

theorem trainEpoch_live {ab : ℝ → ℝ} {eps : ℝ} {e : Nat → Nat → Nat → Env} {w w' : World} {t t' : Trainer} {x y : Mat ℝ} {n : Nat}
    (hn : t.net = some n) (hv : AllValid w (w.nets n).layers) (ht : t.Ok) (hp : t.Ptrs w (w.nets n).layers) (hx : 0 < x.rows)
    (h : trainEpoch ab eps e x y w t = .ok (w', t')) : t.Live w := by
  unfold trainEpoch batchLoop at h
  obtain ⟨r, h1, -⟩ := ok_bind h
  obtain ⟨k, hk⟩ : ∃ k, x.rows = k + 1 := ⟨x.rows - 1, by omega⟩
  rw [hk] at h1
  unfold whileF at h1
  rw [if_pos (by simp)] at h1
  obtain ⟨s, h2, -⟩ := ok_bind h1
  obtain ⟨x', -, h2⟩ := ok_bind h2
  obtain ⟨y', -, h2⟩ := ok_bind h2
  obtain ⟨⟨w₁, t₁⟩, h3, -⟩ := ok_bind h2
  exact trainBatch_live hn hv ht hp h3

/-- An epoch without fault: no parameter was in a deleted layer. -/
theorem epochStep_live {ab : ℝ → ℝ} {eps : ℝ} {e : FitEnv} {n b : Nat} {x y : Mat ℝ} {k : Nat} {s s' : FitSt} (hb : b ≠ n)
    (hi : Inv n b s.w s.t) (hx : 0 < x.rows) (h : epochStep ab eps e n b x y k s = .ok s') : s.t.Live s.w := by
  unfold epochStep at h
  obtain ⟨⟨w₀, t₀⟩, h1, -⟩ := ok_bind h
  unfold epochTrain at h1
  obtain ⟨⟨x', y'⟩, h2, h1⟩ := ok_bind h1
  obtain ⟨w₁, h3, h1⟩ := ok_bind h1
  obtain ⟨⟨w₂, t₂⟩, h4, -⟩ := ok_bind h1
  have s1 := World.setTrain_inv h3
  have i1 : Inv n b w₁ { s.t with onlineLoss := 0, onlineGood := 0 } :=
    (hi.stage hb s1).congr rfl rfl hi.ok.opts rfl rfl rfl rfl rfl
  have := trainEpoch_live i1.net i1.validN i1.ok i1.ptrs (by rw [epochData_rows h2]; exact hx) h4
  intro a ha
  obtain ⟨l, hl⟩ := this a ha
  obtain ⟨l₀, d1, -⟩ := s1.keep a l hl
  exact ⟨l₀, d1⟩

/-- Every parameter the trainer points to is in a deleted layer. -/
def Dead (t : Trainer) (w : World) : Prop := ∀ a ∈ t.pWeights ++ t.pBiases, w.heap[a]? = some none

theorem Dead.assign {e : Nat → Env} {n b : Nat} {w w' : World} {t : Trainer} (hb : b ≠ n) (hi : Inv n b w t) (h : w.assign e n b = .ok w') : t.Dead w' := by
  obtain ⟨-, -, -, a3, a4, -⟩ := World.assign_inv hi.owned hb.symm hi.validB h
  intro a ha
  have key : a < w.heap.length ∧ ∀ l, w.heap[a]? = some (some l) → a ∈ (w.nets n).layers := by
    rcases List.mem_append.1 ha with ha | ha
    · exact ⟨(hi.ptrs.weights a ha).1, fun l hl => ((hi.ptrs.weights a ha).2 l hl).1⟩
    · exact ⟨(hi.ptrs.biases a ha).1, fun l hl => ((hi.ptrs.biases a ha).2 l hl).1⟩
  by_cases hm : a ∈ (w.nets n).layers
  · exact a4 a hm
  · rw [a3 a key.1 hm]
    rw [List.getElem?_eq_getElem key.1]
    cases hc : w.heap[a]'key.1 with
    | none => rfl
    | some l => exact absurd (key.2 l (by rw [List.getElem?_eq_getElem key.1, hc])) hm

/-- The two ways an epoch can end: the network has been replaced by the best one, or not. -/
theorem epochStep_restart {ab : ℝ → ℝ} {eps : ℝ} {e : FitEnv} {n b : Nat} {x y : Mat ℝ} {k : Nat} {s s' : FitSt} (hb : b ≠ n)
    (hi : Inv n b s.w s.t) (h : epochStep ab eps e n b x y k s = .ok s') :
    (s.t.patience ≠ -1 ∧ s'.t.Dead s'.w ∧ s'.t.curPatience = 0) ∨
      ((s'.w.nets n).layers = (s.w.nets n).layers ∧ ∀ L, 0 < L → s.t.Rate L → s'.t.Rate L) := by
  obtain ⟨w₁, t₁, l, a, s₂, k1, k2, k3, -, -, -, -, -, k7, k8⟩ := epochStep_inv hb hi h
  have hw : s'.w = s₂.w := by rw [k8]; unfold reboostStep; split <;> [split <;> rfl; rfl]
  have hpw : s'.t.pWeights = s₂.t.pWeights ∧ s'.t.pBiases = s₂.t.pBiases := by rw [k8]; unfold reboostStep; split <;> [split <;> exact ⟨rfl, rfl⟩; exact ⟨rfl, rfl⟩]
  have hcp : s'.t.curPatience = s₂.t.curPatience := by rw [k8]; exact (reboostStep_same e.g s₂).2.1
  unfold bestStep at k7
  split at k7
  · obtain ⟨s₃, h3, h4⟩ := ok_bind k7
    have t3 := keepStep_tail hb k2 h3
    have hl3 : (s₃.w.nets n).layers = (w₁.nets n).layers ∧ s₃.t = { t₁ with curPatience := s₃.t.curPatience } := by
      rcases keepStep_inv h3 with (⟨-, -, w, hw, rfl⟩ | ⟨-, -, w, hw, rfl⟩) | ⟨-, rfl⟩
      · exact ⟨by rw [(World.assign_inv k2.owned hb k2.validN hw).1.nets n hb.symm], rfl⟩
      · exact ⟨by rw [(World.assign_inv k2.owned hb k2.validN hw).1.nets n hb.symm], rfl⟩
      · exact ⟨rfl, rfl⟩
    rcases patienceStep_inv h4 with ⟨-, c2, w, hw', rfl⟩ | ⟨-, rfl⟩
    · refine .inl ⟨?_, ?_, hcp⟩
      · rw [hl3.2] at c2
        intro hp
        refine c2 (Eq.trans ?_ hp)
        show t₁.patience = _
        rw [← k3.same]
      · unfold Dead
        rw [hw, hpw.1, hpw.2]
        exact Dead.assign (t := s₃.t) hb t3.inv hw'
    · refine .inr ⟨by rw [hw, hl3.1, k1.layers], fun L hL hr => ?_⟩
      rw [k8]
      apply Rate.reboost hL
      have hm := hr.mid k3
      rw [hl3.2]
      exact hm
  · injection k7 with k7
    subst k7
    refine .inr ⟨by rw [hw]; exact k1.layers, fun L hL hr => ?_⟩
    rw [k8]
    exact Rate.reboost hL (s := ⟨w₁, t₁, _, _, _, _⟩) (hr.mid k3) _

/-- An epoch adds one score. -/
theorem scoreList_step {ab : ℝ → ℝ} {eps : ℝ} {e : FitEnv} {c : Bool} {n b : Nat} {x y : Mat ℝ} {k : Nat} {s s' : FitSt} (hb : b ≠ n)
    (hi : Inv n b s.w s.t) (hcl : (s.w.nets n).classif = c) (hs : epochStep ab eps e n b x y k s = .ok s') :
    ∃ v, scoreList c s'.t = scoreList c s.t ++ [v] := by
  obtain ⟨w₁, t₁, l, a, s₂, k1, k2, k3, k4, k5, k5', k5'', k6, k7, k8⟩ := epochStep_inv hb hi hs
  have t2 : TailKeep n b _ s₂ := bestStep_tail hb k2 k7
  have t3 : TailKeep n b s₂ s' := k8 ▸ reboostStep_tail t2.inv
  have tt := t2.trans t3
  have hval : t₁.valid = s.t.valid := by rw [← k3.same]
  refine ⟨scoreOf c l a, ?_⟩
  have e0 : scoreList c s'.t = scoreList c t₁ := by
    unfold scoreList accList lossList
    rw [← tt.same]
  rw [e0]
  unfold scoreList accList lossList scoreOf
  rw [hval]
  cases hc : s.t.valid with
  | none =>
    obtain ⟨-, -, e1, e2⟩ := k5 hc
    cases c
    · simp [k3.trainLoss, e1]
    · simp [k5' hcl, e2]
  | some v =>
    obtain ⟨e1, e2⟩ := k4 (by rw [hc]; rfl)
    cases c
    · simp [e1]
    · simp [e2]

end Trainer

theorem schedule_mono (p : Nat) (S : Nat → ℝ) {i k : Nat} (h : i ≤ k) : (schedule p S i).2 ≤ (schedule p S k).2 := by
  induction k with
  | zero => obtain rfl : i = 0 := by omega
            exact le_rfl
  | succ k ih =>
    by_cases hi : i = k + 1
    · rw [hi]
    · refine (ih (by omega)).trans ?_
      simp only [schedule]
      split
      · exact le_rfl
      · split
        · exact Nat.le_succ _
        · exact le_rfl

/-- The prefix of a loop that ends. -/
theorem forN_take {σ : Type} {f : Nat → σ → Out σ} {n k : Nat} {s t : σ} (h : forN n f s = .ok t) (hk : k < n) :
    ∃ r r', forN k f s = .ok r ∧ f k r = .ok r' := by
  obtain ⟨m, rfl⟩ : ∃ m, n = k + 1 + m := ⟨n - (k + 1), by omega⟩
  rw [forN_add] at h
  obtain ⟨r', h1, -⟩ := ok_bind h
  rw [forN_succ] at h1
  obtain ⟨r, h2, h3⟩ := ok_bind h1
  exact ⟨r, r', h2, h3⟩

end BeeDNN
