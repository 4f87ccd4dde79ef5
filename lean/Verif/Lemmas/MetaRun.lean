import Verif.Spec.MetaRun
import Verif.Props.Meta
import Verif.Props.TrainAny
import Verif.Props.TrainFit

/-! # Runs of the meta-optimizer: lemmas -/

namespace BeeDNN.Meta
open Trainer

theorem recordsFrom_append : ∀ (l m : List ℝ) (b : ℝ), recordsFrom b (l ++ m) = recordsFrom b l ++ recordsFrom (l.foldl max b) m
  | [], m, b => rfl
  | a :: l, m, b => by
    rw [List.cons_append, recordsFrom, recordsFrom, List.foldl_cons]
    split
    · rename_i h
      rw [recordsFrom_append l m a, max_eq_right h.le, List.cons_append]
    · rename_i h
      rw [recordsFrom_append l m b, max_eq_left (not_lt.1 h)]

/-- What the callback does with the reports of a run. -/
theorem fold_newEpoch : ∀ (l : List (ℝ × List (Option Layer))) (s : Round), ∃ f, l.foldl newEpoch s = { s with best := (l.map Prod.fst).foldl max s.best, found := s.found ++ f } ∧
    f.Sublist l ∧ f.map Prod.fst = recordsFrom s.best (l.map Prod.fst)
  | [], s => ⟨[], by simp, List.Sublist.refl _, rfl⟩
  | a :: l, s => by
    rw [List.foldl_cons, List.map_cons, List.foldl_cons, recordsFrom]
    by_cases h : a.1 > s.best
    · rw [show newEpoch s a = { s with best := a.1, found := s.found ++ [a] } from if_pos h, if_pos h]
      obtain ⟨f, h1, h2, h3⟩ := fold_newEpoch l { s with best := a.1, found := s.found ++ [a] }
      refine ⟨a :: f, ?_, h2.cons_cons a, by rw [List.map_cons, h3]⟩
      rw [h1, max_eq_right h.le]
      simp
    · rw [show newEpoch s a = s from if_neg h, if_neg h]
      obtain ⟨f, h1, h2, h3⟩ := fold_newEpoch l s
      refine ⟨f, ?_, h2.cons a, h3⟩
      rw [h1, max_eq_left (not_lt.1 h)]

/-- What the copy of a trainer takes over besides the settings. -/
theorem assign_rest {g : Nat → ℝ} {ab : ℝ → ℝ} {eps : ℝ} {t other t' : Trainer} (h : Trainer.assign g ab eps t other = .ok t') :
    t'.inOut = other.inOut ∧ t'.gradient = other.gradient := by
  unfold Trainer.assign at h
  obtain ⟨t1, -, h⟩ := ok_bind h
  obtain ⟨t2, -, h⟩ := ok_bind h
  injection h with h
  subst h
  exact ⟨rfl, rfl⟩

/-- The shared trainer after some runs. -/
def Shares (p : Trainer) (os : List OptVariation) (q : Trainer) : Prop :=
  ∃ name lr opts, q = { p with optName := name, lr := lr, opts := opts } ∧ Chosen p os name lr

/-- The world between runs. -/
structure Between (w₀ : World) (src n b : Nat) (w : World) : Prop where
  owned : Owned w
  net : w.nets src = w₀.nets src
  heap : ∀ a ∈ (w₀.nets src).layers, w.heap[a]? = w₀.heap[a]?
  fresh : (w.nets n).layers = [] ∧ (w.nets b).layers = []

theorem varyOptimizer_shares {g : Nat → ℝ} {d : Nat} {os : List OptVariation} {p q : Trainer} (h : Shares p os q) : ∃ q', varyOptimizer g d os q = .ok q' ∧ Shares p os q' := by
  unfold varyOptimizer
  by_cases ho : os.length = 0
  · rw [if_neg (by simpa using ho)]
    exact ⟨q, rfl, h⟩
  · rw [if_pos ho]
    have hd : d % os.length < os.length := Nat.mod_lt _ (by omega)
    rw [List.getElem?_eq_getElem hd]
    obtain ⟨name, lr, opts, rfl, -⟩ := h
    exact ⟨_, rfl, _, _, _, rfl, .inr ⟨_, List.getElem_mem hd, rfl, rfl⟩⟩

theorem kinds_get {w : World} {n i a : Nat} {l : Layer} (ha : (w.nets n).layers[i]? = some a) (hl : w.heap[a]? = some (some l)) : (w.kinds n)[i]? = some (some l.kind) := by
  unfold World.kinds
  rw [List.getElem?_map, ha, Option.map_some, hl]
  rfl

/-- The network of a run: every layer fits, and is the original or a variation. -/
theorem vary_trainable {e : Nat → Env} {d : Nat → Nat} {vs : List LayerVariation} {n depth : Nat} {form : Nat → Form} {w : World} (ho : Owned w) (h : Trainable w n depth form)
    (hv : VariationsFit vs depth form) :
    ∃ w', varyLayers e d vs n w = .ok w' ∧ Trainable w' n depth form ∧ Frame n w w' ∧ ∀ ls : List (Option Layer), ls.map (Option.map Layer.kind) = w'.kinds n → OneOf (w.kinds n) vs ls := by
  obtain ⟨w', h1⟩ := C84_ok (e := e) (d := d) (vs := vs) (n := n) ho fun v hm e => by
    obtain ⟨i, -, -, h⟩ := hv v hm
    obtain ⟨l, h, -⟩ := h e
    exact ⟨l, h⟩
  obtain ⟨f1, f2, f3, -⟩ := vary_prefix ho _ le_rfl h1
  have key : ∀ i a', (w'.nets n).layers[i]? = some a' → ∃ l l₀ : Layer, ∃ a, w'.heap[a']? = some (some l) ∧ l.Fits (decide (i = 0)) (form i) (form (i + 1)) ∧
      (w.nets n).layers[i]? = some a ∧ w.heap[a]? = some (some l₀) ∧ (l = l₀ ∨ Made vs i l) := by
    intro i a' ha'
    have hi : i < (w.nets n).layers.length := by rw [← f2]; exact (List.getElem?_eq_some_iff.1 ha').1
    obtain ⟨a, b, v1, v2, v3⟩ := f3 i hi
    rw [ha'] at v2
    injection v2 with v2
    subst v2
    obtain ⟨l₀, k1, k2⟩ := h.layer i a v1
    cases hc : choice vs i (d i) with
    | none =>
      rw [hc] at v3
      obtain ⟨rfl, v4⟩ := v3
      exact ⟨l₀, l₀, a', v4.trans k1, k2, v1, k1, .inl rfl⟩
    | some v =>
      rw [hc] at v3
      obtain ⟨l, v4, v5⟩ := v3
      obtain ⟨m1, m2⟩ := (varyLayer_some (e := e i) (n := n) (w := w) hc).1
      obtain ⟨j, -, j2, j3⟩ := hv v m1
      obtain rfl : j = i := by rw [j2] at m2; exact_mod_cast m2
      obtain ⟨l', j4, j5⟩ := j3 (e j)
      rw [v4] at j4
      injection j4 with j4
      subst j4
      exact ⟨l, l₀, a, v5, j5, v1, k1, .inr ⟨v, m1, m2, _, v4⟩⟩
  refine ⟨w', h1, ⟨h.nonempty, f1.owned.nodup n, f2.trans h.count, fun i a ha => ?_⟩, f1, fun ls hls => ?_⟩
  · obtain ⟨l, -, -, k1, k2, -⟩ := key i a ha
    exact ⟨l, k1, k2⟩
  · have hlen : ls.length = (w'.nets n).layers.length := by
      have := congrArg List.length hls
      simpa [World.kinds] using this
    refine ⟨by rw [hlen, f2]; simp [World.kinds], fun i k hk => ?_⟩
    have hi : i < (w'.nets n).layers.length := by
      rw [f2]
      have := (List.getElem?_eq_some_iff.1 hk).1
      simpa [World.kinds] using this
    obtain ⟨l, l₀, a, k1, -, k3, k4, k5⟩ := key i _ (List.getElem?_eq_getElem hi)
    have e1 := kinds_get (List.getElem?_eq_getElem hi) k1
    rw [← hls, List.getElem?_map, List.getElem?_eq_getElem (by omega), Option.map_some] at e1
    injection e1 with e1
    obtain ⟨m, hm⟩ : ∃ m, ls[i] = some m := by
      cases h : ls[i] with
      | none => rw [h] at e1; cases e1
      | some m => exact ⟨m, rfl⟩
    rw [hm, Option.map_some] at e1
    injection e1 with e1
    have e2 := kinds_get k3 k4
    rw [hk] at e2
    injection e2 with e2
    injection e2 with e2
    refine ⟨m, by rw [List.getElem?_eq_getElem (by omega), hm], ?_⟩
    rcases k5 with rfl | k5
    · exact .inl (e1.trans e2.symm)
    · exact .inr ⟨l, k5, e1⟩

/-- A run. -/
theorem runThread_ok {w₀ w : World} {p q : Trainer} {vs : List LayerVariation} {os : List OptVariation} {src n b depth : Nat} {form : Nat → Form} {N D : Nat} {x y : Nat → Row}
    (h : MetaSetup w₀ p vs os src n b depth form N D x y) (hw : Between w₀ src n b w) (hq : Shares p os q) (eps : ℝ) {e : RunEnv} (he : e.fit.Exact) :
    ∃ r, runThread (fun x => |x|) eps e vs os w q src n b = .ok r ∧ Between w₀ src n b r.w ∧ Shares p os r.pTrain ∧ RunGood (fun x => |x|) eps p (w₀.kinds src) vs os n r ∧
      r.before.optName = q.optName ∧ r.before.lr = q.lr := by
  have hb : b ≠ src := h.train.slot
  have hnet : Trainable w src depth form := ⟨h.train.net.nonempty, by rw [hw.net]; exact h.train.net.nodup, by rw [hw.net]; exact h.train.net.count, fun i a ha => by
    rw [hw.net] at ha
    obtain ⟨l, h1, h2⟩ := h.train.net.layer i a ha
    exact ⟨l, (hw.heap a (List.mem_of_getElem? ha)).trans h1, h2⟩⟩
  have hkinds : w.kinds src = w₀.kinds src := by
    unfold World.kinds
    rw [hw.net]
    exact List.map_congr_left fun a ha => by rw [hw.heap a ha]
  obtain ⟨kinds, hr⟩ := hnet.ready
  obtain ⟨w₁, a1, a2, a3⟩ := hr.assign (e := e.copy) hw.owned h.slot.1
  have hk1 : w₁.kinds n = w₀.kinds src := by rw [a2.kinds_eq, ← hr.kinds_eq, hkinds]
  have hqb : q.Built := by
    obtain ⟨name, lr, opts, rfl, -⟩ := hq
    exact .other h.built rfl rfl
  obtain ⟨t, b1, b2, b3, b4, b5, b6, b7, b8, b9, b10, b11, b12, b13, b14, b15, b16, b17, b18, -⟩ := C58_copy_partial e.fit.g (fun x => |x|) eps {} q hqb
  obtain ⟨b19, b20⟩ := assign_rest b1
  have b21 := assign_valBatch b1
  obtain ⟨w₂, c1, c2, c3, c4⟩ := vary_trainable (e := e.make) (d := e.draw) a3.owned (a2.trainable h.train.net.nonempty) h.layers
  obtain ⟨q', d1, d2⟩ := varyOptimizer_shares (g := e.fit.g) (d := e.drawOpt) hq
  have hprep : prepare (fun x => |x|) eps e vs os w q src n = .ok (w₂, t, q') := by
    unfold prepare
    rw [a1, bind_ok', b1, bind_ok', c1, bind_ok', d1, bind_ok']
    rfl
  have hopt : ∃ k, createOptimizer t.optName = some k := by
    rw [b10]
    obtain ⟨name, lr, opts, rfl, hc⟩ := hq
    rcases hc with ⟨hc, -⟩ | ⟨o, ho, hc, -⟩
    · show ∃ k, createOptimizer name = some k
      rw [hc]; exact h.optimizer
    · show ∃ k, createOptimizer name = some k
      rw [hc]; exact h.optimizers o ho
  obtain ⟨k, hk⟩ := hopt
  have hchosen : Chosen p os q.optName q.lr := by
    obtain ⟨name, lr, opts, rfl, hc⟩ := hq
    exact hc
  have eb : q.batchSize = p.batchSize ∧ q.loss = p.loss ∧ q.patience = p.patience ∧ q.epochs = p.epochs ∧ q.balancing = p.balancing ∧ q.train = p.train ∧ q.valid = p.valid ∧
      q.inOut = p.inOut ∧ q.gradient = p.gradient := by
    obtain ⟨name, lr, opts, rfl, hc⟩ := hq
    exact ⟨rfl, rfl, rfl, rfl, rfl, rfl, rfl, rfl, rfl⟩
  obtain ⟨q1, q2, q3, q4, q5, q6, q7, q8, q9⟩ := eb
  have f2b : (w₂.nets b).layers = [] := by rw [c3.nets b h.slot.2.symm, a3.nets b h.slot.2.symm]; exact hw.fresh.2
  have su : TrainSetup w₂ t n b depth form N D x y :=
    { net := c2
      owned := c3.owned
      slot := h.slot.2.symm
      fresh := f2b
      inOut := by rw [b19, q8]; exact h.train.inOut
      gradient := by rw [b20, q9]; exact h.train.gradient
      samples := h.train.samples
      train := by rw [b17, q6]; exact h.train.train
      floor := h.train.floor
      truth := by rw [b6, q2]; exact h.train.truth
      valid := by rw [b18, q7, b6, q2]; exact h.train.valid
      valBatch := by rw [b21]; norm_num
      batchSize := by rw [b2, q1]; exact h.train.batchSize
      loss := by rw [b6, q2]; exact h.train.loss
      balancing := by rw [b16, q5]; exact h.train.balancing
      patience := by rw [b14, b4, q3, q4]; exact h.train.patience }
  obtain ⟨w₃, t', seen, g1, g2, g3, g4, g5, g6, g7, -, -, g8⟩ := fit_runs' su hk eps he
  have hf : Fitted (fun x => |x|) eps e.fit w₂ t n b w₃ t' seen :=
    ⟨su.owned, su.net.onNet.allValid fun _ _ h => h.valid, by
      intro hc
      have := su.net.count
      rw [hc] at this
      have := su.net.nonempty
      simp at *
      omega, su.slot, su.fresh, su.inOut, su.gradient, g1⟩
  obtain ⟨-, -, i1, i2⟩ := C52_other_networks hf
  obtain ⟨-, -, j1, -, j2⟩ := C53_lengths hf
  obtain ⟨w₄, k1, k2, -⟩ := World.clear_ok g4 n
  have fr := frame_clear g4 k1
  have o2 := i2 src h.slot.1.symm hb.symm
  have he' : t.epochs = p.epochs := b4.trans q4
  have hval : t'.valid = p.valid := by rw [j1, b18, q7]
  refine ⟨⟨w₄, q', t, t', seen⟩, ?_, ?_, d2, ⟨?_, ?_, ?_⟩, b10, b11⟩
  · unfold runThread
    rw [hprep, bind_ok']
    dsimp only
    rw [g1, bind_ok']
    dsimp only
    rw [k1, bind_ok']
    rfl
  · have s1 : w₂.nets src = w₀.nets src := by rw [c3.nets src h.slot.1.symm, a3.nets src h.slot.1.symm, hw.net]
    refine ⟨fr.owned, by rw [fr.nets src h.slot.1.symm, o2.1, s1], fun a ha => ?_, by rw [k2], by rw [fr.nets b h.slot.2.symm]; exact i1⟩
    have hn : (w₃.nets src).layers = (w₀.nets src).layers := by rw [o2.1, s1]
    rw [fr.layers src h.slot.1.symm a (by rw [hn]; exact ha), o2.2 a (by rw [s1]; exact ha),
      c3.layers src h.slot.1.symm a (by rw [a3.nets src h.slot.1.symm, hw.net]; exact ha), a3.layers src h.slot.1.symm a (by rw [hw.net]; exact ha), hw.heap a ha]
  · show Chosen p os t.optName t.lr
    rw [b10, b11]
    exact hchosen
  · unfold RunResult.reports
    dsimp only
    split
    · rename_i hs
      rw [j1] at hs
      rw [List.length_zip, j2, if_pos hs, g5, Nat.min_self, he']
    · rw [List.length_map, g5, he']
  · intro a ha
    unfold RunResult.reports at ha
    dsimp only at ha
    split at ha
    · rename_i hs
      obtain ⟨i, hi⟩ := List.mem_iff_getElem?.1 ha
      rw [List.getElem?_zip_eq_some] at hi
      obtain ⟨hi1, hi2⟩ := hi
      have hil : i < t.epochs.toNat := by rw [← g5]; exact (List.getElem?_eq_some_iff.1 hi2).1
      refine ⟨?_, ?_⟩
      · rw [← hk1]
        exact c4 _ (g8 _ (List.mem_of_getElem? hi2))
      · obtain ⟨⟨X, Y⟩, hXY⟩ := Option.isSome_iff_exists.1 hs
        obtain ⟨u, u', l, z, m1, -, m3, m4⟩ := C53_validation_history hf X Y hXY i hil
        rw [hi1] at m3
        rw [hi2] at m4
        injection m3 with m3
        injection m4 with m4
        unfold Measured
        rw [← hval, hXY]
        exact ⟨_, u, t', u', l, by rw [m3]; exact m1, g6, by rw [g7, b6, q2], m4⟩
    · rename_i hs
      obtain ⟨ls, h1, rfl⟩ := List.mem_map.1 ha
      refine ⟨by rw [← hk1]; exact c4 _ (g8 _ h1), ?_⟩
      unfold Measured
      rw [← hval]
      cases hv : t'.valid with
      | none => rfl
      | some d => rw [hv] at hs; exact absurd rfl hs

/-- The state between the runs of a round. -/
structure InRound (w₀ : World) (p : Trainer) (vs : List LayerVariation) (os : List OptVariation) (src n b : Nat) (eps : ℝ) (k : Nat) (q : Round) : Prop where
  world : Between w₀ src n b q.w
  shared : Shares p os q.pTrain
  good : RoundGood (fun x => |x|) eps p (w₀.kinds src) vs os n k q

theorem runOne_ok {w₀ : World} {p : Trainer} {vs : List LayerVariation} {os : List OptVariation} {src n b depth : Nat} {form : Nat → Form} {N D : Nat} {x y : Nat → Row}
    (h : MetaSetup w₀ p vs os src n b depth form N D x y) (eps : ℝ) {e : RunEnv} (he : e.fit.Exact) {k : Nat} {s : Round} (hs : InRound w₀ p vs os src n b eps k s) :
    ∃ s', runOne (fun x => |x|) eps vs os src n b e s = .ok s' ∧ InRound w₀ p vs os src n b eps (k + 1) s' ∧
      ∃ r, s'.runs = s.runs ++ [r] ∧ r.before.optName = s.pTrain.optName ∧ r.before.lr = s.pTrain.lr := by
  obtain ⟨r, h1, h2, h3, h4, h5, h6⟩ := runThread_ok h hs.world hs.shared eps he
  obtain ⟨f, k1, k2, k3⟩ := fold_newEpoch r.reports s
  refine ⟨{ s with best := (r.reports.map Prod.fst).foldl max s.best, found := s.found ++ f, w := r.w, pTrain := r.pTrain, runs := s.runs ++ [r] }, ?_, ⟨h2, h3, ⟨?_, ?_, ⟨?_, ?_⟩, ?_⟩⟩,
    r, rfl, h5, h6⟩
  · unfold runOne
    rw [h1, bind_ok']
    dsimp only
    rw [k1]
    rfl
  · rw [List.length_append, hs.good.count]
    rfl
  · intro r' hr'
    rcases List.mem_append.1 hr' with hr' | hr'
    · exact hs.good.runs r' hr'
    · rw [List.mem_singleton.1 hr']
      exact h4
  · show (s.found ++ f).Sublist ((s.runs ++ [r]).map RunResult.reports).flatten
    rw [List.map_append, List.flatten_append]
    exact hs.good.found.1.append (by simpa using k2)
  · show (s.found ++ f).map Prod.fst = recordsFrom (-1) (((s.runs ++ [r]).map RunResult.reports).flatten.map Prod.fst)
    have hb := hs.good.best
    unfold maxOf at hb
    have ht := hs.good.found.2
    rw [List.map_append, ht, k3, List.map_append, List.flatten_append, List.map_append, recordsFrom_append, hb]
    unfold Round.told
    simp
  · show (r.reports.map Prod.fst).foldl max s.best = maxOf (((s.runs ++ [r]).map RunResult.reports).flatten.map Prod.fst)
    have hb := hs.good.best
    unfold maxOf Round.told at *
    rw [List.map_append, List.flatten_append, List.map_append, List.foldl_append, hb]
    simp

theorem roundAlone_ok {w₀ w : World} {p q : Trainer} {vs : List LayerVariation} {os : List OptVariation} {src n b depth : Nat} {form : Nat → Form} {N D : Nat} {x y : Nat → Row}
    (h : MetaSetup w₀ p vs os src n b depth form N D x y) (eps : ℝ) {e : Nat → RunEnv} (he : ∀ i, (e i).fit.Exact) (hw : Between w₀ src n b w) (hq : Shares p os q) (k : Nat) :
    ∃ s, roundAlone (fun x => |x|) eps vs os src n b k e w q = .ok s ∧ InRound w₀ p vs os src n b eps k s ∧
      ∀ r, s.runs[0]? = some r → r.before.optName = q.optName ∧ r.before.lr = q.lr := by
  unfold roundAlone
  obtain ⟨s, h1, h2, h3⟩ := forN_inv (n := k)
    (P := fun i s => InRound w₀ p vs os src n b eps i s ∧ (s.runs = [] → s.pTrain = q) ∧ ∀ r, s.runs[0]? = some r → r.before.optName = q.optName ∧ r.before.lr = q.lr)
    (f := fun i s => runOne (fun x => |x|) eps vs os src n b (e i) s) (s := ⟨w, q, -1, [], []⟩)
    ⟨⟨hw, hq, ⟨rfl, fun _ h => absurd h List.not_mem_nil, ⟨List.nil_sublist _, rfl⟩, rfl⟩⟩, fun _ => rfl, fun r hr => by simp at hr⟩ (by
      rintro i - s ⟨s1, s2, s3⟩
      obtain ⟨s', k1, k2, r, k3, k4, k5⟩ := runOne_ok h eps (he i) s1
      refine ⟨s', k1, k2, fun hc => by rw [k3] at hc; simp at hc, fun r' hr' => ?_⟩
      rw [k3] at hr'
      cases hs : s.runs with
      | nil =>
        rw [hs] at hr'
        simp at hr'
        rw [← hr', k4, k5, s2 hs]
        exact ⟨rfl, rfl⟩
      | cons r₀ rs =>
        rw [hs] at hr'
        exact s3 r' (by rw [hs]; simpa using hr'))
  exact ⟨s, h1, h2, h3.2⟩

/-- All rounds of a `fit` whose threads run one after the other. -/
theorem fitAlone_ok {w : World} {p : Trainer} {vs : List LayerVariation} {os : List OptVariation} {src n b depth : Nat} {form : Nat → Form} {N D : Nat} {x y : Nat → Row}
    (h : MetaSetup w p vs os src n b depth form N D x y) (eps : ℝ) {e : Nat → Nat → RunEnv} (he : ∀ i j, (e i j).fit.Exact) (repeats k : Nat) :
    ∃ w' p' rounds, fitAlone (fun x => |x|) eps vs os src n b repeats k e w p = .ok (w', p', rounds) ∧
      Between w src n b w' ∧ Shares p os p' ∧ rounds.length = repeats ∧ (∀ q ∈ rounds, RoundGood (fun x => |x|) eps p (w.kinds src) vs os n k q) ∧
      ∀ q ∈ rounds.head?, ∀ r ∈ q.runs.head?, r.before.optName = p.optName ∧ r.before.lr = p.lr := by
  unfold fitAlone
  obtain ⟨⟨w', p', rounds⟩, h1, h2, h3, h4, h5, h6, -⟩ := forN_inv (n := repeats)
    (P := fun i (s : World × Trainer × List Round) => Between w src n b s.1 ∧ Shares p os s.2.1 ∧ s.2.2.length = i ∧
      (∀ q ∈ s.2.2, RoundGood (fun x => |x|) eps p (w.kinds src) vs os n k q) ∧
      (∀ q ∈ s.2.2.head?, ∀ r ∈ q.runs.head?, r.before.optName = p.optName ∧ r.before.lr = p.lr) ∧ (i = 0 → s.2.1 = p))
    (f := fun i (s : World × Trainer × List Round) => do
      let r ← roundAlone (fun x => |x|) eps vs os src n b k (e i) s.1 s.2.1
      return (r.w, r.pTrain, s.2.2 ++ [r])) (s := (w, p, []))
    ⟨⟨h.train.owned, rfl, fun _ _ => rfl, h.fresh, h.train.fresh⟩, ⟨_, _, _, rfl, .inl ⟨rfl, rfl⟩⟩, rfl, fun _ h => absurd h List.not_mem_nil,
      fun _ h => absurd h (by simp), fun _ => rfl⟩ (by
      rintro i - ⟨w₁, p₁, rs⟩ ⟨s1, s2, s3, s4, s5, s6⟩
      obtain ⟨r, k1, k2, k3⟩ := roundAlone_ok h eps (he i) s1 s2 k
      refine ⟨_, by rw [k1, bind_ok']; rfl, k2.world, k2.shared, by rw [List.length_append]; dsimp only at s3; rw [s3]; rfl, fun q hq => ?_, fun q hq => ?_,
        fun h => absurd h (Nat.succ_ne_zero i)⟩
      · rcases List.mem_append.1 hq with hq | hq
        · exact s4 q hq
        · rw [List.mem_singleton.1 hq]
          exact k2.good
      · dsimp only at s3 s5 s6 k3 hq
        cases rs with
        | nil =>
          obtain rfl : r = q := Option.some.inj hq
          have e0 : p₁ = p := s6 (by simpa using s3.symm)
          subst e0
          exact fun r₁ h₁ => k3 r₁ (by rwa [List.head?_eq_getElem?] at h₁)
        | cons a l => exact s5 q hq)
  exact ⟨w', p', rounds, h1, h2, h3, h4, h5, h6⟩

end BeeDNN.Meta
