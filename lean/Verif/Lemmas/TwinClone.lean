import Verif.Lemmas.TwinBatch

/-! # Two runs: copies of networks -/

namespace BeeDNN
open Finset HasWF

/-- The name of the weight initializer of a clone. -/
def LayerKind.cloneW (k : LayerKind) (s : String) : String :=
  match k with
  | .dense .. | .tdDot .. | .tdDense .. => s
  | .dot .. => "GlorotUniform"
  | _ => ""

/-- The name of the bias initializer of a clone. -/
def LayerKind.cloneB (k : LayerKind) (s : String) : String :=
  match k with
  | .dense .. | .bias | .channelBias .. | .tdBias .. | .tdDense .. => s
  | _ => ""

namespace Layer

theorem core_ext {p q : Layer} (h1 : q.kind = p.kind) (h2 : q.weight = p.weight) (h3 : q.bias = p.bias) (h4 : q.train = p.train) (h5 : q.first = p.first)
    (h6 : q.wInit = p.wInit) (h7 : q.bInit = p.bInit) (h8 : q.mask = p.mask) (h9 : q.maxIndex = p.maxIndex) (h10 : q.fastLUT = p.fastLUT) (h11 : q.whh = p.whh)
    (h12 : q.wxh = p.wxh) (h13 : q.bh = p.bh) (h14 : q.h = p.h) (h15 : q.saved = p.saved) : q.core = p.core := by
  unfold core
  rw [h1, h2, h3, h4, h5, h6, h7, h8, h9, h10, h11, h12, h13, h14, h15]

/-- The members that `init` does not touch. -/
structure InitKeep (l p : Layer) : Prop where
  mask : p.mask = l.mask
  maxIndex : p.maxIndex = l.maxIndex
  wInit : p.wInit = l.wInit
  bInit : p.bInit = l.bInit
  h : p.h = l.h
  saved : p.saved = l.saved

theorem init_keep {e : Env} {l p : Layer} (hr : ∀ f u, l.kind ≠ .simpleRNN f u) (hs : ∀ f, l.kind ≠ .simplestRNN f) (h : l.init e = .ok p) : InitKeep l p := by
  unfold init at h
  split at h
  case h_17 f u hk => exact absurd hk (hr f u)
  case h_18 f hk => exact absurd hk (hs f)
  all_goals first
    | (injection h with h; subst h; exact ⟨rfl, rfl, rfl, rfl, rfl, rfl⟩)
    | skip
  all_goals
    try split at h
    all_goals first
      | (injection h with h; subst h; exact ⟨rfl, rfl, rfl, rfl, rfl, rfl⟩)
      | (obtain ⟨_, -, h⟩ := ok_bind h; injection h with h; subst h; exact ⟨rfl, rfl, rfl, rfl, rfl, rfl⟩)
      | (obtain ⟨_, -, h⟩ := ok_bind h; obtain ⟨_, -, h⟩ := ok_bind h; injection h with h; subst h; exact ⟨rfl, rfl, rfl, rfl, rfl, rfl⟩)
      | (obtain ⟨_, -, h⟩ := ok_bind h; obtain ⟨_, -, h⟩ := ok_bind h; obtain ⟨_, -, h⟩ := ok_bind h; injection h with h; subst h
         exact ⟨rfl, rfl, rfl, rfl, rfl, rfl⟩)

/-- The members of a clone that do not come from the parameters. -/
structure CloneKeep (l p : Layer) : Prop where
  mask : p.mask = ⟨0, 0, []⟩
  maxIndex : p.maxIndex = ⟨0, 0, []⟩
  wInit : p.wInit = l.kind.cloneW l.wInit
  bInit : p.bInit = l.kind.cloneB l.bInit
  h : p.h = ⟨0, 0, []⟩
  saved : p.saved = []

theorem clone_keep {e : Env} {l p : Layer} (hr : ∀ f u, l.kind ≠ .simpleRNN f u) (hs : ∀ f, l.kind ≠ .simplestRNN f) (h : l.clone e = .ok p) : CloneKeep l p := by
  unfold clone at h
  split at h
  case h_33 f u hk => exact absurd hk (hr f u)
  case h_34 f hk => exact absurd hk (hs f)
  case h_10 a hk =>
    unfold newActivation at h
    split at h
    · injection h with h; subst h; exact ⟨rfl, rfl, by rw [hk]; rfl, by rw [hk]; rfl, rfl, rfl⟩
    · cases h
  case h_18 c hk =>
    obtain ⟨q, h1, h⟩ := ok_bind h
    obtain ⟨_, -, h⟩ := ok_bind h
    obtain ⟨_, -, h⟩ := ok_bind h
    injection h with h
    subst h
    obtain ⟨c', -, h1⟩ := ok_bind h1
    obtain ⟨k1, k2, k3, k4, k5, k6⟩ := init_keep (by simp) (by simp) h1
    exact ⟨k1, k2, by rw [hk]; exact k3, by rw [hk]; exact k4, k5, k6⟩
  case h_24 hk =>
    obtain ⟨k1, k2, k3, k4, k5, k6⟩ := init_keep (by simp) (by simp) h
    exact ⟨k1, k2, by rw [hk]; exact k3, by rw [hk]; exact k4, k5, k6⟩
  all_goals rename_i hk
  all_goals first
    | (injection h with h; subst h; exact ⟨rfl, rfl, by rw [hk]; rfl, by rw [hk]; rfl, rfl, rfl⟩)
    | (obtain ⟨_, -, h⟩ := ok_bind h; injection h with h; subst h; exact ⟨rfl, rfl, by rw [hk]; rfl, by rw [hk]; rfl, rfl, rfl⟩)
    | (obtain ⟨_, -, h⟩ := ok_bind h; obtain ⟨_, -, h⟩ := ok_bind h; injection h with h; subst h
       exact ⟨rfl, rfl, by rw [hk]; rfl, by rw [hk]; rfl, rfl, rfl⟩)
    | (obtain ⟨q, h1, h⟩ := ok_bind h
       obtain ⟨_, -, h⟩ := ok_bind h
       injection h with h
       subst h
       obtain ⟨k1, k2, k3, k4, k5, k6⟩ := init_keep (by simp) (by simp) h1
       exact ⟨k1, k2, by rw [hk]; exact k3, by rw [hk]; exact k4, k5, k6⟩)
    | (obtain ⟨q, h1, h⟩ := ok_bind h
       obtain ⟨_, -, h⟩ := ok_bind h
       obtain ⟨_, -, h⟩ := ok_bind h
       injection h with h
       subst h
       obtain ⟨k1, k2, k3, k4, k5, k6⟩ := init_keep (by simp) (by simp) h1
       exact ⟨k1, k2, by rw [hk]; exact k3, by rw [hk]; exact k4, k5, k6⟩)

/-- Clones in two runs. -/
theorem clone_twin {e f : Env} {l m : Layer} (hl : l.Valid) (hm : m.Valid) (hc : m.core = l.core) (hr : ∀ f u, l.kind ≠ .simpleRNN f u)
    (hs : ∀ f, l.kind ≠ .simplestRNN f) : ∃ p q, l.clone e = .ok p ∧ m.clone f = .ok q ∧ q.core = p.core := by
  obtain ⟨p, h1, h2⟩ := clone_ok e hl
  obtain ⟨q, h3, h4⟩ := clone_ok f hm
  have k1 := clone_keep hr hs h1
  have k2 := clone_keep (by rw [core_kind hc]; exact hr) (by rw [core_kind hc]; exact hs) h3
  refine ⟨p, q, h1, h3, ?_⟩
  obtain ⟨_, _, _, _, _, rfl⟩ := core_eq hc
  have s1 := h2.same
  have s2 := h4.same
  exact core_ext (s2.kind.trans s1.kind.symm) (s2.weight.trans s1.weight.symm) (s2.bias.trans s1.bias.symm) (h4.train.trans h2.train.symm) (h4.first.trans h2.first.symm)
    (k2.wInit.trans k1.wInit.symm) (k2.bInit.trans k1.bInit.symm) (k2.mask.trans k1.mask.symm) (k2.maxIndex.trans k1.maxIndex.symm) (h4.fast.trans h2.fast.symm)
    (s2.whh.trans s1.whh.symm) (s2.wxh.trans s1.wxh.symm) (s2.bh.trans s1.bh.symm) (k2.h.trans k1.h.symm) (k2.saved.trans k1.saved.symm)

end Layer

namespace World

theorem core_inj {w v : World} (hn : v.nets = w.nets) (hh : v.heap.map (Option.map Layer.core) = w.heap.map (Option.map Layer.core)) : v.core = w.core := by
  unfold core
  obtain ⟨⟩ := w
  obtain ⟨⟩ := v
  dsimp only at *
  rw [hn, hh]

theorem core_map {w v : World} (h : v.core = w.core) : v.heap.map (Option.map Layer.core) = w.heap.map (Option.map Layer.core) := congrArg World.heap h

theorem core_length {w v : World} (h : v.core = w.core) : v.heap.length = w.heap.length := by
  have := congrArg List.length (core_map h)
  simpa using this

theorem core_setNet {w v : World} (h : v.core = w.core) (n : Nat) (x : Net) : (v.setNet n x).core = (w.setNet n x).core := by
  refine core_inj ?_ ?_
  · simp only [setNet, core_nets h]
  · simp only [setNet, core_map h]

theorem core_none {w v : World} (h : v.core = w.core) {a : Nat} (hl : w.heap[a]? = some none) : v.heap[a]? = some none := by
  have := core_heap h a
  rw [hl] at this
  cases hv : v.heap[a]? with
  | none => rw [hv] at this; cases this
  | some x =>
    cases x with
    | none => rfl
    | some m => rw [hv] at this; cases this

theorem core_owned {w v : World} (h : v.core = w.core) (ho : Owned w) : Owned v := by
  have hn := core_nets h
  refine ⟨fun n a ha => ?_, fun n => by rw [hn]; exact ho.nodup n, fun n m a ha hb => ho.disjoint n m a (by rw [← hn]; exact ha) (by rw [← hn]; exact hb)⟩
  rw [hn] at ha
  obtain ⟨l, hl⟩ := ho.live n a ha
  obtain ⟨m, hm, -⟩ := core_at h hl
  exact ⟨m, hm⟩

theorem free_twin {w v w' : World} (h : v.core = w.core) {a : Nat} (hw : w.free a = .ok w') : ∃ v', v.free a = .ok v' ∧ v'.core = w'.core := by
  unfold free at hw ⊢
  split at hw
  · rename_i l hl
    injection hw with hw
    obtain ⟨m, hm, -⟩ := core_at h hl
    rw [hm]
    refine ⟨_, rfl, ?_⟩
    subst hw
    refine core_inj ?_ ?_
    · simp only [core_nets h]
    · simp only [List.map_set, core_map h]
  · cases hw
  · cases hw

theorem freeAll_twin : ∀ (as : List Nat) {w v w' : World} (_ : v.core = w.core) (_ : freeAll as w = .ok w'), ∃ v', freeAll as v = .ok v' ∧ v'.core = w'.core
  | [], w, v, w', h, hw => by injection hw with hw; subst hw; exact ⟨v, rfl, h⟩
  | a :: as, w, v, w', h, hw => by
    obtain ⟨w₁, h1, h2⟩ := ok_bind hw
    obtain ⟨v₁, k1, k2⟩ := free_twin h h1
    obtain ⟨v', k3, k4⟩ := freeAll_twin as k2 h2
    exact ⟨v', by rw [freeAll, k1, bind_ok']; exact k3, k4⟩

theorem clear_twin {w v w' : World} (h : v.core = w.core) {n : Nat} (hw : w.clear n = .ok w') : ∃ v', v.clear n = .ok v' ∧ v'.core = w'.core := by
  obtain ⟨w₁, h1, h2⟩ := ok_bind hw
  injection h2 with h2
  obtain ⟨v₁, k1, k2⟩ := freeAll_twin _ h h1
  refine ⟨v₁.setNet n { v₁.nets n with layers := [], train := false }, ?_, ?_⟩
  · unfold clear
    rw [core_nets h, k1, bind_ok']
    rfl
  · subst h2
    rw [core_nets k2]
    exact core_setNet k2 _ _

theorem cloneAll_twin {e f : Nat → Env} {n : Nat} : ∀ (as : List Nat) (i : Nat) {w v w' : World} (_ : v.core = w.core)
    (_ : ∀ a ∈ as, ∃ l m, w.heap[a]? = some (some l) ∧ v.heap[a]? = some (some m) ∧ l.Valid ∧ m.Valid ∧ (∀ f u, l.kind ≠ .simpleRNN f u) ∧ ∀ f, l.kind ≠ .simplestRNN f)
    (_ : cloneAll e n i as w = .ok w'), ∃ v', cloneAll f n i as v = .ok v' ∧ v'.core = w'.core
  | [], i, w, v, w', h, _, hw => by injection hw with hw; subst hw; exact ⟨v, rfl, h⟩
  | a :: as, i, w, v, w', h, hl, hw => by
    obtain ⟨l, m, g1, g2, g3, g4, g5, g6⟩ := hl a List.mem_cons_self
    obtain ⟨m', g2', hc⟩ := core_at h g1
    obtain rfl : m = m' := by rw [g2] at g2'; injection g2' with g2'; injection g2'
    obtain ⟨p, q, c1, c2, c3⟩ := Layer.clone_twin (e := e i) (f := f i) g3 g4 hc g5 g6
    rw [cloneAll, deref_eq g1, bind_ok', c1, bind_ok'] at hw
    have hcore : ((v.alloc q).add n v.heap.length).core = ((w.alloc p).add n w.heap.length).core := by
      refine core_inj ?_ ?_
      · simp only [add, setNet, alloc, core_nets h, core_length h]
      · simp only [add, setNet, alloc, List.map_append, List.map_cons, List.map_nil, Option.map_some, c3, core_map h]
    obtain ⟨v', k3, k4⟩ := cloneAll_twin (f := f) as (i + 1) hcore (fun b hb => by
      obtain ⟨l, m, g1, g2, g3⟩ := hl b (List.mem_cons_of_mem _ hb)
      refine ⟨l, m, ?_, ?_, g3⟩
      · simp only [add, setNet, alloc]
        rw [List.getElem?_append_left (lt_of_some g1)]
        exact g1
      · simp only [add, setNet, alloc]
        rw [List.getElem?_append_left (lt_of_some g2)]
        exact g2) hw
    exact ⟨v', by rw [cloneAll, deref_eq g2, bind_ok', c2, bind_ok']; exact k3, k4⟩

end World

/-- Assignment of networks in two runs. -/
theorem Ready.assign_twin {e f : Nat → Env} {w v w' : World} (hcore : v.core = w.core) {n b d : Nat} {form : Nat → Form} {kinds : Nat → LayerKind} (h : Ready w n d form kinds)
    (h' : Ready v n d form kinds) (ho : Owned w) (hb : b ≠ n) (hw : w.assign e b n = .ok w') : ∃ v', v.assign f b n = .ok v' ∧ v'.core = w'.core := by
  have hn := World.core_nets hcore
  have ho' : Owned v := World.core_owned hcore ho
  obtain ⟨w₁, h1, h2⟩ := ok_bind hw
  obtain ⟨w₂, h3, h4⟩ := ok_bind h2
  injection h4 with h4
  obtain ⟨v₁, k1, k2⟩ := World.clear_twin hcore h1
  have fw := frame_clear ho h1
  have fv := frame_clear ho' k1
  have r1 := h.frame fw hb.symm
  have r2 := h'.frame fv hb.symm
  have n1 := World.core_nets k2
  obtain ⟨v₂, k3, k4⟩ := World.cloneAll_twin (f := f) _ 0 k2 (fun a ha => by
    obtain ⟨i, hi⟩ := List.getElem?_of_mem ha
    obtain ⟨l, a1, a2⟩ := r1.layers i a hi
    obtain ⟨m, b1, b2⟩ := r2.layers i a (by rw [n1]; exact hi)
    refine ⟨l, m, a1, b1, a2.1.valid, b2.1.valid, ?_, ?_⟩
    · intro x y hxy
      have := a2.1.takes
      rw [hxy] at this
      exact this
    · intro x hxy
      have := a2.1.takes
      rw [hxy] at this
      exact this) h3
  refine ⟨v₂.setNet b { v₂.nets b with classif := (v₂.nets n).classif }, ?_, ?_⟩
  · unfold World.assign
    rw [k1, bind_ok', n1, k3, bind_ok']
    rfl
  · subst h4
    rw [World.core_nets k4]
    exact World.core_setNet k4 _ _

end BeeDNN
