import Verif.Lemmas.MlpOpt
import Verif.Lemmas.TrainAcc
import Verif.Lemmas.TrainLoss

/-! # Training a perceptron: one batch -/

namespace BeeDNN
open Finset HasWF

theorem TruthFits.cols {s : String} {K D N : Nat} {Y : Nat → Row} (h : TruthFits s K D N Y) : D = K ∨ D = 1 := by
  unfold TruthFits at h
  split at h
  · exact .inr h.1
  · exact .inl h.1

theorem TruthFits.sub {s : String} {K D N N' : Nat} {Y Y' : Nat → Row} (h : TruthFits s K D N Y) (hs : ∀ i, i < N' → ∃ j, j < N ∧ Y' i = Y j) :
    TruthFits s K D N' Y' := by
  unfold TruthFits at h ⊢
  split
  · rename_i hc
    rw [if_pos hc] at h
    refine ⟨h.1, h.2.1, fun i hi => ?_⟩
    obtain ⟨j, hj, e⟩ := hs i hi
    rw [e]
    exact h.2.2 j hj
  · rename_i hc
    rwa [if_neg hc] at h

/-- Which class weights the loss is computed with, and which truths fit then. -/
structure Weighing where
  weights : Mat ℝ → Prop
  truth : String → Nat → Nat → Nat → (Nat → Row) → Prop
  fits : ∀ {s K D N Y}, truth s K D N Y → TruthFits s K D N Y
  sub : ∀ {s K D N N' Y Y'}, truth s K D N Y → 0 < N' → (∀ i, i < N' → ∃ j, j < N ∧ Y' i = Y j) → truth s K D N' Y'

/-- No class weights. -/
abbrev Weighing.none : Weighing := ⟨fun W => W.size = 0, TruthFits, id, fun h _ hs => h.sub hs⟩

/-- For truths that fit, the named loss is computed without fault, and its gradient is `Γ`. -/
def LossOkW (ω : Weighing) (ab : ℝ → ℝ) (eps : ℝ) (s : String) (K D : Nat) (Γ : Row → Row → Row) : Prop :=
  ∀ (t : Trainer) (g : Nat → ℝ) (N : Nat) (P Y : Nat → Row), t.loss = s → ω.weights t.lossWeight → ω.truth s K D N Y → ∀ o : Mat ℝ, o.WF →
    (∃ M x, t.lossCompute g ab eps (Mat.ofFn N K P) (Mat.ofFn N D Y) o = .ok M ∧ M.mean = .ok x) ∧
    t.lossGradient g ab eps (Mat.ofFn N K P) (Mat.ofFn N D Y) o = .ok (Mat.ofFn N K (fun i => Γ (P i) (Y i)))

/-- The same without class weights. -/
abbrev LossOk (ab : ℝ → ℝ) (eps : ℝ) (s : String) (K D : Nat) (Γ : Row → Row → Row) : Prop := LossOkW .none ab eps s K D Γ

/-- `x` is the mean of the losses that the loss named `s` computes for a batch of `N` samples. -/
def BatchLossW (ω : Weighing) (ab : ℝ → ℝ) (eps : ℝ) (s : String) (K D N : Nat) (P Y : Nat → Row) (x : ℝ) : Prop :=
  ∃ (t : Trainer) (g : Nat → ℝ) (M : Mat ℝ), t.loss = s ∧ ω.weights t.lossWeight ∧
    t.lossCompute g ab eps (Mat.ofFn N K P) (Mat.ofFn N D Y) ⟨0, 0, []⟩ = .ok M ∧ M.mean = .ok x

/-- The same without class weights. -/
abbrev BatchLoss (ab : ℝ → ℝ) (eps : ℝ) (s : String) (K D N : Nat) (P Y : Nat → Row) (x : ℝ) : Prop := BatchLossW .none ab eps s K D N P Y x

theorem Represents.allValid {w : World} {n : Nat} {m : Mlp} (h : Represents w n m) : AllValid w (w.nets n).layers := by
  intro a ha l hl
  obtain ⟨i, hi⟩ := List.getElem?_of_mem ha
  obtain ⟨l', h1, h2, -⟩ := h.layer i a hi
  rw [hl] at h1
  obtain rfl : l = l' := by injection h1 with h1; injection h1
  exact h2

theorem Represents.setAll_congr {w : World} {n : Nat} {m : Mlp} {b : Bool} {as : List Nat} {ps : List Nat} (V : Nat → Nat → Nat → ℝ) {c : Bool}
    (hp : PtrsTo c as m ps) : PtrsTo c as (m.setAll b V) ps :=
  ⟨hp.nodup, hp.sub, fun i a hi => by rw [hp.mem i a hi]; simp [Mlp.setAll]⟩

@[simp] theorem Mlp.setAll_shape (m : Mlp) (b : Bool) (V : Nat → Nat → Nat → ℝ) (c : Bool) (i : Nat) : (m.setAll b V).shape c i = m.shape c i := by
  simp [Mlp.shape, Mlp.setAll]

namespace Trainer

theorem GradsFor.setAll {w : World} {n : Nat} {m : Mlp} {c : Bool} {G : Nat → Nat → Nat → ℝ} (h : GradsFor w n m c G) (b : Bool)
    (V : Nat → Nat → Nat → ℝ) : GradsFor w n (m.setAll b V) c G := by
  intro i a l hi hl hc
  rw [Mlp.setAll_shape]
  exact h i a l hi hl (by simpa [Mlp.setAll] using hc)

/-- Pointers to biases (`b = true`) or weights. -/
def ptrs (t : Trainer) (b : Bool) : List Nat := if b then t.pBiases else t.pWeights
/-- Where the optimizers of the biases or weights start. -/
def off (t : Trainer) (b : Bool) : Nat := if b then t.pWeights.length else 0

/-- The trainer trains network `n`, which is the perceptron `m`. -/
structure Going (t : Trainer) (w : World) (n : Nat) (m : Mlp) : Prop where
  rep : Represents w n m
  net : t.net = some n
  layers : t.nbLayers = m.depth
  inOut : t.inOut.length = m.depth + 1
  gradient : t.gradient.length = m.depth + 1
  ok : t.Ok
  gradW : t.pGradWeights = t.pWeights
  gradB : t.pGradBiases = t.pBiases
  ptr : ∀ b, PtrsTo b (w.nets n).layers m (t.ptrs b)
  count : t.opts.length = t.pWeights.length + t.pBiases.length
  ready : ∀ b j a i, (t.ptrs b)[j]? = some a → (w.nets n).layers[i]? = some a →
    ∃ o, t.opts[j + t.off b]? = some o ∧ o.Ready (m.shape b i).1 (m.shape b i).2

theorem Going.ptrOk {t : Trainer} {w : World} {n : Nat} {m : Mlp} (h : t.Going w n m) (b : Bool) :
    PtrOk b w (w.nets n).layers (t.ptrs b) := by
  intro a ha
  have ham := (h.ptr b).sub a ha
  obtain ⟨i, hi⟩ := List.getElem?_of_mem ham
  obtain ⟨l, h1, h2, h3, -⟩ := h.rep.layer i a hi
  refine ⟨lt_of_some h1, fun l' hl' => ⟨ham, ?_⟩⟩
  rw [h1] at hl'
  obtain rfl : l = l' := by injection hl' with hl'; injection hl'
  exact Ply.is_uses h3 (((h.ptr b).mem i a hi).1 ha)

theorem Going.ptrs' {t : Trainer} {w : World} {n : Nat} {m : Mlp} (h : t.Going w n m) : t.Ptrs w (w.nets n).layers :=
  ⟨h.ptrOk false, h.ptrOk true, h.gradW, h.gradB⟩

theorem addOnline_mlp {g : Nat → ℝ} {ab : ℝ → ℝ} {eps : ℝ} {c : Bool} {t : Trainer} {N K D : Nat} {ω : Weighing} {Γ : Row → Row → Row}
    (hl : LossOkW ω ab eps t.loss K D Γ) (hw : ω.weights t.lossWeight) (hK : 0 < K) (P Y : Nat → Row) (hT : ω.truth t.loss K D N Y) :
    ∃ x, addOnline g ab eps c t (Mat.ofFn N K P) (Mat.ofFn N D Y) =
      .ok { t with onlineLoss := t.onlineLoss + x, onlineGood := t.onlineGood + if c then nbRight N K D P Y else 0 } ∧
      BatchLossW ω ab eps t.loss K D N P Y x := by
  obtain ⟨⟨M, x, h1, h2⟩, -⟩ := hl t g N P Y rfl hw hT _ Mat.WF_empty
  unfold addOnline
  rw [h1, bind_ok', h2, bind_ok']
  refine ⟨x, ?_, t, g, M, rfl, hw, h1, h2⟩
  cases c
  · rfl
  · rw [if_pos rfl, goodOnline_ofFn N K D P Y hK (ω.fits hT).cols, bind_ok']
    rfl

/-- `mem b i` is the optimizer of the weights (`b = false`) or biases of layer `i`. -/
def Mem (t : Trainer) (w : World) (n : Nat) (mem : Bool → Nat → Opt ℝ) : Prop :=
  ∀ b j a i, (t.ptrs b)[j]? = some a → (w.nets n).layers[i]? = some a → t.opts[j + t.off b]? = some (mem b i)

/-- One batch: every optimizer is called once, with its parameter and what the regularizer makes of what back-propagation computes. -/
def RuleStep (r : Option Reg) (ab : ℝ → ℝ) (Γ : Row → Row → Row) (N : Nat) (X Y : Nat → Row) (m m' : Mlp) (mem mem' : Bool → Nat → Opt ℝ) : Prop :=
  ∀ b i, i < m.depth → (m.ply i).has b = true → ∃ g, (mem b i).optimize g Real.sqrt ab
    (Mat.ofFn (m.shape b i).1 (m.shape b i).2 ((m.ply i).par b))
    (Mat.ofFn (m.shape b i).1 (m.shape b i).2 (regGrad r (m.shape b i).1 (m.shape b i).2 ((m.ply i).par b)
      (m.codeGrad N X (fun s => Γ (m.out (X s)) (Y s)) b i))) =
      .ok (mem' b i, Mat.ofFn (m.shape b i).1 (m.shape b i).2 ((m'.ply i).par b))

/-- One batch of a perceptron: no fault, and the new parameters. -/
theorem trainBatch_mlp {ab : ℝ → ℝ} {eps : ℝ} {e : Nat → Nat → Env} {w : World} {t : Trainer} {n : Nat} {m : Mlp} (h : t.Going w n m)
    {D : Nat} {ω : Weighing} {Γ : Row → Row → Row} (hl : LossOkW ω ab eps t.loss (m.width m.depth) D Γ) (hw : ω.weights t.lossWeight) (N : Nat) (X Y : Nat → Row)
    (hT : ω.truth t.loss (m.width m.depth) D N Y) (S : Prop) (lr : ℝ) (hSr : S → t.reg = none) (hS : S → ∀ o ∈ t.opts, o.kind = .sgd ∧ o.lr = lr) :
    ∃ w' t' m', trainBatch ab eps e w t (Mat.ofFn N (m.width 0) X) (Mat.ofFn N D Y) = .ok (w', t') ∧
      t'.Going w' n m' ∧ Mlp.Like m m' ∧ BatchKeep t t' ∧ Evolve (w.nets n).layers w w' ∧
      ((t'.onlineGood = t.onlineGood + if (w.nets n).classif then nbRight N (m.width m.depth) D (fun s => m.out (X s)) Y else 0) ∧
        ∃ x, t'.onlineLoss = t.onlineLoss + x ∧ BatchLossW ω ab eps t.loss (m.width m.depth) D N (fun s => m.out (X s)) Y x) ∧
      (S → ∀ o ∈ t'.opts, o.kind = .sgd ∧ o.lr = lr) ∧
      (S → ∀ b i, i < m.depth → (m.ply i).has b = true → (m'.ply i).par b = fun k j => (m.ply i).par b k j -
        lr * m.codeGrad N X (fun s => Γ (m.out (X s)) (Y s)) b i k j) ∧
      ∀ mem, t.Mem w n mem → ∃ mem', t'.Mem w' n mem' ∧ RuleStep t.reg ab Γ N X Y m m' mem mem' := by
  have hlt0 : 0 < t.inOut.length := by rw [h.inOut]; omega
  have hltd : m.depth < t.gradient.length := by rw [h.gradient]; omega
  have hwf0 : (t.inOut[0]).WF := h.ok.inOut _ (List.getElem_mem hlt0)
  have hwfd : (t.gradient[m.depth]).WF := h.ok.gradient _ (List.getElem_mem hltd)
  obtain ⟨w₁, io, f1, fs, fp, f2, f3, f4⟩ := fwdLoop_mlp (e := e 0) h.rep (io := t.inOut.set 0 (Mat.ofFn N (m.width 0) X))
    (wr_wf (σ := Mat ℝ) h.ok.inOut (Mat.ofFn_WF _ _ _) (wr_of_lt hlt0)) (by rw [List.length_set, h.inOut]) N X (List.getElem?_set_self hlt0)
  have lg := (hl t (e 4 1).g N (fun s => m.out (X s)) Y rfl hw hT _ hwfd).2
  obtain ⟨w₂, gs, b1, b2, b3, b4, b5, b6⟩ := bwdLoop_mlp (e := e 1) (h.rep.scratch fs) fp (io := io) (gs := t.gradient.set m.depth _)
    (wr_wf (σ := Mat ℝ) h.ok.gradient (Mat.ofFn_WF _ _ _) (wr_of_lt hltd)) (by rw [List.length_set, h.gradient])
    (fun s => Γ (m.out (X s)) (Y s)) f4 (List.getElem?_set_self hltd)
  rw [fs.nets] at b4
  obtain ⟨w₃, os, V, c1, c2, c3, c4, c5, c6, c7, c8, c9⟩ := optLoop_mlp (e := e 2) (ab := ab) (b := false) b5 (by rw [b4]; exact h.ptr false) (b6.gradsFor false) t.reg
    (off := 0) (os := t.opts) (by rw [b4]; exact h.ready false) S lr hSr hS
  have r3 : ∀ j a i, t.pBiases[j]? = some a → (w.nets n).layers[i]? = some a →
      ∃ o, os[j + t.pWeights.length]? = some o ∧ o.Ready (m.shape true i).1 (m.shape true i).2 := by
    intro j a i hj hi
    obtain ⟨o, o1, o2⟩ := h.ready true j a i hj hi
    refine ⟨o, ?_, o2⟩
    rw [c7 _ (.inr (by simp [ptrs]))]
    exact o1
  have hn3 : w₃.nets = w.nets := c2.trans b4
  obtain ⟨w₄, os', V', d1, d2, d3, d4, d5, d6, d7, d8, d9⟩ := optLoop_mlp (e := e 3) (ab := ab) (b := true) c3
    (by rw [hn3]; exact Represents.setAll_congr (w := w) (n := n) V (h.ptr true)) ((c4 _ (b6.gradsFor true)).setAll false V) t.reg (off := t.pWeights.length) (os := os)
    (by rw [hn3]; exact r3) S lr hSr c8
  have hn4 : w₄.nets = w.nets := d2.trans hn3
  obtain ⟨x, a1, a2⟩ := addOnline_mlp (g := (e 4 2).g) (c := (w₄.nets n).classif) (t := { t with inOut := io, gradient := gs, opts := os' }) hl hw
    (h.rep.ok.pos _ (Nat.le_refl _)) (fun s => m.out (X s)) Y hT
  have hrun : trainBatch ab eps e w t (Mat.ofFn N (m.width 0) X) (Mat.ofFn N D Y) = .ok (w₄,
      { t with inOut := io, gradient := gs, opts := os', onlineLoss := t.onlineLoss + x, onlineGood := t.onlineGood + if (w₄.nets n).classif
        then nbRight N (m.width m.depth) D (fun s => m.out (X s)) Y else 0 }) := by
    unfold trainBatch
    rw [h.net]
    dsimp only
    rw [rd_of_lt hlt0, bind_ok', Mat.assign_ofFn _ hwf0, bind_ok', wr_of_lt hlt0, bind_ok', h.layers, f1, bind_ok']
    dsimp only
    rw [rd_some (f4 m.depth (Nat.le_refl _)), bind_ok', rd_of_lt hltd, bind_ok']
    have lg' : t.lossGradient (e 4 1).g ab eps (Mat.ofFn N (m.width m.depth) fun s => m.hidden (X s) m.depth) (Mat.ofFn N D Y) t.gradient[m.depth] =
      .ok (Mat.ofFn N (m.width m.depth) (fun s => Γ (m.out (X s)) (Y s))) := lg
    rw [lg', bind_ok', wr_of_lt hltd, bind_ok', b1, bind_ok']
    dsimp only
    rw [h.gradW, h.gradB]
    have c1' : optLoop (e 2) ab t.reg false t.pWeights t.pWeights 0 (w₂, t.opts) = .ok (w₃, os) := c1
    have d1' : optLoop (e 3) ab t.reg true t.pBiases t.pBiases t.pWeights.length (w₃, os) = .ok (w₄, os') := d1
    rw [c1', bind_ok']
    dsimp only
    rw [d1', bind_ok']
    dsimp only
    rw [bind_ok']
    have a1' := a1
    rw [show (fun s => m.out (X s)) = fun s => m.hidden (X s) m.depth from rfl] at a1'
    simp only [h.gradW, h.gradB, h.layers, h.net] at a1' ⊢
    rw [a1', bind_ok']
    rfl
  obtain ⟨g1, g2, g3⟩ := trainBatch_inv h.net h.rep.allValid h.ok h.ptrs' hrun
  refine ⟨w₄, _, (m.setAll false V).setAll true V', hrun, ?_, ⟨rfl, rfl, fun i => by simp [Mlp.setAll]⟩, g3, g1, ⟨by rw [hn4], x, rfl, a2⟩, d8, ?_, ?_⟩
  · refine ⟨d3, h.net, h.layers, f3, b3, g2, h.gradW, h.gradB, fun b => ?_, ?_, ?_⟩
    · rw [hn4]
      exact Represents.setAll_congr (w := w) (n := n) V' (Represents.setAll_congr (w := w) (n := n) V (h.ptr b))
    · have := g3.opts.length_eq
      dsimp only at this ⊢
      rw [← this]; exact h.count
    · intro b j a i hj hi
      rw [hn4] at hi
      cases b
      · rw [hn3] at d6
        rw [b4] at c6
        obtain ⟨o, o1, o2⟩ := c6 j a i hj hi
        refine ⟨o, ?_, o2⟩
        have hjl : j < t.pWeights.length := lt_of_some hj
        exact (d7 (j + 0) (.inl hjl)).trans o1
      · rw [hn3] at d6
        exact d6 j a i hj hi
  · intro hs b i hi hb
    cases b
    · have e1 : (((m.setAll false V).setAll true V').ply i).par false = ((m.ply i).setPar false (V i)).par false :=
        Ply.par_setPar_other _ true _
      rw [e1, Ply.par_setPar, c5 hs i hi hb]
    · have hb' : ((m.setAll false V).ply i).has true = true := by simpa [Mlp.setAll] using hb
      have e1 : (((m.setAll false V).setAll true V').ply i).par true = V' i := Ply.par_setPar _ _ _
      have e2 : ((m.setAll false V).ply i).par true = (m.ply i).par true := Ply.par_setPar_other _ false _
      rw [e1, d5 hs i hi hb', e2]
  · intro mem hmem
    have key : ∀ b j a i, (t.ptrs b)[j]? = some a → (w.nets n).layers[i]? = some a → ∃ o' g, os'[j + t.off b]? = some o' ∧
        (mem b i).optimize g Real.sqrt ab (Mat.ofFn (m.shape b i).1 (m.shape b i).2 ((m.ply i).par b))
          (Mat.ofFn (m.shape b i).1 (m.shape b i).2 (regGrad t.reg (m.shape b i).1 (m.shape b i).2 ((m.ply i).par b)
      (m.codeGrad N X (fun s => Γ (m.out (X s)) (Y s)) b i))) =
          .ok (o', Mat.ofFn (m.shape b i).1 (m.shape b i).2 ((((m.setAll false V).setAll true V').ply i).par b)) := by
      intro b j a i hj hi
      have ho := hmem b j a i hj hi
      cases b
      · have hjl : j < t.pWeights.length := lt_of_some hj
        obtain ⟨o', g, r1, r2⟩ := c9 j a i _ hj (by rw [b4]; exact hi) ho
        refine ⟨o', g, (d7 (j + 0) (.inl hjl)).trans r1, ?_⟩
        have e1 : (((m.setAll false V).setAll true V').ply i).par false = ((m.ply i).setPar false (V i)).par false :=
          Ply.par_setPar_other _ true _
        rw [e1, Ply.par_setPar]
        exact r2
      · have ho' : os[j + t.pWeights.length]? = some (mem true i) := by
          rw [c7 _ (.inr (by simp [ptrs]))]
          exact ho
        obtain ⟨o', g, r1, r2⟩ := d9 j a i _ hj (by rw [hn3]; exact hi) ho'
        refine ⟨o', g, r1, ?_⟩
        have e1 : (((m.setAll false V).setAll true V').ply i).par true = V' i := Ply.par_setPar _ _ _
        have e2 : ((m.setAll false V).ply i).par true = (m.ply i).par true := Ply.par_setPar_other _ false _
        rw [Mlp.setAll_shape, e2] at r2
        rw [e1]
        exact r2
    have hidx : ∀ b j a, (t.ptrs b)[j]? = some a → (t.ptrs b).idxOf a = j := by
      intro b j a hj
      have hlt := lt_of_some hj
      have hme := List.mem_of_getElem? hj
      have hk := List.idxOf_lt_length_iff.2 hme
      have : (t.ptrs b)[(t.ptrs b).idxOf a]? = (t.ptrs b)[j]? := by
        rw [List.getElem?_eq_getElem hk, hj, List.getElem_idxOf]
      exact (List.getElem?_inj hk (h.ptr b).nodup).mp this
    refine ⟨fun b i => (os'[(t.ptrs b).idxOf ((w.nets n).layers.getD i 0) + t.off b]?).getD (mem b i), ?_, ?_⟩
    · intro b j a i hj hi
      rw [hn4] at hi
      obtain ⟨o', g, r1, -⟩ := key b j a i hj hi
      have e1 : (w.nets n).layers.getD i 0 = a := by rw [List.getD_eq_getElem?_getD, hi]; rfl
      change os'[j + t.off b]? = some ((os'[(t.ptrs b).idxOf ((w.nets n).layers.getD i 0) + t.off b]?).getD (mem b i))
      rw [e1, hidx b j a hj, r1]
      rfl
    · intro b i hi hb
      obtain ⟨a, ha⟩ := h.rep.get hi
      obtain ⟨j, hj⟩ := List.getElem?_of_mem (((h.ptr b).mem i a ha).2 hb)
      obtain ⟨o', g, r1, r2⟩ := key b j a i hj ha
      have e1 : (w.nets n).layers.getD i 0 = a := by rw [List.getD_eq_getElem?_getD, ha]; rfl
      refine ⟨g, ?_⟩
      show _ = Except.ok ((os'[(t.ptrs b).idxOf ((w.nets n).layers.getD i 0) + t.off b]?).getD (mem b i), _)
      rw [e1, hidx b j a hj, r1]
      exact r2

end Trainer

end BeeDNN
