import Verif.Spec.Trainable
import Verif.Lemmas.Ply
import Verif.Lemmas.LayersRect
import Verif.Lemmas.LayersMisc
import Verif.Lemmas.Softmax
import Verif.Lemmas.Pooling

/-! # Sizes: the forward and the backward pass of one layer -/

namespace BeeDNN
open Finset HasWF

theorem Mat.Shape.exists_ofFn {M : Mat ℝ} {r c : Nat} (h : M.Shape r c) : ∃ f, M = Mat.ofFn r c f := by
  obtain ⟨h1, rfl, rfl⟩ := h
  exact h1.exists_ofFn

theorem Mat.shape_ofFn (r c : Nat) (f : Nat → Nat → ℝ) : (Mat.ofFn r c f).Shape r c := ⟨Mat.ofFn_WF _ _ _, rfl, rfl⟩

theorem Mat.above_ofFn {r c : Nat} {f : Nat → Nat → ℝ} : (Mat.ofFn r c f).Above ↔ ∀ i j, i < r → j < c → Layer.low < f i j := by
  constructor
  · intro h i j hi hj
    exact h i j _ (Mat.get_ofFn hi hj)
  · intro h i j x hx
    by_cases hi : i < r
    · by_cases hj : j < c
      · rw [Mat.get_ofFn hi hj] at hx
        injection hx with hx
        rw [← hx]
        exact h i j hi hj
      · have hj' : ¬ j < (Mat.ofFn r c f).cols := hj
        simp only [Mat.get, check, if_neg hj'] at hx
        split at hx <;> cases hx
    · have hi' : ¬ i < (Mat.ofFn r c f).rows := hi
      simp only [Mat.get, check, if_neg hi'] at hx
      cases hx

theorem Form.holds_ofFn {s : Form} {N : Nat} {x : Nat → Nat → ℝ} :
    s.Holds N (Mat.ofFn N s.width x) ↔ (s.floor = true → ∀ i j, i < N → j < s.width → Layer.low < x i j) :=
  ⟨fun h hf => Mat.above_ofFn.mp (h.floor hf), fun h => ⟨Mat.shape_ofFn _ _ _, fun hf => Mat.above_ofFn.mpr (h hf)⟩⟩

theorem Layer.low_neg : Layer.low < 0 := by unfold Layer.low; norm_num

namespace Layer

/-- All gradients have the sizes of the parameters. -/
def Graded (s s' : Form) (l : Layer) : Prop :=
  ∀ b rc, l.kind.parShape b s.width s'.width = some rc → (l.grad b).Shape rc.1 rc.2

/-- The backward pass after a forward pass with the input `M` works. -/
def Back (first : Bool) (s s' : Form) (N : Nat) (M : Mat ℝ) (l : Layer) : Prop :=
  ∀ (e : Env) (gOut gIn : Mat ℝ), gOut.Shape N s'.width → gIn.WF → ∃ l' gi, l.backprop e M gOut gIn = .ok (l', gi) ∧ gi.WF ∧
    (l.first = false → gi.Shape N s.width) ∧ l'.Fits first s s' ∧ l'.Full s s' ∧ l'.Graded s s' ∧ l'.kind = l.kind ∧ l'.first = l.first ∧
    l'.train = l.train

/-- The result of a forward pass. -/
structure Passed (first : Bool) (s s' : Form) (N : Nat) (l : Layer) (M : Mat ℝ) (l' : Layer) (M' : Mat ℝ) : Prop where
  fits : l'.Fits first s s'
  full : l'.Full s s'
  kind : l'.kind = l.kind
  mark : l'.first = l.first
  train : l'.train = l.train
  shape : M'.Shape N s'.width
  holds : s.Holds N M → s'.Holds N M'
  back : l.train = true → l.first = first → s.Holds N M → l'.Back first s s' N M

theorem Fits.update {first : Bool} {s s' : Form} {l l' : Layer} (h : l.Fits first s s') (hk : l.Keep l') (hf : l'.Full s s')
    (hg : l'.kind.keepsGrad = true → l'.Graded s s') : l'.Fits first s s' where
  valid := hk.valid
  pos := h.pos
  takes := by rw [hk.kind]; exact h.takes
  notFirst := fun h0 => hk.first.trans (h.notFirst h0)
  params := .inl hf
  grads := fun h1 _ => hg h1
  inits := fun h1 h2 => by
    have h3 := hf true (1, s.width) (by rw [h1]; rfl)
    obtain ⟨-, h4, h5⟩ := h3
    have h6 : l'.bias.rows * l'.bias.cols = 0 := h2
    have h4 : l'.bias.rows = 1 := h4
    have h5 : l'.bias.cols = s.width := h5
    rw [h4, h5] at h6
    have := h.pos.1
    omega

variable {first : Bool} {s s' : Form} {l l' : Layer} {e : Env} {N : Nat} {x x' : Nat → Nat → ℝ} {o : Mat ℝ}

theorem Fits.passed (h : l.Fits first s s') (ho : o.WF)
    (heq : l.forward e (Mat.ofFn N s.width x) o = .ok (l', Mat.ofFn N s'.width x')) (hfull : l'.Full s s')
    (hg : l'.kind.keepsGrad = true → l'.Graded s s')
    (hx : s'.floor = true → (s.floor = true → ∀ i j, i < N → j < s.width → low < x i j) → ∀ i j, i < N → j < s'.width → low < x' i j)
    (hb : l.train = true → l'.first = first → (s.floor = true → ∀ i j, i < N → j < s.width → low < x i j) →
      ∀ (e : Env) (gr : Nat → Nat → ℝ) (gIn : Mat ℝ), gIn.WF → ∃ l₂ gi, l'.backprop e (Mat.ofFn N s.width x) (Mat.ofFn N s'.width gr) gIn = .ok (l₂, gi) ∧
        (l'.first = false → gi.Shape N s.width) ∧ l₂.Full s s' ∧ l₂.Graded s s') :
    ∃ l' M', l.forward e (Mat.ofFn N s.width x) o = .ok (l', M') ∧ Passed first s s' N l (Mat.ofFn N s.width x) l' M' := by
  obtain ⟨hk, -⟩ := Layer.forward_safe e h.valid (Mat.ofFn_WF _ _ _) ho _ heq
  have hfit := h.update hk hfull hg
  refine ⟨l', _, heq, hfit, hfull, hk.kind, hk.first, hk.train, Mat.shape_ofFn _ _ _, fun hh => ?_, fun ht hf hh => ?_⟩
  · exact Form.holds_ofFn.mpr fun hf => hx hf (Form.holds_ofFn.mp hh)
  · intro e' gOut gIn h1 h2
    obtain ⟨gr, rfl⟩ := h1.exists_ofFn
    obtain ⟨l₂, gi, k1, k2, k3, k4⟩ := hb ht (hk.first.trans hf) (Form.holds_ofFn.mp hh) e' gr gIn h2
    obtain ⟨j1, j2⟩ := Layer.backprop_safe e' hk.valid (Mat.ofFn_WF _ _ _) (Mat.ofFn_WF _ _ _) h2 _ k1
    exact ⟨l₂, gi, k1, j2, k2, hfit.update j1 k3 (fun _ => k4), k3, k4, j1.kind, j1.first, j1.train⟩

/-- A class without parameters. -/
theorem full_none (h : ∀ b, l.kind.parShape b s.width s'.width = none) : l.Full s s' := fun b rc hb => by rw [h b] at hb; cases hb

theorem graded_none (h : ∀ b, l.kind.parShape b s.width s'.width = none) : l.Graded s s' := fun b rc hb => by rw [h b] at hb; cases hb

/-- A layer with parameters, computed by `Ply`. -/
theorem Fits.ply (h : l.Fits first s s') (hfull : l.Full s s') (k : PlyKind) (hk : k.Of l.kind) (hf : k.Fits s.width s'.width)
    (hs : ∀ b, l.kind.parShape b s.width s'.width = if k.has b then some (k.shape b s.width s'.width) else none)
    (hkg : l.kind.keepsGrad = false) (ho : o.WF)
    (hx : s'.floor = true → ∀ (p : Ply), p.kind = k → ∀ v : Row, (s.floor = true → ∀ j, j < s.width → low < v j) → ∀ j, j < s'.width → low < p.apply s.width v j) :
    ∃ l' M', l.forward e (Mat.ofFn N s.width x) o = .ok (l', M') ∧ Passed first s s' N l (Mat.ofFn N s.width x) l' M' := by
  have hw : ∀ b, ∃ f, k.has b = true → l.par b = Mat.ofFn (k.shape b s.width s'.width).1 (k.shape b s.width s'.width).2 f := by
    intro b
    by_cases hb : k.has b = true
    · obtain ⟨f, hf⟩ := (hfull b _ (by rw [hs, if_pos hb])).exists_ofFn
      exact ⟨f, fun _ => hf⟩
    · exact ⟨fun _ _ => 0, fun h => absurd h hb⟩
  obtain ⟨W, hW⟩ := hw false
  obtain ⟨B, hB⟩ := hw true
  have hIs : (Ply.mk k W B).Is s.width s'.width l := ⟨hk, hW, hB⟩
  obtain ⟨l', f1, f2, f3, f4⟩ := Ply.forward (e := e) hIs hf h.pos.1 h.pos.2 h.valid ho N x
  obtain ⟨hkeep, -⟩ := Layer.forward_safe e h.valid (Mat.ofFn_WF _ _ _) ho _ f1
  have hfull' : ∀ {l₁ : Layer}, (Ply.mk k W B).Is s.width s'.width l₁ → l₁.kind = l.kind → l₁.Full s s' := by
    intro l₁ h1 h2 b rc hb
    rw [h2, hs] at hb
    split at hb
    · rename_i hh
      injection hb with hb
      subst hb
      cases b
      · show Mat.Shape l₁.weight _ _
        rw [h1.weight hh]
        exact Mat.shape_ofFn _ _ _
      · show Mat.Shape l₁.bias _ _
        rw [h1.bias hh]
        exact Mat.shape_ofFn _ _ _
    · cases hb
  refine h.passed ho f1 (hfull' (hIs.scratch f2) hkeep.kind) ?_ ?_ ?_
  · rw [hkeep.kind, hkg]; intro h0; cases h0
  · intro hfl hl i j hi hj
    exact hx hfl ⟨k, W, B⟩ rfl (x i) (fun h1 j hj => hl h1 i j hi hj) j hj
  · intro ht hfi hfl e' gr gIn hg
    obtain ⟨l₂, b1, b2, b3, b4, b5⟩ := Ply.backward (e := e') (hIs.scratch f2) hf h.pos.1 h.pos.2 f3 hg N x gr f4
    obtain ⟨hkeep2, -⟩ := Layer.backprop_safe e' f3 (Mat.ofFn_WF _ _ _) (Mat.ofFn_WF _ _ _) hg _ b1
    have hk2 : l₂.kind = l.kind := hkeep2.kind.trans hkeep.kind
    refine ⟨l₂, _, b1, fun h0 => ?_, hfull' b2 hk2, fun b rc hb => ?_⟩
    · rw [h0, if_neg (by decide)]
      exact Mat.shape_ofFn _ _ _
    · rw [hk2, hs] at hb
      split at hb
      · rename_i hh
        injection hb with hb
        subst hb
        rw [b5 b hh]
        exact Mat.shape_ofFn _ _ _
      · cases hb

end Layer

end BeeDNN
