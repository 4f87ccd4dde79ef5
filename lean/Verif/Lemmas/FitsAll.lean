import Verif.Lemmas.FitsPool

/-! # Sizes: all layers -/

namespace BeeDNN
open Finset HasWF

namespace Layer

variable {first : Bool} {s s' : Form} {l l' : Layer} {e : Env} {N : Nat} {x x' : Nat → Nat → ℝ} {o M : Mat ℝ}

theorem softmaxAt_nonneg (C : Nat) (v : Row) (j : Nat) : 0 ≤ softmaxAt C v j := by
  unfold softmaxAt
  positivity

theorem Fits.forward (h : l.Fits first s s') (he : e.Exact) (hN : 0 < N) (hM : M.Shape N s.width) (ho : o.WF) :
    ∃ l' M', l.forward e M o = .ok (l', M') ∧ Passed first s s' N l M l' M' := by
  obtain ⟨x, rfl⟩ := hM.exists_ofFn
  change Works first s s' l e N x o
  have ht := h.takes
  have hm := h.valid.made
  have none_floor : ∀ {P : Prop}, s'.floor = false → s'.floor = true → P := fun h0 h1 => by rw [h0] at h1; cases h1
  cases hk : l.kind with
  | dense i n =>
    rw [hk] at ht hm
    refine h.ply (h.full (by rw [hk]; rfl)) .dense ⟨i, n, hk⟩ trivial (fun b => by rw [hk]; rfl) (by rw [hk]; rfl) ho (none_floor ht)
  | dot i n =>
    rw [hk] at ht hm
    refine h.ply (h.full (by rw [hk]; rfl)) .dot ⟨i, n, hk⟩ trivial (fun b => by rw [hk]; cases b <;> rfl) (by rw [hk]; rfl) ho (none_floor ht)
  | bias => exact works_bias h hk ho
  | gain => exact works_gain h hk ho
  | affine => exact works_affine h hk ho
  | globalBias => exact works_globalBias h hk ho
  | globalGain => exact works_globalGain h hk ho
  | globalAffine => exact works_globalAffine h hk ho
  | channelBias R C K =>
    rw [hk] at ht hm
    refine h.ply (h.full (by rw [hk]; rfl)) (.channelBias R C K) hk ⟨ht.1, ht.2.1⟩ (fun b => by rw [hk]; cases b <;> rfl) (by rw [hk]; rfl) ho (none_floor ht.2.2)
  | activation a =>
    rw [hk] at ht hm
    refine h.ply (h.full (by rw [hk]; rfl)) (.act a) hk ⟨ht.1, hm⟩ (fun b => by rw [hk]; cases b <;> rfl) (by rw [hk]; rfl) ho ?_
    intro h1 p hp v _ j _
    simp only [Ply.apply, hp]
    exact ht.2 h1 _
  | softmax =>
    rw [hk] at ht hm
    refine h.ply (h.full (by rw [hk]; rfl)) .softmax hk ht (fun b => by rw [hk]; cases b <;> rfl) (by rw [hk]; rfl) ho ?_
    intro h1 p hp v _ j _
    simp only [Ply.apply, hp]
    exact low_neg.trans_le (softmaxAt_nonneg _ _ _)
  | softmin => exact works_softmin h hk ho
  | maxPool p => exact works_maxPool h hk he hN ho
  | globalMaxPool R C K => exact works_globalMaxPool h hk he ho
  | avgPool p =>
    rw [hk] at ht hm
    obtain ⟨R, C, K, rf, cf, hp⟩ := hm
    obtain ⟨hrf, hcf, rfl⟩ := Pool.create_inv hp
    refine h.ply (h.full (by rw [hk]; rfl)) (.avgPool R C K rf cf) ⟨_, hp, hk⟩ ⟨ht.1, ht.2.1, hrf, hcf⟩ (fun b => by rw [hk]; cases b <;> rfl) (by rw [hk]; rfl) ho (none_floor ht.2.2)
  | globalAvgPool R C K =>
    rw [hk] at ht hm
    refine h.ply (h.full (by rw [hk]; rfl)) (.globalAvgPool R C K) hk ⟨ht.1, ht.2.1⟩ (fun b => by rw [hk]; cases b <;> rfl) (by rw [hk]; rfl) ho (none_floor ht.2.2)
  | zeroPad R C K b =>
    rw [hk] at ht hm
    refine h.ply (h.full (by rw [hk]; rfl)) (.zeroPad R C K b) hk ⟨ht.1, ht.2.1⟩ (fun b => by rw [hk]; cases b <;> rfl) (by rw [hk]; rfl) ho ?_
    intro h1 p hp v hv j hj
    have hv := hv (ht.2.2 h1)
    rw [ht.2.1] at hj
    obtain ⟨a, b', c⟩ := planes_lt hj
    simp only [Ply.apply, hp, planes]
    split
    · rename_i h2
      exact hv _ (by rw [ht.1]; exact px_lt a (by omega) (by omega))
    · exact low_neg
  | conv p =>
    rw [hk] at ht hm
    obtain ⟨R, C, K, kR, kC, O, rs, cs, hp⟩ := hm
    obtain ⟨h1, h2, rfl⟩ := Conv.create_inv hp
    refine h.ply (h.full (by rw [hk]; rfl)) (.conv R C K kR kC O rs cs) ⟨_, hp, hk⟩ ⟨ht.1, ht.2.1, h1, h2, ht.2.2.1, ht.2.2.2.1⟩
      (fun b => by rw [hk]; cases b <;> rfl) (by rw [hk]; rfl) ho (none_floor ht.2.2.2.2)
  | dropout r => exact works_dropout h hk ho
  | gaussianDropout r => rw [hk] at ht; exact ht.elim
  | gaussianNoise r => exact works_noise h (.inl hk) ho
  | uniformNoise r => exact works_noise h (.inr hk) ho
  | randomFlip R C K => exact works_randomFlip h hk ho
  | crelu =>
    rw [hk] at ht hm
    refine h.ply (h.full (by rw [hk]; rfl)) .crelu hk ht (fun b => by rw [hk]; cases b <;> rfl) (by rw [hk]; rfl) ho ?_
    intro h1 p hp v _ j _
    simp only [Ply.apply, hp]
    split <;> exact low_neg.trans_le (le_max_right _ _)
  | gated a b =>
    rw [hk] at ht hm
    obtain ⟨s1, s2, b1, b2, h1, h2, rfl, rfl⟩ := hm
    refine h.ply (h.full (by rw [hk]; rfl)) (.gated b1 b2) hk ⟨ht.1, ⟨_, h1⟩, ⟨_, h2⟩⟩ (fun b => by rw [hk]; cases b <;> rfl) (by rw [hk]; rfl) ho (none_floor ht.2)
  | prelu => exact works_prelu h hk ho
  | pelu => exact works_pelu h hk ho
  | terelu => exact works_terelu h hk ho
  | rrelu a₁ a₂ => exact works_rrelu h hk ho
  | tdBias f =>
    rw [hk] at ht hm
    obtain ⟨⟨n, h1⟩, h2, h3⟩ := ht
    refine h.ply (h.full (by rw [hk]; rfl)) (.tdBias n f) hk ⟨h1, h2⟩ (fun b => by rw [hk]; cases b <;> rfl) (by rw [hk]; rfl) ho (none_floor h3)
  | tdDot f n =>
    rw [hk] at ht hm
    obtain ⟨⟨n, h1, h2⟩, h3⟩ := ht
    refine h.ply (h.full (by rw [hk]; rfl)) (.tdDot n f _) hk ⟨h1, h2⟩ (fun b => by rw [hk]; cases b <;> rfl) (by rw [hk]; rfl) ho (none_floor h3)
  | tdDense f n =>
    rw [hk] at ht hm
    obtain ⟨⟨n, h1, h2⟩, h3⟩ := ht
    refine h.ply (h.full (by rw [hk]; rfl)) (.tdDense n f _) hk ⟨h1, h2⟩ (fun b => by rw [hk]; cases b <;> rfl) (by rw [hk]; rfl) ho (none_floor h3)
  | simpleRNN f u => rw [hk] at ht; exact ht.elim
  | simplestRNN f => rw [hk] at ht; exact ht.elim

end Layer

end BeeDNN
