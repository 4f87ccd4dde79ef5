import Verif.Lemmas.LayerValid

/-! # Losses, regularizers and optimizers keep matrices well-formed -/

namespace BeeDNN
open HasWF

theorem Mat.mapI_safe {f : ℝ → ℝ} {m : Mat ℝ} (hm : m.WF) : Safe (m.mapI f) := by unfold Mat.mapI; safe
macro_rules | `(tactic| safe_lemma) => `(tactic| with_reducible_and_instances refine Mat.mapI_safe ?_)

theorem Mat.colWiseSum_safe {g : Nat → ℝ} {a : Mat ℝ} : Safe (Mat.colWiseSum g a) := by unfold Mat.colWiseSum Mat.colWiseAcc; safe
macro_rules | `(tactic| safe_lemma) => `(tactic| with_reducible_and_instances exact Mat.colWiseSum_safe)

theorem rowScalarAssign_safe {op : ℝ → ℝ → ℝ} {m : Mat ℝ} {i : Nat} {x : ℝ} (hm : m.WF) : Safe (m.rowScalarAssign op i x) := by
  unfold Mat.rowScalarAssign; safe
macro_rules | `(tactic| safe_lemma) => `(tactic| with_reducible_and_instances refine rowScalarAssign_safe ?_)

theorem balanceWithWeight_safe {w t m : Mat ℝ} (hm : m.WF) : Safe (balanceWithWeight w t m) := by
  unfold balanceWithWeight; safe
macro_rules | `(tactic| safe_lemma) => `(tactic| with_reducible_and_instances refine balanceWithWeight_safe ?_)

theorem diffCompute_safe {g : Nat → ℝ} {pre red : Mat ℝ → Out (Mat ℝ)} {w p t o : Mat ℝ} (ho : o.WF) :
    Safe (diffCompute g pre red w p t o) := by
  unfold diffCompute
  refine Safe.bind_any fun _ => Safe.bind_any fun _ => Safe.bind_any fun _ => Safe.bind_any fun _ => Safe.bind_any fun _ => ?_
  safe

theorem diffGradient_safe {g : Nat → ℝ} {post : Mat ℝ → Out (Mat ℝ)} {w p t o : Mat ℝ} (ho : o.WF) :
    Safe (diffGradient g post w p t o) := by
  unfold diffGradient
  refine Safe.bind_any fun _ => Safe.bind_any fun _ => Safe.bind_any fun _ => Safe.bind_any fun _ => ?_
  safe

theorem ite_some_inv {α : Type} {c : Prop} [Decidable c] {a ℓ : α} {x : Option α} (h : (if c then some a else x) = some ℓ) :
    ℓ = a ∨ x = some ℓ := by
  by_cases hc : c
  · rw [if_pos hc] at h; injection h with h; exact .inl h.symm
  · rw [if_neg hc] at h; exact .inr h

/-- The losses. -/
theorem createLoss_cases {g : Nat → ℝ} {ab : ℝ → ℝ} {eps : ℝ} {s : String} {ℓ : LossFn} (h : createLoss g ab eps s = some ℓ) :
    (∃ (pre red : Mat ℝ → Out (Mat ℝ)) (post : Mat ℝ → Mat ℝ → Out (Mat ℝ)), ℓ.compute = diffCompute g pre red ∧
      ∀ w p t o, ℓ.gradient w p t o = diffGradient g (post p) w p t o) ∨
      ℓ = lossCCE g eps ∨ ℓ = lossSparseCCE g eps ∨ ℓ = lossBCE g eps := by
  unfold createLoss at h
  rcases ite_some_inv h with rfl | h; · exact .inl ⟨_, _, fun p d => d.divScalar (p.cols : ℝ), rfl, fun _ _ _ _ => rfl⟩
  rcases ite_some_inv h with rfl | h; · exact .inl ⟨_, _, fun _ => _, rfl, fun _ _ _ _ => rfl⟩
  rcases ite_some_inv h with rfl | h; · exact .inl ⟨_, _, fun _ => _, rfl, fun _ _ _ _ => rfl⟩
  rcases ite_some_inv h with rfl | h; · exact .inl ⟨_, _, fun _ => _, rfl, fun _ _ _ _ => rfl⟩
  rcases ite_some_inv h with rfl | h
  · exact .inl ⟨_, _, fun p d => d.cwise signR >>= fun m => m.divScalar (p.cols : ℝ), rfl, fun _ _ _ _ => rfl⟩
  rcases ite_some_inv h with rfl | h; · exact .inl ⟨_, _, fun _ => _, rfl, fun _ _ _ _ => rfl⟩
  rcases ite_some_inv h with rfl | h; · exact .inl ⟨_, _, fun _ => _, rfl, fun _ _ _ _ => rfl⟩
  rcases ite_some_inv h with rfl | h; · exact .inl ⟨_, _, fun _ => _, rfl, fun _ _ _ _ => rfl⟩
  rcases ite_some_inv h with rfl | h; · exact .inl ⟨_, _, fun _ => _, rfl, fun _ _ _ _ => rfl⟩
  rcases ite_some_inv h with rfl | h; · exact .inr (.inl rfl)
  rcases ite_some_inv h with rfl | h; · exact .inr (.inr (.inl rfl))
  rcases ite_some_inv h with rfl | h; · exact .inr (.inr (.inr rfl))
  cases h

theorem loss_safe {g : Nat → ℝ} {ab : ℝ → ℝ} {eps : ℝ} {s : String} {ℓ : LossFn} (h : createLoss g ab eps s = some ℓ)
    {w p t o : Mat ℝ} (ho : o.WF) : Safe (ℓ.compute w p t o) ∧ Safe (ℓ.gradient w p t o) := by
  rcases createLoss_cases h with ⟨pre, red, post, h1, h2⟩ | rfl | rfl | rfl
  · rw [h1, h2]; exact ⟨diffCompute_safe ho, diffGradient_safe ho⟩
  · constructor <;> (unfold lossCCE; safe)
  · constructor <;> (unfold lossSparseCCE; safe)
  · constructor <;> (unfold lossBCE; safe)

theorem check_inv {c : Prop} [Decidable c] {u : Unit} (h : check c = .ok u) : c := by
  by_contra hn
  simp [check, hn] at h

/-- Every loss asserts that predictions and truths have the same number of rows. -/
theorem loss_rows {g : Nat → ℝ} {ab : ℝ → ℝ} {eps : ℝ} {s : String} {ℓ : LossFn} (h : createLoss g ab eps s = some ℓ)
    {w p t o m : Mat ℝ} (hc : ℓ.compute w p t o = .ok m) : t.rows = p.rows := by
  rcases createLoss_cases h with ⟨pre, red, post, h1, h2⟩ | rfl | rfl | rfl
  · rw [h1] at hc
    obtain ⟨_, -, h⟩ := ok_bind hc
    obtain ⟨_, h1, -⟩ := ok_bind h
    exact check_inv h1
  · obtain ⟨_, -, h⟩ := ok_bind hc
    obtain ⟨_, h1, -⟩ := ok_bind h
    exact check_inv h1
  · obtain ⟨_, -, h⟩ := ok_bind hc
    obtain ⟨_, h1, -⟩ := ok_bind h
    exact check_inv h1
  · obtain ⟨_, -, h⟩ := ok_bind hc
    obtain ⟨_, -, h⟩ := ok_bind h
    obtain ⟨_, h1, -⟩ := ok_bind h
    exact check_inv h1

theorem Mat.cwiseSign_safe {m : Mat ℝ} (hm : m.WF) : Safe m.cwiseSign := Mat.cwise_safe hm
macro_rules | `(tactic| safe_lemma) => `(tactic| with_reducible_and_instances refine Mat.cwiseSign_safe ?_)

theorem Mat.clamp_safe {m : Mat ℝ} {a b : ℝ} (hm : m.WF) : Safe (m.clamp a b) := by
  unfold Mat.clamp; safe
macro_rules | `(tactic| safe_lemma) => `(tactic| with_reducible_and_instances refine Mat.clamp_safe ?_)

theorem normClip_safe {g : Nat → ℝ} {p n : ℝ} {m : Mat ℝ} (hm : m.WF) : Safe (normClip g p n m) := by unfold normClip; safe
macro_rules | `(tactic| safe_lemma) => `(tactic| with_reducible_and_instances refine normClip_safe ?_)

theorem Reg.apply_safe {g : Nat → ℝ} {r : Reg} {w dw : Mat ℝ} (hw : w.WF) (hd : dw.WF) : Safe (r.apply g w dw) := by
  unfold Reg.apply
  split
  all_goals safe

instance : HasWF (Opt ℝ) := ⟨Opt.WF⟩

theorem Opt.optimize_safe {g : Nat → ℝ} {sq ab : ℝ → ℝ} {o : Opt ℝ} {w dw : Mat ℝ} (ho : o.WF) (hw : w.WF) :
    Safe (o.optimize g sq ab w dw) := by
  rintro ⟨o', w'⟩ h
  obtain ⟨h1, h2, -⟩ := Opt.optimize_WF ho hw h
  exact ⟨h1, h2⟩

end BeeDNN
