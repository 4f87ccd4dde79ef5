import Verif.Lemmas.Optimizer

/-! # The optimizers keep their matrices well formed, whatever they are called with -/

namespace BeeDNN

theorem forN_ok_inv {σ : Type} {f : Nat → σ → Out σ} {P : σ → Prop}
    (hstep : ∀ i s t, P s → f i s = .ok t → P t) :
    ∀ {n : Nat} {s t : σ}, P s → forN n f s = .ok t → P t := by
  intro n
  induction n with
  | zero => intro s t h0 h; rw [forN_zero] at h; exact Except.ok.inj h ▸ h0
  | succ n ih =>
    intro s t h0 h
    rw [forN_succ] at h
    cases hs : forN n f s with
    | error e => rw [hs] at h; exact absurd h (by intro h; cases h)
    | ok s' =>
      rw [hs] at h
      exact hstep n s' t (ih h0 hs) h

theorem ok_bind {α β : Type} {x : Out α} {f : α → Out β} {b : β} (h : (x >>= f) = .ok b) :
    ∃ a, x = .ok a ∧ f a = .ok b := by
  cases x with
  | error e => cases h
  | ok a => exact ⟨a, rfl, h⟩

namespace Mat

variable {α : Type}

theorem setI_WF {m m' : Mat α} {i : Nat} {x : α} (hm : m.WF) (h : m.setI i x = .ok m') : m'.WF := by
  unfold setI at h
  obtain ⟨_, _, h⟩ := ok_bind h
  obtain ⟨d, hd, h⟩ := ok_bind h
  cases h
  unfold wr at hd
  split at hd
  · cases hd
    simpa [WF] using hm
  · cases hd

theorem setRaw_WF {m m' : Mat α} {i : Nat} {x : α} (hm : m.WF) (h : m.setRaw i x = .ok m') : m'.WF := by
  unfold setRaw at h
  obtain ⟨d, hd, h⟩ := ok_bind h
  cases h
  unfold wr at hd
  split at hd
  · cases hd
    simpa [WF] using hm
  · cases hd

theorem cwise_WF {f : α → α} {m m' : Mat α} (hm : m.WF) (h : m.cwise f = .ok m') : m'.WF := by
  unfold cwise at h
  refine forN_ok_inv (P := WF) ?_ hm h
  intro i s t hs ht
  obtain ⟨_, _, ht⟩ := ok_bind ht
  exact setI_WF hs ht

theorem cwise2_WF {op : α → α → α} {m a m' : Mat α} (hm : m.WF) (h : cwise2 op m a = .ok m') : m'.WF := by
  unfold cwise2 at h
  obtain ⟨_, _, h⟩ := ok_bind h
  obtain ⟨_, _, h⟩ := ok_bind h
  refine forN_ok_inv (P := WF) ?_ hm h
  intro i s t hs ht
  obtain ⟨_, _, ht⟩ := ok_bind ht
  obtain ⟨_, _, ht⟩ := ok_bind ht
  exact setI_WF hs ht

theorem setConstant_WF {m m' : Mat α} {b : α} (hm : m.WF) (h : m.setConstant b = .ok m') : m'.WF := by
  unfold setConstant at h
  exact forN_ok_inv (P := WF) (fun i s t hs ht => setRaw_WF hs ht) hm h

theorem resize_WF [Inhabited α] {g : Nat → α} {m : Mat α} (hm : m.WF) (r c : Nat) : (m.resize g r c).WF := by
  obtain ⟨d, hd⟩ := resize_ofFn g hm r c
  rw [hd]
  exact ofFn_WF _ _ _

theorem assign_WF [Inhabited α] {g : Nat → α} {m b m' : Mat α} (hm : m.WF) (h : m.assign g b = .ok m') : m'.WF := by
  unfold assign at h
  refine forN_ok_inv (P := WF) ?_ (resize_WF hm _ _) h
  intro i s t hs ht
  obtain ⟨_, _, ht⟩ := ok_bind ht
  exact setI_WF hs ht

end Mat

variable {α : Type} [Field α] [LinearOrder α]

theorem zeroIf_WF {g : Nat → α} {c : Bool} {m dw m' : Mat α} (hm : m.WF) (h : zeroIf g c m dw = .ok m') : m'.WF := by
  have : Inhabited α := ⟨0⟩
  unfold zeroIf at h
  split at h
  · exact Mat.setConstant_WF (Mat.resize_WF hm _ _) h
  · cases h; exact hm

theorem copyIf_WF {g : Nat → α} {c : Bool} {m dw m' : Mat α} (hm : m.WF) (h : copyIf g c m dw = .ok m') : m'.WF := by
  have : Inhabited α := ⟨0⟩
  unfold copyIf at h
  split at h
  · exact Mat.assign_WF hm h
  · cases h; exact hm

theorem lerpM_WF {g : Nat → α} {m x m' : Mat α} {a b : α} (hm : m.WF) (h : lerpM g m x a b = .ok m') : m'.WF := by
  have : Inhabited α := ⟨0⟩
  unfold lerpM at h
  obtain ⟨_, _, h⟩ := ok_bind h
  obtain ⟨_, _, h⟩ := ok_bind h
  obtain ⟨_, _, h⟩ := ok_bind h
  exact Mat.assign_WF hm h

theorem rpropFirst_WF {g : Nat → α} {o : Opt α} {dw : Mat α} {p : Mat α × Mat α} (ho : o.WF)
    (h : rpropFirst g o dw = .ok p) : p.1.WF ∧ p.2.WF := by
  have : Inhabited α := ⟨0⟩
  unfold rpropFirst at h
  split at h
  · obtain ⟨a, ha, h⟩ := ok_bind h
    obtain ⟨b, hb, h⟩ := ok_bind h
    cases h
    exact ⟨Mat.setConstant_WF (Mat.resize_WF ho.1 _ _) ha, Mat.assign_WF ho.2.1 hb⟩
  · cases h; exact ⟨ho.1, ho.2.1⟩

/-- Whatever the arguments, a call of `optimize` that returns keeps the state and the weights well formed and does
not touch the kind and the settings. -/
theorem Opt.optimize_WF {g : Nat → α} {sq ab : α → α} {o o' : Opt α} {w dw w' : Mat α} (ho : o.WF) (hw : w.WF)
    (h : o.optimize g sq ab w dw = .ok (o', w')) :
    o'.WF ∧ w'.WF ∧ o'.kind = o.kind ∧ o'.hyper = o.hyper := by
  have : Inhabited α := ⟨0⟩
  obtain ⟨kind, lr, mom, decay, beta1, beta2, lambda, p1, p2, v, m, vh⟩ := o
  obtain ⟨wv, wm, wvh⟩ := ho
  dsimp only at *
  cases kind
  case none => cases h; exact ⟨⟨wv, wm, wvh⟩, hw, rfl, rfl⟩
  case step =>
    simp only [Opt.optimize] at h
    obtain ⟨_, _, h⟩ := ok_bind h
    obtain ⟨_, _, h⟩ := ok_bind h
    obtain ⟨_, _, h⟩ := ok_bind h
    obtain ⟨_, _, h⟩ := ok_bind h
    obtain ⟨_, h1, h⟩ := ok_bind h
    cases h
    exact ⟨⟨wv, wm, wvh⟩, Mat.cwise2_WF hw h1, rfl, rfl⟩
  case sgd =>
    simp only [Opt.optimize] at h
    obtain ⟨_, _, h⟩ := ok_bind h
    obtain ⟨_, _, h⟩ := ok_bind h
    obtain ⟨_, _, h⟩ := ok_bind h
    obtain ⟨_, h1, h⟩ := ok_bind h
    cases h
    exact ⟨⟨wv, wm, wvh⟩, Mat.cwise2_WF hw h1, rfl, rfl⟩
  case momentum =>
    simp only [Opt.optimize] at h
    obtain ⟨_, _, h⟩ := ok_bind h
    obtain ⟨_, _, h⟩ := ok_bind h
    obtain ⟨_, h1, h⟩ := ok_bind h
    obtain ⟨_, h2, h⟩ := ok_bind h
    obtain ⟨_, h3, h⟩ := ok_bind h
    cases h
    exact ⟨⟨lerpM_WF (zeroIf_WF wv h1) h2, wm, wvh⟩, Mat.cwise2_WF hw h3, rfl, rfl⟩
  case momentumNg =>
    simp only [Opt.optimize] at h
    obtain ⟨_, _, h⟩ := ok_bind h
    obtain ⟨_, _, h⟩ := ok_bind h
    obtain ⟨_, h1, h⟩ := ok_bind h
    obtain ⟨_, h2, h⟩ := ok_bind h
    obtain ⟨_, _, h⟩ := ok_bind h
    obtain ⟨_, h3, h⟩ := ok_bind h
    cases h
    exact ⟨⟨lerpM_WF (copyIf_WF wv h1) h2, wm, wvh⟩, Mat.cwise2_WF hw h3, rfl, rfl⟩
  case nesterov =>
    simp only [Opt.optimize] at h
    obtain ⟨_, _, h⟩ := ok_bind h
    obtain ⟨_, _, h⟩ := ok_bind h
    obtain ⟨_, h1, h⟩ := ok_bind h
    obtain ⟨_, h2, h⟩ := ok_bind h
    obtain ⟨_, _, h⟩ := ok_bind h
    obtain ⟨_, _, h⟩ := ok_bind h
    obtain ⟨_, _, h⟩ := ok_bind h
    obtain ⟨_, h3, h⟩ := ok_bind h
    obtain ⟨_, _, h⟩ := ok_bind h
    obtain ⟨_, _, h⟩ := ok_bind h
    obtain ⟨_, _, h⟩ := ok_bind h
    obtain ⟨_, _, h⟩ := ok_bind h
    obtain ⟨_, h4, h⟩ := ok_bind h
    cases h
    exact ⟨⟨Mat.assign_WF (zeroIf_WF wv h1) h3, Mat.assign_WF wm h2, wvh⟩, Mat.cwise2_WF hw h4, rfl, rfl⟩
  case adagrad =>
    simp only [Opt.optimize] at h
    obtain ⟨_, _, h⟩ := ok_bind h
    obtain ⟨_, _, h⟩ := ok_bind h
    obtain ⟨_, h1, h⟩ := ok_bind h
    obtain ⟨_, _, h⟩ := ok_bind h
    obtain ⟨_, h2, h⟩ := ok_bind h
    obtain ⟨_, _, h⟩ := ok_bind h
    obtain ⟨_, h3, h⟩ := ok_bind h
    cases h
    exact ⟨⟨Mat.cwise2_WF (zeroIf_WF wv h1) h2, wm, wvh⟩, Mat.cwise2_WF hw h3, rfl, rfl⟩
  case rmsprop =>
    simp only [Opt.optimize] at h
    obtain ⟨_, _, h⟩ := ok_bind h
    obtain ⟨_, _, h⟩ := ok_bind h
    obtain ⟨_, h1, h⟩ := ok_bind h
    obtain ⟨_, _, h⟩ := ok_bind h
    obtain ⟨_, h2, h⟩ := ok_bind h
    obtain ⟨_, _, h⟩ := ok_bind h
    obtain ⟨_, h3, h⟩ := ok_bind h
    cases h
    exact ⟨⟨lerpM_WF (zeroIf_WF wv h1) h2, wm, wvh⟩, Mat.cwise2_WF hw h3, rfl, rfl⟩
  case adam =>
    simp only [Opt.optimize] at h
    obtain ⟨_, _, h⟩ := ok_bind h
    obtain ⟨_, _, h⟩ := ok_bind h
    obtain ⟨_, h1, h⟩ := ok_bind h
    obtain ⟨_, h2, h⟩ := ok_bind h
    obtain ⟨_, h3, h⟩ := ok_bind h
    obtain ⟨_, _, h⟩ := ok_bind h
    obtain ⟨_, h4, h⟩ := ok_bind h
    obtain ⟨_, _, h⟩ := ok_bind h
    obtain ⟨_, _, h⟩ := ok_bind h
    obtain ⟨_, h5, h⟩ := ok_bind h
    cases h
    exact ⟨⟨lerpM_WF (zeroIf_WF wv h2) h4, lerpM_WF (zeroIf_WF wm h1) h3, wvh⟩, Mat.cwise2_WF hw h5, rfl, rfl⟩
  case adamW =>
    simp only [Opt.optimize] at h
    obtain ⟨_, _, h⟩ := ok_bind h
    obtain ⟨_, _, h⟩ := ok_bind h
    obtain ⟨_, h1, h⟩ := ok_bind h
    obtain ⟨_, h2, h⟩ := ok_bind h
    obtain ⟨_, h3, h⟩ := ok_bind h
    obtain ⟨_, _, h⟩ := ok_bind h
    obtain ⟨_, h4, h⟩ := ok_bind h
    obtain ⟨_, _, h⟩ := ok_bind h
    obtain ⟨_, _, h⟩ := ok_bind h
    obtain ⟨_, _, h⟩ := ok_bind h
    obtain ⟨_, _, h⟩ := ok_bind h
    obtain ⟨_, h5, h⟩ := ok_bind h
    cases h
    exact ⟨⟨lerpM_WF (zeroIf_WF wv h2) h4, lerpM_WF (zeroIf_WF wm h1) h3, wvh⟩, Mat.cwise2_WF hw h5, rfl, rfl⟩
  case amsgrad =>
    simp only [Opt.optimize] at h
    obtain ⟨_, _, h⟩ := ok_bind h
    obtain ⟨_, _, h⟩ := ok_bind h
    obtain ⟨_, h1, h⟩ := ok_bind h
    obtain ⟨_, h2, h⟩ := ok_bind h
    obtain ⟨_, h3, h⟩ := ok_bind h
    obtain ⟨_, h4, h⟩ := ok_bind h
    obtain ⟨_, _, h⟩ := ok_bind h
    obtain ⟨_, h5, h⟩ := ok_bind h
    obtain ⟨_, _, h⟩ := ok_bind h
    obtain ⟨_, h6, h⟩ := ok_bind h
    obtain ⟨_, _, h⟩ := ok_bind h
    obtain ⟨_, h7, h⟩ := ok_bind h
    cases h
    exact ⟨⟨lerpM_WF (zeroIf_WF wv h1) h5, lerpM_WF (zeroIf_WF wm h3) h4, Mat.assign_WF (zeroIf_WF wvh h2) h6⟩,
      Mat.cwise2_WF hw h7, rfl, rfl⟩
  case nadam =>
    simp only [Opt.optimize] at h
    obtain ⟨_, h1, h⟩ := ok_bind h
    obtain ⟨_, h2, h⟩ := ok_bind h
    obtain ⟨_, h3, h⟩ := ok_bind h
    obtain ⟨_, _, h⟩ := ok_bind h
    obtain ⟨_, h4, h⟩ := ok_bind h
    obtain ⟨_, _, h⟩ := ok_bind h
    obtain ⟨_, _, h⟩ := ok_bind h
    obtain ⟨_, _, h⟩ := ok_bind h
    obtain ⟨_, _, h⟩ := ok_bind h
    obtain ⟨_, _, h⟩ := ok_bind h
    obtain ⟨_, h5, h⟩ := ok_bind h
    cases h
    exact ⟨⟨lerpM_WF (zeroIf_WF wv h2) h4, lerpM_WF (zeroIf_WF wm h1) h3, wvh⟩, Mat.cwise2_WF hw h5, rfl, rfl⟩
  case adamax =>
    simp only [Opt.optimize] at h
    obtain ⟨_, h1, h⟩ := ok_bind h
    obtain ⟨_, h2, h⟩ := ok_bind h
    obtain ⟨_, h3, h⟩ := ok_bind h
    obtain ⟨_, _, h⟩ := ok_bind h
    obtain ⟨_, _, h⟩ := ok_bind h
    obtain ⟨_, _, h⟩ := ok_bind h
    obtain ⟨_, h4, h⟩ := ok_bind h
    obtain ⟨_, _, h⟩ := ok_bind h
    obtain ⟨_, _, h⟩ := ok_bind h
    obtain ⟨_, _, h⟩ := ok_bind h
    obtain ⟨_, h5, h⟩ := ok_bind h
    cases h
    exact ⟨⟨Mat.assign_WF (zeroIf_WF wv h2) h4, lerpM_WF (zeroIf_WF wm h1) h3, wvh⟩, Mat.cwise2_WF hw h5, rfl, rfl⟩
  case rpropm =>
    simp only [Opt.optimize] at h
    obtain ⟨_, _, h⟩ := ok_bind h
    obtain ⟨_, _, h⟩ := ok_bind h
    obtain ⟨p, h1, h⟩ := ok_bind h
    obtain ⟨q, h2, h⟩ := ok_bind h
    obtain ⟨_, h3, h⟩ := ok_bind h
    cases h
    have hp := rpropFirst_WF (o := ⟨.rpropm, lr, mom, decay, beta1, beta2, lambda, p1, p2, v, m, vh⟩) ⟨wv, wm, wvh⟩ h1
    have hq : q.1.WF ∧ q.2.WF := by
      refine forN_ok_inv (s := (p.1, w)) (P := fun s : Mat α × Mat α => s.1.WF ∧ s.2.WF) ?_ ⟨hp.1, hw⟩ h2
      intro i s t hs ht
      obtain ⟨_, _, ht⟩ := ok_bind ht
      obtain ⟨_, _, ht⟩ := ok_bind ht
      obtain ⟨_, _, ht⟩ := ok_bind ht
      obtain ⟨_, t1, ht⟩ := ok_bind ht
      obtain ⟨_, _, ht⟩ := ok_bind ht
      obtain ⟨_, t2, ht⟩ := ok_bind ht
      cases ht
      exact ⟨Mat.setI_WF hs.1 t1, Mat.setI_WF hs.2 t2⟩
    exact ⟨⟨hq.1, Mat.assign_WF hp.2 h3, wvh⟩, hq.2, rfl, rfl⟩
  case irpropm =>
    simp only [Opt.optimize] at h
    obtain ⟨_, _, h⟩ := ok_bind h
    obtain ⟨_, _, h⟩ := ok_bind h
    obtain ⟨p, h1, h⟩ := ok_bind h
    obtain ⟨q, h2, h⟩ := ok_bind h
    cases h
    have hp := rpropFirst_WF (o := ⟨.irpropm, lr, mom, decay, beta1, beta2, lambda, p1, p2, v, m, vh⟩) ⟨wv, wm, wvh⟩ h1
    have hq : q.1.WF ∧ q.2.1.WF ∧ q.2.2.WF := by
      refine forN_ok_inv (P := fun s : Mat α × Mat α × Mat α => s.1.WF ∧ s.2.1.WF ∧ s.2.2.WF) ?_ ⟨hp.1, hp.2, hw⟩ h2
      intro i s t hs ht
      obtain ⟨_, _, ht⟩ := ok_bind ht
      obtain ⟨_, _, ht⟩ := ok_bind ht
      obtain ⟨_, _, ht⟩ := ok_bind ht
      obtain ⟨_, t1, ht⟩ := ok_bind ht
      obtain ⟨_, _, ht⟩ := ok_bind ht
      obtain ⟨_, t2, ht⟩ := ok_bind ht
      obtain ⟨_, t3, ht⟩ := ok_bind ht
      cases ht
      exact ⟨Mat.setI_WF hs.1 t1, Mat.setI_WF hs.2.1 t3, Mat.setI_WF hs.2.2 t2⟩
    exact ⟨⟨hq.1, hq.2.1, wvh⟩, hq.2.2, rfl, rfl⟩

theorem Opt.run_WF {g : Nat → α} {sq ab : α → α} {o o' : Opt α} {w w' : Mat α} {D : Nat → Mat α} {n : Nat}
    (ho : o.WF) (hw : w.WF) (h : o.run g sq ab w D n = .ok (o', w')) :
    o'.WF ∧ w'.WF ∧ o'.kind = o.kind ∧ o'.hyper = o.hyper := by
  unfold Opt.run at h
  refine forN_ok_inv (P := fun s : Opt α × Mat α => s.1.WF ∧ s.2.WF ∧ s.1.kind = o.kind ∧ s.1.hyper = o.hyper) ?_
    ⟨ho, hw, rfl, rfl⟩ h
  intro i s t hs ht
  obtain ⟨a, b, c, d⟩ := Opt.optimize_WF hs.1 hs.2.1 ht
  exact ⟨a, b, c.trans hs.2.2.1, d.trans hs.2.2.2⟩

end BeeDNN
