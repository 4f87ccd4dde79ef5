import Verif.Model.Factory
import Verif.Spec.Factory
import Verif.Lemmas.LayerClone

/-!
# Lemmas on the layer factory
-/

namespace BeeDNN.Factory
open Layer

theorem castIndex_size {x : ℝ} {n : Nat} (h : Size x n) : castIndex x = .ok n := by
  obtain ⟨h1, h2, h3⟩ := h
  have h0 : (0 : ℝ) ≤ n := Nat.cast_nonneg n
  have h4 : ((n + 1 : Nat) : ℝ) ≤ ((2 ^ 63 : Nat) : ℝ) := by exact_mod_cast (by omega : n + 1 ≤ 2 ^ 63)
  push_cast at h4
  unfold castIndex
  rw [if_pos ⟨by linarith, by linarith⟩, (Nat.floor_eq_iff (by linarith)).2 ⟨h1, h2⟩]

theorem castInt_size {x : ℝ} {n : Nat} (h : Size x n) : castInt x = .ok n := by
  unfold castInt
  rw [castIndex_size h, bind_ok']
  have : n % 2 ^ 32 = n := Nat.mod_eq_of_lt (by have := h.2.2; omega)
  rw [this, if_pos h.2.2]
  rfl

/-- What is asked of a created layer. -/
def Good (k : LayerKind) (t : String) (o : Out Layer) : Prop := ∃ l, o = .ok l ∧ l.kind = k ∧ l.Valid ∧ l.train = false ∧ l.first = false ∧ l.type = t

theorem good_init (e : Env) (k : LayerKind) (wi bi : String) (hk : k.Made) (t : String) (ht : k.typeName = t) :
    Good k t (Layer.init e { kind := k, wInit := wi, bInit := bi }) := by
  obtain ⟨p, h1, h2, h3, h4, h5, _⟩ := Layer.new_ok e k wi bi hk
  exact ⟨p, h1, h3, h2, h4, h5, by rw [Layer.type, h3, ht]⟩

theorem good_plain (k : LayerKind) (hk : k.Made) (t : String) (ht : k.typeName = t) : Good k t (.ok { kind := k }) :=
  ⟨_, rfl, rfl, Layer.valid_new k "" "" hk, rfl, rfl, ht⟩

theorem good_globalBias (e : Env) : Good .globalBias "GlobalBias" (newGlobalBias e) := by
  obtain ⟨p, h1, h2, h3⟩ := Layer.init_valid e (l := { kind := .globalBias, bias := Mat.alloc e.g 1 1, gradBias := Mat.alloc e.g 1 1 })
    ⟨rfl, rfl, (by rw [Mat.alloc_eq]; exact Mat.flat_WF _ _ _), (by rw [Mat.alloc_eq]; exact Mat.flat_WF _ _ _), rfl, rfl, rfl, rfl, rfl, rfl, rfl, rfl,
      by simp, fun _ => rfl, fun h => (by cases h), fun _ => ⟨rfl, rfl, rfl⟩, trivial⟩
  exact ⟨p, h1, h3.kind, h2, h3.train, h3.first, by rw [Layer.type, h3.kind]; rfl⟩

theorem good_globalGain (e : Env) : Good .globalGain "GlobalGain" (newGlobalGain e) := by
  obtain ⟨p, h1, h2, h3⟩ := Layer.init_valid e (l := { kind := .globalGain, weight := Mat.alloc e.g 1 1, gradWeight := Mat.alloc e.g 1 1 })
    ⟨(by rw [Mat.alloc_eq]; exact Mat.flat_WF _ _ _), (by rw [Mat.alloc_eq]; exact Mat.flat_WF _ _ _), rfl, rfl, rfl, rfl, rfl, rfl, rfl, rfl, rfl, rfl,
      by simp, fun h => (by cases h), fun _ => rfl, fun _ => ⟨rfl, rfl, rfl⟩, trivial⟩
  exact ⟨p, h1, h3.kind, h2, h3.train, h3.first, by rw [Layer.type, h3.kind]; rfl⟩

theorem good_globalAffine (e : Env) : Good .globalAffine "GlobalAffine" (newGlobalAffine e) := by
  have hw : (Mat.alloc e.g 1 1).WF := by rw [Mat.alloc_eq]; exact Mat.flat_WF _ _ _
  obtain ⟨p, h1, h2, h3⟩ := Layer.init_valid e
    (l := { kind := .globalAffine, weight := Mat.alloc e.g 1 1, gradWeight := Mat.alloc e.g 1 1, bias := Mat.alloc e.g 1 1, gradBias := Mat.alloc e.g 1 1 })
    ⟨hw, hw, hw, hw, rfl, rfl, rfl, rfl, rfl, rfl, rfl, rfl, by simp, fun h => (by cases h), fun h => (by cases h), fun _ => ⟨rfl, rfl, rfl⟩, trivial⟩
  exact ⟨p, h1, h3.kind, h2, h3.train, h3.first, by rw [Layer.type, h3.kind]; rfl⟩

theorem pool2_create (r c ch : Nat) : Pool.create r c ch 2 2 = .ok (pool2 r c ch) := rfl

theorem create_table {s : String} {k : Nat} {f : Nat → Nat → Nat → Nat → LayerKind} (h : (s, k, f) ∈ table) (e : Env) {a : Nat → ℝ} {n : Nat → Nat}
    (ha : ∀ i < k, Size (a i) (n i)) :
    Good (f (n 0) (n 1) (n 2) (n 3)) (if s = "RandFlip" then "RandomFlip" else s) (create e s (a 0) (a 1) (a 2) (a 3) (a 4)) := by
  have c0 : 0 < k → castIndex (a 0) = .ok (n 0) := fun h => castIndex_size (ha 0 h)
  have c1 : 1 < k → castIndex (a 1) = .ok (n 1) := fun h => castIndex_size (ha 1 h)
  have c2 : 2 < k → castIndex (a 2) = .ok (n 2) := fun h => castIndex_size (ha 2 h)
  have c3 : 3 < k → castIndex (a 3) = .ok (n 3) := fun h => castIndex_size (ha 3 h)
  have i0 : 0 < k → castInt (a 0) = .ok (n 0) := fun h => castInt_size (ha 0 h)
  have i1 : 1 < k → castInt (a 1) = .ok (n 1) := fun h => castInt_size (ha 1 h)
  clear ha
  simp only [table, List.mem_cons, Prod.mk.injEq, List.not_mem_nil, or_false] at h
  rcases h with ⟨rfl, rfl, rfl⟩ | ⟨rfl, rfl, rfl⟩ | ⟨rfl, rfl, rfl⟩ | ⟨rfl, rfl, rfl⟩ | ⟨rfl, rfl, rfl⟩ | ⟨rfl, rfl, rfl⟩ | ⟨rfl, rfl, rfl⟩ |
    ⟨rfl, rfl, rfl⟩ | ⟨rfl, rfl, rfl⟩ | ⟨rfl, rfl, rfl⟩ | ⟨rfl, rfl, rfl⟩ | ⟨rfl, rfl, rfl⟩ | ⟨rfl, rfl, rfl⟩ | ⟨rfl, rfl, rfl⟩ | ⟨rfl, rfl, rfl⟩ |
    ⟨rfl, rfl, rfl⟩ | ⟨rfl, rfl, rfl⟩ | ⟨rfl, rfl, rfl⟩ | ⟨rfl, rfl, rfl⟩ | ⟨rfl, rfl, rfl⟩ | ⟨rfl, rfl, rfl⟩ | ⟨rfl, rfl, rfl⟩
  all_goals unfold create
  all_goals simp only [String.reduceEq, reduceIte]
  · rw [c0 (by decide), bind_ok', c1 (by decide), bind_ok']
    exact good_init e (.dense _ _) _ _ trivial _ rfl
  · rw [c0 (by decide), bind_ok', c1 (by decide), bind_ok']
    exact good_init e (.dot _ _) _ _ trivial _ rfl
  · exact good_init e .crelu "" "" trivial _ rfl
  · exact good_plain (.rrelu 8 3) trivial _ rfl
  · exact good_init e .prelu "" "" trivial _ rfl
  · exact good_init e .gain "" "" trivial _ rfl
  · exact good_init e .bias "" "Zeros" trivial _ rfl
  · rw [i0 (by decide), bind_ok']
    exact good_init e (.tdBias _) "" _ trivial _ rfl
  · rw [i0 (by decide), bind_ok', i1 (by decide), bind_ok']
    exact good_init e (.tdDot _ _) _ "" trivial _ rfl
  · exact good_init e .affine "" "" trivial _ rfl
  · exact good_globalGain e
  · exact good_globalAffine e
  · exact good_globalBias e
  · rw [c0 (by decide), bind_ok', c1 (by decide), bind_ok', c2 (by decide), bind_ok']
    exact good_init e (.channelBias _ _ _) "" _ trivial _ rfl
  · rw [c0 (by decide), bind_ok', c1 (by decide), bind_ok', c2 (by decide), bind_ok']
    exact good_plain (.maxPool (pool2 _ _ _)) ⟨_, _, _, _, _, pool2_create _ _ _⟩ _ rfl
  · rw [c0 (by decide), bind_ok', c1 (by decide), bind_ok', c2 (by decide), bind_ok']
    exact good_plain (.globalMaxPool _ _ _) trivial _ rfl
  · rw [c0 (by decide), bind_ok', c1 (by decide), bind_ok', c2 (by decide), bind_ok']
    exact good_plain (.avgPool (pool2 _ _ _)) ⟨_, _, _, _, _, pool2_create _ _ _⟩ _ rfl
  · rw [c0 (by decide), bind_ok', c1 (by decide), bind_ok', c2 (by decide), bind_ok']
    exact good_plain (.globalAvgPool _ _ _) trivial _ rfl
  · exact good_plain .softmax trivial _ rfl
  · exact good_plain .softmin trivial _ rfl
  · rw [c0 (by decide), bind_ok', c1 (by decide), bind_ok', c2 (by decide), bind_ok', c3 (by decide), bind_ok']
    exact good_plain (.zeroPad _ _ _ _) trivial _ rfl
  · rw [c0 (by decide), bind_ok', c1 (by decide), bind_ok', c2 (by decide), bind_ok']
    exact good_plain (.randomFlip _ _ _) trivial _ rfl

/-- A name outside of the table goes to the activations. -/
theorem create_other {s : String} (h : s ∉ names) (e : Env) (a1 a2 a3 a4 a5 : ℝ) : create e s a1 a2 a3 a4 a5 = newActivation s := by
  simp only [names, table, List.map_cons, List.map_nil, List.mem_cons, List.not_mem_nil, or_false, not_or] at h
  obtain ⟨h1, h2, h3, h4, h5, h6, h7, h8, h9, h10, h11, h12, h13, h14, h15, h16, h17, h18, h19, h20, h21, h22⟩ := h
  unfold create
  rw [if_neg h1, if_neg h2, if_neg h3, if_neg h4, if_neg h5, if_neg h6, if_neg h7, if_neg h8, if_neg h9, if_neg h10, if_neg h11, if_neg h12, if_neg h13,
    if_neg h14, if_neg h15, if_neg h16, if_neg h17, if_neg h18, if_neg h19, if_neg h20, if_neg h21, if_neg h22]

end BeeDNN.Factory
