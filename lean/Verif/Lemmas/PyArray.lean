import Verif.Spec.PyArray
import Mathlib.Tactic.Ring
import Mathlib.Tactic.Linarith

/-! # Lemmas: arrays of any dimension -/

namespace BeeDNN
open Data

theorem place_lt : ∀ {shape idx : List Nat}, Inside shape idx → place shape idx < shape.prod
  | [], [], _ => by simp [place]
  | d :: ds, i :: is, h => by
    have ih := place_lt h.2
    have h1 : (i + 1) * ds.prod ≤ d * ds.prod := Nat.mul_le_mul_right _ h.1
    show i * ds.prod + place ds is < (d :: ds).prod
    rw [List.prod_cons]
    rw [Nat.add_mul, Nat.one_mul] at h1
    omega

/-- Every number of an array is at an index inside. -/
theorem NdArr.Ok.at_isSome {a : NdArr} (h : a.Ok) {idx : List Nat} (hi : Inside a.shape idx) : ∃ v, a.at idx = some v := by
  have := place_lt hi
  rw [← h] at this
  exact ⟨_, List.getElem?_eq_getElem this⟩

theorem reshape_rest {a : NdArr} {n p : Nat} (hn : 0 < n) (ha : a.data.length = n * p) : a.reshape [some n, none] = .ok { a with shape := [n, p] } := by
  have h1 : npShape a.data.length [some n, none] = .ok [n, p] := by
    rw [ha]
    simp only [npShape, List.map_cons, List.map_nil, Option.getD_some, Option.getD_none, List.prod_cons, List.prod_nil, mul_one]
    rw [show List.count none [some n, none] = 1 from by simp [List.count_cons]]
    simp only [Nat.mul_mod_right, ne_eq, not_true_eq_false, or_false, hn.ne', if_false, Nat.mul_div_cancel_left p hn]
  unfold NdArr.reshape
  rw [h1]
  rfl

theorem reshape_zero {a : NdArr} : a.reshape [some 0, none] = .error .exception := by
  have h1 : npShape a.data.length [some 0, none] = .error .exception := by
    simp only [npShape, List.map_cons, List.map_nil, Option.getD_some, Option.getD_none, List.prod_cons, List.prod_nil, mul_one]
    rw [show List.count none [some 0, none] = 1 from by simp [List.count_cons]]
    simp
  unfold NdArr.reshape
  rw [h1]
  rfl

theorem reshape_first {g : NdArr} {n a b : Nat} (ha : 0 < a) (hb : 0 < b) (hg : g.data.length = n * (a * b)) :
    g.reshape [none, some a, some b] = .ok { g with shape := [n, a, b] } := by
  have hab : 0 < a * b := Nat.mul_pos ha hb
  have h1 : npShape g.data.length [none, some a, some b] = .ok [n, a, b] := by
    rw [hg]
    simp only [npShape, List.map_cons, List.map_nil, Option.getD_some, Option.getD_none, List.prod_cons, List.prod_nil, mul_one, one_mul]
    rw [show List.count none [none, some a, some b] = 1 from by simp [List.count_cons]]
    simp only [Nat.mul_mod_left, ne_eq, not_true_eq_false, or_false, hab.ne', if_false, Nat.mul_div_cancel n hab]
  unfold NdArr.reshape
  rw [h1]
  rfl

theorem reshape_three {g : NdArr} {n a b : Nat} :
    g.reshape [some n, some a, some b] = if n * (a * b) = g.data.length then .ok { g with shape := [n, a, b] } else .error .exception := by
  unfold NdArr.reshape
  have h1 : npShape g.data.length [some n, some a, some b] = if n * (a * b) = g.data.length then .ok [n, a, b] else .error .exception := by
    simp only [npShape, List.map_cons, List.map_nil, Option.getD_some, List.prod_cons, List.prod_nil, mul_one]
    rw [show List.count none [some n, some a, some b] = 0 from by simp [List.count_cons]]
    rfl
  rw [h1]
  split <;> rfl

theorem pyImages_some {n : Nat} (f : List Byte) : pyImages n (some f) = if 784 * n ≤ f.length - 16 then
    .ok { shape := [n, 28, 28], data := ((f.drop 16).take (784 * n)).map fun b => (b.val : ℝ) } else .error .exception := by
  unfold pyImages
  dsimp only
  rw [reshape_three]
  simp only [npFromBuffer, pyRead, List.length_map, List.length_take, List.length_drop]
  rw [show 28 * 28 = 784 from rfl]
  by_cases h : 784 * n ≤ f.length - 16
  · rw [if_pos h, if_pos (by omega)]
  · rw [if_neg h, if_neg (by omega)]

theorem pyLabels_some {n : Nat} (f : List Byte) : pyLabels n (some f) =
    .ok { shape := [min n (f.length - 8)], data := ((f.drop 8).take n).map fun b => (b.val : ℝ) } := by
  simp only [pyLabels, npFromBuffer, pyRead, List.length_take, List.length_drop]

theorem byte_take {l : List Byte} {n i : Nat} (hi : i < n) (hl : n ≤ l.length) : ((l.take n).map fun b => (b.val : ℝ))[i]? = some (byteAt l i) := by
  have h1 : i < l.length := by omega
  rw [List.getElem?_map, List.getElem?_take_of_lt hi, List.getElem?_eq_getElem h1, Option.map_some]
  unfold byteAt
  rw [List.getD_eq_getElem?_getD, List.getElem?_eq_getElem h1, Option.getD_some]

end BeeDNN
