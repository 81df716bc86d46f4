import Verif.IO.Archive
import Mathlib.Tactic.Linarith
import Mathlib.Algebra.Order.BigOperators.Group.List
import Mathlib.Data.List.Basic
import Mathlib.Algebra.BigOperators.Ring.List

/-!
# Saving and loading (C43)
-/

namespace Verif.IO

variable {N : Type}

/-- The numbers in a list of numbers. -/
def numbers : List (V N) → Option (List N)
  | [] => some []
  | .num x :: l => (numbers l).map (x :: ·)
  | .f64 x :: l => (numbers l).map (x :: ·)
  | _ => none

mutual
/-- What the user expects back: numbers, strings, booleans, `None` and arrays as they were, lists of
numbers as arrays, functions as `None`, data with the same keys in the same order. -/
def expected : V N → L N
  | .num x => .num x
  | .f64 x => .num x
  | .npScalar x => .num x
  | .str s => .str s
  | .bool b => .bool b
  | .none => .none
  | .func => .none
  | .unknown => .none
  | .arr s d => .arr s d
  | .list l => match numbers l with
    | some xs => .arr [xs.length] xs
    | none => .none
  | .tuple l => match numbers l with
    | some xs => .arr [xs.length] xs
    | none => .none
  | .data k v => .data k (expectedL v)
def expectedL : List (V N) → List (L N)
  | [] => []
  | a :: l => expected a :: expectedL l
end

mutual
/-- Supported values: plain numbers, `np.float64`, strings, booleans, `None`, functions, arrays with
positive dimensions, lists of numbers, and data of such. -/
def Supported : V N → Prop
  | .num _ => True
  | .f64 _ => True
  | .npScalar _ => False
  | .str _ => True
  | .bool _ => True
  | .none => True
  | .func => True
  | .unknown => False
  | .arr s d => s ≠ [] ∧ (∀ n ∈ s, 0 < n) ∧ d.length = s.prod
  | .list l => (numbers l).isSome
  | .tuple _ => False
  | .data _ v => SupportedL v
def SupportedL : List (V N) → Prop
  | [] => True
  | a :: l => Supported a ∧ SupportedL l
end

theorem inferL_map {β : Type} (f : β → J N) (g : β → List ℕ × List N) (l : List β) (h : ∀ b ∈ l, infer (f b) = some (g b)) :
    inferL (l.map f) = some (l.map g) := by
  induction l with
  | nil => simp [inferL]
  | cons a l ih =>
    simp only [List.map_cons, inferL]
    rw [h a (by simp), ih fun b hb => h b (by simp [hb])]; rfl

/-- Cutting a list into pieces and joining them gives the list back. -/
theorem flatten_pieces (k : ℕ) : ∀ (n : ℕ) (d : List N), d.length = n * k →
    ((List.range n).map fun i => (d.drop (i * k)).take k).flatten = d
  | 0, d, h => by
    simp only [Nat.zero_mul, List.length_eq_zero_iff] at h; simp [h]
  | n + 1, d, h => by
    have hk : k ≤ d.length := by rw [h]; exact Nat.le_mul_of_pos_left k (by omega)
    have ih := flatten_pieces k n (d.drop k) (by rw [List.length_drop, h]; rw [Nat.succ_mul]; omega)
    rw [List.range_succ_eq_map, List.map_cons, List.flatten_cons, List.map_map]
    have e : (List.range n).map ((fun i => (d.drop (i * k)).take k) ∘ Nat.succ) = (List.range n).map fun i => ((d.drop k).drop (i * k)).take k := by
      apply List.map_congr_left
      intro i _
      simp only [Function.comp, List.drop_drop]
      rw [Nat.succ_mul, Nat.add_comm]
    rw [e, ih]
    simp [List.take_append_drop]

theorem infer_toList : ∀ (s : List ℕ) (d : List N), (∀ n ∈ s, 0 < n) → d.length = s.prod → infer (toList s d) = some (s, d)
  | [], d, _, h => by
    match d, h with
    | [x], _ => simp [toList, infer]
  | n :: s, d, hp, h => by
    rw [List.prod_cons] at h
    have hn := hp n (by simp)
    have hs : ∀ m ∈ s, 0 < m := fun m hm => hp m (by simp [hm])
    have hpieces : ∀ i ∈ List.range n, infer (toList s ((d.drop (i * s.prod)).take s.prod)) = some (s, (d.drop (i * s.prod)).take s.prod) := by
      intro i hi
      apply infer_toList s _ hs
      rw [List.length_take, List.length_drop, h]
      have hi' := List.mem_range.1 hi
      have : i * s.prod + s.prod ≤ n * s.prod := by rw [← Nat.succ_mul]; exact Nat.mul_le_mul_right _ hi'
      omega
    rw [toList, infer]
    rw [inferL_map _ (fun i => (s, (d.drop (i * s.prod)).take s.prod)) _ hpieces]
    obtain ⟨m, rfl⟩ : ∃ m, n = m + 1 := ⟨n - 1, by omega⟩
    have hf := flatten_pieces s.prod (m + 1) d h
    rw [List.range_succ_eq_map, List.map_cons, List.flatten_cons] at hf
    rw [List.range_succ_eq_map, List.map_cons]
    simp only [Option.bind_eq_bind, Option.bind_some, List.map_map]
    rw [if_pos (by simp [List.all_eq_true])]
    simp only [List.length_map, List.length_range]
    congr 2
    rw [List.map_map] at hf
    exact hf

theorem rawL_numbers : ∀ (l : List (V N)) (xs : List N), numbers l = some xs → rawL l = some (xs.map J.num)
  | [], xs, h => by simp [numbers] at h; subst h; simp [rawL]
  | .num x :: l, xs, h => by
    simp only [numbers, Option.map_eq_some_iff] at h
    obtain ⟨ys, hy, rfl⟩ := h
    simp [rawL, raw, rawL_numbers l ys hy]
  | .f64 x :: l, xs, h => by
    simp only [numbers, Option.map_eq_some_iff] at h
    obtain ⟨ys, hy, rfl⟩ := h
    simp [rawL, raw, rawL_numbers l ys hy]
  | .npScalar _ :: _, _, h | .str _ :: _, _, h | .bool _ :: _, _, h | .none :: _, _, h | .func :: _, _, h
  | .unknown :: _, _, h | .arr _ _ :: _, _, h | .list _ :: _, _, h | .tuple _ :: _, _, h | .data _ _ :: _, _, h => by
    simp [numbers] at h

theorem npArray_numbers (xs : List N) : npArray (xs.map J.num) = .arr [xs.length] xs := by
  unfold npArray
  rw [infer, inferL_map _ (fun x => ([], [x])) xs (by simp [infer])]
  cases xs with
  | nil => rfl
  | cons x xs =>
    simp only [Option.bind_eq_bind, Option.bind_some, List.map_cons, List.map_map]
    rw [if_pos (by simp [List.all_eq_true])]
    simp only [List.length_map, List.length_cons]
    congr 1
    have : (Prod.snd ∘ fun x : N => (([] : List ℕ), [x])) = fun x => [x] := rfl
    rw [this]
    simp [List.flatten_eq_flatMap, List.flatMap_map]

mutual
theorem round_trip : ∀ v : V N, Supported v → ∃ j, enc v = some j ∧ dec j = expected v
  | .num x, _ => ⟨.num x, by rw [enc], by rw [dec, expected]⟩
  | .f64 x, _ => ⟨.num x, by rw [enc], by rw [dec, expected]⟩
  | .npScalar _, h => by rw [Supported] at h; exact h.elim
  | .str s, _ => ⟨.str s, by rw [enc], by rw [dec, expected]⟩
  | .bool b, _ => ⟨.bool b, by rw [enc], by rw [dec, expected]⟩
  | .none, _ => ⟨.null, by rw [enc], by rw [dec, expected]⟩
  | .func, _ => ⟨.null, by rw [enc], by rw [dec, expected]⟩
  | .unknown, h => by rw [Supported] at h; exact h.elim
  | .tuple _, h => by rw [Supported] at h; exact h.elim
  | .arr s d, h => by
    rw [Supported] at h
    obtain ⟨h0, h1, h2⟩ := h
    have hi := infer_toList s d h1 h2
    refine ⟨toList s d, by rw [enc], ?_⟩
    match s, h0 with
    | n :: s, _ =>
      rw [toList] at hi ⊢
      rw [dec, npArray, hi, expected]
  | .list l, h => by
    rw [Supported] at h
    obtain ⟨xs, hx⟩ := Option.isSome_iff_exists.1 h
    refine ⟨.arr (xs.map J.num), by rw [enc, rawL_numbers l xs hx]; rfl, ?_⟩
    rw [dec, npArray_numbers, expected, hx]
  | .data k v, h => by
    rw [Supported] at h
    obtain ⟨js, h1, h2⟩ := round_tripL v h
    exact ⟨.obj k js, by rw [enc, h1]; rfl, by rw [dec, h2, expected]⟩
theorem round_tripL : ∀ l : List (V N), SupportedL l → ∃ js, encL l = some js ∧ decL js = expectedL l
  | [], _ => ⟨[], by rw [encL], by rw [decL, expectedL]⟩
  | a :: l, h => by
    rw [SupportedL] at h
    obtain ⟨j, h1, h2⟩ := round_trip a h.1
    obtain ⟨js, h3, h4⟩ := round_tripL l h.2
    exact ⟨j :: js, by rw [encL, h1, h3]; rfl, by rw [decL, h2, h4, expectedL]⟩
end

/-- **C43.** Saving and loading data of any depth built from the supported values gives back what the
user expects.  Missing: numpy scalars other than `float64`, tuples and arrays with a zero dimension,
see the counterexamples. -/
theorem C43_round_trip_partial (v : V N) (h : Supported v) : saveLoad v = some (expected v) := by
  obtain ⟨j, h1, h2⟩ := round_trip v h
  rw [saveLoad, h1, ← h2]; rfl

example : Supported (.data ["mass", "f", "sub"] [.num 3, .func, .data ["M", "l", "tag"] [.arr [2, 3] [1, 2, 3, 4, 5, 6], .list [.num 1, .f64 2], .str "wing"]] : V ℕ) := by
  simp [Supported, SupportedL, numbers]

/-- C43 is false for numbers held as numpy integers (or `float32`, or numpy booleans): they are
silently replaced by `None`. -/
theorem C43_numpy_scalar_counterexample (x : N) :
    saveLoad (.data ["count"] [.npScalar x]) = some (.data ["count"] [.none]) := by
  simp [saveLoad, enc, encL, dec, decL]

/-- Tuples of numbers are silently replaced by `None` as well. -/
theorem C43_tuple_counterexample (x y : N) :
    saveLoad (.data ["pair"] [.tuple [.num x, .num y]]) = some (.data ["pair"] [.none]) := by
  simp [saveLoad, enc, encL, dec, decL]

/-- An empty matrix loses its width. -/
theorem C43_empty_counterexample : saveLoad (.arr [0, 3] [] : V N) = some (.arr [0] []) := by
  simp [saveLoad, enc, toList, dec, npArray, infer, inferL]

/-- A list of arrays cannot be saved at all. -/
theorem C43_list_of_arrays_counterexample (x : N) : saveLoad (.list [.arr [1] [x]]) = none := by
  simp [saveLoad, enc, rawL, raw]

end Verif.IO
