import Verif.Core.TwoDim
import Mathlib.Tactic.Linarith

/-!
# C428: values as columns and rows
-/

namespace Verif.Core.TwoDim

variable {V : Type}

/-- Specification: the numbers of an argument in order. -/
def Arg.numbers : Arg V → List V
  | .num v => [v]
  | .list l => l
  | .rows l => l.flatten
  | .array a => a.data

/-- Specification: a sound array has as many entries as its shape says. -/
def Arr.Sound (a : Arr V) : Prop := a.data.length = a.shape.prod

/-- Specification: the entry in row `i` and column `j` of a matrix of `n` columns. -/
def Arr.at2 (a : Arr V) (n i j : Nat) : Option V := a.data[i * n + j]?

/-- Specification: an argument that can be written as numbers one after the other. -/
def Arg.Flat : Arg V → Prop
  | .num _ => True
  | .list _ => True
  | .rows _ => False
  | .array a => ∃ n, a.shape = [n] ∧ a.data.length = n

/-- C428: numbers one after the other become a column of them, in order. -/
theorem C428_column (x : Arg V) (h : x.Flat) :
    ∃ a, atleast2d false x = some a ∧ a.shape = [x.numbers.length, 1] ∧ a.Sound ∧
      ∀ i, a.at2 1 i 0 = x.numbers[i]? := by
  cases x with
  | num v => exact ⟨⟨[1, 1], [v]⟩, rfl, rfl, rfl, fun i => by simp [Arr.at2, Arg.numbers]⟩
  | list l => exact ⟨⟨[l.length, 1], l⟩, rfl, rfl, by simp [Arr.Sound], fun i => by simp [Arr.at2, Arg.numbers]⟩
  | rows l => exact h.elim
  | array a =>
    obtain ⟨n, hs, hl⟩ := h
    refine ⟨⟨[n, 1], a.data⟩, ?_, ?_, ?_, ?_⟩
    · simp [atleast2d, asArr, addAxis, hs]
    · simp [Arg.numbers, hl]
    · simp [Arr.Sound, hl]
    · intro i; simp [Arr.at2, Arg.numbers]

/-- C428: or a row of them, in order. -/
theorem C428_row (x : Arg V) (h : x.Flat) :
    ∃ a, atleast2d true x = some a ∧ a.shape = [1, x.numbers.length] ∧ a.Sound ∧
      ∀ j, a.at2 x.numbers.length 0 j = x.numbers[j]? := by
  cases x with
  | num v => exact ⟨⟨[1, 1], [v]⟩, rfl, rfl, rfl, fun i => by simp [Arr.at2, Arg.numbers]⟩
  | list l => exact ⟨⟨[1, l.length], l⟩, rfl, rfl, by simp [Arr.Sound], fun i => by simp [Arr.at2, Arg.numbers]⟩
  | rows l => exact h.elim
  | array a =>
    obtain ⟨n, hs, hl⟩ := h
    refine ⟨⟨[1, n], a.data⟩, ?_, ?_, ?_, ?_⟩
    · simp [atleast2d, asArr, addAxis, hs]
    · simp [Arg.numbers, hl]
    · simp [Arr.Sound, hl]
    · intro i; simp [Arr.at2, Arg.numbers]

/-- C428: what has two dimensions or more stays as it is, rows and columns alike. -/
theorem C428_same (row : Bool) (a : Arr V) (h : 2 ≤ a.shape.length) : atleast2d row (.array a) = some a := by
  simp only [atleast2d, asArr, Option.bind_some]
  rw [if_neg (by omega)]

/-- C428: rows of equal lengths become the matrix of these rows. -/
theorem C428_rows (row : Bool) (l : List (List V)) (n : Nat) (hl : l ≠ []) (h : ∀ r ∈ l, r.length = n) :
    ∃ a, atleast2d row (.rows l) = some a ∧ a.shape = [l.length, n] ∧ a.Sound ∧ a.data = l.flatten := by
  cases l with
  | nil => exact absurd rfl hl
  | cons r rs =>
    have hr : r.length = n := h r (by simp)
    have hrs : rs.all (fun q => q.length == r.length) = true := by
      simp only [List.all_eq_true, beq_iff_eq]
      intro q hq
      rw [hr]
      exact h q (by simp [hq])
    refine ⟨⟨[(r :: rs).length, r.length], (r :: rs).flatten⟩, ?_, by simp [hr], ?_, rfl⟩
    · simp only [atleast2d, asArr, ofRows, hrs, if_true, Option.bind_some]
      rfl
    · have : ∀ m : List (List V), (∀ q ∈ m, q.length = n) → m.flatten.length = m.length * n := by
        intro m
        induction m with
        | nil => simp
        | cons q m ih =>
          intro hq
          simp only [List.flatten_cons, List.length_append, List.length_cons]
          rw [hq q (by simp), ih fun q' h' => hq q' (by simp [h'])]
          rw [Nat.succ_mul]
          omega
      simp only [Arr.Sound]
      rw [this _ h, hr]
      simp

/-- C428: doing it twice changes nothing more. -/
theorem C428_twice (row row' : Bool) (x : Arg V) (a : Arr V) (h : atleast2d row x = some a) :
    atleast2d row' (.array a) = some a := by
  apply C428_same
  simp only [atleast2d] at h
  cases e : asArr x with
  | none => simp [e] at h
  | some b =>
    simp only [e, Option.bind_some] at h
    by_cases hb : b.shape.length < 2
    · rw [if_pos hb] at h
      unfold addAxis at h
      split at h
      · simp at h
      · simp only [Option.some.injEq] at h
        subst h
        cases row <;> simp
    · rw [if_neg hb] at h
      simp only [Option.some.injEq] at h
      subst h
      omega

/-- C428: stacking puts the rows of the second below those of the first. -/
theorem C428_stack (a b : Arr V) (m k n : Nat) (ha : a.shape = [m, n]) (hb : b.shape = [k, n])
    (sa : a.Sound) (sb : b.Sound) : ∃ c, vstack a b = some c ∧ c.shape = [m + k, n] ∧ c.Sound ∧
      (∀ i j, i < m → j < n → c.at2 n i j = a.at2 n i j) ∧
      ∀ i j, i < k → j < n → c.at2 n (m + i) j = b.at2 n i j := by
  have la : a.data.length = m * n := by rw [sa, ha]; simp
  have lb : b.data.length = k * n := by rw [sb, hb]; simp
  refine ⟨⟨[m + k, n], a.data ++ b.data⟩, ?_, rfl, ?_, ?_, ?_⟩
  · simp [vstack, ha, hb]
  · simp [Arr.Sound, la, lb, Nat.add_mul]
  · intro i j hi hj
    have : i * n + j < a.data.length := by
      rw [la]
      calc i * n + j < i * n + n := by omega
        _ = (i + 1) * n := by rw [Nat.succ_mul]
        _ ≤ m * n := Nat.mul_le_mul_right n hi
    simp only [Arr.at2]
    rw [List.getElem?_append_left this]
  · intro i j hi hj
    simp only [Arr.at2]
    have e : (m + i) * n + j = a.data.length + (i * n + j) := by rw [la, Nat.add_mul]; omega
    rw [e, List.getElem?_append_right (by omega)]
    congr 1
    omega

/-- C428 is false for an array without dimensions, such as numpy returns for `np.array(300.0)`: it
cannot be made a row or a column. -/
theorem C428_bare_counterexample (row : Bool) (v : V) : atleast2d row (.array ⟨[], [v]⟩) = none := rfl

example : atleast2d false (.list [1, 2, 3]) = some (⟨[3, 1], [1, 2, 3]⟩ : Arr Nat) := rfl

example : vstack (⟨[1, 2], [1, 2]⟩ : Arr Nat) ⟨[2, 2], [3, 4, 5, 6]⟩ = some ⟨[3, 2], [1, 2, 3, 4, 5, 6]⟩ := rfl

end Verif.Core.TwoDim
