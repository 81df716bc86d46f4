import Verif.Optim.Carpet
import Mathlib.Analysis.SpecialFunctions.Log.Basic
import Mathlib.Data.List.Basic
import Mathlib.Tactic.Linarith
import Mathlib.Tactic.NormNum

/-!
# C429: the carpet plot of the expected improvement
-/

namespace Verif.Optim

open Real

theorem foldl_field (ei : ℕ → ℕ → ℝ) (l : List (ℕ × ℕ)) (c : ImprovementCarpet) (i j : ℕ) :
    (l.foldl (carpetPoint ei) c).field j i = if (i, j) ∈ l then logOrFloor (ei i j) else c.field j i := by
  induction l generalizing c with
  | nil => simp
  | cons p l ih =>
    obtain ⟨a, b⟩ := p
    rw [List.foldl_cons, ih]
    by_cases h : (i, j) ∈ l
    · simp [h]
    · by_cases hp : (i, j) = (a, b)
      · obtain ⟨rfl, rfl⟩ := Prod.mk.injEq _ _ _ _ ▸ hp
        simp [h, carpetPoint]
      · rw [if_neg h, if_neg (by simp only [List.mem_cons, not_or]; exact ⟨hp, h⟩)]
        simp only [carpetPoint]
        by_cases hb : j = b
        · subst hb
          have : i ≠ a := fun e => hp (by rw [e])
          simp [Function.update_of_ne this]
        · simp [Function.update_of_ne hb]

theorem foldl_printed (ei : ℕ → ℕ → ℝ) (l : List (ℕ × ℕ)) (c : ImprovementCarpet) :
    (l.foldl (carpetPoint ei) c).printed.map (fun q => (q.1, q.2.1)) = c.printed.map (fun q => (q.1, q.2.1)) ++ l := by
  induction l generalizing c with
  | nil => simp
  | cons p l ih => rw [List.foldl_cons, ih]; simp [carpetPoint]

/-- C429: the figure has, for each pair of coordinates, in the row of the second and the column of the
first, the logarithm of the improvement expected there. -/
theorem C429_field (n : ℕ) (ei : ℕ → ℕ → ℝ) (i j : ℕ) (hi : i < n) (hj : j < n) (h : 0 < ei i j) :
    exp ((improvementCarpet n ei).field j i) = ei i j := by
  unfold improvementCarpet
  rw [foldl_field, if_pos (by simp [hi, hj])]
  unfold logOrFloor
  rw [if_neg h.ne', exp_log h]

/-- C429: higher in the figure is where more improvement is expected. -/
theorem C429_order (n : ℕ) (ei : ℕ → ℕ → ℝ) (i j i' j' : ℕ) (hi : i < n) (hj : j < n) (hi' : i' < n) (hj' : j' < n)
    (h : 0 < ei i j) : ei i j < ei i' j' ↔
      (improvementCarpet n ei).field j i < (improvementCarpet n ei).field j' i' ∧ 0 < ei i' j' := by
  constructor
  · intro hlt
    have h' := h.trans hlt
    refine ⟨?_, h'⟩
    rw [← exp_lt_exp, C429_field n ei i j hi hj h, C429_field n ei i' j' hi' hj' h']
    exact hlt
  · rintro ⟨hlt, h'⟩
    rw [← exp_lt_exp, C429_field n ei i j hi hj h, C429_field n ei i' j' hi' hj' h'] at hlt
    exact hlt

/-- C429: where no improvement is expected the figure lies below every point where the improvement is larger than
`exp (-1000)`, which no floating point number undercuts. -/
theorem C429_none (n : ℕ) (ei : ℕ → ℕ → ℝ) (i j i' j' : ℕ) (hi : i < n) (hj : j < n) (hi' : i' < n) (hj' : j' < n)
    (h : ei i j = 0) (h' : exp (-1000) < ei i' j') :
    (improvementCarpet n ei).field j i < (improvementCarpet n ei).field j' i' := by
  have h0 : 0 < ei i' j' := (exp_pos _).trans h'
  have e : (improvementCarpet n ei).field j i = -1000 := by
    unfold improvementCarpet
    rw [foldl_field, if_pos (by simp [hi, hj])]
    unfold logOrFloor
    rw [if_pos h]
  rw [e, ← exp_lt_exp, C429_field n ei i' j' hi' hj' h0]
  exact h'

/-- C429: one number is printed for each point of the grid, the second coordinate running faster. -/
theorem C429_printed_order (n : ℕ) (ei : ℕ → ℕ → ℝ) :
    (improvementCarpet n ei).printed.map (fun q => (q.1, q.2.1)) =
      (List.range n).flatMap fun i => (List.range n).map fun j => (i, j) := by
  unfold improvementCarpet
  rw [foldl_printed]
  simp

/-- The claim about the printed numbers: each is the logarithm of the improvement at its point. -/
def PrintsImprovement (n : ℕ) (ei : ℕ → ℕ → ℝ) : Prop :=
  ∀ q ∈ (improvementCarpet n ei).printed, exp q.2.2 = ei q.1 q.2.1

/-- C429 is false for the printed numbers: row and column are exchanged, so on a grid of two by two the
second number printed is still the zero it starts from. -/
theorem C429_printed_counterexample : ¬ PrintsImprovement 2 fun _ _ => 2 := by
  intro h
  have := h (0, 1, 0) (by
    simp [improvementCarpet, carpetPoint, List.range_succ, List.range_zero])
  norm_num at this

/-- C429 is false for the label of the first figure: what it calls the expected improvement is the
logarithm. -/
theorem C429_label_counterexample : (improvementCarpet 1 fun _ _ => 1).field 0 0 ≠ 1 := by
  simp [improvementCarpet, carpetPoint, logOrFloor, List.range_succ]

/-- C429 is false for the second figure, asked for as the logarithm of the expected improvement: it is the
logarithm of the logarithm, and nothing at all where less than one is expected. -/
theorem C429_second_counterexample (n : ℕ) (ei : ℕ → ℕ → ℝ) (i j : ℕ) (hi : i < n) (hj : j < n) (h : 0 < ei i j) :
    (ei i j ≤ 1 → secondFigure (improvementCarpet n ei) j i = none) ∧
      (1 < ei i j → secondFigure (improvementCarpet n ei) j i ≠ some (log (ei i j))) := by
  have e' : (improvementCarpet n ei).field j i = log (ei i j) := by
    have := C429_field n ei i j hi hj h
    rw [← this, log_exp]
  unfold secondFigure
  rw [e']
  constructor
  · intro h1
    rw [if_pos (log_nonpos h.le h1)]
  · intro h1
    have hl := log_pos h1
    rw [if_neg (not_le.mpr hl)]
    intro h2
    simp only [Option.some.injEq] at h2
    have := log_le_sub_one_of_pos hl
    linarith

/-- A grid with a single promising point. -/
example : exp ((improvementCarpet 40 fun i j => if i = 3 ∧ j = 5 then 2 else 1).field 5 3) = 2 := by
  rw [C429_field 40 _ 3 5 (by norm_num) (by norm_num) (by norm_num)]
  simp

example : (improvementCarpet 2 fun i _ => i).field 0 0 < (improvementCarpet 2 fun i _ => i).field 0 1 :=
  C429_none 2 (fun i _ => i) 0 0 1 0 (by norm_num) (by norm_num) (by norm_num) (by norm_num) (by simp)
    (by simp only [Nat.cast_one]; exact exp_lt_one_iff.2 (by norm_num))

end Verif.Optim
