import Verif.IO.SavedPressures
import Mathlib.Tactic.NormNum

/-!
C471: pressures of the wings of a vehicle that is saved.
-/

namespace Verif.IO.SavedPressures

/-- **C471, what holds.** Symmetric wings, however many, leave the pressures alone, and each is given the two parts of the first row. -/
theorem C471_symmetric_partial (r : List ℝ) (rest : List (List ℝ)) : ∀ ws : List Wing, (∀ w ∈ ws, w.symmetric = true) →
    saveWings (.mat (r :: rest)) ws =
      some (.mat (r :: rest), ws.flatMap fun w => [.row (r.drop w.half), .row (r.take w.half)])
  | [], _ => rfl
  | w :: ws, h => by
    have ih := C471_symmetric_partial r rest ws fun v hv => h v (List.mem_cons_of_mem _ hv)
    have hw := h w (List.mem_cons_self ..)
    simp only [saveWings, saveWing, hw, if_true, first, halves, Option.bind_eq_bind, Option.bind_some, ih, List.flatMap_cons]

/-- A wing that is not symmetric leaves only the first row behind. -/
theorem C471_changed_counterexample (r : List ℝ) (rest : List (List ℝ)) (w : Wing) (hw : w.symmetric = false) :
    saveWing (.mat (r :: rest)) w = some (.row r, [.row r]) := by
  simp [saveWing, hw, first]

theorem save_row (r : List ℝ) (w : Wing) : (saveWing (.row r) w).isSome = true ↔ w.symmetric = false ∧ r ≠ [] := by
  cases r with
  | nil => cases h : w.symmetric <;> simp [saveWing, h, first]
  | cons x r => cases h : w.symmetric <;> simp [saveWing, h, first, halves]

theorem save_scalar (x : ℝ) (w : Wing) : saveWing (.scalar x) w = none := by
  cases h : w.symmetric <;> simp [saveWing, h, first]

theorem wings_scalar (x : ℝ) (ws : List Wing) : (saveWings (.scalar x) ws).isSome = true ↔ ws = [] := by
  cases ws with
  | nil => simp [saveWings]
  | cons w ws => simp [saveWings, save_scalar]

theorem wings_row (x : ℝ) (r : List ℝ) (ws : List Wing) :
    (saveWings (.row (x :: r)) ws).isSome = true ↔ ws = [] ∨ ∃ w, ws = [w] ∧ w.symmetric = false := by
  cases ws with
  | nil => simp [saveWings]
  | cons w ws =>
    cases h : w.symmetric with
    | true =>
      simp [saveWings, saveWing, h, first, halves]
    | false =>
      have := wings_scalar x ws
      cases hs : saveWings (.scalar x) ws with
      | none =>
        rw [hs] at this
        have hne : ws ≠ [] := by simpa using this
        simp [saveWings, saveWing, h, first, hs, hne]
      | some b =>
        rw [hs] at this
        have he : ws = [] := by simpa using this
        simp [saveWings, saveWing, h, first, he]

/-- **C471.** False in general: a vehicle can be saved with its pressures exactly if all symmetric wings come first and at most two
wings follow. -/
theorem C471_order (x : ℝ) (r : List ℝ) (rest : List (List ℝ)) : ∀ ws : List Wing,
    (saveWings (.mat ((x :: r) :: rest)) ws).isSome = true ↔
      ∃ a b, ws = a ++ b ∧ (∀ w ∈ a, w.symmetric = true) ∧ (∀ w ∈ b, w.symmetric = false) ∧ b.length ≤ 2
  | [] => by
    simp only [saveWings, Option.isSome_some, true_iff]
    exact ⟨[], [], rfl, by simp, by simp, by simp⟩
  | w :: ws => by
    cases h : w.symmetric with
    | true =>
      have ih := C471_order x r rest ws
      have he : (saveWings (.mat ((x :: r) :: rest)) (w :: ws)).isSome = (saveWings (.mat ((x :: r) :: rest)) ws).isSome := by
        simp only [saveWings, saveWing, h, if_true, first, halves, Option.bind_eq_bind, Option.bind_some]
        cases saveWings (.mat ((x :: r) :: rest)) ws <;> rfl
      rw [he, ih]
      constructor
      · rintro ⟨a, b, e, ha, hb, hl⟩
        refine ⟨w :: a, b, by rw [e]; rfl, ?_, hb, hl⟩
        intro v hv
        rcases List.mem_cons.1 hv with rfl | hv
        · exact h
        · exact ha v hv
      · rintro ⟨a, b, e, ha, hb, hl⟩
        cases a with
        | nil =>
          have := hb w (by rw [List.nil_append] at e; rw [← e]; exact List.mem_cons_self ..)
          rw [h] at this; cases this
        | cons v a =>
          simp only [List.cons_append, List.cons.injEq] at e
          exact ⟨a, b, e.2, fun u hu => ha u (List.mem_cons_of_mem _ hu), hb, hl⟩
    | false =>
      have he : (saveWings (.mat ((x :: r) :: rest)) (w :: ws)).isSome = (saveWings (.row (x :: r)) ws).isSome := by
        simp only [saveWings, saveWing, h, first, Option.bind_eq_bind, Option.bind_some, Bool.false_eq_true, if_false]
        cases saveWings (.row (x :: r)) ws <;> rfl
      rw [he, wings_row]
      constructor
      · rintro (rfl | ⟨v, rfl, hv⟩)
        · exact ⟨[], [w], rfl, by simp, by simpa using h, by simp⟩
        · exact ⟨[], [w, v], rfl, by simp, by simp [h, hv], by simp⟩
      · rintro ⟨a, b, e, ha, hb, hl⟩
        cases a with
        | cons v a =>
          simp only [List.cons_append, List.cons.injEq] at e
          have := ha v (List.mem_cons_self ..)
          rw [← e.1, h] at this; cases this
        | nil =>
          rw [List.nil_append] at e
          subst e
          simp only [List.length_cons] at hl
          cases ws with
          | nil => exact Or.inl rfl
          | cons v vs =>
            cases vs with
            | nil => exact Or.inr ⟨v, rfl, hb v (by simp)⟩
            | cons u us => simp only [List.length_cons] at hl; omega

/-- **C471, saving twice.** A vehicle with a symmetric wing and a fin after it can be saved once, and raises the next time with the same
results. -/
theorem C471_twice_counterexample (x : ℝ) (r : List ℝ) (rest : List (List ℝ)) (m n : ℕ) :
    ∃ cp out, saveWings (.mat ((x :: r) :: rest)) [⟨true, m⟩, ⟨false, n⟩] = some (cp, out) ∧
      saveWings cp [⟨true, m⟩, ⟨false, n⟩] = none := by
  refine ⟨.row (x :: r), _, rfl, ?_⟩
  simp [saveWings, saveWing, first, halves]

/-- A main wing and a tailplane, both symmetric, with four panels. -/
example : saveWings (.mat [[1, 2, 3, 4]]) [⟨true, 2⟩, ⟨true, 1⟩] =
    some (.mat [[1, 2, 3, 4]], [.row [3, 4], .row [1, 2], .row [2, 3, 4], .row [1]]) := rfl

/-- A fin before the main wing. -/
example : (saveWings (.mat [[1, 2, 3, 4]]) [⟨false, 2⟩, ⟨true, 1⟩]).isSome = false := rfl

end Verif.IO.SavedPressures
