import Mathlib.Tactic.IntervalCases
import Verif.Noise.Weighted
import Verif.Noise.LevelProps

/-! Proofs for C435. -/

namespace Verif.Noise

open Real

/-- C435 in part: the weighted level of the airframe is, for the last step but one, the sum over the bands. -/
theorem C435_airframe_partial (pre : List (List ℝ)) (s last : List ℝ) (h : dbANoise s ≠ []) :
    ∃ t, airframeDba (pre ++ [s, last]) = some [some t] ∧ IsTotal t (dbANoise s) := by
  have e : pre ++ [s, last] = (pre ++ [s]) ++ [last] := by simp
  refine ⟨_, ?_, (C117_energy _ h _).1 (total_eq h)⟩
  unfold airframeDba
  rw [e, List.dropLast_concat, List.getLast?_concat, Option.map_some, splArithmetic, List.map_cons, List.map_nil, total_eq h]

/-- C435 fails: of all other steps nothing is found in the weighted level of the airframe, which has one entry however many steps there
are. -/
theorem C435_steps_counterexample (pre pre' : List (List ℝ)) (s last last' : List ℝ) :
    airframeDba (pre ++ [s, last]) = airframeDba (pre' ++ [s, last'])
      ∧ ∀ l, airframeDba (pre ++ [s, last]) = some l → l.length = 1 := by
  have e : ∀ (p : List (List ℝ)) (a : List ℝ), p ++ [s, a] = (p ++ [s]) ++ [a] := by simp
  have k : ∀ (p : List (List ℝ)) (a : List ℝ), airframeDba (p ++ [s, a]) = some (splArithmetic (.rows [dbANoise s])) := by
    intro p a
    unfold airframeDba
    rw [e, List.dropLast_concat, List.getLast?_concat, Option.map_some]
  refine ⟨by rw [k, k], ?_⟩
  intro l hl
  rw [k, Option.some.injEq] at hl
  subst hl
  simp [splArithmetic]

/-- C435 fails: a history of one step raises an error. -/
theorem C435_single_counterexample (s : List ℝ) : airframeDba [s] = none := rfl

/-- C435 in part: the engine has an entry for each step, no more than the sum over the bands of that step and less by no more than the
number of bands in decibel. -/
theorem C435_engine_partial (totals : List (List ℝ)) (i : ℕ) (s : List ℝ) (hs : totals[i]? = some s) (h : dbANoise s ≠ []) :
    (engineDba totals).length = totals.length ∧ ∃ m t, (engineDba totals)[i]? = some (some m) ∧ IsTotal t (dbANoise s)
      ∧ m ∈ dbANoise s ∧ m ≤ t ∧ t ≤ m + 10 * logb 10 (dbANoise s).length := by
  refine ⟨by simp [engineDba], ?_⟩
  obtain ⟨m, hm⟩ : ∃ m, (dbANoise s).max? = some m := by
    cases hx : (dbANoise s).max? with
    | none => exact absurd (List.max?_eq_none_iff.mp hx) h
    | some m => exact ⟨m, rfl⟩
  have hm' := List.max?_eq_some_iff.mp hm
  obtain ⟨h1, h2⟩ := C117_bounds (dbANoise s) _ m (total_eq h) hm'.2
  refine ⟨m, _, ?_, (C117_energy _ h _).1 (total_eq h), hm'.1, h1 m hm'.1, h2⟩
  unfold engineDba
  rw [List.getElem?_map, hs, Option.map_some, hm]

/-- C435 fails: with two bands or more the entry of the engine is below the sum over its bands. -/
theorem C435_engine_counterexample (s : List ℝ) (h : 2 ≤ (dbANoise s).length) (t : ℝ) (ht : IsTotal t (dbANoise s)) :
    ∃ m, engineDba [s] = [some m] ∧ m < t := by
  have hne : dbANoise s ≠ [] := by intro e; rw [e] at h; simp at h
  obtain ⟨m, hm⟩ : ∃ m, (dbANoise s).max? = some m := by
    cases hx : (dbANoise s).max? with
    | none => exact absurd (List.max?_eq_none_iff.mp hx) hne
    | some m => exact ⟨m, rfl⟩
  have hm' := List.max?_eq_some_iff.mp hm
  refine ⟨m, by simp [engineDba, hm], ?_⟩
  obtain ⟨a, b, hab⟩ := List.append_of_mem hm'.1
  have ht' : total (dbANoise s) = some t := (C117_energy _ hne t).2 ht
  have hp : (dbANoise s).Perm (m :: (a ++ b)) := by rw [hab]; exact List.perm_middle
  have hab' : a ++ b ≠ [] := by
    intro e
    have := hp.length_eq
    rw [e] at this
    simp only [List.length_cons, List.length_nil] at this
    omega
  rw [C117_order hp, total_eq (by simp), Option.some_inj] at ht'
  rw [← ht', List.map_cons, List.sum_cons]
  have h0 := sum_pos_of_ne _ hab'
  have := level_lt (power_pos m) (show power m < power m + ((a ++ b).map power).sum by linarith)
  rwa [level_power] at this

/-- Two bands of sixty decibel. -/
example : ∃ t, IsTotal t (dbANoise [60, 60]) ∧ 2 ≤ (dbANoise [60, 60]).length := by
  have h : dbANoise [60, 60] ≠ [] := by simp [dbANoise, dbA]
  exact ⟨_, (C117_energy _ h _).1 (total_eq h), by simp [dbANoise, dbA]⟩


/-- **C435, weighting.** The level of a band is raised by its weight: bands below 1 kHz and the three highest are lowered, those
between are not. -/
theorem C435_weighting (s : List ℝ) (i : ℕ) (x : ℝ) (hx : s[i]? = some x) (hi : i < 24) :
    ∃ y, (dbANoise s)[i]? = some y ∧ (i ≤ 12 ∨ 21 ≤ i → y < x) ∧ (13 ≤ i → i ≤ 20 → x ≤ y) ∧ (i = 0 → y = x - 30.2) := by
  have h : (dbANoise s)[i]? = (dbA[i]?).map (x + ·) := by
    unfold dbANoise
    rw [List.getElem?_zipWith, hx]
    cases dbA[i]? <;> rfl
  rw [h]
  interval_cases i <;> simp [dbA] <;> norm_num <;> ring

example : ∃ y, (dbANoise [60, 60])[1]? = some y ∧ y < 60 := by
  obtain ⟨y, h1, h2, _⟩ := C435_weighting [60, 60] 1 60 rfl (by norm_num)
  exact ⟨y, h1, h2 (by norm_num)⟩

end Verif.Noise
