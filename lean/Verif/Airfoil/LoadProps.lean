import Verif.Airfoil.Panel
import Mathlib.Analysis.SpecialFunctions.Trigonometric.Basic
import Mathlib.Algebra.BigOperators.Intervals
import Mathlib.Tactic.IntervalCases
import Mathlib.Tactic.Linarith
import Mathlib.Tactic.Ring

/-!
Loads of a section from its pressures (`aero_coeff.py`).
-/

namespace Verif.Airfoil
open Real Finset

/-- A section symmetric about the chord: the points in reverse order are the mirror images, with the same pressures. -/
structure Mirror (o : Outline) (cp : ℕ → ℝ) (n : ℕ) : Prop where
  x : ∀ i < n, o.x (n - 1 - i) = o.x i
  y : ∀ i < n, o.y (n - 1 - i) = -o.y i
  p : ∀ i < n, cp (n - 1 - i) = cp i

/-- **C213, counterexample.** A symmetric section at zero incidence with symmetric pressures is given a lift: each piece of the
outline gets the pressure of its first point, which is not the first point of the mirrored piece. -/
theorem C213_symmetric_lift_counterexample :
    ∃ (o : Outline) (cp : ℕ → ℝ) (n : ℕ), 2 ≤ n ∧ Mirror o cp n ∧ (aeroCoeff o cp 0 n).cl ≠ 0 := by
  refine ⟨⟨fun i => if i = 1 then 0 else 1, fun _ => 0⟩, fun i => if i = 1 then 1 else 0, 3, by norm_num, ⟨?_, ?_, ?_⟩, ?_⟩
  · intro i hi
    interval_cases i <;> simp
  · intro i hi; simp
  · intro i hi
    interval_cases i <;> simp
  · simp [aeroCoeff, Finset.sum_range_succ]

/-- What remains: for every symmetric section at zero incidence the lift is half the sum of the pressure steps times the
chordwise steps, and so vanishes when the pressure does not change along the pieces that have a chordwise extent. -/
theorem C213_symmetric_lift_partial (o : Outline) (cp : ℕ → ℝ) (n : ℕ) (h : Mirror o cp n) :
    (aeroCoeff o cp 0 n).cl = 1 / 2 * ∑ i ∈ range (n - 1), (cp (i + 1) - cp i) * (o.x (i + 1) - o.x i) := by
  have hcl : (aeroCoeff o cp 0 n).cl = ∑ i ∈ range (n - 1), -cp i * (o.x (i + 1) - o.x i) := by simp [aeroCoeff]
  have hrefl : ∑ i ∈ range (n - 1), -cp i * (o.x (i + 1) - o.x i) =
      ∑ i ∈ range (n - 1), cp (i + 1) * (o.x (i + 1) - o.x i) := by
    rw [← Finset.sum_range_reflect]
    apply Finset.sum_congr rfl
    intro i hi
    rw [Finset.mem_range] at hi
    have e1 : n - 1 - 1 - i = n - 1 - (i + 1) := by omega
    have e2 : n - 1 - 1 - i + 1 = n - 1 - i := by omega
    rw [e2, e1, h.p (i + 1) (by omega), h.x (i + 1) (by omega), h.x i (by omega)]
    ring
  have : (aeroCoeff o cp 0 n).cl + (aeroCoeff o cp 0 n).cl =
      ∑ i ∈ range (n - 1), (cp (i + 1) - cp i) * (o.x (i + 1) - o.x i) := by
    conv_lhs => rw [hcl]; arg 2; rw [hrefl]
    rw [← Finset.sum_add_distrib]
    apply Finset.sum_congr rfl; intro i _; ring
  linarith

/-- A symmetric section with three points whose pressures differ. -/
example : Mirror ⟨fun i => if i = 1 then 0 else 1, fun i => if i = 0 then -1 else if i = 2 then 1 else 0⟩
    (fun i => if i = 1 then 1 else 0) 3 := by
  refine ⟨?_, ?_, ?_⟩ <;> intro i hi <;> interval_cases i <;> simp

/-- **C214.** The force on the section does not depend on the axes: lift and drag are the components, across and along the
stream, of the sum over the pieces of the outline of minus the pressure times the piece turned to the left. A uniform pressure
leaves only the contribution of the gap between the first and the last point. -/
theorem C214_force (o : Outline) (cp : ℕ → ℝ) (α : ℝ) (n : ℕ) :
    (aeroCoeff o cp α n).cl = -sin α * ∑ i ∈ range (n - 1), -cp i * -(o.y (i + 1) - o.y i) +
        cos α * ∑ i ∈ range (n - 1), -cp i * (o.x (i + 1) - o.x i) ∧
      (aeroCoeff o cp α n).cdpi = cos α * ∑ i ∈ range (n - 1), -cp i * -(o.y (i + 1) - o.y i) +
        sin α * ∑ i ∈ range (n - 1), -cp i * (o.x (i + 1) - o.x i) ∧
      ∀ k, (∀ i, cp i = k) → (aeroCoeff o cp α n).cl = -k * ((o.x (n - 1) - o.x 0) * cos α + (o.y (n - 1) - o.y 0) * sin α) ∧
        (aeroCoeff o cp α n).cdpi = -k * ((o.x (n - 1) - o.x 0) * sin α - (o.y (n - 1) - o.y 0) * cos α) := by
  have e : ∀ i, -cp i * -(o.y (i + 1) - o.y i) = cp i * (o.y (i + 1) - o.y i) := fun i => by ring
  refine ⟨?_, ?_, ?_⟩
  · simp only [aeroCoeff, e]; ring
  · simp only [aeroCoeff, e]; ring
  · intro k hk
    simp only [aeroCoeff, hk, ← Finset.mul_sum, Finset.sum_range_sub]
    constructor <;> ring

/-- The pitching moment of a uniform pressure on a closed outline vanishes: it is the difference of the squared distances of the
ends. -/
theorem C214_moment (o : Outline) (cp : ℕ → ℝ) (α : ℝ) (n : ℕ) (k : ℝ) (hk : ∀ i, cp i = k) :
    (aeroCoeff o cp α n).cm = k / 2 * ((o.x (n - 1) - 1 / 4) ^ 2 + o.y (n - 1) ^ 2 - (o.x 0 - 1 / 4) ^ 2 - o.y 0 ^ 2) := by
  have : (aeroCoeff o cp α n).cm = ∑ i ∈ range (n - 1),
      (k / 2 * ((o.x (i + 1) - 1 / 4) ^ 2 + o.y (i + 1) ^ 2) - k / 2 * ((o.x i - 1 / 4) ^ 2 + o.y i ^ 2)) := by
    simp only [aeroCoeff, hk]
    apply Finset.sum_congr rfl; intro i _; ring
  rw [this, Finset.sum_range_sub (fun i => k / 2 * ((o.x i - 1 / 4) ^ 2 + o.y i ^ 2))]
  ring

/-- A closed triangle in a uniform pressure. -/
example : (aeroCoeff ⟨fun i => if i = 1 then 1 else 0, fun i => if i = 2 then 1 else 0⟩ (fun _ => 3) (1 / 2) 4).cl = 0 := by
  rw [((C214_force _ _ _ _).2.2 3 (fun _ => rfl)).1]; simp

end Verif.Airfoil
