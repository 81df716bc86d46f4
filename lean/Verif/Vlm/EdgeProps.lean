import Verif.Vlm.Edge
import Mathlib.Tactic.FieldSimp
import Mathlib.Tactic.Linarith
import Mathlib.Tactic.Positivity
/-
C408: flow at the leading edge of a rotating aircraft.
-/

namespace Verif.Vlm

open Real

/-- The first panel of a strip begins at the leading edge, its load point is a quarter of its length behind and its control point three quarters. -/
theorem C408_points (x y z chord n xbar zbar : ℝ) :
    (giroLE (x + chord / n / 4) y z chord n xbar zbar).x = x - xbar
      ∧ (giro (x + chord / n / 4) y z chord n xbar zbar).x = x + 3 / 4 * (chord / n) - xbar := by
  unfold giroLE giro xle
  constructor <;> ring

/-- **C408.** If the vortices meet the boundary condition at the control point (in the mode of the original VORLAX this is the system that is solved), the flow at the leading
edge left over is that of the rotation between the control point and the edge: rates of pitch and yaw times three quarters of a panel; rolling does not count. -/
theorem C408_rotation (ew gamma : List ℝ) (f : Flight) (x y z chord n xbar zbar slope phi stb : ℝ)
    (hbc : inducedFlow ew gamma = aloc f (giro x y z chord n xbar zbar) slope phi) (hs : 0 < stb) :
    rotationEffect ew gamma f x y z chord n xbar zbar slope phi stb
      = -(3 / 4 * (chord / n)) * ccntl slope * (f.yaw * sin phi + f.pitch * cos phi) / f.V / n / stb := by
  unfold rotationEffect
  simp only
  rw [if_pos hs, hbc]
  congr 2
  unfold aloc effinc giro giroLE xle
  simp only
  ring

/-- **C408.** Without pitching and yawing there is nothing to correct, swept or not. -/
theorem C408_steady (ew gamma : List ℝ) (f : Flight) (x y z chord n xbar zbar slope phi stb : ℝ)
    (hbc : inducedFlow ew gamma = aloc f (giro x y z chord n xbar zbar) slope phi) (hp : f.pitch = 0) (hy : f.yaw = 0) :
    rotationEffect ew gamma f x y z chord n xbar zbar slope phi stb = 0 := by
  have h : inducedFlow ew gamma - effinc f (giroLE x y z chord n xbar zbar) slope phi = 0 := by
    rw [hbc]
    unfold aloc effinc giro giroLE xle
    simp only
    rw [hp, hy]
    ring
  unfold rotationEffect
  simp only
  rw [h]
  simp

/-- The correction falls with the number of panels squared: twice the panels, a quarter of it. -/
theorem C408_refine (ew gamma ew' gamma' : List ℝ) (f : Flight) (x y z x' y' z' chord n xbar zbar slope phi stb : ℝ) (hs : 0 < stb)
    (hbc : inducedFlow ew gamma = aloc f (giro x y z chord n xbar zbar) slope phi)
    (hbc' : inducedFlow ew' gamma' = aloc f (giro x' y' z' chord (2 * n) xbar zbar) slope phi) :
    rotationEffect ew' gamma' f x' y' z' chord (2 * n) xbar zbar slope phi stb = 1 / 4 * rotationEffect ew gamma f x y z chord n xbar zbar slope phi stb := by
  rw [C408_rotation _ _ _ _ _ _ _ _ _ _ _ _ _ hbc hs, C408_rotation _ _ _ _ _ _ _ _ _ _ _ _ _ hbc' hs]
  by_cases hn : n = 0
  · subst hn; simp
  · field_simp
    ring

/-- **C408.** The suction of the edge is never negative, and there is none at an edge that is supersonic. -/
theorem C408_suction (spc cle dcp n mach t : ℝ) :
    0 ≤ suction spc cle dcp n (stbOf mach t) ∧ (t * t ≤ mach ^ 2 - 1 → suction spc cle dcp n (stbOf mach t) = 0) := by
  have h : 0 ≤ stbOf mach t := by
    unfold stbOf
    split_ifs
    · exact sqrt_nonneg _
    · exact le_refl 0
  constructor
  · unfold suction
    have := pi_pos
    positivity
  · intro ht
    unfold suction stbOf
    rw [if_neg (not_lt.2 ht), mul_zero]

/-- At a subsonic edge the suction is that of the flow at the edge with the pressure of the first panel, a quarter panel behind it, added, for the
velocity across the edge. -/
theorem C408_edge (spc cle dcp n mach t : ℝ) (hn : 0 < n) (ht : mach ^ 2 < 1 + t ^ 2) :
    0 < stbOf mach t ∧ stbOf mach t ^ 2 = 1 + t ^ 2 - mach ^ 2 ∧
      suction spc cle dcp n (stbOf mach t) = π / 2 * |spc| * (cle + dcp / (4 * √n)) ^ 2 * stbOf mach t := by
  have h1 : mach ^ 2 - 1 < t * t := by nlinarith
  have h2 : 0 < t * t - (mach ^ 2 - 1) := by linarith
  refine ⟨?_, ?_, ?_⟩
  · unfold stbOf
    rw [if_pos h1]
    exact sqrt_pos.2 h2
  · unfold stbOf
    rw [if_pos h1, sq_sqrt h2.le]
    ring
  · have e : √(xle n) = 1 / (2 * √n) := by
      have h3 : xle n = (1 / (2 * √n)) ^ 2 := by
        unfold xle
        rw [div_pow, mul_pow, sq_sqrt hn.le]
        field_simp
        norm_num
      rw [h3, sqrt_sq (by positivity)]
    unfold suction
    rw [e]
    have := sqrt_pos.2 hn
    have e2 : cle + 0.5 * dcp * (1 / (2 * √n)) = cle + dcp / (4 * √n) := by
      congr 1
      field_simp
      norm_num
      ring
    rw [e2]
    have e3 : (0.5 : ℝ) = 1 / 2 := by norm_num
    rw [e3]
    ring

/-- An edge swept by 45 degrees at half the speed of sound. -/
example : stbOf (1 / 2) 1 ^ 2 = 7 / 4 := by
  rw [(C408_edge 1 0 1 1 (1 / 2) 1 one_pos (by norm_num)).2.1]; norm_num

/-- One vortex that meets the boundary condition of a pitching plate at angle of attack. -/
example : rotationEffect [1] [aloc ⟨10, 0.1, 0, 0, 2, 0⟩ (giro 1 0 0 1 4 0 0) 0 0] ⟨10, 0.1, 0, 0, 2, 0⟩ 1 0 0 1 4 0 0 0 0 1 = -(3 / 320) := by
  rw [C408_rotation _ _ _ _ _ _ _ _ _ _ _ _ _ (by simp [inducedFlow]) one_pos]
  unfold ccntl scntl
  norm_num

end Verif.Vlm
