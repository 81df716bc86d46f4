import Verif.Rotor.Orientation
import Verif.Rotor.PowerProps
import Mathlib.LinearAlgebra.Matrix.Determinant.Basic
import Mathlib.Tactic.LinearCombination

/-!
# Orientation of rotors and nacelles: property C416
-/

namespace Verif.Rotor
open Real

/-- Rotation by `a` about the first axis. -/
noncomputable def aboutX (a : ℝ) : Matrix (Fin 3) (Fin 3) ℝ := !![1, 0, 0; 0, cos a, -sin a; 0, sin a, cos a]

/-- Rotation by `a` about the second axis. -/
noncomputable def aboutY (a : ℝ) : Matrix (Fin 3) (Fin 3) ℝ := !![cos a, 0, sin a; 0, 1, 0; -sin a, 0, cos a]

/-- Rotation by `a` about the third axis. -/
noncomputable def aboutZ (a : ℝ) : Matrix (Fin 3) (Fin 3) ℝ := !![cos a, -sin a, 0; sin a, cos a, 0; 0, 0, 1]

theorem rotAngle_sq (v : Fin 3 → ℝ) : rotAngle v ^ 2 = v 0 ^ 2 + v 1 ^ 2 + v 2 ^ 2 := Real.sq_sqrt (by positivity)

theorem rot_facts (v : Fin 3 → ℝ) :
    cos (rotAngle v) ^ 2 + rotSin v ^ 2 * (v 0 ^ 2 + v 1 ^ 2 + v 2 ^ 2) = 1 ∧
    rotVer v * (v 0 ^ 2 + v 1 ^ 2 + v 2 ^ 2) = 1 - cos (rotAngle v) ∧
    rotSin v ^ 2 = rotVer v * (1 + cos (rotAngle v)) := by
  rw [← rotAngle_sq]
  unfold rotSin rotVer
  generalize rotAngle v = θ
  have h := Real.sin_sq_add_cos_sq θ
  by_cases h0 : θ = 0
  · subst h0; norm_num
  · rw [if_neg h0, if_neg h0]
    refine ⟨?_, by field_simp, ?_⟩
    · field_simp; linarith
    · field_simp; linarith

/-- **C416, rotation.** Whatever the angles, the matrix is a rotation. -/
theorem C416_rotation (v : Fin 3 → ℝ) : (rotvec v).transpose * rotvec v = 1 ∧ (rotvec v).det = 1 := by
  obtain ⟨f1, f2, f3⟩ := rot_facts v
  simp only [rotvec]
  generalize cos (rotAngle v) = C at *
  generalize rotSin v = s at *
  generalize rotVer v = c at *
  generalize v 0 = x at *
  generalize v 1 = y at *
  generalize v 2 = z at *
  constructor
  · ext i j
    fin_cases i <;> fin_cases j <;> simp [Matrix.mul_apply, Fin.sum_univ_three]
    · linear_combination f1 + x * x * (c * f2 - f3)
    · linear_combination x * y * (c * f2 - f3)
    · linear_combination x * z * (c * f2 - f3)
    · linear_combination x * y * (c * f2 - f3)
    · linear_combination f1 + y * y * (c * f2 - f3)
    · linear_combination y * z * (c * f2 - f3)
    · linear_combination x * z * (c * f2 - f3)
    · linear_combination y * z * (c * f2 - f3)
    · linear_combination f1 + z * z * (c * f2 - f3)
  · rw [Matrix.det_fin_three]
    simp
    linear_combination (C + c * (x ^ 2 + y ^ 2 + z ^ 2)) * f1 + f2

/-- **C416, one angle.** One orientation angle is a rotation about its axis by that angle. -/
theorem C416_single_axis (a : ℝ) :
    rotvec ![a, 0, 0] = aboutX a ∧ rotvec ![0, a, 0] = aboutY a ∧ rotvec ![0, 0, a] = aboutZ a := by
  have key : ∀ v : Fin 3 → ℝ, rotAngle v = |a| →
      cos (rotAngle v) = cos a ∧ rotSin v * a = sin a ∧ cos (rotAngle v) + rotVer v * a ^ 2 = 1 := by
    intro v hv
    unfold rotSin rotVer
    rw [hv, Real.cos_abs, sq_abs]
    by_cases h0 : a = 0
    · subst h0; simp
    · have h1 : ¬ |a| = 0 := by simpa using h0
      rw [if_neg h1, if_neg h1]
      refine ⟨rfl, ?_, by field_simp; ring⟩
      rcases abs_cases a with ⟨h, _⟩ | ⟨h, _⟩
      · rw [h]; field_simp
      · rw [h, Real.sin_neg]; field_simp
  have hx : rotAngle ![a, 0, 0] = |a| := by simp [rotAngle, Real.sqrt_sq_eq_abs]
  have hy : rotAngle ![0, a, 0] = |a| := by simp [rotAngle, Real.sqrt_sq_eq_abs]
  have hz : rotAngle ![0, 0, a] = |a| := by simp [rotAngle, Real.sqrt_sq_eq_abs]
  refine ⟨?_, ?_, ?_⟩
  · obtain ⟨e1, e2, e3⟩ := key _ hx
    ext i j
    fin_cases i <;> fin_cases j <;> simp [rotvec, aboutX, e1, e2]
    rw [e1] at e3; exact e3
  · obtain ⟨e1, e2, e3⟩ := key _ hy
    ext i j
    fin_cases i <;> fin_cases j <;> simp [rotvec, aboutY, e1, e2]
    rw [e1] at e3; exact e3
  · obtain ⟨e1, e2, e3⟩ := key _ hz
    ext i j
    fin_cases i <;> fin_cases j <;> simp [rotvec, aboutZ, e1, e2]
    rw [e1] at e3; exact e3

/-- **C416, there and back.** From the body to a nacelle or rotor and back nothing changes. -/
theorem C416_inverse (angles : Fin 3 → ℝ) (tilt : ℝ) (w : Fin 3 → ℝ) :
    (nacToBody angles).mulVec ((bodyToNac angles).mulVec w) = w ∧
    (rotorToBody angles tilt).mulVec ((bodyToRotor angles tilt).mulVec w) = w := by
  constructor
  · have h := bodyToProp_orth (rotvec angles) (C416_rotation angles).1
    rw [Matrix.mulVec_mulVec]
    have : nacToBody angles * bodyToNac angles = 1 := h
    rw [this, Matrix.one_mulVec]
  · have h := bodyToProp_orth (rotvec (rotorAngles angles tilt)) (C416_rotation _).1
    rw [Matrix.mulVec_mulVec]
    have : rotorToBody angles tilt * bodyToRotor angles tilt = 1 := h
    rw [this, Matrix.one_mulVec]

/-- **C416, body axes.** Seen from the body, whose first and third axes are opposite to the vehicle's, the
rotation is about the same line in space: first and third angle change sign. -/
theorem C416_body_axes (v : Fin 3 → ℝ) : bodyToNac v = rotvec ![-v 0, v 1, -v 2] := by
  have ha : rotAngle ![-v 0, v 1, -v 2] = rotAngle v := by simp [rotAngle]
  have hs : rotSin ![-v 0, v 1, -v 2] = rotSin v := by unfold rotSin; rw [ha]
  have hc : rotVer ![-v 0, v 1, -v 2] = rotVer v := by unfold rotVer; rw [ha]
  unfold bodyToNac
  ext i j
  simp only [rotvec, ha, hs, hc]
  fin_cases i <;> fin_cases j <;> simp [rotY, Matrix.mul_apply, Fin.sum_univ_three] <;> ring

/-- **C416, tilt.** A rotor turned about the second axis only is tilted further by the tilt angle.  Missing: the tilt of
rotors turned about other axes, see the counterexample. -/
theorem C416_tilt_partial (a tilt : ℝ) : bodyToRotor ![0, a, 0] tilt = aboutY a * aboutY tilt := by
  have h1 : rotorAngles ![0, a, 0] tilt = ![0, a + tilt, 0] := by
    ext i; fin_cases i <;> simp [rotorAngles]
  have h2 : bodyToRotor ![0, a, 0] tilt = bodyToNac ![0, a + tilt, 0] := by
    unfold bodyToRotor; rw [h1]; rfl
  have h3 : ![-(![0, a + tilt, 0] : Fin 3 → ℝ) 0, (![0, a + tilt, 0] : Fin 3 → ℝ) 1, -(![0, a + tilt, 0] : Fin 3 → ℝ) 2]
      = ![0, a + tilt, 0] := by
    ext i; fin_cases i <;> simp
  rw [h2, C416_body_axes, h3, (C416_single_axis _).2.1]
  exact (rotY_mul a tilt).symm

example : bodyToRotor ![0, π / 2, 0] (-(π / 2)) = aboutY (π / 2) * aboutY (-(π / 2)) := C416_tilt_partial _ _

theorem cos_rot_lt : cos (rotAngle ![π, π, 0]) ≠ 1 := by
  have hp := Real.pi_pos
  have e : rotAngle ![π, π, 0] = √(π ^ 2 + π ^ 2) := by simp [rotAngle]
  have h0 : 0 < rotAngle ![π, π, 0] := by rw [e]; positivity
  have h1 : rotAngle ![π, π, 0] < 2 * π := by
    rw [e, Real.sqrt_lt' (by positivity)]
    nlinarith [sq_pos_of_pos hp]
  intro h
  exact h0.ne' ((Real.cos_eq_one_iff_of_lt_of_lt (by linarith) h1).1 h)

/-- C416 is false of more than one angle: two half turns about the first and second axis, in whatever order, are not
what the orientation angles `π, π, 0` give. -/
theorem C416_euler_counterexample :
    rotvec ![π, π, 0] ≠ aboutX π * aboutY π ∧ rotvec ![π, π, 0] ≠ aboutY π * aboutX π := by
  constructor <;>
  · intro h
    have := congrFun (congrFun h 2) 2
    simp [rotvec, aboutX, aboutY, Matrix.mul_apply, Fin.sum_univ_three] at this
    exact cos_rot_lt (by simpa using this)

/-- So a rotor turned upside down about the first axis and tilted by half a turn is neither turned and then
tilted nor tilted and then turned. -/
theorem C416_tilt_counterexample :
    rotvec (rotorAngles ![π, 0, 0] π) ≠ aboutX π * aboutY π ∧ rotvec (rotorAngles ![π, 0, 0] π) ≠ aboutY π * aboutX π := by
  have h : rotorAngles ![π, 0, 0] π = ![π, π, 0] := by
    ext i; fin_cases i <;> simp [rotorAngles]
  rw [h]; exact C416_euler_counterexample

end Verif.Rotor
