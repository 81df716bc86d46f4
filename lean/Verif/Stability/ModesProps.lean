import Verif.Stability.Modes
import Mathlib.LinearAlgebra.Matrix.ToLinearEquiv
import Mathlib.LinearAlgebra.Matrix.Notation
import Mathlib.LinearAlgebra.Matrix.Determinant.Basic
import Mathlib.Algebra.Polynomial.Roots
import Mathlib.Algebra.Polynomial.AlgebraMap
import Mathlib.Analysis.Complex.Basic
import Mathlib.Tactic.ComputeDegree
import Mathlib.Tactic.FieldSimp
import Mathlib.Tactic.LinearCombination
import Mathlib.Data.List.Sort

/-!
C175–C177: modes of motion. The specification is the linearised equations of motion: `s` is a mode when some non-zero motion
growing like `e^(s t)` satisfies the balances of forces and moments.
-/

set_option linter.unusedSimpArgs false

namespace Verif.Stability
open Real

/-! ### Specification -/

/-- The quadratic a frequency and damping ratio stand for. -/
noncomputable def Mode.quad (m : Mode) (s : ℂ) : ℂ := s ^ 2 + 2 * m.zeta * m.wn * s + m.wn ^ 2

/-- Dynamic pressure. -/
noncomputable def dynP (ρ V : ℝ) : ℝ := ρ * V ^ 2 / 2

/-- A motion of three coordinates. -/
structure Motion where
  x : ℂ
  y : ℂ
  z : ℂ

/-- Roll, yaw and sideslip (`x`, `y`, `z`) all growing like `e^(s t)`: rolling moment, yawing moment and side force balance. -/
structure LateralBalance (a : Lateral) (s : ℂ) (v : Motion) : Prop where
  roll : a.Ix * (s ^ 2 * v.x) - a.J * (s ^ 2 * v.y) =
    dynP a.ρ a.V * a.S * a.b * (a.b / (2 * a.V) * (a.Clp * (s * v.x) + a.Clr * (s * v.y)) + a.ClB * v.z)
  yaw : a.Iz * (s ^ 2 * v.y) - a.J * (s ^ 2 * v.x) =
    dynP a.ρ a.V * a.S * a.b * (a.b / (2 * a.V) * (a.Cnp * (s * v.x) + a.Cnr * (s * v.y)) + a.CnB * v.z)
  side : a.m * a.V * (s * v.y + s * v.z) =
    dynP a.ρ a.V * a.S * (a.CyPhi * v.x + a.CyPsi * v.y + a.CyB * v.z)

/-- Speed ratio, angle of attack and pitch (`x`, `y`, `z`): forces along and across the body and pitching moment balance. -/
structure LongBalance (a : Longitudinal) (s : ℂ) (v : Motion) : Prop where
  along : a.m * a.V * (s * v.x) =
    dynP a.ρ a.V * a.S * (a.Cxu * v.x + a.Cxa * v.y + a.Cw * cos a.Θ * v.z)
  across : a.m * a.V * (s * v.y - s * v.z) =
    dynP a.ρ a.V * a.S * (a.Czu * v.x + a.Cza * v.y + a.c / (2 * a.V) * (a.CzaDot * (s * v.y) + a.Czq * (s * v.z)) +
      a.Cw * sin a.Θ * v.z)
  pitch : a.Iy * (s ^ 2 * v.z) =
    dynP a.ρ a.V * a.S * a.c * (a.Cma * v.y + a.c / (2 * a.V) * (a.CmaDot * (s * v.y) + a.Cmq * (s * v.z)))

/-! ### Linear algebra -/

theorem kernel3 (a b c d e f g h i : ℂ) :
    (∃ v : Motion, v ≠ ⟨0, 0, 0⟩ ∧ a * v.x + b * v.y + c * v.z = 0 ∧ d * v.x + e * v.y + f * v.z = 0 ∧
      g * v.x + h * v.y + i * v.z = 0) ↔
    a * (e * i - f * h) + (b * (f * g - d * i) + c * (d * h - g * e)) = 0 := by
  have hdet : Matrix.det !![a, b, c; d, e, f; g, h, i] = a * (e * i - f * h) + (b * (f * g - d * i) + c * (d * h - g * e)) := by
    rw [Matrix.det_fin_three]; simp; ring
  rw [← hdet, ← Matrix.exists_mulVec_eq_zero_iff]
  constructor
  · rintro ⟨v, hv, h1, h2, h3⟩
    refine ⟨![v.x, v.y, v.z], ?_, ?_⟩
    · intro h
      apply hv
      have h0 := congrFun h 0; have h1 := congrFun h 1; have h2 := congrFun h 2
      cases v; simp at h0 h1 h2; simp [h0, h1, h2]
    · ext j; fin_cases j <;> simp [Matrix.mulVec, dotProduct, Fin.sum_univ_three, h1, h2, h3]
  · rintro ⟨v, hv, h0⟩
    refine ⟨⟨v 0, v 1, v 2⟩, ?_, ?_, ?_, ?_⟩
    · intro h
      apply hv
      injection h with h1 h2 h3
      ext j; fin_cases j <;> simp [h1, h2, h3]
    · have := congrFun h0 0; simpa [Matrix.mulVec, dotProduct, Fin.sum_univ_three] using this
    · have := congrFun h0 1; simpa [Matrix.mulVec, dotProduct, Fin.sum_univ_three] using this
    · have := congrFun h0 2; simpa [Matrix.mulVec, dotProduct, Fin.sum_univ_three] using this

theorem aeval_cofactors (s : ℂ) (A B C D E F G H I : Polynomial ℝ) :
    Polynomial.aeval s (cofactors A B C D E F G H I) =
      Polynomial.aeval s A * (Polynomial.aeval s E * Polynomial.aeval s I - Polynomial.aeval s F * Polynomial.aeval s H) +
      (Polynomial.aeval s B * (Polynomial.aeval s F * Polynomial.aeval s G - Polynomial.aeval s D * Polynomial.aeval s I) +
      Polynomial.aeval s C * (Polynomial.aeval s D * Polynomial.aeval s H - Polynomial.aeval s G * Polynomial.aeval s E)) := by
  simp [cofactors]

theorem aeval_one (s : ℂ) (a : ℝ) : Polynomial.aeval s (tuple [a]) = (a : ℂ) := by simp [tuple]

theorem aeval_two (s : ℂ) (a b : ℝ) : Polynomial.aeval s (tuple [a, b]) = (a : ℂ) + s * b := by simp [tuple]; ring

theorem aeval_three (s : ℂ) (a b c : ℝ) : Polynomial.aeval s (tuple [a, b, c]) = (a : ℂ) + s * (b + s * c) := by simp [tuple]; ring_nf; simp

/-! ### C175: the closed-form approximations -/

/-- Lanchester's phugoid: speed and flight path only, lift balancing weight. The reported pair is the characteristic equation of that
motion. -/
theorem C175_phugoid (m g V ρ S CD CL : ℝ) (hm : 0 < m) (hg : 0 < g) (hV : 0 < V) (hρ : 0 < ρ) (hC : 0 < CL)
    (hL : dynP ρ V * S * CL = m * g) (s : ℂ) :
    (phugoid g V CD CL).quad s = 0 ↔
    ∃ u θ : ℂ, (u ≠ 0 ∨ θ ≠ 0) ∧ m * V * (s * u) = dynP ρ V * S * (-2 * CD * u - CL * θ) ∧
      m * V * (-(s * θ)) = dynP ρ V * S * (-2 * CL * u) := by
  have hq : 0 < dynP ρ V := by unfold dynP; positivity
  have e2 : ((sqrt 2 : ℝ) : ℂ) ^ 2 = 2 := by
    rw [← Complex.ofReal_pow, Real.sq_sqrt (by norm_num)]; norm_num
  have hs2 : ((sqrt 2 : ℝ) : ℂ) ≠ 0 := by
    rw [Complex.ofReal_ne_zero]; positivity
  have hquad : (phugoid g V CD CL).quad s = s ^ 2 + 2 * (CD * g / (CL * V)) * s + 2 * (g / V) ^ 2 := by
    simp only [Mode.quad, phugoid]
    push_cast
    have h1 : (V:ℂ) ≠ 0 := by exact_mod_cast hV.ne'
    have h2 : (CL:ℂ) ≠ 0 := by exact_mod_cast hC.ne'
    rw [mul_pow, e2]
    field_simp
  have hk : dynP ρ V * S = m * g / CL := by field_simp; linarith
  have hkC : ((dynP ρ V : ℝ) : ℂ) * S = m * g / CL := by exact_mod_cast hk
  have h1 : (V:ℂ) ≠ 0 := by exact_mod_cast hV.ne'
  have h2 : (CL:ℂ) ≠ 0 := by exact_mod_cast hC.ne'
  have h3 : (m:ℂ) ≠ 0 := by exact_mod_cast hm.ne'
  have h4 : (g:ℂ) ≠ 0 := by exact_mod_cast hg.ne'
  rw [hquad, hkC]
  constructor
  · intro h
    refine ⟨s, 2 * g / V, Or.inr (by simp [h1, h4]), ?_, ?_⟩
    · field_simp at h ⊢
      linear_combination h
    · field_simp
  · rintro ⟨u, θ, hne, e1, e3⟩
    have e1' : V * CL * s * u = g * (-2 * CD * u - CL * θ) := by
      field_simp at e1; linear_combination e1
    have e3' : V * s * θ = 2 * g * u := by
      field_simp at e3; linear_combination -e3
    have hu : u = V * s * θ / (2 * g) := by field_simp; linear_combination -e3'
    have hθ : θ ≠ 0 := by
      rcases hne with h | h
      · intro h0; apply h; rw [hu, h0]; simp
      · exact h
    have : θ * (s ^ 2 + 2 * (CD * g / (CL * V)) * s + 2 * (g / V) ^ 2) = 0 := by
      rw [hu] at e1'
      field_simp at e1' ⊢
      linear_combination θ * e1'
    rcases mul_eq_zero.1 this with h | h
    · exact absurd h hθ
    · exact h

/-- Short period: angle of attack and pitch at constant speed, the small `Z` derivatives left out. -/
theorem C175_short_period (V ρ S c Cmq Cza m Cma Iy CmaDot : ℝ) (hV : 0 < V) (hρ : 0 < ρ) (hS : 0 < S) (hc : 0 < c) (hm : 0 < m)
    (hI : 0 < Iy) (hst : 0 < 0.5 * Cmq * Cza - 2 * m / ρ / S / c * Cma) (s : ℂ) (hs : s ≠ 0) :
    (shortPeriod V ρ S c Cmq Cza m Cma Iy CmaDot).quad s = 0 ↔
    ∃ α θ : ℂ, (α ≠ 0 ∨ θ ≠ 0) ∧ m * V * (s * α - s * θ) = dynP ρ V * S * (Cza * α) ∧
      Iy * (s ^ 2 * θ) = dynP ρ V * S * c * (Cma * α + c / (2 * V) * (CmaDot * (s * α) + Cmq * (s * θ))) := by
  obtain ⟨X, hX⟩ : ∃ X, X = 0.5 * Cmq * Cza - 2 * m / ρ / S / c * Cma := ⟨_, rfl⟩
  have hX0 : 0 < X := by rw [hX]; exact hst
  have hX' : Cmq * Cza * 0.5 - 2 * m * Cma / ρ / S / c = X := by rw [hX]; ring
  -- natural frequency squared and damping term
  have hw : (shortPeriod V ρ S c Cmq Cza m Cma Iy CmaDot).wn ^ 2 = (V * ρ * S * c / 2) ^ 2 * (X / Iy / m) := by
    simp only [shortPeriod]
    rw [mul_pow, ← hX, Real.sq_sqrt (by positivity)]
  have hz : 2 * (shortPeriod V ρ S c Cmq Cza m Cma Iy CmaDot).zeta * (shortPeriod V ρ S c Cmq Cza m Cma Iy CmaDot).wn =
      -(V * ρ * S * c ^ 2 / (4 * Iy)) * (Cmq + CmaDot + 2 * Iy * Cza / m / c ^ 2) := by
    simp only [shortPeriod]
    rw [← hX, hX']
    have e : sqrt (m * c ^ 2 / Iy / X) * sqrt (X / Iy / m) = c / Iy := by
      rw [← Real.sqrt_mul (by positivity), show m * c ^ 2 / Iy / X * (X / Iy / m) = (c / Iy) ^ 2 by field_simp,
        Real.sqrt_sq (by positivity)]
    have : 2 * (-0.25 * (Cmq + CmaDot + 2 * Iy * Cza / m / c ^ 2) * sqrt (m * c ^ 2 / Iy / X)) *
        (V * ρ * S * c / 2 * sqrt (X / Iy / m)) =
        -0.25 * (Cmq + CmaDot + 2 * Iy * Cza / m / c ^ 2) * (V * ρ * S * c) * (sqrt (m * c ^ 2 / Iy / X) * sqrt (X / Iy / m)) := by
      ring
    rw [this, e]
    field_simp; norm_num; ring
  have hquad : (shortPeriod V ρ S c Cmq Cza m Cma Iy CmaDot).quad s =
      s ^ 2 + ((-(V * ρ * S * c ^ 2 / (4 * Iy)) * (Cmq + CmaDot + 2 * Iy * Cza / m / c ^ 2) : ℝ) : ℂ) * s +
        (((V * ρ * S * c / 2) ^ 2 * ((0.5 * Cmq * Cza - 2 * m / ρ / S / c * Cma) / Iy / m) : ℝ) : ℂ) := by
    rw [← hX, ← hw, ← hz]
    simp only [Mode.quad]; push_cast; ring
  have h1 : (V:ℂ) ≠ 0 := by exact_mod_cast hV.ne'
  have h2 : (ρ:ℂ) ≠ 0 := by exact_mod_cast hρ.ne'
  have h3 : (m:ℂ) ≠ 0 := by exact_mod_cast hm.ne'
  have h4 : (S:ℂ) ≠ 0 := by exact_mod_cast hS.ne'
  have h5 : (c:ℂ) ≠ 0 := by exact_mod_cast hc.ne'
  have h6 : (Iy:ℂ) ≠ 0 := by exact_mod_cast hI.ne'
  rw [hquad]
  simp only [dynP]
  push_cast
  constructor
  · intro h
    refine ⟨m * V * s, m * V * s - ρ * V ^ 2 / 2 * S * Cza, Or.inl (by simp [h1, h3, hs]), by ring, ?_⟩
    field_simp at h ⊢
    norm_num at h ⊢
    linear_combination 1 / 2 * h
  · rintro ⟨α, θ, hne, e1, e3⟩
    have hα : α ≠ 0 := by
      intro h0
      rcases hne with h | h
      · exact h h0
      · rw [h0] at e1
        have : m * V * s * θ = (0:ℂ) := by linear_combination -e1
        simp [h1, h3, hs, h] at this
    have hθ : θ = α - ρ * V ^ 2 / 2 * S * Cza * α / (m * V * s) := by
      field_simp at e1 ⊢; linear_combination -e1
    rw [hθ] at e3
    apply mul_left_cancel₀ hα
    field_simp at e3 ⊢
    norm_num at e3 ⊢
    linear_combination 2 * e3

/-- Dutch roll: yaw alone, sideslip opposite to yaw. -/
theorem C175_dutch_roll (V CnB S ρ b Iz Cnr : ℝ) (hV : 0 < V) (hC : 0 < CnB) (hS : 0 < S) (hρ : 0 < ρ) (hb : 0 < b) (hI : 0 < Iz) (s : ℂ) :
    (dutchRoll V CnB S ρ b Iz Cnr).quad s = 0 ↔
    ∃ ψ : ℂ, ψ ≠ 0 ∧ Iz * (s ^ 2 * ψ) = dynP ρ V * S * b * (b / (2 * V) * (Cnr * (s * ψ)) + CnB * (-ψ)) := by
  have hw : (dutchRoll V CnB S ρ b Iz Cnr).wn ^ 2 = V ^ 2 * (CnB * S * ρ * b / 2 / Iz) := by
    simp only [dutchRoll]; rw [mul_pow, Real.sq_sqrt (by positivity)]
  have hz : 2 * (dutchRoll V CnB S ρ b Iz Cnr).zeta * (dutchRoll V CnB S ρ b Iz Cnr).wn = -Cnr * V * S * ρ * b ^ 2 / (4 * Iz) := by
    simp only [dutchRoll]
    have e : sqrt (2 * S * ρ * b ^ 3 / Iz / CnB) * sqrt (CnB * S * ρ * b / 2 / Iz) = S * ρ * b ^ 2 / Iz := by
      rw [← Real.sqrt_mul (by positivity), show 2 * S * ρ * b ^ 3 / Iz / CnB * (CnB * S * ρ * b / 2 / Iz) = (S * ρ * b ^ 2 / Iz) ^ 2 by
        field_simp, Real.sqrt_sq (by positivity)]
    have : 2 * (-Cnr / 8 * sqrt (2 * S * ρ * b ^ 3 / Iz / CnB)) * (V * sqrt (CnB * S * ρ * b / 2 / Iz)) =
        -Cnr / 4 * V * (sqrt (2 * S * ρ * b ^ 3 / Iz / CnB) * sqrt (CnB * S * ρ * b / 2 / Iz)) := by ring
    rw [this, e]; field_simp
  have hquad : (dutchRoll V CnB S ρ b Iz Cnr).quad s = s ^ 2 + ((-Cnr * V * S * ρ * b ^ 2 / (4 * Iz) : ℝ) : ℂ) * s +
      ((V ^ 2 * (CnB * S * ρ * b / 2 / Iz) : ℝ) : ℂ) := by
    rw [← hw, ← hz]; simp only [Mode.quad]; push_cast; ring
  have h1 : (V:ℂ) ≠ 0 := by exact_mod_cast hV.ne'
  have h6 : (Iz:ℂ) ≠ 0 := by exact_mod_cast hI.ne'
  rw [hquad]
  simp only [dynP]
  push_cast
  constructor
  · intro h
    refine ⟨1, one_ne_zero, ?_⟩
    field_simp at h ⊢
    linear_combination 1 / 2 * h
  · rintro ⟨ψ, hψ, e⟩
    apply mul_left_cancel₀ hψ
    field_simp at e ⊢
    linear_combination 2 * e

/-- Roll: the time constant is the reciprocal of the growth rate of a pure roll, so negative when rolling is damped. -/
theorem C175_roll (Ix S ρ V b Clp : ℝ) (hI : 0 < Ix) (hS : 0 < S) (hρ : 0 < ρ) (hV : 0 < V) (hb : 0 < b) (hC : Clp ≠ 0) (s p : ℝ) (hp : p ≠ 0) :
    (Ix * (s * p) = dynP ρ V * S * b * (b / (2 * V) * (Clp * p)) ↔ s * rollTau Ix S ρ V b Clp = 1) ∧
    (rollTau Ix S ρ V b Clp < 0 ↔ Clp < 0) := by
  constructor
  · unfold rollTau dynP
    have := hI.ne'; have := hS.ne'; have := hρ.ne'; have := hV.ne'; have := hb.ne'
    constructor
    · intro h
      field_simp at h ⊢
      linarith
    · intro h
      field_simp at h ⊢
      linarith
  · unfold rollTau
    rw [div_neg_iff]
    have hk : 0 < S * ρ * V * b ^ 2 := by positivity
    constructor
    · rintro (⟨_, h⟩ | ⟨h, _⟩)
      · exact neg_of_mul_neg_right h hk.le
      · linarith
    · intro h
      exact Or.inl ⟨by positivity, mul_neg_of_pos_of_neg hk h⟩

/-- Spiral: the slow motion in which roll and yaw moments are in balance and the bank pulls the aircraft round. -/
theorem C175_spiral (m V ρ S b Clp CnB CyPhi ClB Cnr Clr : ℝ) (hm : 0 < m) (hV : 0 < V) (hρ : 0 < ρ) (hS : 0 < S) (hb : 0 < b)
    (h1 : Clp ≠ 0) (h2 : CnB ≠ 0) (h3 : CyPhi ≠ 0) (h4 : ClB * Cnr - CnB * Clr ≠ 0) (s : ℝ) (hs : s ≠ 0) :
    (∃ φ ψ β : ℝ, φ ≠ 0 ∧ 0 = b / (2 * V) * (Clp * (s * φ) + Clr * (s * ψ)) + ClB * β ∧
      0 = b / (2 * V) * (Cnr * (s * ψ)) + CnB * β ∧ m * V * (s * ψ) = dynP ρ V * S * (CyPhi * φ)) ↔
    s * spiralTau m V ρ S Clp CnB CyPhi ClB Cnr Clr = 1 := by
  have := hm.ne'; have := hV.ne'; have := hρ.ne'; have := hS.ne'; have hb' := hb.ne'
  have key : s * spiralTau m V ρ S Clp CnB CyPhi ClB Cnr Clr = 1 ↔
      2 * m * s * Clp * CnB = ρ * V * S * CyPhi * (ClB * Cnr - CnB * Clr) := by
    unfold spiralTau
    rw [show s * (m * V / S / (0.5 * ρ * V ^ 2) * (Clp * CnB / (CyPhi * (ClB * Cnr - CnB * Clr)))) =
      2 * m * s * Clp * CnB / (ρ * V * S * CyPhi * (ClB * Cnr - CnB * Clr)) by field_simp; norm_num]
    rw [div_eq_one_iff_eq (by positivity)]
  rw [key]
  unfold dynP
  constructor
  · rintro ⟨φ, ψ, β, hφ, e1, e2, e3⟩
    have hβ : β = -(b / (2 * V) * (Cnr * (s * ψ))) / CnB := by field_simp; field_simp at e2; linarith
    have hψ : s * ψ = ρ * V * S * CyPhi * φ / (2 * m) := by field_simp; field_simp at e3; linarith
    rw [hβ, hψ] at e1
    apply mul_left_cancel₀ (mul_ne_zero hb' hφ)
    field_simp at e1
    linear_combination (-1) * e1
  · intro h
    refine ⟨1, ρ * V * S * CyPhi / (2 * m * s), -(b / (2 * V) * (Cnr * (ρ * V * S * CyPhi / (2 * m)))) / CnB, one_ne_zero, ?_, ?_, ?_⟩
    · field_simp
      linear_combination (-b) * h
    · field_simp; ring
    · field_simp

example : 0 < 0.5 * (-20) * (-5 : ℝ) - 2 * 1000 / 1 / 20 / 2 * (-0.5) := by norm_num

/-! ### C176: full longitudinal equations -/

/-- Arguments that make sense. -/
structure Longitudinal.Ok (a : Longitudinal) : Prop where
  V : 0 < a.V
  ρ : 0 < a.ρ
  S : 0 < a.S
  c : 0 < a.c

/-- The polynomial is the characteristic polynomial of the equations of motion. -/
theorem C176_characteristic (a : Longitudinal) (h : a.Ok) (s : ℂ) :
    Polynomial.aeval s a.total = 0 ↔ ∃ v : Motion, v ≠ ⟨0, 0, 0⟩ ∧ LongBalance a s v := by
  have h1 : (a.V:ℂ) ≠ 0 := by exact_mod_cast h.V.ne'
  have h2 : (a.ρ:ℂ) ≠ 0 := by exact_mod_cast h.ρ.ne'
  have h3 : (a.S:ℂ) ≠ 0 := by exact_mod_cast h.S.ne'
  have h4 : (a.c:ℂ) ≠ 0 := by exact_mod_cast h.c.ne'
  simp only [Longitudinal.total, aeval_cofactors, aeval_one, aeval_two, aeval_three]
  rw [← kernel3]
  refine exists_congr fun v => and_congr_right fun _ => ?_
  constructor
  · rintro ⟨e1, e2, e3⟩
    push_cast at e1 e2 e3
    refine ⟨?_, ?_, ?_⟩
    · simp only [dynP]; push_cast
      field_simp at e1 ⊢; norm_num at e1 ⊢
      linear_combination (2) * e1
    · simp only [dynP]; push_cast
      field_simp at e2 ⊢; norm_num at e2 ⊢
      linear_combination (4) * e2
    · simp only [dynP]; push_cast
      field_simp at e3 ⊢; norm_num at e3 ⊢
      linear_combination (4) * e3
  · rintro ⟨e1, e2, e3⟩
    simp only [dynP] at e1 e2 e3
    push_cast at e1 e2 e3 ⊢
    refine ⟨?_, ?_, ?_⟩
    · field_simp at e1 ⊢; norm_num at e1 ⊢
      linear_combination (1 / 2) * e1
    · field_simp at e2 ⊢; norm_num at e2 ⊢
      linear_combination (1 / 4) * e2
    · field_simp at e3 ⊢; norm_num at e3 ⊢
      linear_combination (1 / 4) * e3

/-- It is a quartic. -/
theorem C176_degree (a : Longitudinal) : a.total.natDegree ≤ 4 := by
  simp only [Longitudinal.total, cofactors, tuple, mul_zero, add_zero]
  compute_degree

theorem split_terms (p : ℕ → ℝ) (hs : 0 < (splitQuartic p).short.wn) (hp : 0 < (splitQuartic p).phug.wn) :
    ∃ x y z w : ℝ, 2 * (splitQuartic p).short.zeta * (splitQuartic p).short.wn = x ∧ (splitQuartic p).short.wn ^ 2 = y ∧
      2 * (splitQuartic p).phug.zeta * (splitQuartic p).phug.wn = z ∧ (splitQuartic p).phug.wn ^ 2 = w ∧
      x = p 3 - z ∧ y = p 2 - w - z * x := by
  simp only [splitQuartic] at hs hp ⊢
  generalize p 2 - p 0 / p 2 - p 1 * (p 3 - p 1 / p 2) / p 2 = B at *
  generalize p 1 - p 0 * (p 3 - p 1 / p 2) / p 2 = A at *
  have hs' := Real.sqrt_pos.1 hs
  have hp' := Real.sqrt_pos.1 hp
  have key : ∀ x r : ℝ, 0 < r → 2 * (x * 0.5 / r) * r = x := by
    intro x r hr; field_simp; norm_num; ring
  exact ⟨p 3 - A / B, _, A / B, _, key _ _ hs, Real.sq_sqrt hs'.le, key _ _ hp, Real.sq_sqrt hp'.le, rfl, by ring⟩

/-- The two modes reported multiply up to the characteristic quartic except for its last two coefficients. -/
theorem C176_leading_partial (a : Longitudinal) (h4 : a.total.coeff 4 ≠ 0) (hs : 0 < (longitudinal a).short.wn)
    (hp : 0 < (longitudinal a).phug.wn) :
    ∃ e f : ℝ, ∀ s : ℂ, (longitudinal a).short.quad s * (longitudinal a).phug.quad s =
      Polynomial.aeval s a.total / a.total.coeff 4 + e * s + f := by
  obtain ⟨x, y, z, w, hx, hy, hz, hw, e1, e2⟩ := split_terms (fun i => a.total.coeff i / a.total.coeff 4) hs hp
  refine ⟨x * w + z * y - a.total.coeff 1 / a.total.coeff 4, y * w - a.total.coeff 0 / a.total.coeff 4, fun s => ?_⟩
  have q1 : (longitudinal a).short.quad s = s ^ 2 + x * s + y := by
    rw [← hx, ← hy]; simp only [Mode.quad, longitudinal]; push_cast; ring
  have q2 : (longitudinal a).phug.quad s = s ^ 2 + z * s + w := by
    rw [← hz, ← hw]; simp only [Mode.quad, longitudinal]; push_cast; ring
  rw [q1, q2, Polynomial.aeval_eq_sum_range' (Nat.lt_succ_of_le (C176_degree a))]
  simp only [Finset.sum_range_succ, Finset.sum_range_zero, Complex.real_smul]
  have h4' : (a.total.coeff 4 : ℂ) ≠ 0 := by exact_mod_cast h4
  have e1' : (x:ℂ) = a.total.coeff 3 / a.total.coeff 4 - z := by exact_mod_cast congrArg (Complex.ofReal) e1
  have e2' : (y:ℂ) = a.total.coeff 2 / a.total.coeff 4 - w - z * x := by exact_mod_cast congrArg (Complex.ofReal) e2
  push_cast
  generalize (a.total.coeff 4 : ℂ) = k at *
  generalize (a.total.coeff 3 : ℂ) = c3 at *
  generalize (a.total.coeff 2 : ℂ) = c2 at *
  generalize (a.total.coeff 1 : ℂ) = c1 at *
  generalize (a.total.coeff 0 : ℂ) = c0 at *
  have f3 : c3 = k * (x + z) := by rw [e1']; field_simp; ring
  have f2 : c2 = k * (y + w + z * x) := by rw [e2']; field_simp; ring
  rw [f3, f2]
  field_simp
  ring

/-- The quartic of an aircraft whose characteristic equation is `(s² + 2 s + 1/2) (s² + 2 s + 8) = 0`. -/
noncomputable def splitSample : Longitudinal :=
  { V := 1, ρ := 2, S := 1, c := 2, Cmq := -1, Cza := -1, m := 1, Cma := -7.5, Iy := 2, CmaDot := 0, Czu := -4 / 7.5, CzaDot := 0,
    Czq := 0, Cw := -1, Θ := 0, Cxu := -2, Cxa := 0 }

theorem splitSample_total : splitSample.total = Polynomial.C 4 + Polynomial.C 17 * Polynomial.X + Polynomial.C 12.5 * Polynomial.X ^ 2 +
    Polynomial.C 4 * Polynomial.X ^ 3 + Polynomial.X ^ 4 := by
  apply Polynomial.funext
  intro x
  simp [Longitudinal.total, cofactors, tuple, splitSample]
  ring

/-- One step of division does not find the modes: of this aircraft the phugoid frequency is √(1/2), not what is reported. -/
theorem C176_split_counterexample :
    ∃ a : Longitudinal, a.Ok ∧ (∀ s : ℂ, Polynomial.aeval s a.total = (s ^ 2 + 2 * s + 1 / 2) * (s ^ 2 + 2 * s + 8)) ∧
      (longitudinal a).phug.wn ^ 2 ≠ 1 / 2 ∧ (longitudinal a).phug.wn ^ 2 ≠ 8 := by
  refine ⟨splitSample, ⟨by norm_num [splitSample], by norm_num [splitSample], by norm_num [splitSample], by norm_num [splitSample]⟩, ?_, ?_⟩
  · intro s
    rw [splitSample_total]; simp; ring
  · have h0 : splitSample.total.coeff 0 = 4 := by rw [splitSample_total]; simp [Polynomial.coeff_X, Polynomial.coeff_C]
    have h1 : splitSample.total.coeff 1 = 17 := by rw [splitSample_total]; simp [Polynomial.coeff_X, Polynomial.coeff_C, Polynomial.coeff_X_pow]
    have h2 : splitSample.total.coeff 2 = 12.5 := by rw [splitSample_total]; simp [Polynomial.coeff_X, Polynomial.coeff_C, Polynomial.coeff_X_pow]
    have h3 : splitSample.total.coeff 3 = 4 := by rw [splitSample_total]; simp [Polynomial.coeff_X, Polynomial.coeff_C, Polynomial.coeff_X_pow]
    have h4 : splitSample.total.coeff 4 = 1 := by rw [splitSample_total]; simp [Polynomial.coeff_X, Polynomial.coeff_C, Polynomial.coeff_X_pow]
    have hw : (longitudinal splitSample).phug.wn ^ 2 = 4 / (12.5 - 4 / 12.5 - 17 * (4 - 17 / 12.5) / 12.5) := by
      simp only [longitudinal, splitQuartic, h0, h1, h2, h3, h4]
      rw [Real.sq_sqrt (by norm_num)]; norm_num
    rw [hw]; constructor <;> norm_num

/-! ### C177: full lateral equations -/

/-- Arguments that make sense. -/
structure Lateral.Ok (a : Lateral) : Prop where
  V : 0 < a.V
  ρ : 0 < a.ρ
  S : 0 < a.S
  b : 0 < a.b

/-- The polynomial is the characteristic polynomial of the equations of motion. -/
theorem C177_characteristic (a : Lateral) (h : a.Ok) (s : ℂ) :
    Polynomial.aeval s a.total = 0 ↔ ∃ v : Motion, v ≠ ⟨0, 0, 0⟩ ∧ LateralBalance a s v := by
  have h1 : (a.V:ℂ) ≠ 0 := by exact_mod_cast h.V.ne'
  have h2 : (a.ρ:ℂ) ≠ 0 := by exact_mod_cast h.ρ.ne'
  have h3 : (a.S:ℂ) ≠ 0 := by exact_mod_cast h.S.ne'
  have h4 : (a.b:ℂ) ≠ 0 := by exact_mod_cast h.b.ne'
  simp only [Lateral.total, aeval_cofactors, aeval_one, aeval_two, aeval_three]
  rw [← kernel3]
  refine exists_congr fun v => and_congr_right fun _ => ?_
  constructor
  · rintro ⟨e1, e2, e3⟩
    push_cast at e1 e2 e3
    refine ⟨?_, ?_, ?_⟩
    · simp only [dynP]; push_cast
      field_simp at e1 ⊢; norm_num at e1 ⊢
      linear_combination (4) * e1
    · simp only [dynP]; push_cast
      field_simp at e2 ⊢; norm_num at e2 ⊢
      linear_combination (4) * e2
    · simp only [dynP]; push_cast
      field_simp at e3 ⊢; norm_num at e3 ⊢
      linear_combination (2) * e3
  · rintro ⟨e1, e2, e3⟩
    simp only [dynP] at e1 e2 e3
    push_cast at e1 e2 e3 ⊢
    refine ⟨?_, ?_, ?_⟩
    · field_simp at e1 ⊢; norm_num at e1 ⊢
      linear_combination (1 / 4) * e1
    · field_simp at e2 ⊢; norm_num at e2 ⊢
      linear_combination (1 / 4) * e2
    · field_simp at e3 ⊢; norm_num at e3 ⊢
      linear_combination (1 / 2) * e3

/-- It is a quintic with the root zero (the heading does not matter). -/
theorem C177_degree (a : Lateral) : a.total.natDegree ≤ 5 ∧ a.total.coeff 0 = 0 := by
  constructor
  · simp only [Lateral.total, cofactors, tuple, mul_zero, add_zero]
    compute_degree
  · simp [Lateral.total, cofactors, tuple, Polynomial.coeff_zero_eq_eval_zero]

theorem handed_eval (a : Lateral) (s : ℂ) (hs : s ≠ 0) :
    (a.handed).eval s⁻¹ * s ^ 5 = Polynomial.aeval s a.total / a.total.coeff 5 := by
  rw [Polynomial.aeval_eq_sum_range' (Nat.lt_succ_of_le (C177_degree a).1)]
  simp only [Lateral.handed, Finset.sum_range_succ, Finset.sum_range_zero, Complex.real_smul, Polynomial.eval_add, Polynomial.eval_mul,
    Polynomial.eval_C, Polynomial.eval_pow, Polynomial.eval_X]
  push_cast
  field_simp
  simp
  ring

/-- The numbers worked with are the reciprocals of the modes: times, not rates. -/
theorem C177_reciprocals (a : Lateral) (rs : List ℂ) (h : RootsSorted a.handed rs) (h5 : a.total.coeff 5 ≠ 0) (s : ℂ) (hs : s ≠ 0) :
    Polynomial.aeval s a.total = 0 ↔ s⁻¹ ∈ rs := by
  obtain ⟨c, hc, hq⟩ := h.roots
  have h1 := handed_eval a s hs
  have h5' : (a.total.coeff 5 : ℂ) ≠ 0 := by exact_mod_cast h5
  have h2 : (a.handed).eval s⁻¹ = 0 ↔ s⁻¹ ∈ rs := by
    rw [hq, Polynomial.eval_mul, Polynomial.eval_C, Polynomial.eval_list_prod, mul_eq_zero, or_iff_right hc, List.prod_eq_zero_iff]
    simp only [List.map_map, List.mem_map, Function.comp, Polynomial.eval_sub, Polynomial.eval_X, Polynomial.eval_C, sub_eq_zero]
    constructor
    · rintro ⟨r, hr, e⟩; rw [e]; exact hr
    · intro hr; exact ⟨_, hr, rfl⟩
  rw [← h2]
  constructor
  · intro h0
    rw [h0, zero_div] at h1
    exact (mul_eq_zero.1 h1).resolve_right (pow_ne_zero 5 hs)
  · intro h0
    rw [h0, zero_mul] at h1
    rw [eq_comm, div_eq_zero_iff] at h1
    exact h1.resolve_right h5'

/-- The natural frequency reported is the modulus of the mode the second number stands for. -/
theorem C177_frequency (r0 r1 r2 r3 : ℂ) (rs : List ℂ) (h1 : r1 ≠ 0) :
    ∃ o, lateralOut (r0 :: r1 :: r2 :: r3 :: rs) = some o ∧ o.dutchWn = ‖r1⁻¹‖ := by
  refine ⟨_, rfl, ?_⟩
  have hn : 0 < ‖r1‖ := norm_pos_iff.2 h1
  have e : r1.im ^ 2 + r1.re ^ 2 = ‖r1‖ ^ 2 := by
    rw [← Complex.normSq_eq_norm_sq, Complex.normSq_apply]; ring
  dsimp only
  rw [e, norm_inv, ← Real.rpow_natCast, ← Real.rpow_mul hn.le]
  norm_num
  rw [Real.rpow_neg_one]

/-- The damping ratio reported is the true one times two over the frequency squared. -/
theorem C177_damping_value (r0 r1 r2 r3 : ℂ) (rs : List ℂ) (h1 : r1 ≠ 0) :
    ∃ o, lateralOut (r0 :: r1 :: r2 :: r3 :: rs) = some o ∧ o.dutchZeta = -(r1⁻¹).re / ‖r1⁻¹‖ * (2 / o.dutchWn ^ 2) := by
  obtain ⟨o, ho, hw⟩ := C177_frequency r0 r1 r2 r3 rs h1
  refine ⟨o, ho, ?_⟩
  have hz : o.dutchZeta = -2 * r1.re / o.dutchWn := by
    simp only [lateralOut, Option.some.injEq] at ho
    rw [← ho]
  have hn : ‖r1‖ ≠ 0 := norm_ne_zero_iff.2 h1
  rw [hz, hw, norm_inv, Complex.inv_re, Complex.normSq_eq_norm_sq]
  field_simp

/-- An aircraft with the modes -1/2 (spiral), -3 (roll) and -1/2 ± i √11/2 (dutch roll). -/
noncomputable def lateralSample : Lateral :=
  { V := 1, CnB := 2, S := 1, ρ := 2, b := 2, Iz := 2, Cnr := -1, Ix := 2, Clp := -2.5, J := 0, Clr := 0, ClB := -4.5, Cnp := 0,
    CyPhi := 1, CyPsi := 0, CyB := -1, m := 1 }

theorem lateralSample_total : lateralSample.total = Polynomial.C 4.5 * Polynomial.X + Polynomial.C 12 * Polynomial.X ^ 2 +
    Polynomial.C 8 * Polynomial.X ^ 3 + Polynomial.C 4.5 * Polynomial.X ^ 4 + Polynomial.X ^ 5 := by
  apply Polynomial.funext
  intro x
  simp [Lateral.total, cofactors, tuple, lateralSample]
  ring

/-- Twice the time of its dutch roll. -/
noncomputable def dutchTime : ℂ := ⟨-1 / 6, sqrt 11 / 6⟩

/-- See `dutchTime`. -/
noncomputable def dutchTime' : ℂ := ⟨-1 / 6, -(sqrt 11 / 6)⟩

theorem sample_roots : RootsSorted lateralSample.handed [dutchTime, dutchTime', -1 / 3, -2] := by
  have hp : dutchTime * dutchTime' = 1 / 3 := by
    apply Complex.ext <;> simp [dutchTime, dutchTime'] <;> ring_nf
    rw [Real.sq_sqrt (by norm_num)]; norm_num
  have hs : dutchTime + dutchTime' = -1 / 3 := by
    apply Complex.ext <;> simp [dutchTime, dutchTime'] <;> norm_num
  constructor
  · refine ⟨4.5, by norm_num, ?_⟩
    have c0 : lateralSample.total.coeff 0 = 0 := by rw [lateralSample_total]; simp
    have c1 : lateralSample.total.coeff 1 = 4.5 := by rw [lateralSample_total]; simp [Polynomial.coeff_X, Polynomial.coeff_X_pow]
    have c2 : lateralSample.total.coeff 2 = 12 := by rw [lateralSample_total]; simp [Polynomial.coeff_X, Polynomial.coeff_X_pow]
    have c3 : lateralSample.total.coeff 3 = 8 := by rw [lateralSample_total]; simp [Polynomial.coeff_X, Polynomial.coeff_X_pow]
    have c4 : lateralSample.total.coeff 4 = 4.5 := by rw [lateralSample_total]; simp [Polynomial.coeff_X, Polynomial.coeff_X_pow]
    have c5 : lateralSample.total.coeff 5 = 1 := by rw [lateralSample_total]; simp [Polynomial.coeff_X, Polynomial.coeff_X_pow]
    apply Polynomial.funext
    intro x
    simp only [Lateral.handed, Finset.sum_range_succ, Finset.sum_range_zero, c0, c1, c2, c3, c4, c5]
    simp
    have : (x - dutchTime) * ((x - dutchTime') * ((x - -1 / 3) * (x + 2))) =
        (x ^ 2 - (dutchTime + dutchTime') * x + dutchTime * dutchTime') * ((x - -1 / 3) * (x + 2)) := by ring
    rw [this, hp, hs]
    norm_num
    ring
  · simp [cGe, dutchTime, dutchTime']
    norm_num
    positivity

/-- The slowest mode of this stable aircraft is the spiral at -1/2, a time of -2 — reported as the roll time; the spiral time reported
is that of the dutch roll, and the damping ratio of the dutch roll is not the one reported. -/
theorem C177_mixed_up_counterexample :
    ∃ (a : Lateral) (rs : List ℂ) (o : LateralOut), a.Ok ∧ RootsSorted a.handed rs ∧ lateralOut rs = some o ∧
      Polynomial.aeval (-1 / 2 : ℂ) a.total = 0 ∧ Polynomial.aeval (-3 : ℂ) a.total = 0 ∧
      Polynomial.aeval (dutchTime⁻¹) a.total = 0 ∧
      o.spiralTau ≠ 1 / (-1 / 2) ∧ o.rollTau ≠ 1 / (-3) ∧ o.rollTau = 1 / (-1 / 2) ∧
      o.dutchZeta ≠ -(dutchTime⁻¹).re / ‖dutchTime⁻¹‖ := by
  have h5 : lateralSample.total.coeff 5 ≠ 0 := by rw [lateralSample_total]; simp [Polynomial.coeff_X, Polynomial.coeff_X_pow]
  have hd : dutchTime ≠ 0 := by
    intro h
    have := congrArg Complex.re h
    norm_num [dutchTime] at this
  have hd' : dutchTime' ≠ 0 := by
    intro h
    have := congrArg Complex.re h
    norm_num [dutchTime'] at this
  obtain ⟨o, ho, hz⟩ := C177_damping_value dutchTime dutchTime' (-1 / 3) (-2) [] hd'
  obtain ⟨o', ho', hw⟩ := C177_frequency dutchTime dutchTime' (-1 / 3) (-2) [] hd'
  rw [ho] at ho'
  obtain rfl := Option.some.inj ho'
  have hst : o.spiralTau = -1 / 6 ∧ o.rollTau = -2 := by
    simp only [lateralOut, Option.some.injEq] at ho
    rw [← ho]; simp [dutchTime]
  have hn : ‖dutchTime'‖ ^ 2 = 1 / 3 := by
    rw [← Complex.normSq_eq_norm_sq, Complex.normSq_apply]; simp [dutchTime']; ring_nf; rw [Real.sq_sqrt (by norm_num)]; norm_num
  have hn2 : ‖dutchTime‖ ^ 2 = 1 / 3 := by
    rw [← Complex.normSq_eq_norm_sq, Complex.normSq_apply]; simp [dutchTime]; ring_nf; rw [Real.sq_sqrt (by norm_num)]; norm_num
  have hnn : ‖dutchTime'‖ = ‖dutchTime‖ := by
    rw [← Real.sqrt_sq (norm_nonneg dutchTime'), ← Real.sqrt_sq (norm_nonneg dutchTime), hn, hn2]
  refine ⟨lateralSample, _, o, ⟨by norm_num [lateralSample], by norm_num [lateralSample], by norm_num [lateralSample],
    by norm_num [lateralSample]⟩, sample_roots, ho, ?_, ?_, ?_, ?_, ?_, ?_, ?_⟩
  · rw [lateralSample_total]; norm_num
  · rw [lateralSample_total]; norm_num
  · rw [C177_reciprocals _ _ sample_roots h5 _ (inv_ne_zero hd), inv_inv]; simp
  · rw [hst.1]; norm_num
  · rw [hst.2]; norm_num
  · rw [hst.2]; norm_num
  · rw [hz, hw, norm_inv, norm_inv, hnn, Complex.inv_re, Complex.inv_re, Complex.normSq_eq_norm_sq, Complex.normSq_eq_norm_sq, hnn, hn2]
    have hpos : 0 < ‖dutchTime‖ := norm_pos_iff.2 hd
    rw [inv_pow, hn2]
    rw [show dutchTime.re = -1 / 6 from rfl, show dutchTime'.re = -1 / 6 from rfl]
    generalize ‖dutchTime‖ = N at hpos
    intro h
    have hN : N ≠ 0 := hpos.ne'
    field_simp at h
    norm_num at h

/-- With an unstable spiral, a stable dutch roll and a roll slower to report than the dutch roll, the times are the right ones. -/
theorem C177_unstable_spiral_partial (a : Lateral) (rs : List ℂ) (h : RootsSorted a.handed rs) (σ ρ' : ℝ) (z : ℂ) (c : ℂ) (hc : c ≠ 0)
    (hq : a.handed = Polynomial.C c * ((Polynomial.X - Polynomial.C (σ : ℂ)) * ((Polynomial.X - Polynomial.C z) *
      ((Polynomial.X - Polynomial.C (starRingEnd ℂ z)) * (Polynomial.X - Polynomial.C (ρ' : ℂ))))))
    (h1 : 0 < σ) (h2 : z.re < 0) (h3 : ρ' < z.re) :
    ∃ o, lateralOut rs = some o ∧ o.spiralTau = σ ∧ o.rollTau = ρ' ∧ o.dutchWn = ‖z⁻¹‖ := by
  obtain ⟨d, hd, hr⟩ := h.roots
  have hz0 : z ≠ 0 := by rintro rfl; simp at h2
  -- the ordered list of the same roots
  let w : ℂ := if 0 ≤ z.im then z else starRingEnd ℂ z
  let w' : ℂ := if 0 ≤ z.im then starRingEnd ℂ z else z
  have hw : w.re = z.re ∧ w'.re = z.re ∧ w'.im ≤ w.im ∧ ‖w'‖ = ‖z‖ := by
    by_cases hi : 0 ≤ z.im
    · simp only [w, w', if_pos hi]; simp; exact hi
    · simp only [w, w', if_neg hi]; simp; linarith
  have hprod : (Polynomial.X - Polynomial.C z) * (Polynomial.X - Polynomial.C (starRingEnd ℂ z)) =
      (Polynomial.X - Polynomial.C w) * (Polynomial.X - Polynomial.C w') := by
    by_cases hi : 0 ≤ z.im
    · simp only [w, w', if_pos hi]
    · simp only [w, w', if_neg hi]; ring
  have e : a.handed = Polynomial.C c * (([(σ:ℂ), w, w', (ρ':ℂ)] : List ℂ).map (fun r => Polynomial.X - Polynomial.C r)).prod := by
    rw [hq, List.map_cons, List.map_cons, List.map_cons, List.map_cons, List.map_nil, List.prod_cons, List.prod_cons, List.prod_cons,
      List.prod_cons, List.prod_nil, mul_one]
    linear_combination Polynomial.C c * (Polynomial.X - Polynomial.C (σ : ℂ)) * (Polynomial.X - Polynomial.C (ρ' : ℂ)) * hprod
  have r1 : a.handed.roots = (rs : Multiset ℂ) := by
    rw [hr, Polynomial.roots_C_mul _ hd, ← Multiset.prod_coe, ← Multiset.map_coe, Polynomial.roots_multiset_prod_X_sub_C]
  have r2 : a.handed.roots = (([(σ:ℂ), w, w', (ρ':ℂ)] : List ℂ) : Multiset ℂ) := by
    rw [e, Polynomial.roots_C_mul _ hc, ← Multiset.prod_coe, ← Multiset.map_coe, Polynomial.roots_multiset_prod_X_sub_C]
  have hperm : rs.Perm [(σ:ℂ), w, w', (ρ':ℂ)] := Multiset.coe_eq_coe.1 (r1.symm.trans r2)
  have hsort : ([(σ:ℂ), w, w', (ρ':ℂ)] : List ℂ).Pairwise cGe := by
    simp only [List.pairwise_cons, List.mem_cons, List.not_mem_nil, or_false, forall_eq_or_imp, forall_eq, cGe, Complex.ofReal_re, hw.1, hw.2.1]
    refine ⟨⟨Or.inl (by linarith), Or.inl (by linarith), Or.inl (by linarith)⟩, ⟨Or.inr ⟨trivial, hw.2.2.1⟩, Or.inl h3⟩, Or.inl h3, ?_⟩
    simp
  have hanti : ∀ x y : ℂ, cGe x y → cGe y x → x = y := by
    intro x y h h'
    unfold cGe at h h'
    apply Complex.ext
    · rcases h with h | ⟨h, g⟩ <;> rcases h' with h' | ⟨h', g'⟩ <;> linarith
    · rcases h with h | ⟨h, g⟩ <;> rcases h' with h' | ⟨h', g'⟩ <;> linarith
  have hrs : rs = [(σ:ℂ), w, w', (ρ':ℂ)] := hperm.eq_of_pairwise (fun x y _ _ => hanti x y) h.sorted hsort
  have hw0 : w ≠ 0 := by
    intro h0
    have := hw.1
    rw [h0] at this; simp at this; linarith
  obtain ⟨o, ho, hf⟩ := C177_frequency σ w w' ρ' [] hw0
  refine ⟨o, by rw [hrs]; exact ho, ?_, ?_, ?_⟩
  · simp only [lateralOut, Option.some.injEq] at ho
    rw [← ho]; simp
  · simp only [lateralOut, Option.some.injEq] at ho
    rw [← ho]; simp
  · rw [hf, norm_inv, norm_inv]
    congr 1
    by_cases hi : 0 ≤ z.im
    · simp only [w, if_pos hi]
    · simp only [w, if_neg hi]; simp

/-- Such an aircraft: modes 1/2 (spiral), -1 (roll) and a pair with times -5/8 ± i √7/8. -/
example : ∃ (a : Lateral) (σ ρ' : ℝ) (z c : ℂ), a.Ok ∧ c ≠ 0 ∧
    a.handed = Polynomial.C c * ((Polynomial.X - Polynomial.C (σ : ℂ)) * ((Polynomial.X - Polynomial.C z) *
      ((Polynomial.X - Polynomial.C (starRingEnd ℂ z)) * (Polynomial.X - Polynomial.C (ρ' : ℂ))))) ∧
    0 < σ ∧ z.re < 0 ∧ ρ' < z.re := by
  let a : Lateral := ⟨1, 23 / 16, 1, 2, 2, 2, -1 / 4, 2, -2.5, 0, 0, 4, 0, 1, 0, -1 / 4, 1⟩
  have ht : a.total = Polynomial.C (-1) * Polynomial.X + Polynomial.C (-0.25) * Polynomial.X ^ 2 +
      Polynomial.C 2.75 * Polynomial.X ^ 3 + Polynomial.C 3 * Polynomial.X ^ 4 + Polynomial.X ^ 5 := by
    apply Polynomial.funext
    intro x
    simp [Lateral.total, cofactors, tuple, a]
    ring
  let z : ℂ := ⟨-5 / 8, sqrt 7 / 8⟩
  have hs : z + starRingEnd ℂ z = -5 / 4 := by
    apply Complex.ext <;> simp [z]; norm_num
  have hp : z * starRingEnd ℂ z = 1 / 2 := by
    apply Complex.ext <;> simp [z] <;> ring_nf
    rw [Real.sq_sqrt (by norm_num)]; norm_num
  refine ⟨a, 2, -1, z, -1, ⟨by norm_num [a], by norm_num [a], by norm_num [a], by norm_num [a]⟩, by norm_num, ?_, by norm_num,
    by norm_num [z], by norm_num [z]⟩
  have c0 : a.total.coeff 0 = 0 := by rw [ht]; simp
  have c1 : a.total.coeff 1 = -1 := by rw [ht]; simp [Polynomial.coeff_X, Polynomial.coeff_X_pow]
  have c2 : a.total.coeff 2 = -0.25 := by rw [ht]; simp [Polynomial.coeff_X, Polynomial.coeff_X_pow]
  have c3 : a.total.coeff 3 = 2.75 := by rw [ht]; simp [Polynomial.coeff_X, Polynomial.coeff_X_pow]
  have c4 : a.total.coeff 4 = 3 := by rw [ht]; simp [Polynomial.coeff_X, Polynomial.coeff_X_pow]
  have c5 : a.total.coeff 5 = 1 := by rw [ht]; simp [Polynomial.coeff_X, Polynomial.coeff_X_pow]
  apply Polynomial.funext
  intro x
  have key : (x - 2) * ((x - z) * ((x - starRingEnd ℂ z) * (x + 1))) =
      (x - 2) * ((x ^ 2 - (z + starRingEnd ℂ z) * x + z * starRingEnd ℂ z) * (x + 1)) := by ring
  simp only [Lateral.handed, Finset.sum_range_succ, Finset.sum_range_zero, c0, c1, c2, c3, c4, c5]
  simp
  rw [key, hs, hp]
  norm_num
  ring

end Verif.Stability
