import Verif.Physics.AirGas
import Mathlib.Tactic.Linarith
import Mathlib.Tactic.Positivity
import Mathlib.Tactic.FieldSimp
import Mathlib.Tactic.Ring
import Mathlib.Tactic.NormNum

/-!
# C426: properties of air
-/

namespace Verif.Physics.AirGas

open Real

/-- Specification: Sutherland's law between two temperatures. -/
def Sutherland (S : ℝ) (f : ℝ → ℝ) : Prop :=
  ∀ T T' : ℝ, 0 < T → 0 < T' → f T / f T' = (T / T') ^ (3 / 2 : ℝ) * ((T' + S) / (T + S))

theorem visc_eq {T : ℝ} (hT : 0 < T) : airViscosity T = 1.458e-6 * (T * sqrt T) / (T + 110.4) := by
  unfold airViscosity
  rw [show (1.5 : ℝ) = 1 + 1 / 2 by norm_num, rpow_add hT, rpow_one, ← sqrt_eq_rpow]

theorem visc_pos {T : ℝ} (hT : 0 < T) : 0 < airViscosity T := by
  unfold airViscosity
  have := rpow_pos_of_pos hT 1.5
  positivity

/-- C426: the viscosity follows Sutherland's law with the constant of air. -/
theorem C426_sutherland : Sutherland 110.4 airViscosity := by
  intro T T' hT hT'
  unfold airViscosity
  have h1 := rpow_pos_of_pos hT 1.5
  have h2 := rpow_pos_of_pos hT' 1.5
  rw [show (3 / 2 : ℝ) = 1.5 by norm_num, div_rpow hT.le hT'.le]
  field_simp

/-- C426: hotter air is more viscous. -/
theorem C426_viscosity (T T' : ℝ) (hT : 0 < T) (h : T < T') :
    0 < airViscosity T ∧ airViscosity T < airViscosity T' := by
  refine ⟨visc_pos hT, ?_⟩
  have hT' : 0 < T' := hT.trans h
  rw [visc_eq hT, visc_eq hT']
  have hs : sqrt T < sqrt T' := sqrt_lt_sqrt hT.le h
  have hs0 : 0 < sqrt T := sqrt_pos.mpr hT
  have h1 : T / (T + 110.4) < T' / (T' + 110.4) := by
    rw [div_lt_div_iff₀ (by positivity) (by positivity)]
    nlinarith
  have h2 : T / (T + 110.4) * sqrt T < T' / (T' + 110.4) * sqrt T' := by gcongr
  calc 1.458e-6 * (T * sqrt T) / (T + 110.4) = 1.458e-6 * (T / (T + 110.4) * sqrt T) := by ring
    _ < 1.458e-6 * (T' / (T' + 110.4) * sqrt T') := by linarith
    _ = _ := by ring

/-- C426: hotter air conducts more heat. -/
theorem C426_conductivity (T T' : ℝ) (hT : 0 < T) (h : T < T') :
    0 < airConductivity T ∧ airConductivity T < airConductivity T' := by
  unfold airConductivity
  constructor
  · have : 0 < T * ((T - 1632) ^ 2 * 1.4e-11 + 6e-5) := by positivity
    nlinarith [sq_nonneg (T - 1632), mul_nonneg hT.le (sq_nonneg (T - 1632))]
  · have h1 : 0 < T' - T := by linarith
    have h2 : 0 < 9.89e-5 - 4.57e-8 * (T' + T) + 1.4e-11 * (T' ^ 2 + T' * T + T ^ 2) := by
      nlinarith [sq_nonneg (T' - T), sq_nonneg (T' + T - 2176)]
    nlinarith [mul_pos h1 h2]

theorem cp_lower (T : ℝ) (h1 : 123 ≤ T) (h2 : T ≤ 673) : 1000 < airCpAt T := by
  unfold airCpAt
  rcases le_total T 300 with h | h
  · have hu : 0 ≤ T - 123 := by linarith
    have hv : 0 ≤ 300 - T := by linarith
    linarith [mul_nonneg (pow_nonneg hu 0) (pow_nonneg hv 3), mul_nonneg (pow_nonneg hu 1) (pow_nonneg hv 2), mul_nonneg (pow_nonneg hu 2) (pow_nonneg hv 1), mul_nonneg (pow_nonneg hu 3) (pow_nonneg hv 0)]
  · have hu : 0 ≤ T - 300 := by linarith
    have hv : 0 ≤ 673 - T := by linarith
    linarith [mul_nonneg (pow_nonneg hu 0) (pow_nonneg hv 3), mul_nonneg (pow_nonneg hu 1) (pow_nonneg hv 2), mul_nonneg (pow_nonneg hu 2) (pow_nonneg hv 1), mul_nonneg (pow_nonneg hu 3) (pow_nonneg hv 0)]

/-- C426: over the range of the fits the specific heat and the ratio of specific heats belong to one
gas with the gas constant of air: the ratio is within a hundredth of `cp / (cp - R)`. -/
theorem C426_heats (T : ℝ) (h1 : 123 ≤ T) (h2 : T ≤ 673) :
    1000 < airCpAt T ∧ airCpAt T < 1080 ∧ 1.36 < airGammaAt T ∧ airGammaAt T < 1.41 ∧
      |airGammaAt T - airCpAt T / (airCpAt T - airR)| < 0.01 := by
  have hc := cp_lower T h1 h2
  have hu : 0 ≤ T - 123 := by linarith
  have hv : 0 ≤ 673 - T := by linarith
  have hR : airR = 287.0528742 := rfl
  have hcv : 0 < airCpAt T - airR := by rw [hR]; linarith
  refine ⟨hc, ?_, ?_, ?_, ?_⟩
  · unfold airCpAt
    linarith [mul_nonneg (pow_nonneg hu 0) (pow_nonneg hv 3), mul_nonneg (pow_nonneg hu 1) (pow_nonneg hv 2), mul_nonneg (pow_nonneg hu 2) (pow_nonneg hv 1), mul_nonneg (pow_nonneg hu 3) (pow_nonneg hv 0)]
  · unfold airGammaAt
    linarith [mul_nonneg (pow_nonneg hu 0) (pow_nonneg hv 3), mul_nonneg (pow_nonneg hu 1) (pow_nonneg hv 2), mul_nonneg (pow_nonneg hu 2) (pow_nonneg hv 1), mul_nonneg (pow_nonneg hu 3) (pow_nonneg hv 0)]
  · unfold airGammaAt
    linarith [mul_nonneg (pow_nonneg hu 0) (pow_nonneg hv 3), mul_nonneg (pow_nonneg hu 1) (pow_nonneg hv 2), mul_nonneg (pow_nonneg hu 2) (pow_nonneg hv 1), mul_nonneg (pow_nonneg hu 3) (pow_nonneg hv 0)]
  · have e : airGammaAt T - airCpAt T / (airCpAt T - airR) =
        (airGammaAt T * (airCpAt T - airR) - airCpAt T) / (airCpAt T - airR) := by field_simp
    rw [e, abs_lt, div_lt_iff₀ hcv, lt_div_iff₀ hcv, hR]
    unfold airGammaAt airCpAt
    constructor
    · linarith [mul_nonneg (pow_nonneg hu 0) (pow_nonneg hv 6), mul_nonneg (pow_nonneg hu 1) (pow_nonneg hv 5), mul_nonneg (pow_nonneg hu 2) (pow_nonneg hv 4), mul_nonneg (pow_nonneg hu 3) (pow_nonneg hv 3), mul_nonneg (pow_nonneg hu 4) (pow_nonneg hv 2), mul_nonneg (pow_nonneg hu 5) (pow_nonneg hv 1), mul_nonneg (pow_nonneg hu 6) (pow_nonneg hv 0)]
    · linarith [mul_nonneg (pow_nonneg hu 0) (pow_nonneg hv 6), mul_nonneg (pow_nonneg hu 1) (pow_nonneg hv 5), mul_nonneg (pow_nonneg hu 2) (pow_nonneg hv 4), mul_nonneg (pow_nonneg hu 3) (pow_nonneg hv 3), mul_nonneg (pow_nonneg hu 4) (pow_nonneg hv 2), mul_nonneg (pow_nonneg hu 5) (pow_nonneg hv 1), mul_nonneg (pow_nonneg hu 6) (pow_nonneg hv 0)]

/-- C426: the speed of sound rises with temperature, with either ratio of specific heats. -/
theorem C426_sound (b : Bool) (T T' : ℝ) (h1 : 123 ≤ T) (h : T < T') (h2 : T' ≤ 673) :
    airSound b T < airSound b T' := by
  unfold airSound
  have hR : 0 < airR := by unfold airR; norm_num
  have hg := (C426_heats T h1 (by linarith)).2.2.1
  cases b
  · apply sqrt_lt_sqrt
    · simp only [Bool.false_eq_true, if_false]
      have : 0 ≤ T := by linarith
      positivity
    · simp only [Bool.false_eq_true, if_false]
      gcongr
  · simp only [if_true]
    apply sqrt_lt_sqrt
    · have : 0 ≤ T := by linarith
      have : 0 ≤ airGammaAt T := by linarith
      positivity
    · have key : airGammaAt T * T < airGammaAt T' * T' := by
        unfold airGammaAt
        have hd : 0 < T' - T := by linarith
        have hT : 0 ≤ T := by linarith
        have hT' : 0 ≤ T' := by linarith
        have a1 : T * T ≤ 673 * 673 := by nlinarith
        have a2 : T' * T' ≤ 673 * 673 := by nlinarith
        have a3 : T * T' ≤ 673 * 673 := by nlinarith
        have a4 : 0 ≤ T * T * T + T * T * T' + T * T' * T' + T' * T' * T' := by positivity
        have hq : 0 < 1.629e-10 * (T * T * T + T * T * T' + T * T' * T' + T' * T' * T') +
            -3.588e-7 * (T * T + T * T' + T' * T') + 0.0001418 * (T + T') + 1.386 := by nlinarith
        have := mul_pos hd hq
        nlinarith
      calc airGammaAt T * airR * T = (airGammaAt T * T) * airR := by ring
        _ < (airGammaAt T' * T') * airR := by gcongr
        _ = _ := by ring

/-- C426: the two speeds of sound, with the constant and the changing ratio of specific heats, agree to three hundredths
of their squares, and that with the changing ratio is `γ R T`. -/
theorem C426_choice (T : ℝ) (h1 : 123 ≤ T) (h2 : T ≤ 673) :
    airSound true T ^ 2 = airGammaAt T * airR * T ∧
      |airSound false T ^ 2 - airSound true T ^ 2| ≤ 0.03 * airSound true T ^ 2 := by
  have hR : 0 < airR := by unfold airR; norm_num
  have hg := (C426_heats T h1 h2).2.2.1
  have hg' := (C426_heats T h1 h2).2.2.2.1
  have hT : 0 < T := by linarith
  have hg0 : 0 < airGammaAt T := by linarith
  have e1 : airSound true T ^ 2 = airGammaAt T * airR * T := by
    unfold airSound; rw [if_pos rfl, sq_sqrt (by positivity)]
  have e2 : airSound false T ^ 2 = 1.4 * airR * T := by
    unfold airSound; rw [if_neg (by simp), sq_sqrt (by positivity)]
  refine ⟨e1, ?_⟩
  rw [e1, e2, abs_le]
  have hk : 0 < airR * T := by positivity
  constructor <;> nlinarith

theorem cond_pos {T : ℝ} (hT : 0 < T) : 0 < airConductivity T := (C426_conductivity T (T + 1) hT (by linarith)).1

theorem sqrt_above {T s : ℝ} (hT : 0 < T) (hs : 0 < s) : sqrt T ≤ (T + s ^ 2) / (2 * s) := by
  rw [le_div_iff₀ (by positivity)]
  nlinarith [sq_nonneg (sqrt T - s), sq_sqrt hT.le]

theorem sqrt_below {T s : ℝ} (hT : 0 < T) (hs : 0 < s) : 2 * s * T / (T + s ^ 2) ≤ sqrt T := by
  rw [div_le_iff₀ (by positivity)]
  have h := sq_sqrt hT.le
  have h0 := sqrt_pos.mpr hT
  generalize sqrt T = r at h h0
  subst h
  nlinarith [mul_nonneg h0.le (sq_nonneg (r - s))]

/-- The Prandtl number lies between bounds if two polynomials are positive. -/
theorem prandtl_of {T s : ℝ} (hT : 0 < T) (hs : 0 < s)
    (hup : 1.458e-6 * 1006 * (T * (T + s ^ 2)) < 0.75 * ((T + 110.4) * airConductivity T) * (2 * s))
    (hlo : 0.62 * ((T + 110.4) * airConductivity T) * (T + s ^ 2) < 1.458e-6 * 1006 * (T * (2 * s * T))) :
    0.62 < airPrandtl T ∧ airPrandtl T < 0.75 := by
  have hk := cond_pos hT
  have e : airPrandtl T = 1.458e-6 * 1006 * (T * sqrt T) / ((T + 110.4) * airConductivity T) := by
    unfold airPrandtl airCp0
    rw [visc_eq hT]
    field_simp
  have hden : 0 < (T + 110.4) * airConductivity T := by positivity
  rw [e]
  generalize (T + 110.4) * airConductivity T = d at *
  have ha := sqrt_above hT hs
  have hb := sqrt_below hT hs
  rw [le_div_iff₀ (by positivity)] at ha
  rw [div_le_iff₀ (by positivity)] at hb
  constructor
  · rw [lt_div_iff₀ hden]
    have h3 : 0 < T + s ^ 2 := by positivity
    have := mul_le_mul_of_nonneg_left hb hT.le
    refine lt_of_mul_lt_mul_right ?_ h3.le
    calc 0.62 * d * (T + s ^ 2) < _ := hlo
      _ ≤ 1.458e-6 * 1006 * (T * (sqrt T * (T + s ^ 2))) := by linarith
      _ = _ := by ring
  · rw [div_lt_iff₀ hden]
    have h3 : 0 < 2 * s := by positivity
    have := mul_le_mul_of_nonneg_left ha hT.le
    refine lt_of_mul_lt_mul_right ?_ h3.le
    calc 1.458e-6 * 1006 * (T * sqrt T) * (2 * s) = 1.458e-6 * 1006 * (T * (sqrt T * (2 * s))) := by ring
      _ ≤ 1.458e-6 * 1006 * (T * (T + s ^ 2)) := by linarith
      _ < _ := hup

/-- C426: the Prandtl number lies between 0.62 and 0.75 over the range of the fits. -/
theorem C426_prandtl (T : ℝ) (h1 : 123 ≤ T) (h2 : T ≤ 673) :
    0.62 < airPrandtl T ∧ airPrandtl T < 0.75 := by
  rcases le_total T 300 with h | h
  · have hu : 0 ≤ T - 123 := by linarith
    have hv : 0 ≤ 300 - T := by linarith
    apply prandtl_of (s := 14) (by linarith) (by norm_num)
    · unfold airConductivity
      linarith [mul_nonneg (pow_nonneg hu 0) (pow_nonneg hv 4), mul_nonneg (pow_nonneg hu 1) (pow_nonneg hv 3), mul_nonneg (pow_nonneg hu 2) (pow_nonneg hv 2), mul_nonneg (pow_nonneg hu 3) (pow_nonneg hv 1), mul_nonneg (pow_nonneg hu 4) (pow_nonneg hv 0)]
    · unfold airConductivity
      linarith [mul_nonneg (pow_nonneg hu 0) (pow_nonneg hv 5), mul_nonneg (pow_nonneg hu 1) (pow_nonneg hv 4), mul_nonneg (pow_nonneg hu 2) (pow_nonneg hv 3), mul_nonneg (pow_nonneg hu 3) (pow_nonneg hv 2), mul_nonneg (pow_nonneg hu 4) (pow_nonneg hv 1), mul_nonneg (pow_nonneg hu 5) (pow_nonneg hv 0)]
  · have hu : 0 ≤ T - 300 := by linarith
    have hv : 0 ≤ 673 - T := by linarith
    apply prandtl_of (s := 21) (by linarith) (by norm_num)
    · unfold airConductivity
      linarith [mul_nonneg (pow_nonneg hu 0) (pow_nonneg hv 4), mul_nonneg (pow_nonneg hu 1) (pow_nonneg hv 3), mul_nonneg (pow_nonneg hu 2) (pow_nonneg hv 2), mul_nonneg (pow_nonneg hu 3) (pow_nonneg hv 1), mul_nonneg (pow_nonneg hu 4) (pow_nonneg hv 0)]
    · unfold airConductivity
      linarith [mul_nonneg (pow_nonneg hu 0) (pow_nonneg hv 5), mul_nonneg (pow_nonneg hu 1) (pow_nonneg hv 4), mul_nonneg (pow_nonneg hu 2) (pow_nonneg hv 3), mul_nonneg (pow_nonneg hu 3) (pow_nonneg hv 2), mul_nonneg (pow_nonneg hu 4) (pow_nonneg hv 1), mul_nonneg (pow_nonneg hu 5) (pow_nonneg hv 0)]

/-- C426: density is pressure over gas constant and temperature, so equal masses fill the volume of the
ideal gas law. -/
theorem C426_density (T p V m : ℝ) (hT : 0 < T) (hV : 0 < V) (h : m = densityOf T p * V) :
    p * V = m * (287.0528742 * T) := by
  rw [h]
  unfold densityOf airR
  field_simp

/-- Room temperature lies in the range. -/
example : 0.62 < airPrandtl 293 ∧ airPrandtl 293 < 0.75 := C426_prandtl 293 (by norm_num) (by norm_num)

example : airViscosity 100 < airViscosity 400 := (C426_viscosity 100 400 (by norm_num) (by norm_num)).2

end Verif.Physics.AirGas
