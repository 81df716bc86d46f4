import Verif.Stability.FlightModes
import Mathlib.Analysis.Real.Pi.Bounds
import Mathlib.Analysis.Calculus.Deriv.Mul
import Mathlib.Analysis.Calculus.Deriv.Pow
import Mathlib.Analysis.Calculus.Deriv.Comp
import Mathlib.Analysis.Calculus.Deriv.Add
import Mathlib.Tactic.FieldSimp
import Mathlib.Tactic.Ring
import Mathlib.Tactic.NormNum
import Mathlib.Tactic.Linarith
import Mathlib.Tactic.LinearCombination
import Mathlib.Tactic.Positivity
import Mathlib.Tactic.FinCases

/-!
C178: the assembled matrices are the linearised equations of motion and the reported mode quantities describe the motion.
C179: the difference quotients are the derivatives wherever the coefficients are affine.
-/

namespace Verif.Stability
open Real

/-- The longitudinal equations of motion with unsteady lift and moment: `x` the disturbance, `r` its rate. -/
def LonMotion (d : LonDer) (m g θ0 u0 Iyy : ℝ) (x r : LonState) : Prop :=
  m * r.u = d.Xu * x.u + d.Xw * x.w + d.Xq * x.q - m * g * cos θ0 * x.θ ∧
  m * r.w = d.Zu * x.u + d.Zw * x.w + d.Zq * x.q + d.ZwDot * r.w + m * u0 * x.q - m * g * sin θ0 * x.θ ∧
  Iyy * r.q = d.Mu * x.u + d.Mw * x.w + d.Mq * x.q + d.MwDot * r.w ∧
  r.θ = x.q

/-- The longitudinal state matrix gives, for every disturbance, the one rate that satisfies the equations of motion. -/
theorem C178_longitudinal (d : LonDer) (m g θ0 u0 Iyy : ℝ) (x r : LonState) (hm : m ≠ 0) (hI : Iyy ≠ 0) (hz : m - d.ZwDot ≠ 0) :
    LonMotion d m g θ0 u0 Iyy x r ↔ r = lonRate d m g θ0 u0 Iyy x := by
  obtain ⟨Xu, Xw, Xq, Zu, Zw, Zq, Mu, Mw, Mq, Zd, Md⟩ := d
  obtain ⟨u, w, q, t⟩ := x
  obtain ⟨ru, rw', rq, rt⟩ := r
  simp only [LonMotion, lonRate, LonState.mk.injEq] at *
  have ew : (m * rw' = Zu * u + Zw * w + Zq * q + Zd * rw' + m * u0 * q - m * g * sin θ0 * t) ↔
      rw' = Zu / (m - Zd) * u + Zw / (m - Zd) * w + (Zq + m * u0) / (m - Zd) * q + -m * g * sin θ0 / (m - Zd) * t := by
    have : Zu / (m - Zd) * u + Zw / (m - Zd) * w + (Zq + m * u0) / (m - Zd) * q + -m * g * sin θ0 / (m - Zd) * t =
      (Zu * u + Zw * w + (Zq + m * u0) * q - m * g * sin θ0 * t) / (m - Zd) := by ring
    rw [this, eq_div_iff hz]
    constructor <;> intro h <;> linarith
  refine and_congr ?_ ?_
  · constructor
    · intro h; field_simp; linarith
    · intro h; rw [h]; field_simp
      ring
  constructor
  · rintro ⟨h1, h2, h3⟩
    have h4 := ew.1 h1
    refine ⟨h4, ?_, by linarith⟩
    have : rq = (Mu * u + Mw * w + Mq * q + Md * rw') / Iyy := by rw [eq_div_iff hI]; linarith
    rw [this, h4]
    field_simp
    ring
  · rintro ⟨h1, h2, h3⟩
    refine ⟨ew.2 h1, ?_, by linarith⟩
    rw [h2, h1]
    field_simp
    ring

example : ∃ d : LonDer, ((10 : ℝ) - d.ZwDot ≠ 0) ∧ d.Zw = -3 ∧ d.MwDot = -1 :=
  ⟨⟨-1, 1, 0, -2, -3, -1, 0, -1, -4, 2, -1⟩, by norm_num, rfl, rfl⟩

/-- The lateral equations of motion with a product of inertia. -/
def LatMotion (d : LatDer) (i : StabInertia) (m g θ0 u0 : ℝ) (x r : LatState) : Prop :=
  m * r.v = d.Yv * x.v + d.Yp * x.p + d.Yr * x.r - m * u0 * x.r + m * g * cos θ0 * x.φ ∧
  i.xx * r.p - i.xz * r.r = d.Lv * x.v + d.Lp * x.p + d.Lr * x.r ∧
  i.zz * r.r - i.xz * r.p = d.Nv * x.v + d.Np * x.p + d.Nr * x.r ∧
  r.φ = x.p + tan θ0 * x.r

/-- The lateral state matrix gives, for every disturbance, the one rate that satisfies the equations of motion. -/
theorem C178_lateral (d : LatDer) (i : StabInertia) (m g θ0 u0 : ℝ) (x r : LatState) (hm : m ≠ 0) (hx : i.xx ≠ 0) (hz : i.zz ≠ 0)
    (hd : i.xx * i.zz - i.xz ^ 2 ≠ 0) : LatMotion d i m g θ0 u0 x r ↔ r = latRate d (primed i) m g θ0 u0 x := by
  obtain ⟨Yv, Yp, Yr, Lv, Lp, Lr, Nv, Np, Nr⟩ := d
  obtain ⟨A, B, C⟩ := i
  obtain ⟨v, p, rr, f⟩ := x
  obtain ⟨a, b, c, e⟩ := r
  simp only [LatMotion, latRate, primed, LatState.mk.injEq] at *
  refine and_congr ?_ ?_
  · constructor
    · intro h; field_simp; linarith
    · intro h; rw [h]; field_simp
      ring
  rw [← and_assoc, ← and_assoc]
  refine and_congr ?_ (by constructor <;> intro h <;> linarith)
  have e1 : (Lv / ((A * C - B ^ 2) / C) + B / (A * C - B ^ 2) * Nv) * v + (Lp / ((A * C - B ^ 2) / C) + B / (A * C - B ^ 2) * Np) * p +
      (Lr / ((A * C - B ^ 2) / C) + B / (A * C - B ^ 2) * Nr) * rr + 0 * f =
      (C * (Lv * v + Lp * p + Lr * rr) + B * (Nv * v + Np * p + Nr * rr)) / (A * C - B ^ 2) := by
    generalize A * C - B ^ 2 = D at *
    field_simp; ring
  have e2 : (B / (A * C - B ^ 2) * Lv + Nv / ((A * C - B ^ 2) / A)) * v + (B / (A * C - B ^ 2) * Lp + Np / ((A * C - B ^ 2) / A)) * p +
      (B / (A * C - B ^ 2) * Lr + Nr / ((A * C - B ^ 2) / A)) * rr + 0 * f =
      (B * (Lv * v + Lp * p + Lr * rr) + A * (Nv * v + Np * p + Nr * rr)) / (A * C - B ^ 2) := by
    generalize A * C - B ^ 2 = D at *
    field_simp; ring
  rw [e1, e2, eq_div_iff hd, eq_div_iff hd]
  generalize Lv * v + Lp * p + Lr * rr = L
  generalize Nv * v + Np * p + Nr * rr = N
  constructor
  · rintro ⟨h1, h2⟩
    exact ⟨by rw [← h1, ← h2]; ring, by rw [← h1, ← h2]; ring⟩
  · rintro ⟨h1, h2⟩
    constructor
    · apply mul_right_cancel₀ hd
      linear_combination A * h1 - B * h2
    · apply mul_right_cancel₀ hd
      linear_combination C * h2 - B * h1

example : (⟨10, 2, 20⟩ : StabInertia).xx * (⟨10, 2, 20⟩ : StabInertia).zz - (⟨10, 2, 20⟩ : StabInertia).xz ^ 2 ≠ 0 := by norm_num

/-- What the three numbers of a mode say about the motion `exp (λ t)`: the frequency is the undamped one, the damping ratio is the share
of it that decays, and over the reported time the amplitude halves in a damped mode and doubles in an undamped one. -/
theorem C178_mode (l : ℂ) (hl : l.re ≠ 0) :
    2 * π * (modeHz l).freq = ‖l‖ ∧ 2 * π * (modeHz l).freq * (modeHz l).damp = -l.re ∧ |(modeHz l).damp| ≤ 1 ∧
    ‖Complex.exp (l * ((modeHz l).time : ℝ))‖ = if 0 < l.re then 2 else 1 / 2 := by
  have h0 : l ≠ 0 := by rintro rfl; simp at hl
  have hf : 2 * π * (modeHz l).freq = ‖l‖ := by
    simp only [modeHz]; field_simp
  have hd : 2 * π * (modeHz l).freq * (modeHz l).damp = -l.re := by
    rw [hf]; simp only [modeHz]; rw [mul_neg, Complex.norm_mul_cos_arg]
  refine ⟨hf, hd, ?_, ?_⟩
  · simp only [modeHz, abs_neg]; exact abs_cos_le_one _
  · have ht : (modeHz l).time = log 2 / |l.re| := by
      have : (modeHz l).time = log 2 / |2 * π * (modeHz l).freq * (modeHz l).damp| := rfl
      rw [this, hd, abs_neg]
    rw [Complex.norm_exp, Complex.re_mul_ofReal, ht]
    split_ifs with h
    · rw [abs_of_pos h, mul_div_cancel₀ _ hl, exp_log (by norm_num)]
    · have hneg : l.re < 0 := lt_of_le_of_ne (not_lt.1 h) hl
      rw [abs_of_neg hneg]
      have : l.re * (log 2 / -l.re) = -log 2 := by field_simp
      rw [this, exp_neg, exp_log (by norm_num)]; norm_num

example : (⟨-1, 2⟩ : ℂ).re ≠ 0 := by norm_num

/-- A real mode is a subsidence or divergence `exp (λ t)`: the roll time constant is `-1/λ` and the spiral halves or doubles in the
reported time. -/
theorem C178_real_modes (x : ℝ) (hx : x ≠ 0) :
    (rollMode x).time = -1 / x ∧ Real.exp (x * (spiralMode x).time) = (if 0 < x then 2 else 1 / 2) ∧
    (rollMode x).damp = (if 0 < x then -1 else 1) := by
  have hp := pi_pos
  rcases lt_or_gt_of_ne hx with h | h
  · have hn : ¬ 0 < x := by linarith
    simp only [rollMode, spiralMode, Complex.ofReal_re, sign_neg h, hn, if_false]
    have e : ‖(x : ℂ)‖ = -x := by rw [Complex.norm_real]; exact abs_of_neg h
    rw [e]
    have e2 : (2 * π * (-x / 2 / π) * ((-(-1) : SignType) : ℝ)) = -x := by simp; field_simp
    rw [e2, abs_of_pos (by linarith : 0 < -x)]
    refine ⟨by field_simp, ?_, by simp⟩
    have : x * (log 2 / -x) = -log 2 := by field_simp
    rw [this, exp_neg, exp_log (by norm_num)]; norm_num
  · simp only [rollMode, spiralMode, Complex.ofReal_re, sign_pos h, h, if_true]
    have e : ‖(x : ℂ)‖ = x := by rw [Complex.norm_real]; exact abs_of_pos h
    rw [e]
    have e2 : (2 * π * (x / 2 / π) * ((-1 : SignType) : ℝ)) = -x := by simp; field_simp
    rw [e2, abs_neg, abs_of_pos h]
    refine ⟨by field_simp, ?_, by simp⟩
    rw [mul_div_cancel₀ _ hx, exp_log (by norm_num)]

/-- When exactly one pair of modes shares its real part (a conjugate pair and two real modes), whatever order the eigenvalue solver
returns them in, that pair is the dutch roll, and the roll is the faster of the other two. -/
theorem C178_classification (l : Fin 4 → ℂ) (a b : Fin 4) (hab : a < b) (heq : (l a).re = (l b).re)
    (honly : ∀ i j, i < j → (l i).re = (l j).re → i = a ∧ j = b) :
    findPair l = (a, b) ∧ (rollSpiral l).1 ≠ a ∧ (rollSpiral l).1 ≠ b ∧ (rollSpiral l).2 ≠ a ∧ (rollSpiral l).2 ≠ b ∧
    (rollSpiral l).1 ≠ (rollSpiral l).2 ∧ ‖l (rollSpiral l).2‖ ≤ ‖l (rollSpiral l).1‖ := by
  have hf : findPair l = (a, b) := by
    unfold findPair
    split_ifs with h1 h2 h3 h4 h5
    · have := honly 0 1 (by decide) h1; rw [this.1, this.2]
    · have := honly 0 2 (by decide) h2; rw [this.1, this.2]
    · have := honly 0 3 (by decide) h3; rw [this.1, this.2]
    · have := honly 1 2 (by decide) h4; rw [this.1, this.2]
    · have := honly 1 3 (by decide) h5; rw [this.1, this.2]
    · fin_cases a <;> fin_cases b <;> first | rfl | (exfalso; revert hab; decide) | (exfalso; exact absurd heq (by assumption))
  refine ⟨hf, ?_⟩
  simp only [rollSpiral, hf]
  clear hf honly heq
  split_ifs with h
  · refine ⟨?_, ?_, ?_, ?_, ?_, le_of_lt h⟩ <;> clear h <;> revert a b <;> decide
  · refine ⟨?_, ?_, ?_, ?_, ?_, not_lt.1 h⟩ <;> clear h <;> revert a b <;> decide

example : ∃ l : Fin 4 → ℂ, (l 1).re = (l 3).re ∧ (l 0).re ≠ (l 2).re :=
  ⟨![-5, ⟨-1, 2⟩, -0.01, ⟨-1, -2⟩], by simp, by simp; norm_num⟩

/-- With no oscillation at all (four real modes) the classification is still made: the last two in the solver's order are left out, and the
fastest mode can be missing from the report. -/
theorem C178_no_oscillation_counterexample : ∃ l : Fin 4 → ℂ, (∀ i, (l i).im = 0) ∧
    ‖l (rollSpiral l).1‖ < ‖l 3‖ ∧ ‖l (rollSpiral l).2‖ < ‖l 3‖ := by
  refine ⟨![-1, -2, -3, -9], ?_, ?_, ?_⟩
  · intro i; fin_cases i <;> simp
  all_goals
    have h : findPair ![(-1 : ℂ), -2, -3, -9] = (2, 3) := by
      unfold findPair; simp
    simp only [rollSpiral, h, restPair]
    split_ifs <;> simp <;> norm_num

/-- Expected: a vehicle with both its mass and its maximum take-off mass given has a mass. The choice fails exactly then. -/
theorem C178_mass_counterexample (mass mto : ℝ) : selectMass mass mto = none ↔ mass ≠ 0 ∧ mto ≠ 0 := by
  unfold selectMass; split_ifs <;> simp_all

/-- With one of the two masses given, that one is used. -/
theorem C178_mass_partial (m : ℝ) (_hm : m ≠ 0) : selectMass m 0 = some m ∧ selectMass 0 m = some m := by
  unfold selectMass; simp [_hm]

/-- The same aircraft described in another unit of length, `k` new units to the old one. -/
noncomputable def LonIn.rescale (i : LonIn) (k : ℝ) : LonIn :=
  { i with g := k * i.g, ρ := i.ρ / k ^ 3, u0 := k * i.u0, Iyy := k ^ 2 * i.Iyy, S := k ^ 2 * i.S, c := k * i.c }

/-- The same disturbance in another unit of length. -/
def LonState.rescale (x : LonState) (k : ℝ) : LonState := { u := k * x.u, w := k * x.w, q := x.q, θ := x.θ }

/-- The whole longitudinal matrix applied to a disturbance. -/
noncomputable def lonAll (i : LonIn) (x : LonState) : LonState := lonRate (lonDer i) i.m i.g i.θ0 i.u0 i.Iyy x

/-- Without the unsteady pitching moment the motion does not depend on the unit of length. -/
theorem C178_units_partial (i : LonIn) (x : LonState) (k : ℝ) (hk : 0 < k) (hρ : i.ρ ≠ 0) (hu : i.u0 ≠ 0) (hS : i.S ≠ 0)
    (hc : i.CmaDot = 0) : lonAll (i.rescale k) (x.rescale k) = (lonAll i x).rescale k := by
  have hk' := hk.ne'
  obtain ⟨g, ρ, u0, θ0, m, I, S, c, AR, e, CL, CD, CXu, CZu, CLa, CLq, Cma, Cmq, Czd, Cmd⟩ := i
  obtain ⟨u, w, q, t⟩ := x
  simp only at hρ hu hS hc
  subst hc
  have hz : 0.25 * (ρ / k ^ 3) * (k * c) * (k ^ 2 * S) * Czd = 0.25 * ρ * c * S * Czd := by field_simp
  have hcw : m * (k * g) / (0.5 * (ρ / k ^ 3) * (k * u0) ^ 2 * (k ^ 2 * S)) = m * g / (0.5 * ρ * u0 ^ 2 * S) := by field_simp
  simp only [lonAll, lonRate, lonDer, LonIn.rescale, LonState.rescale, LonState.mk.injEq, hz, hcw, mul_zero, zero_mul, zero_div, add_zero,
    neg_zero]
  generalize m * g / (0.5 * ρ * u0 ^ 2 * S) = Cw
  generalize CL - 2 * CL / (π * AR * e) * CLa = Cxa
  generalize m - 0.25 * ρ * c * S * Czd = D
  generalize sin θ0 = s
  generalize cos θ0 = co
  refine ⟨?_, ?_, ?_, trivial⟩
  · by_cases hm : m = 0
    · subst hm; simp; ring
    · field_simp
  · by_cases hD : D = 0
    · subst hD; simp
    · field_simp
  · by_cases hI : I = 0
    · subst hI; simp
    · field_simp

/-- The unsteady pitching moment lacks a chord (line 123), so the pitch damping of the same aircraft differs between metres and feet. -/
theorem C178_units_counterexample : ∃ (i : LonIn) (x : LonState) (k : ℝ), 0 < k ∧ 0 < i.ρ ∧ 0 < i.u0 ∧ 0 < i.S ∧ 0 < i.Iyy ∧
    lonAll (i.rescale k) (x.rescale k) ≠ (lonAll i x).rescale k := by
  refine ⟨⟨0, 4, 1, 0, 1, 1, 1, 1, 1, 1, 0, 0, 0, 0, 0, 0, 0, 0, 0, -1⟩, ⟨0, 0, 1, 0⟩, 2, by norm_num, by norm_num, by norm_num,
    by norm_num, by norm_num, ?_⟩
  intro h
  have := congrArg LonState.q h
  simp only [lonAll, lonRate, lonDer, LonIn.rescale, LonState.rescale] at this
  norm_num at this

/-- The dimensional derivatives are the derivatives of the forces and of the moment. In trimmed flight the force coefficients balance the
weight; with speed they change by `CX` and `CZ` of the speed ratio, with the upward speed `w` by `CX`, `CZ`, `Cm` of the incidence
`w / u0`, and with pitch rate by `CZ`, `Cm` of `q c / (2 u0)`. -/
theorem C178_derivatives (i : LonIn) (hu : i.u0 ≠ 0) (CXs CZs CXa CZa Cma CZq Cmq : ℝ → ℝ)
    (hx : CXs 1 = i.m * i.g / (0.5 * i.ρ * i.u0 ^ 2 * i.S) * sin i.θ0) (hz : CZs 1 = -(i.m * i.g / (0.5 * i.ρ * i.u0 ^ 2 * i.S) * cos i.θ0))
    (dx : HasDerivAt CXs i.CXu 1) (dz : HasDerivAt CZs i.CZu 1)
    (dxa : HasDerivAt CXa (i.CL - 2 * i.CL * i.CLa / (π * i.AR * i.e)) 0) (dza : HasDerivAt CZa (-(i.CLa + i.CD)) 0)
    (dma : HasDerivAt Cma i.Cma 0) (dzq : HasDerivAt CZq (-i.CLq) 0) (dmq : HasDerivAt Cmq i.Cmq 0) :
    HasDerivAt (fun u => 0.5 * i.ρ * (i.u0 + u) ^ 2 * i.S * CXs ((i.u0 + u) / i.u0)) (lonDer i).Xu 0 ∧
      HasDerivAt (fun u => 0.5 * i.ρ * (i.u0 + u) ^ 2 * i.S * CZs ((i.u0 + u) / i.u0)) (lonDer i).Zu 0 ∧
      HasDerivAt (fun w => 0.5 * i.ρ * i.u0 ^ 2 * i.S * CXa (w / i.u0)) (lonDer i).Xw 0 ∧
      HasDerivAt (fun w => 0.5 * i.ρ * i.u0 ^ 2 * i.S * CZa (w / i.u0)) (lonDer i).Zw 0 ∧
      HasDerivAt (fun w => 0.5 * i.ρ * i.u0 ^ 2 * i.S * i.c * Cma (w / i.u0)) (lonDer i).Mw 0 ∧
      HasDerivAt (fun q => 0.5 * i.ρ * i.u0 ^ 2 * i.S * CZq (q * i.c / (2 * i.u0))) (lonDer i).Zq 0 ∧
      HasDerivAt (fun q => 0.5 * i.ρ * i.u0 ^ 2 * i.S * i.c * Cmq (q * i.c / (2 * i.u0))) (lonDer i).Mq 0 := by
  have speed : ∀ (C : ℝ → ℝ) (d : ℝ), HasDerivAt C d 1 →
      HasDerivAt (fun u => 0.5 * i.ρ * (i.u0 + u) ^ 2 * i.S * C ((i.u0 + u) / i.u0))
        (i.ρ * i.u0 * i.S * C 1 + 0.5 * i.ρ * i.u0 * i.S * d) 0 := by
    intro C d hd
    have e1 : (i.u0 + 0) / i.u0 = 1 := by rw [add_zero, div_self hu]
    have h1 : HasDerivAt (fun u => (i.u0 + u) / i.u0) (1 / i.u0) 0 := ((hasDerivAt_id' (0 : ℝ)).const_add i.u0).div_const i.u0
    have h2 : HasDerivAt (fun u => C ((i.u0 + u) / i.u0)) (d * (1 / i.u0)) 0 :=
      HasDerivAt.comp (h := fun u => (i.u0 + u) / i.u0) (h₂ := C) 0 (by rw [e1]; exact hd) h1
    have h3 : HasDerivAt (fun u : ℝ => (i.u0 + u) ^ 2) (2 * i.u0) 0 :=
      (((hasDerivAt_id' (0 : ℝ)).const_add i.u0).pow 2).congr_deriv (by norm_num)
    refine (((h3.const_mul (0.5 * i.ρ)).mul_const i.S).mul h2).congr_deriv ?_
    rw [e1, add_zero]
    field_simp
    ring
  have rate : ∀ (C : ℝ → ℝ) (d K t : ℝ), HasDerivAt C d 0 → HasDerivAt (fun w => K * C (w * t)) (K * (d * t)) 0 := by
    intro C d K t hd
    have h1 : HasDerivAt (fun w : ℝ => w * t) t 0 := ((hasDerivAt_id' (0 : ℝ)).mul_const t).congr_deriv (one_mul t)
    have h2 : HasDerivAt (fun w => C (w * t)) (d * t) 0 :=
      HasDerivAt.comp (h := fun w => w * t) (h₂ := C) 0 (by rw [zero_mul]; exact hd) h1
    exact h2.const_mul K
  refine ⟨?_, ?_, ?_, ?_, ?_, ?_, ?_⟩
  · exact (speed CXs _ dx).congr_deriv (by rw [hx]; simp only [lonDer]; ring)
  · exact (speed CZs _ dz).congr_deriv (by rw [hz]; simp only [lonDer]; ring)
  · have := rate CXa _ (0.5 * i.ρ * i.u0 ^ 2 * i.S) (1 / i.u0) dxa
    simp only [mul_one_div] at this
    exact this.congr_deriv (by simp only [lonDer]; field_simp)
  · have := rate CZa _ (0.5 * i.ρ * i.u0 ^ 2 * i.S) (1 / i.u0) dza
    simp only [mul_one_div] at this
    exact this.congr_deriv (by simp only [lonDer]; field_simp; ring)
  · have := rate Cma _ (0.5 * i.ρ * i.u0 ^ 2 * i.S * i.c) (1 / i.u0) dma
    simp only [mul_one_div] at this
    exact this.congr_deriv (by simp only [lonDer]; field_simp)
  · have := rate CZq _ (0.5 * i.ρ * i.u0 ^ 2 * i.S) (i.c / (2 * i.u0)) dzq
    simp only [← mul_div_assoc] at this
    exact this.congr_deriv (by simp only [lonDer]; field_simp; ring)
  · have := rate Cmq _ (0.5 * i.ρ * i.u0 ^ 2 * i.S * i.c) (i.c / (2 * i.u0)) dmq
    simp only [← mul_div_assoc] at this
    exact this.congr_deriv (by simp only [lonDer]; field_simp; ring)

/-- Coefficients that change linearly, with any value and slope at the trimmed speed, meet the hypotheses. -/
example (a d : ℝ) : (fun v : ℝ => a + d * (v - 1)) 1 = a ∧ HasDerivAt (fun v : ℝ => a + d * (v - 1)) d 1 := by
  refine ⟨by norm_num, ?_⟩
  exact ((((hasDerivAt_id' (1 : ℝ)).sub_const 1).const_mul d).const_add a).congr_deriv (mul_one d)

/-- The speed derivative of the pitching moment is taken from the pitch damping (line 107): an aircraft whose moment coefficient does not
change with speed is given a speed derivative as soon as it has pitch damping, and the other way round. -/
theorem C178_speed_moment_counterexample (i : LonIn) (hρ : i.ρ ≠ 0) (hu : i.u0 ≠ 0) (hc : i.c ≠ 0) (hS : i.S ≠ 0) :
    ((lonDer i).Mu = 0 ↔ (lonDer i).Mq = 0) ∧ (i.Cmq ≠ 0 → (lonDer i).Mu ≠ 0) := by
  have h1 : (lonDer i).Mu = (0.5 * i.ρ * i.u0 * i.c * i.S) * i.Cmq := rfl
  have h2 : (lonDer i).Mq = (0.25 * i.ρ * i.u0 * i.c * i.c * i.S) * i.Cmq := rfl
  have n1 : 0.5 * i.ρ * i.u0 * i.c * i.S ≠ 0 := by
    have : (0.5 : ℝ) ≠ 0 := by norm_num
    simp [this, hρ, hu, hc, hS]
  have n2 : 0.25 * i.ρ * i.u0 * i.c * i.c * i.S ≠ 0 := by
    have : (0.25 : ℝ) ≠ 0 := by norm_num
    simp [this, hρ, hu, hc, hS]
  rw [h1, h2]
  refine ⟨by simp only [mul_eq_zero, n1, n2, false_or], fun h => mul_ne_zero n1 h⟩

/-- Expected: gravity acts along the body as `g cos θ` with the reported angle. The angle arrives in degrees and enters the cosine
unconverted: within four degrees of incidence gravity changes sign. -/
theorem C178_gravity_counterexample : ∃ aoa : ℝ, 0 < aoa ∧ aoa < 4 ∧ ∀ i : LonIn,
    (lonCase i aoa ⟨0, 0, 0, 1⟩).u = i.g ∧ -i.g * cos (aoa * (π / 180)) = -i.g * cos (π ^ 2 / 180) := by
  refine ⟨π, pi_pos, by linarith [pi_lt_d2], fun i => ⟨?_, ?_⟩⟩
  · simp only [lonCase, lonRate, cos_pi]; ring
  · congr 2; ring

/-- At zero incidence the unconverted angle makes no difference. -/
theorem C178_gravity_partial (i : LonIn) (x : LonState) (h : i.θ0 = 0) : lonCase i 0 x = lonAll i x := by
  obtain ⟨g, ρ, u0, θ0, m, I, S, c, AR, e, CL, CD, CXu, CZu, CLa, CLq, Cma, Cmq, Czd, Cmd⟩ := i
  simp only at h
  subst h
  rfl

/-- The inertia tensor of the plane of symmetry turned through an angle: `R I Rᵀ`, and the sign of the product of inertia. -/
noncomputable def turnedInertia (a ixx ixz izz : ℝ) : StabInertia :=
  { xx := ixx * cos a ^ 2 - 2 * ixz * sin a * cos a + izz * sin a ^ 2
    xz := -((ixx - izz) * sin a * cos a + ixz * (cos a ^ 2 - sin a ^ 2))
    zz := ixx * sin a ^ 2 + 2 * ixz * sin a * cos a + izz * cos a ^ 2 }

/-- The product `R * I * R.T` is taken entry by entry: even at zero incidence, where the turned tensor is the given one, the product of
inertia is dropped, and at ninety degrees both moments of inertia vanish. -/
theorem C178_inertia_counterexample (ixx ixz izz : ℝ) :
    (turnedInertia 0 ixx ixz izz = ⟨ixx, -ixz, izz⟩ ∧ stabInertia 0 ixx ixz izz = ⟨ixx, 0, izz⟩) ∧
    (turnedInertia (90 * (π / 180)) ixx ixz izz = ⟨izz, ixz, ixx⟩ ∧ stabInertia 90 ixx ixz izz = ⟨0, ixz, 0⟩) := by
  have h90 : 90 * (π / 180) = π / 2 := by ring
  refine ⟨⟨?_, ?_⟩, ?_, ?_⟩
  · simp [turnedInertia]
  · simp [stabInertia]
  · simp [turnedInertia, h90]
  · simp [stabInertia, h90]

/-- The turned tensor keeps the sum of the moments; the code's does so only when the incidence or both moments vanish. -/
theorem C178_inertia_partial (a ixx ixz izz : ℝ) :
    (turnedInertia (a * (π / 180)) ixx ixz izz).xx + (turnedInertia (a * (π / 180)) ixx ixz izz).zz = ixx + izz ∧
    ((stabInertia a ixx ixz izz).xx + (stabInertia a ixx ixz izz).zz = ixx + izz ↔ ixx + izz = 0 ∨ sin (a * (π / 180)) = 0) := by
  simp only [turnedInertia, stabInertia]
  generalize a * (π / 180) = t
  have h := sin_sq_add_cos_sq t
  constructor
  · linear_combination (ixx + izz) * h
  · constructor
    · intro e
      have : (ixx + izz) * sin t ^ 2 = 0 := by linear_combination (ixx + izz) * h - e
      rcases mul_eq_zero.1 this with k | k
      · exact Or.inl k
      · exact Or.inr (by simpa using k)
    · rintro (k | k)
      · linear_combination (cos t ^ 2 - 1) * k
      · rw [k] at h
        linear_combination (ixx + izz) * h

/-! ### C179 -/

/-- Where angle and coefficient are affine in the perturbed quantity, the quotient is the exact slope, whatever the step and the state. -/
theorem C179_affine (h s a0 ka c0 kc : ℝ) (hh : h ≠ 0) (hka : ka ≠ 0) :
    absDifference h (fun x => a0 + ka * x) (fun x => c0 + kc * (a0 + ka * x)) s = some kc ∧
    (s ≠ 0 → relDifference h (fun x => a0 + ka * x) (fun x => c0 + kc * (a0 + ka * x)) s = some kc) := by
  constructor
  · unfold absDifference
    have : a0 + ka * (s + h) - (a0 + ka * s) = ka * h := by ring
    simp only [this, mul_ne_zero hka hh, if_false, Option.some.injEq]
    rw [div_eq_iff (mul_ne_zero hka hh)]; ring
  · intro hs
    unfold relDifference
    have : a0 + ka * (s * (1 + h)) - (a0 + ka * s) = ka * s * h := by ring
    have n : ka * s * h ≠ 0 := mul_ne_zero (mul_ne_zero hka hs) hh
    simp only [this, n, if_false, Option.some.injEq]
    rw [div_eq_iff n]; ring

example : absDifference 0.0001 (fun x => 0 + 1 * x) (fun x => 0.3 + 5 * (0 + 1 * x)) 0.1 = some 5 :=
  (C179_affine 0.0001 0.1 0 1 0.3 5 (by norm_num) (by norm_num)).1

/-- For a quadratic coefficient the quotient is the derivative plus curvature times step: the error is proportional to the step, and with
the relative step also to the state. -/
theorem C179_quadratic (h s c0 c1 c2 : ℝ) (hh : h ≠ 0) :
    absDifference h id (fun x => c0 + c1 * x + c2 * x ^ 2) s = some (c1 + 2 * c2 * s + c2 * h) ∧
    (s ≠ 0 → relDifference h id (fun x => c0 + c1 * x + c2 * x ^ 2) s = some (c1 + 2 * c2 * s + c2 * s * h)) := by
  constructor
  · unfold absDifference
    have : id (s + h) - id s = h := by simp
    simp only [this, hh, if_false, Option.some.injEq]
    rw [div_eq_iff hh]; ring
  · intro hs
    unfold relDifference
    have : id (s * (1 + h)) - id s = s * h := by simp only [id]; ring
    have n : s * h ≠ 0 := mul_ne_zero hs hh
    simp only [this, n, if_false, Option.some.injEq]
    rw [div_eq_iff n]; ring

/-- The relative step vanishes at zero: for level pitch or idle throttle no derivative is obtained, whatever the coefficients. -/
theorem C179_zero_counterexample (h : ℝ) (angle coef : ℝ → ℝ) : relDifference h angle coef 0 = none := by
  unfold relDifference; simp

/-- Expected: the speed difference is `h · V`. In level flight along x the first entry is. -/
theorem C179_speed_partial (h v : ℝ) (hv : 0 < v) (hh : 0 ≤ h) : (speedDifference h v 0 0).1 = h * v := by
  have e0 : (⟨v, 0⟩ : ℂ) = (v : ℂ) := rfl
  have e1 : Complex.arg ⟨v, 0⟩ = 0 := by rw [e0]; exact Complex.arg_ofReal_of_nonneg hv.le
  have e2 : sqrt (v ^ 2) = v := sqrt_sq hv.le
  simp only [speedDifference, e1, cos_zero, sin_zero]
  have e3 : sqrt (v ^ 2 + 0 ^ 2 + 0 ^ 2) = v := by simpa using e2
  rw [e3]
  have e4 : (v * (1 + h) * 1) ^ 2 + 0 ^ 2 + (v * (1 + h) * 0) ^ 2 = (v * (1 + h)) ^ 2 := by ring
  rw [e4, sqrt_sq (by positivity)]
  ring

/-- In a climb it is not: the unperturbed value subtracted is the horizontal component, so that an arbitrarily small step leaves a finite
difference; and the other two entries are never small. -/
theorem C179_speed_counterexample (h : ℝ) (hh : 0 ≤ h) :
    (speedDifference h 3 0 (-4)).1 = 2 + 5 * h ∧ (speedDifference h 3 0 (-4)).2.1 = 5 + 5 * h ∧
    (speedDifference h 3 0 (-4)).2.2 = 9 + 5 * h := by
  have e3 : sqrt ((3 : ℝ) ^ 2 + 0 ^ 2 + (-4) ^ 2) = 5 := by
    rw [show ((3 : ℝ) ^ 2 + 0 ^ 2 + (-4) ^ 2) = 5 ^ 2 by norm_num]; exact sqrt_sq (by norm_num)
  have e4 : ∀ t : ℝ, (5 * (1 + h) * cos t) ^ 2 + 0 ^ 2 + (5 * (1 + h) * sin t) ^ 2 = (5 * (1 + h)) ^ 2 := by
    intro t; linear_combination (5 * (1 + h)) ^ 2 * sin_sq_add_cos_sq t
  simp only [speedDifference, e3, e4]
  rw [sqrt_sq (by positivity)]
  refine ⟨by ring, by ring, by ring⟩

end Verif.Stability
