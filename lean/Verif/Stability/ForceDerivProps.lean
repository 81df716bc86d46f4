import Verif.Stability.ZeroDynamics
import Mathlib.Analysis.SpecialFunctions.Integrals.Basic
import Mathlib.Analysis.SpecialFunctions.Trigonometric.InverseDeriv

/-!
C392: the derivatives of the forces and the cross derivatives of roll and yaw
(`trunk/SUAVE/Methods/Flight_Dynamics/Dynamic_Stability/Full_Linearized_Equations/Supporting_Functions`), against the derivatives of
lift, drag and weight in axes fixed to the aircraft.
-/

namespace Verif.Stability
open Real MeasureTheory intervalIntegral

/-- Lift and drag coefficients `L`, `D` turned by the angle of attack into the axes of the aircraft: forward and down. -/
noncomputable def forward (L D : ℝ → ℝ) (α : ℝ) : ℝ := L α * sin α - D α * cos α
noncomputable def downward (L D : ℝ → ℝ) (α : ℝ) : ℝ := -(L α * cos α + D α * sin α)

/-- A coefficient at the speed `V`, referred to the dynamic pressure at the speed `U`. -/
noncomputable def atSpeed (U : ℝ) (C : ℝ → ℝ) (V : ℝ) : ℝ := (V / U) ^ 2 * C V

theorem forward_deriv (L D : ℝ → ℝ) (La Da : ℝ) (hL : HasDerivAt L La 0) (hD : HasDerivAt D Da 0) :
    HasDerivAt (forward L D) (L 0 - Da) 0 := by
  have h := (hL.mul (hasDerivAt_sin 0)).sub (hD.mul (hasDerivAt_cos 0))
  simp only [sin_zero, cos_zero, mul_zero, mul_one, neg_zero, add_zero, zero_add] at h
  exact h

/-- **C392, angle of attack.** The downward force changes with the angle of attack by what lift and drag, turned by it, give. -/
theorem C392_cz_alpha (L D : ℝ → ℝ) (La Da : ℝ) (hL : HasDerivAt L La 0) (hD : HasDerivAt D Da 0) :
    HasDerivAt (downward L D) (czAlpha (D 0) La) 0 := by
  have h := ((hL.mul (hasDerivAt_cos 0)).add (hD.mul (hasDerivAt_sin 0))).neg
  simp only [sin_zero, cos_zero, mul_zero, mul_one, neg_zero, add_zero, zero_add] at h
  refine h.congr_deriv ?_
  unfold czAlpha; ring

/-- The forward force: right when drag changes with the angle of attack as lift does. -/
theorem C392_cx_alpha_partial (L D : ℝ → ℝ) (La Da : ℝ) (hL : HasDerivAt L La 0) (hD : HasDerivAt D Da 0) (h : Da = La) :
    HasDerivAt (forward L D) (cxAlpha (L 0) La) 0 := by
  rw [cxAlpha, ← h]; exact forward_deriv L D La Da hL hD

/-- **C392 fails for the forward force.** Where lift changes with the angle of attack otherwise than drag (always, in normal
flight) the derivative is wrong: it takes the slope of the lift in place of that of the drag. -/
theorem C392_cx_alpha_counterexample (L D : ℝ → ℝ) (La Da : ℝ) (hL : HasDerivAt L La 0) (hD : HasDerivAt D Da 0) (h : Da ≠ La) :
    ¬ HasDerivAt (forward L D) (cxAlpha (L 0) La) 0 := by
  intro h'
  have := h'.unique (forward_deriv L D La Da hL hD)
  unfold cxAlpha at this
  exact h (by linarith)

theorem atSpeed_deriv (U : ℝ) (hU : U ≠ 0) (C : ℝ → ℝ) (Cu : ℝ) (hC : HasDerivAt C Cu U) :
    HasDerivAt (atSpeed U C) ((2 * C U + U * Cu) / U) U := by
  have h1 : HasDerivAt (fun V : ℝ => (V / U) ^ 2) (2 / U) U := by
    have := ((hasDerivAt_id U).div_const U).pow 2
    refine this.congr_deriv ?_
    simp [hU]
    ring
  refine (h1.mul hC).congr_deriv ?_
  field_simp

/-- **C392, speed.** Lift grows with the square of the speed and what the coefficient adds; per unit of relative speed. -/
theorem C392_cz_u (U : ℝ) (hU : U ≠ 0) (L : ℝ → ℝ) (Lu : ℝ) (hL : HasDerivAt L Lu U) :
    HasDerivAt (fun V => U * -atSpeed U L V) (czU (L U) U Lu) U := by
  refine ((atSpeed_deriv U hU L Lu hL).neg.const_mul U).congr_deriv ?_
  unfold czU
  field_simp
  ring

/-- **C392, speed.** Drag of a constant coefficient grows with the square of the speed. -/
theorem C392_cx_u (U cD : ℝ) (hU : U ≠ 0) : HasDerivAt (fun V => U * -atSpeed U (fun _ => cD) V) (cxU cD) U := by
  refine ((atSpeed_deriv U hU (fun _ => cD) 0 (hasDerivAt_const U cD)).neg.const_mul U).congr_deriv ?_
  unfold cxU
  field_simp
  ring

/-- **C392, weight.** Banked by `φ` and turned by `ψ` in a straight climb, where lift carries `W cos θ`, the weight pulls
sideways with `W cos θ sin φ`, and with `W sin θ sin ψ`. -/
theorem C392_weight (W q S θ cL : ℝ) (hc : cos θ ≠ 0) (h : cL = W * cos θ / (q * S)) :
    HasDerivAt (fun φ => W * cos θ * sin φ / (q * S)) (cyPhi cL) 0 ∧
    HasDerivAt (fun ψ => W * sin θ * sin ψ / (q * S)) (cyPsi cL θ) 0 := by
  constructor
  · refine (((hasDerivAt_sin 0).const_mul (W * cos θ)).div_const (q * S)).congr_deriv ?_
    rw [cos_zero, mul_one, cyPhi, h]
  · refine (((hasDerivAt_sin 0).const_mul (W * sin θ)).div_const (q * S)).congr_deriv ?_
    rw [cos_zero, mul_one, cyPsi, h, tan_eq_sin_div_cos]
    field_simp

/-! Strip theory for a wing of elliptic chord. -/

/-- Chord at the distance `x` of half spans from the middle. -/
noncomputable def elliptic (cr x : ℝ) : ℝ := cr * √(1 - x ^ 2)

/-- The moment of the strip loads `load x` (per dynamic pressure and chord) about the middle, over area and span. -/
noncomputable def stripMoment (cr b : ℝ) (load : ℝ → ℝ) : ℝ :=
  (∫ x in (-1 : ℝ)..1, elliptic cr x * load x * (b / 2 * x) * (b / 2)) / ((∫ x in (-1 : ℝ)..1, elliptic cr x * (b / 2)) * b)

theorem int_ellipse_sq : ∫ x in (-1 : ℝ)..1, x ^ 2 * √(1 - x ^ 2) = π / 8 := by
  have hc : ContinuousOn (fun x : ℝ => arcsin x / 8 - x * √(1 - x ^ 2) * (1 - 2 * x ^ 2) / 8) (Set.Icc (-1) 1) := by
    have := continuous_arcsin
    fun_prop
  have hd : ∀ x ∈ Set.Ioo (-1 : ℝ) 1, HasDerivAt (fun x : ℝ => arcsin x / 8 - x * √(1 - x ^ 2) * (1 - 2 * x ^ 2) / 8)
      (x ^ 2 * √(1 - x ^ 2)) x := by
    intro x hx
    have hp : 0 < 1 - x ^ 2 := by nlinarith [hx.1, hx.2]
    have h1 := (hasDerivAt_arcsin hx.1.ne' hx.2.ne).div_const 8
    have h2 : HasDerivAt (fun x : ℝ => 1 - x ^ 2) (-(2 * x)) x := by
      refine ((hasDerivAt_pow 2 x).const_sub 1).congr_deriv ?_
      simp
    have h3 := h2.sqrt hp.ne'
    have h4 : HasDerivAt (fun x : ℝ => 1 - 2 * x ^ 2) (-(4 * x)) x := by
      refine (((hasDerivAt_pow 2 x).const_mul 2).const_sub 1).congr_deriv ?_
      simp; ring
    have h5 := ((((hasDerivAt_id x).mul h3).mul h4).div_const 8)
    refine (h1.sub h5).congr_deriv ?_
    simp only [id_eq, Pi.mul_apply]
    have hs : 0 < √(1 - x ^ 2) := Real.sqrt_pos.2 hp
    have hq : √(1 - x ^ 2) ^ 2 = 1 - x ^ 2 := Real.sq_sqrt hp.le
    generalize √(1 - x ^ 2) = r at *
    field_simp
    rw [hq]
    ring_nf
  have hi : IntervalIntegrable (fun x : ℝ => x ^ 2 * √(1 - x ^ 2)) volume (-1) 1 := Continuous.intervalIntegrable (by fun_prop) _ _
  rw [integral_eq_sub_of_hasDerivAt_of_le (by norm_num) hc hd hi]
  norm_num
  ring

theorem stripMoment_linear (cr b k : ℝ) (hc : 0 < cr) (hb : 0 < b) : stripMoment cr b (fun x => k * x) = k / 8 := by
  have h1 : ∀ x : ℝ, elliptic cr x * (k * x) * (b / 2 * x) * (b / 2) = (cr * k * (b / 2) ^ 2) * (x ^ 2 * √(1 - x ^ 2)) := by
    intro x; unfold elliptic; ring
  have h2 : ∀ x : ℝ, elliptic cr x * (b / 2) = (cr * (b / 2)) * √(1 - x ^ 2) := by intro x; unfold elliptic; ring
  have hpi := Real.pi_pos.ne'
  unfold stripMoment
  simp only [h1, h2]
  rw [intervalIntegral.integral_const_mul, intervalIntegral.integral_const_mul, int_ellipse_sq, integral_sqrt_one_sub_sq]
  field_simp

/-- **C392, roll due to yawing.** Turning with `r b / 2V = 1` the strip at `x` half spans moves faster by the fraction `x`, so its
dynamic pressure grows by twice that: on a wing of elliptic chord and constant lift coefficient the derivative is a
quarter of the lift coefficient. -/
theorem C392_cl_r (cL cr b : ℝ) (hc : 0 < cr) (hb : 0 < b) : clR cL = stripMoment cr b fun x => cL * (2 * x) := by
  rw [show (fun x => cL * (2 * x)) = fun x => (cL * 2) * x from funext fun x => by ring, stripMoment_linear cr b _ hc hb, clR]
  ring

/-- **C392, yaw due to rolling.** Rolling with `p b / 2V = 1` the strip at `x` is met from below at the angle `x`, less the
downwash: its lift is turned forward by that. -/
theorem C392_cn_p (cL dep cr b : ℝ) (hc : 0 < cr) (hb : 0 < b) : cnP cL dep = -stripMoment cr b fun x => cL * (x - dep * x) := by
  rw [show (fun x => cL * (x - dep * x)) = fun x => (cL * (1 - dep)) * x from funext fun x => by ring,
    stripMoment_linear cr b _ hc hb, cnP]
  ring

/-- **C392, tail.** The moment due to the lag of the downwash is the force due to it times the arm of the tail. -/
theorem C392_tail (cmi ep lt mac : ℝ) : cmAlphadot cmi ep lt mac = czAlphadot cmi ep * (lt / mac) ∧
    czAlphadot cmi ep * 1.1 = czQ cmi * ep := by
  constructor
  · unfold cmAlphadot czAlphadot; ring
  · unfold czAlphadot czQ; ring

/-- **C275.** A wing whose dihedral is not given has no dihedral effect. -/
theorem C275_none (a : Craft) (f : Flight) (v h : Tail) (hd : a.dihedral = none) : (dynamics a f v h).ClB = 0 := by
  simp only [dynamics, hd]

/-- Lift slope 5, drag 0.02 and its slope 0.1. -/
example : ¬ HasDerivAt (forward (fun a => 0.4 + 5 * a) fun a => 0.02 + 0.1 * a) (cxAlpha 0.4 5) 0 := by
  have h1 : HasDerivAt (fun a : ℝ => 0.4 + 5 * a) 5 0 := by
    refine (((hasDerivAt_id (0 : ℝ)).const_mul 5).const_add 0.4).congr_deriv (by ring)
  have h2 : HasDerivAt (fun a : ℝ => 0.02 + 0.1 * a) 0.1 0 := by
    refine (((hasDerivAt_id (0 : ℝ)).const_mul 0.1).const_add 0.02).congr_deriv (by ring)
  have := C392_cx_alpha_counterexample _ _ _ _ h1 h2 (by norm_num)
  simpa using this

example : clR 0.4 = stripMoment 2 10 fun x => 0.4 * (2 * x) := C392_cl_r 0.4 2 10 (by norm_num) (by norm_num)

end Verif.Stability
