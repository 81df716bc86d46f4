import Verif.Energy.Rocket
import Verif.Physics.ShockProps

namespace Verif.Energy.Rocket
open Verif.Physics.Shock

/-- The gases meant. -/
structure Chamber.Sound (c : Chamber) : Prop where
  P : 0 < c.P
  T : 0 < c.T
  γ : 1 < c.γ
  R : 0 < c.R

theorem throat_spec (c : Chamber) (n : Nozzle) :
    let f := ofStagnation c.γ c.R (throatState c n).Pt (throatState c n).Tt 1
    (throatState c n).p = f.p ∧ (throatState c n).T = f.T ∧ (throatState c n).u = f.u ∧ (throatState c n).ρ = f.ρ c.R := by
  simp [throatState, ofStagnation, Flow.ρ]

theorem exit_spec (c : Chamber) (n : Nozzle) (Me : ℝ) :
    let f := ofStagnation c.γ c.R (exitState c n Me).Pt (exitState c n Me).Tt Me
    (exitState c n Me).p = f.p ∧ (exitState c n Me).T = f.T ∧ (exitState c n Me).u = f.u ∧ (exitState c n Me).ρ = f.ρ c.R := by
  simp only [exitState, ofStagnation, Flow.ρ, sq, mul_assoc, and_self]

theorem cool_pos {c : Chamber} (n : Nozzle) (hπ : 0 < n.π) {T : ℝ} (hT : 0 < T) : 0 < n.cool c.γ T := by
  unfold Nozzle.cool
  have := Real.rpow_pos_of_pos hπ ((c.γ - 1) / c.γ * n.η)
  positivity

/-- **C231.** The flow through throat and exit: the mass flow leaving differs from that through the throat by a power of the
pressure ratio. -/
theorem C231_mass_flow (c : Chamber) (n : Nozzle) (Me : ℝ) (hc : c.Sound) (hπ : 0 < n.π) (hMe : 0 < Me) (hA : 0 < n.throat)
    (hroot : fmFun n.expansion 1 c.γ Me = 0) :
    (exitState c n Me).ρ * (exitState c n Me).u * (n.throat * n.expansion)
      = (throatState c n).ρ * (throatState c n).u * n.throat * n.π ^ (1 - (c.γ - 1) / (2 * c.γ) * n.η) := by
  obtain ⟨-, -, e3, e4⟩ := exit_spec c n Me
  obtain ⟨-, -, t3, t4⟩ := throat_spec c n
  rw [e3, e4, t3, t4]
  have hγ := hc.γ
  have hTt : 0 < (throatState c n).Tt := cool_pos n hπ hc.T
  have hTe : 0 < (exitState c n Me).Tt := cool_pos n hπ hTt
  have hPt : 0 < (throatState c n).Pt := mul_pos hc.P hπ
  have hexp : n.expansion = n.throat * n.expansion / n.throat := by field_simp
  rw [hexp] at hroot
  have h := (C100_area (R := c.R) (Pt := (throatState c n).Pt) (Tt := (throatState c n).Tt) hγ hc.R hMe hPt hTt hA).mp hroot
  rw [h]
  rw [flux_eq hγ hc.R hTe, flux_eq hγ hc.R hTt]
  have e1 : (exitState c n Me).Pt = (throatState c n).Pt * n.π := rfl
  have e2 : (exitState c n Me).Tt = (throatState c n).Tt * n.π ^ ((c.γ - 1) / c.γ * n.η) := rfl
  rw [e1, e2]
  set a := (c.γ - 1) / c.γ * n.η with ha
  have hpa : 0 < n.π ^ a := Real.rpow_pos_of_pos hπ a
  have hsq : Real.sqrt (c.γ * c.R * ((throatState c n).Tt * n.π ^ a)) =
      Real.sqrt (c.γ * c.R * (throatState c n).Tt) * n.π ^ (a / 2) := by
    rw [show c.γ * c.R * ((throatState c n).Tt * n.π ^ a) = c.γ * c.R * (throatState c n).Tt * n.π ^ a by ring,
      Real.sqrt_mul (by have := hc.R; positivity), Real.sqrt_eq_rpow (n.π ^ a), ← Real.rpow_mul hπ.le]
    congr 2
    ring
  rw [hsq]
  have hexpo : n.π ^ (1 - (c.γ - 1) / (2 * c.γ) * n.η) = n.π * n.π ^ (a / 2) / n.π ^ a := by
    rw [show 1 - (c.γ - 1) / (2 * c.γ) * n.η = 1 + a / 2 - a by rw [ha]; field_simp; ring, Real.rpow_sub hπ,
      Real.rpow_add hπ, Real.rpow_one]
  rw [hexpo]
  have := hTt.ne'
  have := hc.R.ne'
  generalize (1 + (c.γ - 1) / 2 * Me ^ 2) ^ (-((c.γ + 1) / (2 * (c.γ - 1)))) = X
  generalize Real.sqrt (c.γ * c.R * (throatState c n).Tt) = S
  generalize n.π ^ (a / 2) = W at *
  generalize n.π ^ a = V at *
  field_simp

/-- **C231.** Without loss in the nozzle what passes the throat leaves. -/
theorem C231_continuity_partial (c : Chamber) (n : Nozzle) (Me : ℝ) (hc : c.Sound) (hπ : n.π = 1) (hMe : 0 < Me) (hA : 0 < n.throat)
    (hroot : fmFun n.expansion 1 c.γ Me = 0) :
    (exitState c n Me).ρ * (exitState c n Me).u * (n.throat * n.expansion) = (throatState c n).ρ * (throatState c n).u * n.throat := by
  rw [C231_mass_flow c n Me hc (by rw [hπ]; norm_num) hMe hA hroot, hπ, Real.one_rpow, mul_one]

/-- **C231, counterexample.** With any loss less leaves than passes the throat (for polytropic efficiencies up to one). -/
theorem C231_loss_counterexample (c : Chamber) (n : Nozzle) (Me : ℝ) (hc : c.Sound) (hπ : 0 < n.π) (hπ1 : n.π < 1) (hη : n.η ≤ 1)
    (hMe : 0 < Me) (hA : 0 < n.throat) (hroot : fmFun n.expansion 1 c.γ Me = 0) :
    (exitState c n Me).ρ * (exitState c n Me).u * (n.throat * n.expansion) < (throatState c n).ρ * (throatState c n).u * n.throat := by
  rw [C231_mass_flow c n Me hc hπ hMe hA hroot]
  have hγ := hc.γ
  have hTt : 0 < (throatState c n).Tt := cool_pos n hπ hc.T
  have hpos : 0 < (throatState c n).ρ * (throatState c n).u * n.throat := by
    obtain ⟨-, -, t3, t4⟩ := throat_spec c n
    rw [t3, t4, flux_eq hγ hc.R hTt]
    have h1 := flux_coeff_pos hγ hc.R (mul_pos hc.P hπ : 0 < (throatState c n).Pt) hTt
    have h2 := Real.rpow_pos_of_pos (k_pos hγ 1) (-((c.γ + 1) / (2 * (c.γ - 1))))
    positivity
  have hlt : n.π ^ (1 - (c.γ - 1) / (2 * c.γ) * n.η) < 1 := by
    apply Real.rpow_lt_one hπ.le hπ1
    have h1 : (c.γ - 1) / (2 * c.γ) < 1 := by rw [div_lt_one (by linarith)]; linarith
    have h0 : 0 ≤ (c.γ - 1) / (2 * c.γ) := div_nonneg (by linarith) (by linarith)
    nlinarith
  nlinarith

/-- A nozzle of expansion ratio one. -/
example : (exitState ⟨1, 1, 1.4, 1⟩ ⟨0.9, 1, 1, 1⟩ 1).ρ * (exitState ⟨1, 1, 1.4, 1⟩ ⟨0.9, 1, 1, 1⟩ 1).u * (1 * 1) <
    (throatState ⟨1, 1, 1.4, 1⟩ ⟨0.9, 1, 1, 1⟩).ρ * (throatState ⟨1, 1, 1.4, 1⟩ ⟨0.9, 1, 1, 1⟩).u * 1 := by
  apply C231_loss_counterexample ⟨1, 1, 1.4, 1⟩ ⟨0.9, 1, 1, 1⟩ 1 ⟨by norm_num, by norm_num, by norm_num, by norm_num⟩
    <;> norm_num [fmFun]

/-- **C232.** At full throttle each engine gives the momentum of its exhaust and the excess of pressure on its exit, unless that
is negative; less throttle reduces it in proportion. -/
theorem C232_thrust (c : Chamber) (n : Nozzle) (Me p0 g0 t count : ℝ) (hc : c.Sound) (hπ : 0 < n.π) (hMe : 0 < Me) :
    let e := exitState c n Me
    let Ae := n.throat * n.expansion
    (evaluateRocket c n Me p0 g0 t count).thrust = max 0 (t * (count * (e.ρ * e.u * Ae * e.u + (e.p - p0) * Ae))) := by
  intro e Ae
  have hTt : 0 < (throatState c n).Tt := cool_pos n hπ hc.T
  have hTe : 0 < e.Tt := cool_pos n hπ hTt
  have hk : 0 < 1 + (c.γ - 1) / 2 * Me * Me := by have := k_pos hc.γ Me; rw [sq, ← mul_assoc] at this; exact this
  have hT : 0 < e.T := div_pos hTe hk
  have hP : 0 < e.p := by
    apply div_pos (mul_pos (mul_pos hc.P hπ) hπ) (Real.rpow_pos_of_pos hk _)
  have hu : e.u = Me * Real.sqrt (c.γ * c.R * e.T) := rfl
  have hρ : e.ρ = e.p / (c.R * e.T) := rfl
  have hγ : 0 < c.γ := by linarith [hc.γ]
  have hR := hc.R
  have hsq : Real.sqrt (c.γ * c.R * e.T) ^ 2 = c.γ * c.R * e.T := Real.sq_sqrt (by positivity)
  have key : count * (t * e.ρ * e.u * Ae) * (e.u * (1 + 1 / (c.γ * Me * Me) * (1 - p0 / e.p))) =
      t * (count * (e.ρ * e.u * Ae * e.u + (e.p - p0) * Ae)) := by
    have h1 : e.ρ * e.u * e.u = c.γ * Me * Me * e.p := by
      rw [hu, hρ]
      have : e.p / (c.R * e.T) * (Me * Real.sqrt (c.γ * c.R * e.T)) * (Me * Real.sqrt (c.γ * c.R * e.T)) =
          e.p / (c.R * e.T) * Me * Me * Real.sqrt (c.γ * c.R * e.T) ^ 2 := by ring
      rw [this, hsq]
      field_simp
    have h2 : count * (t * e.ρ * e.u * Ae) * (e.u * (1 + 1 / (c.γ * Me * Me) * (1 - p0 / e.p))) =
        count * t * Ae * (e.ρ * e.u * e.u) * (1 + 1 / (c.γ * Me * Me) * (1 - p0 / e.p)) := by ring
    have h3 : e.ρ * e.u * Ae * e.u = Ae * (e.ρ * e.u * e.u) := by ring
    rw [h2, h3, h1]
    field_simp
  unfold evaluateRocket rocketThrust
  dsimp only
  rw [key]
  split
  · rename_i h; rw [max_eq_left h.le]
  · rename_i h; rw [max_eq_right (not_lt.mp h)]

/-- **C232.** The thrust of one engine is its mass flow times its specific impulse, as long as both are positive. -/
theorem C232_impulse_partial (γ Me At ε p0 g0 t : ℝ) (e : Sect) (hg : g0 ≠ 0) (hm : 0 ≤ t * e.ρ * e.u * (At * ε))
    (hC : 0 ≤ e.u * (1 + 1 / (γ * Me * Me) * (1 - p0 / e.p))) :
    let r := rocketThrust γ Me At ε p0 g0 t 1 e
    r.thrust = r.massRate * g0 * r.isp := by
  intro r
  have hF : ¬ 1 * (t * e.ρ * e.u * (At * ε)) * (e.u * (1 + 1 / (γ * Me * Me) * (1 - p0 / e.p))) < 0 := by
    rw [not_lt, one_mul]; exact mul_nonneg hm hC
  simp only [r, rocketThrust]
  rw [if_neg hF, if_neg (not_lt.mpr hm)]
  field_simp

/-- **C232, counterexample.** With more engines the mass flow reported is still that of one: the thrust is as many times mass flow
times specific impulse as there are engines. -/
theorem C232_engines_counterexample (γ Me At ε p0 g0 t count : ℝ) (e : Sect) (hg : g0 ≠ 0) (hcount : 0 ≤ count)
    (hm : 0 ≤ t * e.ρ * e.u * (At * ε)) (hC : 0 ≤ e.u * (1 + 1 / (γ * Me * Me) * (1 - p0 / e.p))) :
    let r := rocketThrust γ Me At ε p0 g0 t count e
    r.thrust = count * (r.massRate * g0 * r.isp) := by
  intro r
  have hF : ¬ count * (t * e.ρ * e.u * (At * ε)) * (e.u * (1 + 1 / (γ * Me * Me) * (1 - p0 / e.p))) < 0 := by
    rw [not_lt]; exact mul_nonneg (mul_nonneg hcount hm) hC
  simp only [r, rocketThrust]
  rw [if_neg hF, if_neg (not_lt.mpr hm)]
  field_simp

/-- Two engines with an exhaust of unit density and velocity, in vacuum. -/
example : (rocketThrust 1.2 3 1 1 0 1 1 2 ⟨1, 1, 1, 1, 1, 1⟩).massRate = 1 ∧
    0 < (rocketThrust 1.2 3 1 1 0 1 1 2 ⟨1, 1, 1, 1, 1, 1⟩).thrust := by
  norm_num [rocketThrust]

/-- **C233.** The mass flow sized gives the design thrust with the design impulse for one engine; for more engines it is as many
times too large. -/
theorem C233_mass_flow_partial (F isp g0 count : ℝ) (hi : isp ≠ 0) (hg : g0 ≠ 0) :
    sizedMassFlow F isp g0 count * isp * g0 = count * F := by
  unfold sizedMassFlow
  field_simp

/-- **C233, counterexample.** Two engines. -/
theorem C233_engines_counterexample (F isp g0 : ℝ) (hi : isp ≠ 0) (hg : g0 ≠ 0) (hF : F ≠ 0) :
    sizedMassFlow F isp g0 2 * isp * g0 ≠ F := by
  rw [C233_mass_flow_partial F isp g0 2 hi hg]
  intro h
  apply hF
  linarith

/-- **C233, counterexample.** Sizing never completes with conditions given by the user. -/
theorem C233_conditions_counterexample (a : Bool) : sizingEnd true a ≠ SizingEnd.done := by
  simp [sizingEnd]

/-- **C233.** Without conditions it completes exactly when an altitude is given. -/
theorem C233_altitude_partial (a : Bool) : sizingEnd false a = SizingEnd.done ↔ a = true := by
  cases a <;> simp [sizingEnd]

end Verif.Energy.Rocket
