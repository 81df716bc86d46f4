import Verif.Rotor.BladeDeriv
/-
C401: the derivative offered for the iteration of the wake.
-/

namespace Verif.Rotor

open Real

/-- The summand of the tip loss of the residual that is solved: the tip loss has a factor `R/r` in its exponent. -/
noncomputable def tipTerm (s : Seen) (r R B p ψ : ℝ) : ℝ :=
  -(4 * s.U * p * √(16 * (s.Ua + s.U * sin ψ) ^ 2 / (B * B * π ^ 2 * (4 * (wake s ψ).2 * (wake s ψ).2)) + 1) * (R - r) * (R / r) *
    (s.Ut / 2 - s.U * cos ψ / 2) * turn s ψ / (4 * (wake s ψ).1 * (wake s ψ).1 * √(1 - p ^ 2)))

/-- Ratio of the velocities at the disc. -/
noncomputable def slope (s : Seen) (ψ : ℝ) : ℝ := (wake s ψ).1 / (wake s ψ).2

theorem wake_deriv (s : Seen) (ψ : ℝ) :
    HasDerivAt (fun x => (wake s x).1) (s.U * cos ψ / 2) ψ ∧ HasDerivAt (fun x => (wake s x).2) (-(s.U * sin ψ / 2)) ψ := by
  unfold wake
  constructor
  · refine (((hasDerivAt_sin ψ).const_mul (0.5 * s.U)).const_add (0.5 * s.Ua)).congr_deriv ?_
    norm_num; ring
  · refine (((hasDerivAt_cos ψ).const_mul (0.5 * s.U)).const_add (0.5 * s.Ut)).congr_deriv ?_
    norm_num; ring

theorem slope_deriv (s : Seen) (ψ : ℝ) (h : 0 < (wake s ψ).2) : HasDerivAt (slope s) (s.U * turn s ψ / (4 * (wake s ψ).2 ^ 2)) ψ := by
  obtain ⟨h1, h2⟩ := wake_deriv s ψ
  refine (h1.div h2 h.ne').congr_deriv ?_
  rw [div_eq_div_iff (by positivity) (by positivity)]
  have e1 : (wake s ψ).1 = 0.5 * s.Ua + 0.5 * s.U * sin ψ := rfl
  have e2 : (wake s ψ).2 = 0.5 * s.Ut + 0.5 * s.U * cos ψ := rfl
  have hk : s.U * cos ψ / 2 * (wake s ψ).2 - (wake s ψ).1 * -(s.U * sin ψ / 2) = s.U * turn s ψ / 4 := by
    rw [e1, e2]
    unfold turn
    have := sin_sq_add_cos_sq ψ
    linear_combination (s.U ^ 2 / 4) * this
  rw [hk]
  ring

/-- The residual in terms of the slope. -/
theorem residual_eq (s : Seen) (r R B c β ψ : ℝ) (hr : 0 < r) (hR : 0 < R) (ha : 0 < (wake s ψ).1) (ht : 0 < (wake s ψ).2) :
    residual s r R B c (thinLift β) ψ = (s.Ut - (wake s ψ).2) * (8 * r / B) * arccos (exp (-(B / 2 * ((R - r) / r) * (R / r) / slope s ψ))) *
      √(1 + (4 / (π * B) * slope s ψ) ^ 2) - π * c * (√((wake s ψ).1 ^ 2 + (wake s ψ).2 ^ 2) * (β - arctan (slope s ψ))) := by
  have hl : inflow r R (wake s ψ).1 (wake s ψ).2 = r / R * slope s ψ := by
    unfold inflow slope
    rw [if_neg (not_le.2 (by positivity))]
    field_simp
  have hs : 0 < slope s ψ := div_pos ha ht
  unfold residual
  simp only
  rw [hl]
  unfold wakeGamma bladeGamma thinLift induced tipLoss tipPiece
  simp only
  have e1 : B / 2 * (R / r - 1) / (r / R * slope s ψ) = B / 2 * ((R - r) / r) * (R / r) / slope s ψ := by field_simp
  have e2 : 1 + 4 * (r / R * slope s ψ) * R / (π * B * r) * (4 * (r / R * slope s ψ) * R / (π * B * r)) = 1 + (4 / (π * B) * slope s ψ) ^ 2 := by
    have : 4 * (r / R * slope s ψ) * R / (π * B * r) = 4 / (π * B) * slope s ψ := by
      have := pi_pos
      by_cases hB : B = 0
      · simp [hB]
      · field_simp
    rw [this]; ring
  rw [e1, e2, show (wake s ψ).1 / (wake s ψ).2 = slope s ψ from rfl, show (wake s ψ).1 * (wake s ψ).1 + (wake s ψ).2 * (wake s ψ).2 =
    (wake s ψ).1 ^ 2 + (wake s ψ).2 ^ 2 by ring]
  generalize arccos _ = A
  generalize √(1 + _) = Q
  have := pi_pos
  field_simp
  ring

/-- **C401, derivative.** For the lift of a thin section, the derivative of the residual is what is offered, except that the blade counts with its
chord, and that the tip loss is the one of the residual. -/
theorem C401_derivative_partial (s : Seen) (r R B c β ψ : ℝ) (hr : 0 < r) (hR : r < R) (hB : 0 < B) (ha : 0 < (wake s ψ).1) (ht : 0 < (wake s ψ).2) :
    HasDerivAt (residual s r R B c (thinLift β))
      (dRdpsi s r R B β ψ + (c - 1) * dRBlade s β ψ +
        (tipTerm s r R B (tipPiece r R (inflow r R (wake s ψ).1 (wake s ψ).2) B) ψ -
          dRTip s r R B (tipPiece r R (inflow r R (wake s ψ).1 (wake s ψ).2) B) ψ)) ψ := by
  obtain ⟨hda, hdt⟩ := wake_deriv s ψ
  have hds := slope_deriv s ψ ht
  have hτ : 0 < slope s ψ := div_pos ha ht
  have hπ := pi_pos
  have hR0 : 0 < R := hr.trans hR
  have hl : inflow r R (wake s ψ).1 (wake s ψ).2 = r / R * slope s ψ := by
    unfold inflow slope
    rw [if_neg (not_le.2 (by positivity))]
    field_simp
  have hp : tipPiece r R (inflow r R (wake s ψ).1 (wake s ψ).2) B = exp (-(B / 2 * ((R - r) / r) * (R / r) / slope s ψ)) := by
    unfold tipPiece
    rw [hl]
    congr 2
    field_simp
  have hev : residual s r R B c (thinLift β) =ᶠ[nhds ψ] fun x => (s.Ut - (wake s x).2) * (8 * r / B) *
      arccos (exp (-(B / 2 * ((R - r) / r) * (R / r) / slope s x))) * √(1 + (4 / (π * B) * slope s x) ^ 2) -
      π * c * (√((wake s x).1 ^ 2 + (wake s x).2 ^ 2) * (β - arctan (slope s x))) := by
    filter_upwards [hda.continuousAt.eventually (lt_mem_nhds ha), hdt.continuousAt.eventually (lt_mem_nhds ht)] with x h1 h2
    exact residual_eq s r R B c β x hr hR0 h1 h2
  refine HasDerivAt.congr_of_eventuallyEq ?_ hev
  rw [hp]
  have hK : 0 < B / 2 * ((R - r) / r) * (R / r) := by
    have : 0 < R - r := by linarith
    positivity
  have hlt : exp (-(B / 2 * ((R - r) / r) * (R / r) / slope s ψ)) < 1 := by
    rw [exp_lt_one_iff]
    have := div_pos hK hτ
    linarith
  have hpos := exp_pos (-(B / 2 * ((R - r) / r) * (R / r) / slope s ψ))
  have hdp : HasDerivAt (fun x => exp (-(B / 2 * ((R - r) / r) * (R / r) / slope s x)))
      (exp (-(B / 2 * ((R - r) / r) * (R / r) / slope s ψ)) * (B / 2 * ((R - r) / r) * (R / r) * (s.U * turn s ψ / (4 * (wake s ψ).2 ^ 2)) / slope s ψ ^ 2)) ψ := by
    refine ((((hasDerivAt_const ψ (B / 2 * ((R - r) / r) * (R / r))).div hds hτ.ne').neg).exp).congr_deriv ?_
    congr 1
    ring
  have hdA := (hasDerivAt_arccos (by linarith : exp (-(B / 2 * ((R - r) / r) * (R / r) / slope s ψ)) ≠ -1) hlt.ne).comp ψ hdp
  have hQ0 : 0 < 1 + (4 / (π * B) * slope s ψ) ^ 2 := by positivity
  have hdQ := (((hds.const_mul (4 / (π * B))).pow 2).const_add 1).sqrt hQ0.ne'
  have hW0 : 0 < (wake s ψ).1 ^ 2 + (wake s ψ).2 ^ 2 := by positivity
  have hdW := ((hda.pow 2).add (hdt.pow 2)).sqrt hW0.ne'
  have hdφ := (hds.arctan).const_sub β
  have h := ((((hdt.const_sub s.Ut).mul_const (8 * r / B)).mul hdA).mul hdQ).sub ((hdW.mul hdφ).const_mul (π * c))
  refine h.congr_deriv ?_
  have ea : s.Ua + s.U * sin ψ = 2 * (wake s ψ).1 := by unfold wake; norm_num; ring
  have et : s.Ut + s.U * cos ψ = 2 * (wake s ψ).2 := by unfold wake; norm_num; ring
  have ev : s.Ut / 2 - s.U * cos ψ / 2 = s.Ut - (wake s ψ).2 := by unfold wake; norm_num; ring
  have eQ : √(16 * (2 * (wake s ψ).1) ^ 2 / (B * B * π ^ 2 * (4 * (wake s ψ).2 * (wake s ψ).2)) + 1) = √(1 + (4 / (π * B) * slope s ψ) ^ 2) := by
    congr 1
    unfold slope
    field_simp
    ring
  have eQ' : √(16 * (4 * (wake s ψ).1 * (wake s ψ).1) / (B * B * π ^ 2 * (4 * (wake s ψ).2 * (wake s ψ).2)) + 1) = √(1 + (4 / (π * B) * slope s ψ) ^ 2) := by
    rw [← eQ]
    congr 3
    ring
  have eW : √(4 * (wake s ψ).2 * (wake s ψ).2 + 4 * (wake s ψ).1 * (wake s ψ).1) = 2 * √((wake s ψ).1 ^ 2 + (wake s ψ).2 ^ 2) := by
    rw [show 4 * (wake s ψ).2 * (wake s ψ).2 + 4 * (wake s ψ).1 * (wake s ψ).1 = 2 ^ 2 * ((wake s ψ).1 ^ 2 + (wake s ψ).2 ^ 2) by ring,
      sqrt_mul (by norm_num), sqrt_sq (by norm_num)]
  have eφ : ((wake s ψ).1 + (wake s ψ).1) / ((wake s ψ).2 + (wake s ψ).2) = slope s ψ := by unfold slope; field_simp
  have eN : s.Ua * cos ψ - s.Ut * sin ψ = 2 * ((wake s ψ).1 * cos ψ - (wake s ψ).2 * sin ψ) := by
    linear_combination cos ψ * ea - sin ψ * et
  have hQ := sqrt_pos.2 hQ0
  have hW := sqrt_pos.2 hW0
  have hp1 : 0 < √(1 - exp (-(B / 2 * ((R - r) / r) * (R / r) / slope s ψ)) ^ 2) := sqrt_pos.2 (by nlinarith)
  unfold dRdpsi
  simp only
  rw [hp]
  unfold dRSwirl dRBlade dRWake tipTerm
  simp only
  rw [ea, et, ev, eQ, eQ', eW, eφ, eN]
  simp only [Pi.mul_apply, Function.comp]
  generalize exp (-(B / 2 * ((R - r) / r) * (R / r) / slope s ψ)) = p at *
  generalize arccos p = A
  generalize √(1 - p ^ 2) = P at *
  generalize √(1 + (4 / (π * B) * slope s ψ) ^ 2) = Q at *
  generalize √((wake s ψ).1 ^ 2 + (wake s ψ).2 ^ 2) = W at *
  generalize arctan (slope s ψ) = φ
  generalize turn s ψ = N
  generalize dRTip s r R B p ψ = D
  have hsl : slope s ψ = (wake s ψ).1 / (wake s ψ).2 := rfl
  rw [hsl]
  generalize (wake s ψ).1 = a at *
  generalize (wake s ψ).2 = t at *
  generalize sin ψ = S
  generalize cos ψ = C
  have E1 : -(-(s.U * S / 2)) * (8 * r / B) * A * Q = 4 * s.U * r * A * S * Q / B := by ring
  have E2 : (s.Ut - t) * (8 * r / B) * (-(1 / P) * (p * (B / 2 * ((R - r) / r) * (R / r) * (s.U * N / (4 * t ^ 2)) / (a / t) ^ 2))) * Q =
      -(4 * s.U * p * Q * (R - r) * (R / r) * (s.Ut - t) * N / (4 * a * a * P)) := by
    field_simp
    ring
  have E3 : (s.Ut - t) * (8 * r / B) * A * (2 * (4 / (π * B) * (a / t)) ^ 1 * (4 / (π * B) * (s.U * N / (4 * t ^ 2))) / (2 * Q)) =
      128 * s.U * r * A * (a + a) * (s.Ut - t) * N / (B * B * B * π ^ 2 * (2 * t) ^ 3 * Q) := by
    field_simp
    ring
  have E4 : π * c * ((2 * a ^ 1 * (s.U * C / 2) + 2 * t ^ 1 * -(s.U * S / 2)) / (2 * W) * (β - φ) + W * -(1 / (1 + (a / t) ^ 2) * (s.U * N / (4 * t ^ 2)))) =
      -c * (-(π * s.U * (2 * (a * C - t * S)) * (β - φ) / (2 * (2 * W))) + π * s.U * (2 * W) * N / (2 * (4 * a * a / (4 * t * t) + 1) * (2 * t) ^ 2)) := by
    have h1 : 4 * a * a / (4 * t * t) + 1 = 1 + (a / t) ^ 2 := by field_simp; ring
    have h2 : (1 : ℝ) + (a / t) ^ 2 ≠ 0 := by positivity
    rw [h1]
    generalize 1 + (a / t) ^ 2 = k at *
    field_simp
    ring
  simp only [Nat.cast_ofNat, pow_one, Nat.add_one_sub_one] at E3 E4 ⊢
  clear * - E1 E2 E3 E4
  linear_combination E1 + E2 + E3 - E4

/-- The summand offered for the tip loss is the one of a tip loss without the factor `R/r` in its exponent: it is the derivative of that tip loss times
the swirl and the geometry of the wake. -/
theorem C401_tip_partial (s : Seen) (r R B ψ : ℝ) (hr : 0 < r) (hR : r < R) (hB : 0 < B) (ha : 0 < (wake s ψ).1) (ht : 0 < (wake s ψ).2) :
    ∃ D, HasDerivAt (fun x => arccos (exp (-(B / 2 * ((R - r) / r) / slope s x)))) D ψ ∧
      dRTip s r R B (exp (-(B / 2 * ((R - r) / r) / slope s ψ))) ψ =
        (s.Ut - (wake s ψ).2) * (8 * r / B) * D * √(1 + (4 / (π * B) * slope s ψ) ^ 2) := by
  have hds := slope_deriv s ψ ht
  have hτ : 0 < slope s ψ := div_pos ha ht
  have hπ := pi_pos
  have hRr : 0 < R - r := by linarith
  have hK : 0 < B / 2 * ((R - r) / r) := by positivity
  have hlt : exp (-(B / 2 * ((R - r) / r) / slope s ψ)) < 1 := by
    rw [exp_lt_one_iff]
    have := div_pos hK hτ
    linarith
  have hpos := exp_pos (-(B / 2 * ((R - r) / r) / slope s ψ))
  have hdp : HasDerivAt (fun x => exp (-(B / 2 * ((R - r) / r) / slope s x)))
      (exp (-(B / 2 * ((R - r) / r) / slope s ψ)) * (B / 2 * ((R - r) / r) * (s.U * turn s ψ / (4 * (wake s ψ).2 ^ 2)) / slope s ψ ^ 2)) ψ := by
    refine ((((hasDerivAt_const ψ (B / 2 * ((R - r) / r))).div hds hτ.ne').neg).exp).congr_deriv ?_
    congr 1
    ring
  have hdA := (hasDerivAt_arccos (by linarith : exp (-(B / 2 * ((R - r) / r) / slope s ψ)) ≠ -1) hlt.ne).comp ψ hdp
  refine ⟨_, hdA, ?_⟩
  have ea : s.Ua + s.U * sin ψ = 2 * (wake s ψ).1 := by unfold wake; norm_num; ring
  have ev : s.Ut / 2 - s.U * cos ψ / 2 = s.Ut - (wake s ψ).2 := by unfold wake; norm_num; ring
  have eQ : √(16 * (2 * (wake s ψ).1) ^ 2 / (B * B * π ^ 2 * (4 * (wake s ψ).2 * (wake s ψ).2)) + 1) = √(1 + (4 / (π * B) * slope s ψ) ^ 2) := by
    congr 1
    unfold slope
    field_simp
    ring
  have eP : exp (-(B * ((wake s ψ).2 + (wake s ψ).2) * (R - r) / (r * ((wake s ψ).1 + (wake s ψ).1)))) =
      exp (-(B / 2 * ((R - r) / r) / slope s ψ)) ^ 2 := by
    rw [← exp_nat_mul]
    congr 1
    unfold slope
    push_cast
    field_simp
  have hp1 : 0 < √(1 - exp (-(B / 2 * ((R - r) / r) / slope s ψ)) ^ 2) := sqrt_pos.2 (by nlinarith)
  unfold dRTip
  simp only
  rw [ea, ev, eQ, eP]
  generalize exp (-(B / 2 * ((R - r) / r) / slope s ψ)) = p at *
  generalize √(1 - p ^ 2) = P at *
  generalize √(1 + (4 / (π * B) * slope s ψ) ^ 2) = Q
  generalize turn s ψ = N
  have hsl : slope s ψ = (wake s ψ).1 / (wake s ψ).2 := rfl
  rw [hsl]
  generalize (wake s ψ).1 = a at *
  generalize (wake s ψ).2 = t at *
  field_simp
  ring

/-- **C401, false of the code.** The chord does not enter the derivative offered, though it does enter the residual: whatever the station, it can be right for
one chord at most. -/
theorem C401_chord_counterexample (s : Seen) (r R B β ψ : ℝ) (hr : 0 < r) (hR : r < R) (hB : 0 < B) (ha : 0 < (wake s ψ).1) (ht : 0 < (wake s ψ).2)
    (hb : dRBlade s β ψ ≠ 0) (c d : ℝ) (hc : HasDerivAt (residual s r R B c (thinLift β)) (dRdpsi s r R B β ψ) ψ)
    (hd : HasDerivAt (residual s r R B d (thinLift β)) (dRdpsi s r R B β ψ) ψ) : c = d := by
  have h1 := (C401_derivative_partial s r R B c β ψ hr hR hB ha ht).unique hc
  have h2 := (C401_derivative_partial s r R B d β ψ hr hR hB ha ht).unique hd
  have h3 : (c - d) * dRBlade s β ψ = 0 := by linear_combination h1 - h2
  rcases mul_eq_zero.1 h3 with h | h
  · linarith
  · exact absurd h hb

/-- A station where the blade counts: equal velocities along and across the axis, no angle of attack. -/
example : ∃ (s : Seen) (ψ β : ℝ), 0 < (wake s ψ).1 ∧ 0 < (wake s ψ).2 ∧ dRBlade s β ψ ≠ 0 := by
  refine ⟨⟨0, 1, 1⟩, π / 6, arctan ((wake ⟨0, 1, 1⟩ (π / 6)).1 / (wake ⟨0, 1, 1⟩ (π / 6)).2), ?_, ?_, ?_⟩
  · unfold wake; simp only; rw [sin_pi_div_six]; norm_num
  · unfold wake; simp only; rw [cos_pi_div_six]; positivity
  · have e : ∀ x y : ℝ, (x + x) / (y + y) = x / y := fun x y => by
      rw [← two_mul, ← two_mul, mul_div_mul_left _ _ two_ne_zero]
    unfold dRBlade
    simp only
    rw [e, sub_self]
    have h1 : 0 < (wake ⟨0, 1, 1⟩ (π / 6)).2 := by unfold wake; simp only; rw [cos_pi_div_six]; positivity
    have h2 : 0 < turn ⟨0, 1, 1⟩ (π / 6) := by unfold turn; simp only; rw [cos_pi_div_six, zero_mul, add_zero]; positivity
    have h3 : 0 < (1 : ℝ) + 1 * cos (π / 6) := by rw [cos_pi_div_six]; positivity
    generalize (wake ⟨0, 1, 1⟩ (π / 6)).1 = a
    generalize (wake ⟨0, 1, 1⟩ (π / 6)).2 = t at *
    generalize turn ⟨0, 1, 1⟩ (π / 6) = N at *
    have h4 : 0 < 4 * t * t + 4 * a * a := by nlinarith [mul_pos h1 h1, mul_self_nonneg a]
    have h5 := sqrt_pos.2 h4
    have h6 : 0 < 4 * a * a / (4 * t * t) + 1 := by
      have : 0 ≤ 4 * a * a / (4 * t * t) := div_nonneg (by nlinarith [mul_self_nonneg a]) (by nlinarith [mul_pos h1 h1])
      linarith
    have := pi_pos
    refine ne_of_gt ?_
    rw [mul_zero, zero_div, neg_zero, zero_add]
    positivity

end Verif.Rotor
