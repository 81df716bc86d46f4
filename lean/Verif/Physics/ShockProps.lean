import Verif.Physics.Shock
import Mathlib.Analysis.Calculus.Deriv.MeanValue
import Mathlib.Analysis.SpecialFunctions.Log.Deriv
import Mathlib.Tactic.Linarith
import Mathlib.Tactic.Positivity
import Mathlib.Tactic.FieldSimp
import Mathlib.Tactic.Ring
import Mathlib.Tactic.LinearCombination
import Mathlib.Tactic.NormNum

/-!
# Properties of shocks, shock trains and heat addition
-/

namespace Verif.Physics.Shock

/-! ## Specification -/

/-- A uniform flow of a perfect gas: pressure, temperature, velocity across and along the shock. -/
structure Flow where
  p : ℝ
  T : ℝ
  u : ℝ
  v : ℝ

/-- Density. -/
noncomputable def Flow.ρ (R : ℝ) (f : Flow) : ℝ := f.p / (R * f.T)

/-- Mass, momentum in both directions and energy are the same on both sides. -/
structure Conserved (γ R : ℝ) (a b : Flow) : Prop where
  mass : a.ρ R * a.u = b.ρ R * b.u
  normal : a.p + a.ρ R * a.u ^ 2 = b.p + b.ρ R * b.u ^ 2
  tangential : a.v = b.v
  energy : γ / (γ - 1) * R * a.T + (a.u ^ 2 + a.v ^ 2) / 2 = γ / (γ - 1) * R * b.T + (b.u ^ 2 + b.v ^ 2) / 2

/-- A flow at Mach number `M` whose direction makes the angle `φ` with the shock. -/
noncomputable def flowAt (γ R p T M φ : ℝ) : Flow :=
  ⟨p, T, M * Real.sin φ * Real.sqrt (γ * R * T), M * Real.cos φ * Real.sqrt (γ * R * T)⟩

/-- Flow in front of a shock that stands at `β`. -/
noncomputable def before (γ R p T M β : ℝ) : Flow := flowAt γ R p T M β

/-- Flow behind it, turned by `θ`, with the ratios returned. -/
noncomputable def behind (γ R p T : ℝ) (o : Behind) (β θ : ℝ) : Flow := flowAt γ R (p * o.Pr) (T * o.Tr) o.M1 (β - θ)

/-- An attached shock exists: supersonic flow, a ramp below ninety degrees, and a real square root in
the closed solution of the shock angle. -/
structure Attached (M γ θ : ℝ) : Prop where
  supersonic : 1 < M
  pos : 0 < θ
  lt : θ < Real.pi / 2
  root : (tbmQ M γ θ) ^ 2 < 4 * (1 - 3 * tbmA M γ θ * tbmB M γ θ) ^ 3
  nonzero : tbmQ M γ θ ≠ 0

/-! ## Normal shock -/

section normal
variable {γ n : ℝ}

theorem A_pos (hγ : 1 < γ) : 0 < (γ - 1) * n * n + 2 := by
  have : 0 ≤ (γ - 1) * (n * n) := mul_nonneg (by linarith) (mul_self_nonneg n)
  nlinarith

theorem B_pos (hγ : 1 < γ) (hn : 1 ≤ n) : 0 < 2 * γ * n * n - (γ - 1) := by nlinarith [mul_le_mul hn hn zero_le_one (by linarith)]

theorem normalMach_sq (hγ : 1 < γ) (hn : 1 ≤ n) :
    normalMach γ n ^ 2 = ((γ - 1) * n * n + 2) / (2 * γ * n * n - (γ - 1)) :=
  Real.sq_sqrt (div_nonneg (A_pos hγ).le (B_pos hγ hn).le)

theorem normalMach_pos (hγ : 1 < γ) (hn : 1 ≤ n) : 0 < normalMach γ n :=
  Real.sqrt_pos.2 (div_pos (A_pos hγ) (B_pos hγ hn))

end normal

/-- Speed behind over speed in front, across the shock. -/
theorem normal_speed {γ n : ℝ} (hγ : 1 < γ) (hn : 1 ≤ n) :
    normalMach γ n * Real.sqrt ((2 * γ * n * n - (γ - 1)) / (γ + 1) * ((((γ - 1) * n * n) + 2) / ((γ + 1) * n * n)))
      = ((γ - 1) * n * n + 2) / ((γ + 1) * n) := by
  have hA := A_pos (n := n) hγ
  have hB := B_pos hγ hn
  rw [normalMach, ← Real.sqrt_mul (div_nonneg hA.le hB.le)]
  rw [show ((γ - 1) * n * n + 2) / (2 * γ * n * n - (γ - 1)) *
      ((2 * γ * n * n - (γ - 1)) / (γ + 1) * (((γ - 1) * n * n + 2) / ((γ + 1) * n * n)))
      = (((γ - 1) * n * n + 2) / ((γ + 1) * n)) ^ 2 by
    generalize (γ - 1) * n * n + 2 = A at *
    generalize 2 * γ * n * n - (γ - 1) = B at *
    have : γ + 1 ≠ 0 := by linarith
    have : n ≠ 0 := by linarith
    field_simp]
  exact Real.sqrt_sq (div_nonneg hA.le (by nlinarith))

/-! ## C96: conservation and entropy -/

/-- The angle relation of an oblique shock. -/
def Turns (γ M θ β : ℝ) : Prop :=
  Real.sin (β - θ) * Real.cos β * ((γ + 1) * (M * Real.sin β) * (M * Real.sin β))
    = Real.cos (β - θ) * Real.sin β * ((γ - 1) * (M * Real.sin β) * (M * Real.sin β) + 2)

/-- Across a shock at an angle that fits the deflection, everything that must be conserved is. -/
theorem conserved_of_turns {γ R p T M θ β : ℝ} (hγ : 1 < γ) (hR : 0 < R) (hT : 0 < T) (hn : 1 ≤ M * Real.sin β)
    (hs : Real.sin (β - θ) ≠ 0) (ht : Turns γ M θ β) :
    Conserved γ R (before γ R p T M β) (behind γ R p T (oblique M γ θ β) β θ) := by
  set n := M * Real.sin β with hnd
  have hA := A_pos (n := n) hγ
  have hB := B_pos hγ hn
  have hn0 : 0 < n := by linarith
  have hg1 : 0 < γ + 1 := by linarith
  have hg2 : γ - 1 ≠ 0 := by linarith
  set Tr := (2 * γ * n * n - (γ - 1)) / (γ + 1) * ((((γ - 1) * n * n) + 2) / ((γ + 1) * n * n)) with hTr
  have hTr0 : 0 < Tr := mul_pos (div_pos hB hg1) (div_pos hA (by positivity))
  set K := Real.sqrt (γ * R * T) with hK
  have hK2 : K ^ 2 = γ * R * T := Real.sq_sqrt (by positivity)
  have hKT : Real.sqrt (γ * R * (T * Tr)) = K * Real.sqrt Tr := by
    rw [← mul_assoc, Real.sqrt_mul (by positivity)]
  have hu2 : normalMach γ n / Real.sin (β - θ) * Real.sin (β - θ) * Real.sqrt (γ * R * (T * Tr))
      = ((γ - 1) * n * n + 2) / ((γ + 1) * n) * K := by
    rw [div_mul_cancel₀ _ hs, hKT, ← normal_speed hγ hn]; ring
  have hv2 : normalMach γ n / Real.sin (β - θ) * Real.cos (β - θ) * Real.sqrt (γ * R * (T * Tr)) = M * Real.cos β * K := by
    have h1 : normalMach γ n * Real.sqrt Tr = ((γ - 1) * n * n + 2) / ((γ + 1) * n) := normal_speed hγ hn
    rw [hKT, show normalMach γ n / Real.sin (β - θ) * Real.cos (β - θ) * (K * Real.sqrt Tr)
      = (normalMach γ n * Real.sqrt Tr) * Real.cos (β - θ) / Real.sin (β - θ) * K by ring, h1]
    congr 1
    rw [div_eq_iff hs]
    have h2 : Real.sin (β - θ) * Real.cos β * ((γ + 1) * n * n) = Real.cos (β - θ) * Real.sin β * ((γ - 1) * n * n + 2) := ht
    rw [div_mul_eq_mul_div, div_eq_iff (by positivity)]
    have hsb : Real.sin β ≠ 0 := by
      intro h; rw [h, mul_zero] at hnd; linarith
    apply mul_right_cancel₀ hsb
    rw [hnd] at h2 ⊢
    linear_combination -h2
  have e1 : (before γ R p T M β).u = n * K := rfl
  have e2 : (before γ R p T M β).v = M * Real.cos β * K := rfl
  have e3 : (behind γ R p T (oblique M γ θ β) β θ).u = ((γ - 1) * n * n + 2) / ((γ + 1) * n) * K := hu2
  have e4 : (behind γ R p T (oblique M γ θ β) β θ).v = M * Real.cos β * K := hv2
  have e5 : (behind γ R p T (oblique M γ θ β) β θ).p = p * ((2 * γ * n * n - (γ - 1)) / (γ + 1)) := rfl
  have e6 : (behind γ R p T (oblique M γ θ β) β θ).T = T * Tr := rfl
  have e7 : (before γ R p T M β).p = p := rfl
  have e8 : (before γ R p T M β).T = T := rfl
  clear_value K Tr n
  have hB' := hB.ne'
  have hA' := hA.ne'
  have hpr : p * ((2 * γ * n * n - (γ - 1)) / (γ + 1)) / (R * (T * Tr)) = p / (R * T) * ((γ + 1) * n * n / ((γ - 1) * n * n + 2)) := by
    rw [hTr]
    generalize (γ - 1) * n * n + 2 = A at *
    generalize 2 * γ * n * n - (γ - 1) = B at *
    field_simp
  refine ⟨?_, ?_, ?_, ?_⟩
  · simp only [Flow.ρ, e1, e3, e5, e6, e7, e8, hpr]
    generalize (γ - 1) * n * n + 2 = A at *
    field_simp
  · simp only [Flow.ρ, e1, e3, e5, e6, e7, e8, hpr, mul_pow, hK2]
    have hp2 : p + p / (R * T) * (n ^ 2 * (γ * R * T)) = p * (1 + γ * n * n) := by field_simp
    have hp3 : p / (R * T) * ((γ + 1) * n * n / ((γ - 1) * n * n + 2)) * ((((γ - 1) * n * n + 2) / ((γ + 1) * n)) ^ 2 * (γ * R * T))
        = p * (γ * ((γ - 1) * n * n + 2) / (γ + 1)) := by
      generalize (γ - 1) * n * n + 2 = A at *
      field_simp
    rw [hp2, hp3]
    field_simp
    ring
  · rw [e2, e4]
  · simp only [e1, e2, e3, e4, e6, e8, mul_pow, hK2, hTr]
    field_simp
    ring

/-- Stagnation pressure falls across a shock, strictly unless it is a sound wave. -/
theorem log_pt_anti {γ : ℝ} (hγ : 1 < γ) :
    StrictAntiOn (fun x => γ * (Real.log ((γ + 1) * x) - Real.log ((γ - 1) * x + 2)) + (Real.log (γ + 1) - Real.log (2 * γ * x - (γ - 1))))
      (Set.Ici 1) := by
  have hne : ∀ x : ℝ, 1 ≤ x → (γ + 1) * x ≠ 0 ∧ (γ - 1) * x + 2 ≠ 0 ∧ 2 * γ * x - (γ - 1) ≠ 0 := by
    intro x hx
    exact ⟨by nlinarith, by nlinarith, by nlinarith⟩
  apply strictAntiOn_of_deriv_neg (convex_Ici 1)
  · intro x hx
    obtain ⟨h1, h2, h3⟩ := hne x hx
    apply ContinuousAt.continuousWithinAt
    have c1 : ContinuousAt (fun x : ℝ => (γ + 1) * x) x := by fun_prop
    have c2 : ContinuousAt (fun x : ℝ => (γ - 1) * x + 2) x := by fun_prop
    have c3 : ContinuousAt (fun x : ℝ => 2 * γ * x - (γ - 1)) x := by fun_prop
    exact ((c1.log h1).sub (c2.log h2)).const_mul γ |>.add (continuousAt_const.sub (c3.log h3))
  · intro x hx
    rw [interior_Ici] at hx
    have hx1 : 1 < x := hx
    obtain ⟨h1, h2, h3⟩ := hne x hx1.le
    have d1 : HasDerivAt (fun x : ℝ => (γ + 1) * x) (γ + 1) x := by
      simpa using (hasDerivAt_id x).const_mul (γ + 1)
    have d2 : HasDerivAt (fun x : ℝ => (γ - 1) * x + 2) (γ - 1) x := by
      simpa using ((hasDerivAt_id x).const_mul (γ - 1)).add_const 2
    have d3 : HasDerivAt (fun x : ℝ => 2 * γ * x - (γ - 1)) (2 * γ) x := by
      simpa using ((hasDerivAt_id x).const_mul (2 * γ)).sub_const (γ - 1)
    have d := (((d1.log h1).sub (d2.log h2)).const_mul γ).add ((d3.log h3).const_sub (Real.log (γ + 1)))
    have hd := d.deriv
    rw [show (fun x => γ * (Real.log ((γ + 1) * x) - Real.log ((γ - 1) * x + 2)) + (Real.log (γ + 1) - Real.log (2 * γ * x - (γ - 1))))
      = ((fun x => γ * ((fun x => Real.log ((γ + 1) * x)) - fun x => Real.log ((γ - 1) * x + 2)) x) + fun x => Real.log (γ + 1) - Real.log (2 * γ * x - (γ - 1))) from rfl, hd]
    have p1 : 0 < (γ - 1) * x + 2 := by nlinarith
    have p2 : 0 < 2 * γ * x - (γ - 1) := by nlinarith
    have hx0 : 0 < x := by linarith
    have hgp : γ + 1 ≠ 0 := by linarith
    have : γ * ((γ + 1) / ((γ + 1) * x) - (γ - 1) / ((γ - 1) * x + 2)) + -(2 * γ / (2 * γ * x - (γ - 1)))
        = -(2 * γ * (γ - 1) * (x - 1) ^ 2 / (x * ((γ - 1) * x + 2) * (2 * γ * x - (γ - 1)))) := by
      obtain ⟨A, hA⟩ : ∃ A, A = (γ - 1) * x + 2 := ⟨_, rfl⟩
      obtain ⟨B, hB⟩ : ∃ B, B = 2 * γ * x - (γ - 1) := ⟨_, rfl⟩
      rw [← hA] at p1 ⊢
      rw [← hB] at p2 ⊢
      field_simp
      rw [hA, hB]
      ring
    rw [this, neg_neg_iff_pos]
    have : 0 < x - 1 := by linarith
    have : 0 < γ - 1 := by linarith
    positivity

theorem ptRatio_eq {γ n : ℝ} (hγ : 1 < γ) (hn : 1 ≤ n) :
    ptRatio γ n = Real.exp ((γ * (Real.log ((γ + 1) * (n * n)) - Real.log ((γ - 1) * (n * n) + 2)) +
      (Real.log (γ + 1) - Real.log (2 * γ * (n * n) - (γ - 1)))) / (γ - 1)) := by
  have hA := A_pos (n := n) hγ
  have hB := B_pos hγ hn
  have hC : 0 < (γ + 1) * n * n := by
    have : 0 < n := by linarith
    have : 0 < γ + 1 := by linarith
    positivity
  have hg : 0 < γ + 1 := by linarith
  have hg1 : γ - 1 ≠ 0 := by linarith
  rw [ptRatio, Real.rpow_def_of_pos (div_pos hC hA), Real.rpow_def_of_pos (div_pos hg hB), ← Real.exp_add,
    Real.log_div hC.ne' hA.ne', Real.log_div hg.ne' hB.ne']
  congr 1
  rw [show (γ + 1) * n * n = (γ + 1) * (n * n) by ring, show (γ - 1) * n * n = (γ - 1) * (n * n) by ring,
    show 2 * γ * n * n = 2 * γ * (n * n) by ring]
  field_simp

theorem ptRatio_lt_one {γ n : ℝ} (hγ : 1 < γ) (hn : 1 < n) : 0 < ptRatio γ n ∧ ptRatio γ n < 1 := by
  rw [ptRatio_eq hγ hn.le]
  refine ⟨Real.exp_pos _, ?_⟩
  rw [Real.exp_lt_one_iff]
  apply div_neg_of_neg_of_pos _ (by linarith)
  have h1 := log_pt_anti hγ (Set.self_mem_Ici : (1 : ℝ) ∈ Set.Ici 1) (Set.mem_Ici.2 (by nlinarith : (1 : ℝ) ≤ n * n)) (by nlinarith : (1 : ℝ) < n * n)
  simp only [mul_one] at h1
  have h2 : γ - 1 + 2 = γ + 1 := by ring
  have h3 : 2 * γ - (γ - 1) = γ + 1 := by ring
  rw [h2, h3, sub_self, mul_zero, add_zero] at h1
  exact h1

/-- The stagnation pressure ratio belongs to the ratios of pressure and temperature. -/
theorem C96_stagnation {γ M θ β : ℝ} (hγ : 1 < γ) (hn : 1 ≤ M * Real.sin β) :
    (oblique M γ θ β).Ptr = (oblique M γ θ β).Pr * (oblique M γ θ β).Tr ^ (-(γ / (γ - 1))) := by
  set n := M * Real.sin β with hnd
  have hA := A_pos (n := n) hγ
  have hB := B_pos hγ hn
  have hg : 0 < γ + 1 := by linarith
  have hg1 : γ - 1 ≠ 0 := by linarith
  have hC : 0 < (γ + 1) * n * n := by
    have : 0 < n := by linarith
    positivity
  have e1 : (oblique M γ θ β).Pr = (2 * γ * n * n - (γ - 1)) / (γ + 1) := rfl
  have e2 : (oblique M γ θ β).Tr = (2 * γ * n * n - (γ - 1)) / (γ + 1) * ((((γ - 1) * n * n) + 2) / ((γ + 1) * n * n)) := rfl
  have e3 : (oblique M γ θ β).Ptr = ptRatio γ n := rfl
  rw [e1, e2, e3, ptRatio]
  clear_value n
  have hX : 0 < (2 * γ * n * n - (γ - 1)) / (γ + 1) := div_pos hB hg
  have hY : 0 < (((γ - 1) * n * n) + 2) / ((γ + 1) * n * n) := div_pos hA hC
  rw [show (γ + 1) / (2 * γ * n * n - (γ - 1)) = ((2 * γ * n * n - (γ - 1)) / (γ + 1))⁻¹ by rw [inv_div],
    show (γ + 1) * n * n / ((γ - 1) * n * n + 2) = ((((γ - 1) * n * n) + 2) / ((γ + 1) * n * n))⁻¹ by rw [inv_div]]
  rw [Real.mul_rpow hX.le hY.le, Real.inv_rpow hX.le, Real.inv_rpow hY.le, ← Real.rpow_neg hX.le, ← Real.rpow_neg hY.le]
  have h1 : (2 * γ * n * n - (γ - 1)) / (γ + 1) * ((2 * γ * n * n - (γ - 1)) / (γ + 1)) ^ (-(γ / (γ - 1)))
      = ((2 * γ * n * n - (γ - 1)) / (γ + 1)) ^ (-(1 / (γ - 1))) := by
    nth_rewrite 1 [← Real.rpow_one ((2 * γ * n * n - (γ - 1)) / (γ + 1))]
    rw [← Real.rpow_add hX]
    congr 1
    field_simp; ring
  rw [← mul_assoc, h1, mul_comm]

/-- Behind the shock the flow across it is subsonic, and pressure and temperature are not lower. -/
theorem C96_direction {γ M θ β : ℝ} (hγ : 1 < γ) (hn : 1 < M * Real.sin β) (hs : Real.sin (β - θ) ≠ 0) :
    |(oblique M γ θ β).M1 * Real.sin (β - θ)| < 1 ∧ 1 < (oblique M γ θ β).Pr ∧ 1 < (oblique M γ θ β).Tr ∧
      (oblique M γ θ β).Ptr < 1 := by
  set n := M * Real.sin β with hnd
  have hA := A_pos (n := n) hγ
  have hB := B_pos hγ hn.le
  have hg : 0 < γ + 1 := by linarith
  have hn2 : 1 < n * n := by nlinarith
  have e0 : (oblique M γ θ β).M1 * Real.sin (β - θ) = normalMach γ n := div_mul_cancel₀ _ hs
  have e1 : (oblique M γ θ β).Pr = (2 * γ * n * n - (γ - 1)) / (γ + 1) := rfl
  have e2 : (oblique M γ θ β).Tr = (2 * γ * n * n - (γ - 1)) / (γ + 1) * ((((γ - 1) * n * n) + 2) / ((γ + 1) * n * n)) := rfl
  have e3 : (oblique M γ θ β).Ptr = ptRatio γ n := rfl
  refine ⟨?_, ?_, ?_, ?_⟩
  · rw [e0, abs_of_pos (normalMach_pos hγ hn.le), normalMach, Real.sqrt_lt' one_pos, div_lt_iff₀ hB]
    nlinarith
  · rw [e1, one_lt_div hg]; nlinarith
  · rw [e2, div_mul_div_comm, one_lt_div (by nlinarith)]
    have : 0 < (γ - 1) * (n * n - 1) * (γ * (n * n) + 1) := by
      have h1 : 0 < γ - 1 := by linarith
      have h2 : 0 < n * n - 1 := by linarith
      have h3 : 0 < γ * (n * n) + 1 := by nlinarith
      positivity
    nlinarith
  · rw [e3]; exact (ptRatio_lt_one hγ hn).2

/-! ## C97: the shock angle -/

theorem tbmC_eq {M : ℝ} (hM : 1 < M) : tbmC M = 1 / (M ^ 2 - 1) := by
  have hM0 : 0 < M := by linarith
  have hx : 0 < 1 - (1 / M) ^ 2 := by
    have : (1 / M) ^ 2 < 1 := by
      rw [div_pow, one_pow, div_lt_one (by positivity)]; nlinarith
    linarith
  rw [tbmC, Real.tan_arcsin, div_mul_div_comm, Real.mul_self_sqrt hx.le]
  have h2 : M ^ 2 - 1 ≠ 0 := by nlinarith
  have h3 : 1 - (1 / M) ^ 2 = (M ^ 2 - 1) / M ^ 2 := by field_simp
  rw [h3]
  field_simp

/-- The tangent of a third of an angle. -/
theorem tan_third {d : ℝ} (hd : 0 < d) :
    0 < Real.tan (1 / 3 * Real.arctan (1 / d)) ∧ Real.tan (1 / 3 * Real.arctan (1 / d)) < 1 ∧
      d * (3 * Real.tan (1 / 3 * Real.arctan (1 / d)) - Real.tan (1 / 3 * Real.arctan (1 / d)) ^ 3)
        = 1 - 3 * Real.tan (1 / 3 * Real.arctan (1 / d)) ^ 2 := by
  set φ := 1 / 3 * Real.arctan (1 / d) with hφ
  have h0 : 0 < Real.arctan (1 / d) := Real.arctan_pos.2 (by positivity)
  have h1 : Real.arctan (1 / d) < Real.pi / 2 := Real.arctan_lt_pi_div_two _
  have hpi := Real.pi_pos
  have hlo : 0 < φ := by rw [hφ]; linarith
  have hhi : φ < Real.pi / 4 := by rw [hφ]; linarith
  have hcos : 0 < Real.cos φ := Real.cos_pos_of_mem_Ioo ⟨by linarith, by linarith⟩
  refine ⟨Real.tan_pos_of_pos_of_lt_pi_div_two hlo (by linarith), ?_, ?_⟩
  · rw [← Real.tan_pi_div_four]
    exact Real.tan_lt_tan_of_lt_of_lt_pi_div_two (by linarith) (by linarith) hhi
  · have h3 : 3 * φ = Real.arctan (1 / d) := by rw [hφ]; ring
    have hsc : Real.sin (3 * φ) * d = Real.cos (3 * φ) := by
      have ht : Real.tan (3 * φ) = 1 / d := by rw [h3, Real.tan_arctan]
      have hc3 : Real.cos (3 * φ) ≠ 0 := by
        rw [h3]; exact (Real.cos_arctan_pos _).ne'
      rw [Real.tan_eq_sin_div_cos, div_eq_div_iff hc3 hd.ne'] at ht
      linarith
    rw [Real.sin_three_mul, Real.cos_three_mul] at hsc
    have hp := Real.sin_sq_add_cos_sq φ
    rw [Real.tan_eq_sin_div_cos]
    have hc' := hcos.ne'
    field_simp
    generalize Real.sin φ = s at *
    generalize Real.cos φ = k at *
    have hs2 : s ^ 2 = 1 - k ^ 2 := by linarith
    have e1 : d * (3 * k ^ 2 * s - s ^ 3) = (3 * s - 4 * s ^ 3) * d := by
      linear_combination (3 * d * s) * hp
    first
      | linear_combination hsc + e1 - 3 * k * hp
      | (rw [show (k ^ 2 - 3 * s ^ 2) = 4 * k ^ 2 - 3 by linarith]; linear_combination hsc + e1)

section angle
variable {M γ θ : ℝ}

/-- The polynomial whose roots are the tangents of the two shock angles. -/
noncomputable def cubic (M γ θ x : ℝ) : ℝ := tbmA M γ θ * x ^ 3 - x ^ 2 + tbmB M γ θ * x + tbmC M

theorem tan_pos_of (h : Attached M γ θ) : 0 < Real.tan θ := Real.tan_pos_of_pos_of_lt_pi_div_two h.pos h.lt

theorem c_pos (h : Attached M γ θ) : 0 < tbmC M := by
  rw [tbmC_eq h.supersonic]
  have := h.supersonic
  exact div_pos one_pos (by nlinarith)

theorem a_pos (hγ : 1 < γ) (h : Attached M γ θ) : 0 < tbmA M γ θ := by
  have := c_pos h
  have := tan_pos_of h
  have : 0 < γ - 1 := by linarith
  unfold tbmA; positivity

theorem b_pos (hγ : 1 < γ) (h : Attached M γ θ) : 0 < tbmB M γ θ := by
  have := c_pos h
  have := tan_pos_of h
  have : 0 < γ := by linarith
  unfold tbmB; positivity

/-- The angle returned: tangent positive, a root, and the slope of the polynomial there is negative. -/
theorem angle_root (hγ : 1 < γ) (h : Attached M γ θ) :
    0 < Real.tan (thetaBetaMach M γ θ) ∧ cubic M γ θ (Real.tan (thetaBetaMach M γ θ)) = 0 ∧
      3 * tbmA M γ θ * Real.tan (thetaBetaMach M γ θ) ^ 2 - 2 * Real.tan (thetaBetaMach M γ θ) + tbmB M γ θ < 0 := by
  have ha := a_pos hγ h
  have hb := b_pos hγ h
  have hc := c_pos h
  have hroot := h.root
  have hq0 := h.nonzero
  have e : Real.tan (thetaBetaMach M γ θ) = (tbmB M γ θ + 9 * tbmA M γ θ * tbmC M) / (2 * (1 - 3 * tbmA M γ θ * tbmB M γ θ)) -
    (tbmD M γ θ * tbmQ M γ θ) / (6 * tbmA M γ θ * (1 - 3 * tbmA M γ θ * tbmB M γ θ)) * Real.tan (1 / 3 * Real.arctan (1 / tbmD M γ θ)) := by
    simp only [thetaBetaMach, Real.tan_arctan, zero_mul, zero_div, zero_add]
  have hqd : tbmQ M γ θ = 27 * tbmA M γ θ * tbmA M γ θ * tbmC M + 9 * tbmA M γ θ * tbmB M γ θ - 2 := rfl
  have hdd : tbmD M γ θ = Real.sqrt (4 * (1 - 3 * tbmA M γ θ * tbmB M γ θ) ^ 3 / (tbmQ M γ θ) ^ 2 - 1) := rfl
  simp only [cubic]
  rw [e]
  generalize tbmQ M γ θ = q at *
  generalize tbmD M γ θ = d at *
  generalize tbmA M γ θ = a at *
  generalize tbmB M γ θ = b at *
  generalize tbmC M = c at *
  obtain ⟨p, hp⟩ : ∃ p, p = 1 - 3 * a * b := ⟨_, rfl⟩
  rw [← hp] at hroot hdd ⊢
  have hq2 : 0 < q ^ 2 := by positivity
  have hp0 : 0 < p := by
    by_contra hneg
    have : p ^ 3 ≤ 0 := by
      have h1 : p ≤ 0 := not_lt.1 hneg
      have : p ^ 3 = p * p ^ 2 := by ring
      rw [this]; exact mul_nonpos_of_nonpos_of_nonneg h1 (sq_nonneg p)
    linarith
  have hp1 : p < 1 := by have := mul_pos ha hb; linarith [mul_pos ha hb, show 3 * a * b = 3 * (a * b) by ring]
  have harg : 0 < 4 * p ^ 3 / q ^ 2 - 1 := by
    rw [sub_pos, one_lt_div hq2]; exact hroot
  have hd : 0 < d := by rw [hdd]; exact Real.sqrt_pos.2 harg
  have hd2 : d ^ 2 * q ^ 2 = 4 * p ^ 3 - q ^ 2 := by
    rw [hdd, Real.sq_sqrt harg.le]
    field_simp
  obtain ⟨hT0, hT1, hT3⟩ := tan_third hd
  generalize Real.tan (1 / 3 * Real.arctan (1 / d)) = T at *
  have hdT : d * T < 1 := by
    have h1 : T ^ 2 < 1 := by nlinarith
    have h2 : d * T * (3 - T ^ 2) = 1 - 3 * T ^ 2 := by linarith
    have h3 : 1 - 3 * T ^ 2 < 1 * (3 - T ^ 2) := by nlinarith
    rw [← h2] at h3
    exact lt_of_mul_lt_mul_right h3 (by linarith)
  have hdT0 : 0 < d * T := mul_pos hd hT0
  obtain ⟨Y, hY⟩ : ∃ Y, Y = q * (1 - d * T) := ⟨_, rfl⟩
  have hx : (b + 9 * a * c) / (2 * p) - d * q / (6 * a * p) * T = (2 * p + Y) / (6 * a * p) := by
    rw [hY]
    field_simp
    rw [hp, hqd]
    ring
  rw [hx]
  have hYY : Y ^ 3 - 12 * p ^ 3 * Y + 8 * q * p ^ 3 = 0 := by
    have h4 : 4 * p ^ 3 = q ^ 2 * (1 + d ^ 2) := by linarith
    rw [show Y ^ 3 - 12 * p ^ 3 * Y + 8 * q * p ^ 3 = Y ^ 3 - 3 * (4 * p ^ 3) * Y + 2 * q * (4 * p ^ 3) by ring, h4, hY]
    linear_combination q ^ 3 * d ^ 2 * hT3
  have hY2 : Y ^ 2 < 4 * p ^ 3 := by
    have h1 : Y ^ 2 < q ^ 2 := by
      rw [hY, mul_pow]
      have : (1 - d * T) ^ 2 < 1 := by nlinarith
      calc q ^ 2 * (1 - d * T) ^ 2 < q ^ 2 * 1 := mul_lt_mul_of_pos_left this hq2
        _ = q ^ 2 := mul_one _
    linarith
  refine ⟨?_, ?_, ?_⟩
  · apply div_pos _ (by positivity)
    have : Y ^ 2 < (2 * p) ^ 2 := by
      have : p ^ 3 < p ^ 2 := by nlinarith [mul_pos hp0 hp0]
      nlinarith
    have := abs_lt_of_sq_lt_sq this (by positivity)
    linarith [(abs_lt.1 this).1]
  · have hb' : b = (1 - p) / (3 * a) := by field_simp; linarith
    have hc' : c = (q + 3 * p - 1) / (27 * a ^ 2) := by
      field_simp
      rw [hqd, hp]; ring
    rw [hb', hc']
    field_simp
    linear_combination 81 * hYY
  · have hb' : b = (1 - p) / (3 * a) := by field_simp; linarith
    have : 3 * a * ((2 * p + Y) / (6 * a * p)) ^ 2 - 2 * ((2 * p + Y) / (6 * a * p)) + b = (Y ^ 2 - 4 * p ^ 3) / (12 * a * p ^ 2) := by
      rw [hb']
      field_simp
      ring
    rw [this]
    exact div_neg_of_neg_of_pos (by linarith) (by positivity)

/-- The polynomial says that the flow along the shock is not changed. -/
theorem turns_cubic (hM : 1 < M) (h0 : 0 < θ) (h1 : θ < Real.pi / 2) {β : ℝ} (hb0 : 0 < β) (hb1 : β < Real.pi / 2) :
    cubic M γ θ (Real.tan β) = 0 ↔ Turns γ M θ β := by
  have hpi := Real.pi_pos
  have hcb : 0 < Real.cos β := Real.cos_pos_of_mem_Ioo ⟨by linarith, hb1⟩
  have hsb : 0 < Real.sin β := Real.sin_pos_of_pos_of_lt_pi hb0 (by linarith)
  have hct : 0 < Real.cos θ := Real.cos_pos_of_mem_Ioo ⟨by linarith, h1⟩
  have hM2 : 0 < M ^ 2 - 1 := by nlinarith
  have hp := Real.sin_sq_add_cos_sq β
  unfold Turns cubic tbmA tbmB
  rw [tbmC_eq hM, Real.tan_eq_sin_div_cos, Real.tan_eq_sin_div_cos, Real.sin_sub, Real.cos_sub]
  generalize Real.sin β = s at *
  generalize Real.cos β = k at *
  generalize Real.sin θ = u at *
  generalize Real.cos θ = w at *
  have key : ((s * w - k * u) * k * ((γ + 1) * (M * s) * (M * s)) - (k * w + s * u) * s * ((γ - 1) * (M * s) * (M * s) + 2))
      = -(2 * (M ^ 2 - 1) * s * k ^ 3 * w) * ((((γ - 1) / 2 + (γ + 1) * (1 / (M ^ 2 - 1)) / 2) * (u / w)) * (s / k) ^ 3 - (s / k) ^ 2 +
        (((γ + 1) / 2 + (γ + 3) * (1 / (M ^ 2 - 1)) / 2) * (u / w)) * (s / k) + 1 / (M ^ 2 - 1)) := by
    have hM2' := hM2.ne'
    rw [show (s * w - k * u) * k * ((γ + 1) * (M * s) * (M * s)) - (k * w + s * u) * s * ((γ - 1) * (M * s) * (M * s) + 2)
      = (s * w - k * u) * k * ((γ + 1) * (M * s) * (M * s)) - (k * w + s * u) * s * ((γ - 1) * (M * s) * (M * s) + 2 * (s ^ 2 + k ^ 2)) by rw [hp, mul_one]]
    field_simp
    ring
  have hne : -(2 * (M ^ 2 - 1) * s * k ^ 3 * w) ≠ 0 := by
    have : 0 < 2 * (M ^ 2 - 1) * s * k ^ 3 * w := by positivity
    linarith
  rw [← sub_eq_zero (a := (s * w - k * u) * k * _), key]
  constructor
  · intro h; rw [h, mul_zero]
  · intro h; exact (mul_eq_zero.1 h).resolve_left hne

theorem cubic_iff_turns (h : Attached M γ θ) {β : ℝ} (hb0 : 0 < β) (hb1 : β < Real.pi / 2) :
    cubic M γ θ (Real.tan β) = 0 ↔ Turns γ M θ β := turns_cubic h.supersonic h.pos h.lt hb0 hb1

/-- The angle returned for an attached shock lies between the ramp and a right angle, and the flow
meets the shock supersonically. -/
theorem C97_range (hγ : 1 < γ) (h : Attached M γ θ) :
    θ < thetaBetaMach M γ θ ∧ thetaBetaMach M γ θ < Real.pi / 2 ∧ 1 < M * Real.sin (thetaBetaMach M γ θ) := by
  obtain ⟨hx, hroot, -⟩ := angle_root hγ h
  have ha := a_pos hγ h
  have hb := b_pos hγ h
  have hc := c_pos h
  have hM := h.supersonic
  have hM2 : 0 < M ^ 2 - 1 := by nlinarith
  have hpi := Real.pi_pos
  have hlt : thetaBetaMach M γ θ < Real.pi / 2 := Real.arctan_lt_pi_div_two _
  have hpos : 0 < thetaBetaMach M γ θ := by
    have h1 : Real.arctan (Real.tan (thetaBetaMach M γ θ)) = thetaBetaMach M γ θ :=
      Real.arctan_tan (Real.neg_pi_div_two_lt_arctan _) hlt
    rw [← h1]; exact Real.arctan_pos.2 hx
  have hturn := (cubic_iff_turns h hpos hlt).1 hroot
  have hn : 1 < M * Real.sin (thetaBetaMach M γ θ) := by
    have hx2 : tbmC M < Real.tan (thetaBetaMach M γ θ) ^ 2 := by
      have : cubic M γ θ (Real.tan (thetaBetaMach M γ θ)) = 0 := hroot
      unfold cubic at this
      have h1 : 0 < tbmA M γ θ * Real.tan (thetaBetaMach M γ θ) ^ 3 := by positivity
      have h2 : 0 < tbmB M γ θ * Real.tan (thetaBetaMach M γ θ) := by positivity
      linarith
    have hcos : 0 < Real.cos (thetaBetaMach M γ θ) := Real.cos_pos_of_mem_Ioo ⟨by linarith, hlt⟩
    have hsin : 0 < Real.sin (thetaBetaMach M γ θ) := Real.sin_pos_of_pos_of_lt_pi hpos (by linarith)
    have hp := Real.sin_sq_add_cos_sq (thetaBetaMach M γ θ)
    rw [tbmC_eq hM, Real.tan_eq_sin_div_cos, div_pow, div_lt_div_iff₀ hM2 (by positivity)] at hx2
    have : 1 < (M * Real.sin (thetaBetaMach M γ θ)) ^ 2 := by nlinarith
    have hMs : 0 < M * Real.sin (thetaBetaMach M γ θ) := by positivity
    nlinarith
  refine ⟨?_, hlt, hn⟩
  generalize thetaBetaMach M γ θ = β at *
  by_contra hle
  have hle' : β ≤ θ := not_lt.1 hle
  have hcos : 0 < Real.cos β := Real.cos_pos_of_mem_Ioo ⟨by linarith, hlt⟩
  have hsin : 0 < Real.sin β := Real.sin_pos_of_pos_of_lt_pi hpos (by linarith)
  have hs : Real.sin (β - θ) ≤ 0 := Real.sin_nonpos_of_nonpos_of_neg_pi_le (by linarith) (by linarith [h.lt])
  have hk : 0 < Real.cos (β - θ) := Real.cos_pos_of_mem_Ioo ⟨by linarith [h.lt], by linarith⟩
  have hA := A_pos (n := M * Real.sin β) hγ
  have h1 : Real.sin (β - θ) * Real.cos β * ((γ + 1) * (M * Real.sin β) * (M * Real.sin β)) ≤ 0 := by
    apply mul_nonpos_of_nonpos_of_nonneg (mul_nonpos_of_nonpos_of_nonneg hs hcos.le)
    have : 0 < γ + 1 := by linarith
    positivity
  have h2 : 0 < Real.cos (β - θ) * Real.sin β * ((γ - 1) * (M * Real.sin β) * (M * Real.sin β) + 2) := by positivity
  unfold Turns at hturn
  linarith

theorem angle_pos (hγ : 1 < γ) (h : Attached M γ θ) : 0 < thetaBetaMach M γ θ := h.pos.trans (C97_range hγ h).1

/-- The angle returned fits the deflection. -/
theorem C97_turns (hγ : 1 < γ) (h : Attached M γ θ) : Turns γ M θ (thetaBetaMach M γ θ) :=
  (cubic_iff_turns h (angle_pos hγ h) (C97_range hγ h).2.1).1 (angle_root hγ h).2.1

/-- It is the weak solution: every angle that fits is at least as large. -/
theorem C97_weak (hγ : 1 < γ) (h : Attached M γ θ) {β : ℝ} (hb0 : 0 < β) (hb1 : β < Real.pi / 2) (ht : Turns γ M θ β) :
    thetaBetaMach M γ θ ≤ β := by
  by_contra hlt
  have hlt' : β < thetaBetaMach M γ θ := not_le.1 hlt
  have hpi := Real.pi_pos
  have hr := (cubic_iff_turns h hb0 hb1).2 ht
  obtain ⟨hx, hroot, hslope⟩ := angle_root hγ h
  have hy : 0 < Real.tan β := Real.tan_pos_of_pos_of_lt_pi_div_two hb0 hb1
  have hyx : Real.tan β < Real.tan (thetaBetaMach M γ θ) :=
    Real.tan_lt_tan_of_lt_of_lt_pi_div_two (by linarith) (C97_range hγ h).2.1 hlt'
  have ha := a_pos hγ h
  have hc := c_pos h
  unfold cubic at hr hroot
  generalize Real.tan (thetaBetaMach M γ θ) = x at *
  generalize Real.tan β = y at *
  generalize tbmA M γ θ = a at *
  generalize tbmB M γ θ = b at *
  generalize tbmC M = c at *
  have hg : a * (x ^ 2 + x * y + y ^ 2) - (x + y) + b = 0 := by
    have : (x - y) * (a * (x ^ 2 + x * y + y ^ 2) - (x + y) + b) = 0 := by linear_combination hroot - hr
    exact (mul_eq_zero.1 this).resolve_left (by linarith)
  have hcc : c = x * y * (a * x + a * y - 1) := by
    linear_combination hroot - x * hg
  have h1 : 0 < a * x + a * y - 1 := by
    rw [hcc] at hc
    exact (mul_pos_iff_of_pos_left (by positivity : 0 < x * y)).1 hc
  have h2 : 3 * a * x ^ 2 - 2 * x + b = (x - y) * (a * (2 * x + y) - 1) := by linear_combination hg
  rw [h2] at hslope
  have : 0 < (x - y) * (a * (2 * x + y) - 1) := mul_pos (by linarith) (by nlinarith)
  linarith

/-- Where the square root is not real there is no attached shock at any angle. -/
theorem C97_detached (hγ : 1 < γ) (hM : 1 < M) (h0 : 0 < θ) (h1 : θ < Real.pi / 2)
    (hno : 4 * (1 - 3 * tbmA M γ θ * tbmB M γ θ) ^ 3 < (tbmQ M γ θ) ^ 2) {β : ℝ} (hb0 : 0 < β) (hb1 : β < Real.pi / 2) :
    ¬ Turns γ M θ β := by
  intro ht
  have hpi := Real.pi_pos
  have hM2 : 0 < M ^ 2 - 1 := by nlinarith
  have hc : 0 < tbmC M := by rw [tbmC_eq hM]; exact div_pos one_pos hM2
  have htan := Real.tan_pos_of_pos_of_lt_pi_div_two h0 h1
  have ha : 0 < tbmA M γ θ := by
    have : 0 < γ - 1 := by linarith
    unfold tbmA; positivity
  have hroot := (turns_cubic hM h0 h1 hb0 hb1).2 ht
  have hx : 0 < Real.tan β := Real.tan_pos_of_pos_of_lt_pi_div_two hb0 hb1
  unfold tbmQ at hno
  unfold cubic at hroot
  generalize Real.tan β = x at *
  generalize tbmA M γ θ = a at *
  generalize tbmB M γ θ = b at *
  generalize tbmC M = c at *
  obtain ⟨r, hr⟩ : ∃ r, r = b + x * (a * x - 1) := ⟨_, rfl⟩
  have hcr : c = -(x * r) := by rw [hr]; linear_combination hroot
  have hr0 : r < 0 := by
    by_contra hge
    have : 0 ≤ x * r := mul_nonneg hx.le (not_lt.1 hge)
    linarith
  have hb : b = r - x * (a * x - 1) := by linarith
  have key : 4 * (1 - 3 * a * b) ^ 3 - (27 * a * a * c + 9 * a * b - 2) ^ 2
      = 27 * a ^ 2 * ((a * x - 1) ^ 2 - 4 * a * r) * (a * x ^ 2 + (a * x - 1) * x + r) ^ 2 := by
    rw [hcr, hb]; ring
  have : 0 ≤ 27 * a ^ 2 * ((a * x - 1) ^ 2 - 4 * a * r) * (a * x ^ 2 + (a * x - 1) * x + r) ^ 2 := by
    have h2 : 0 ≤ (a * x - 1) ^ 2 - 4 * a * r := by nlinarith [sq_nonneg (a * x - 1), mul_neg_of_pos_of_neg ha hr0]
    positivity
  linarith

/-- Across an attached shock at the angle returned, with the ratios returned, mass, momentum and
energy are conserved. -/
theorem C96_conserved {R p T : ℝ} (hγ : 1 < γ) (h : Attached M γ θ) (hR : 0 < R) (hT : 0 < T) :
    Conserved γ R (before γ R p T M (thetaBetaMach M γ θ))
      (behind γ R p T (oblique M γ θ (thetaBetaMach M γ θ)) (thetaBetaMach M γ θ) θ) := by
  obtain ⟨h1, h2, h3⟩ := C97_range hγ h
  have hpi := Real.pi_pos
  exact conserved_of_turns hγ hR hT h3.le
    (Real.sin_pos_of_pos_of_lt_pi (by linarith) (by linarith [h.pos])).ne' (C97_turns hγ h)

end angle

/-- A ramp of slope 1/100 at Mach √2 has an attached shock. -/
theorem attached_ex : Attached (Real.sqrt 2) (7 / 5) (Real.arctan (1 / 100)) := by
  have h2 : Real.sqrt 2 ^ 2 = 2 := Real.sq_sqrt (by norm_num)
  have hM : 1 < Real.sqrt 2 := by rw [Real.lt_sqrt (by norm_num)]; norm_num
  have hc : tbmC (Real.sqrt 2) = 1 := by rw [tbmC_eq hM, h2]; norm_num
  refine ⟨hM, Real.arctan_pos.2 (by norm_num), Real.arctan_lt_pi_div_two _, ?_, ?_⟩
  · simp only [tbmQ, tbmA, tbmB, hc, Real.tan_arctan]; norm_num
  · simp only [tbmQ, tbmA, tbmB, hc, Real.tan_arctan]; norm_num

example : Conserved (7 / 5) 287 (before (7 / 5) 287 101325 288 (Real.sqrt 2) (thetaBetaMach (Real.sqrt 2) (7 / 5) (Real.arctan (1 / 100))))
    (behind (7 / 5) 287 101325 288 (oblique (Real.sqrt 2) (7 / 5) (Real.arctan (1 / 100)) (thetaBetaMach (Real.sqrt 2) (7 / 5) (Real.arctan (1 / 100))))
      (thetaBetaMach (Real.sqrt 2) (7 / 5) (Real.arctan (1 / 100))) (Real.arctan (1 / 100))) :=
  C96_conserved (by norm_num) attached_ex (by norm_num) (by norm_num)

/-- A ramp of slope one at Mach √2 has none, and the hypothesis of `C97_detached` holds. -/
example : 4 * (1 - 3 * tbmA (Real.sqrt 2) (7 / 5) (Real.arctan 1) * tbmB (Real.sqrt 2) (7 / 5) (Real.arctan 1)) ^ 3
    < (tbmQ (Real.sqrt 2) (7 / 5) (Real.arctan 1)) ^ 2 := by
  have h2 : Real.sqrt 2 ^ 2 = 2 := Real.sq_sqrt (by norm_num)
  have hM : 1 < Real.sqrt 2 := by rw [Real.lt_sqrt (by norm_num)]; norm_num
  have hc : tbmC (Real.sqrt 2) = 1 := by rw [tbmC_eq hM, h2]; norm_num
  simp only [tbmQ, tbmA, tbmB, hc, Real.tan_arctan]; norm_num

/-! ## C98: shock trains and the scramjet inlet -/

/-- Every shock of the train is attached. -/
def AttachedTrain (γ : ℝ) : ℝ → List ℝ → Prop
  | _, [] => True
  | M, θ :: θs => Attached M γ θ ∧ AttachedTrain γ (oblique M γ θ (thetaBetaMach M γ θ)).M1 θs

theorem step_facts {M γ θ : ℝ} (hγ : 1 < γ) (h : Attached M γ θ) :
    let o := oblique M γ θ (thetaBetaMach M γ θ)
    0 < o.M1 ∧ 1 < o.Tr ∧ o.Tr * (1 + (γ - 1) / 2 * o.M1 ^ 2) = 1 + (γ - 1) / 2 * M ^ 2 ∧ 0 < o.Ptr ∧ o.Ptr < 1 := by
  intro o
  obtain ⟨h1, h2, h3⟩ := C97_range hγ h
  have hpi := Real.pi_pos
  have hs : 0 < Real.sin (thetaBetaMach M γ θ - θ) := Real.sin_pos_of_pos_of_lt_pi (by linarith) (by linarith [h.pos])
  obtain ⟨-, -, hTr, hPt⟩ := C96_direction hγ h3 hs.ne'
  have hM1 : 0 < o.M1 := div_pos (normalMach_pos hγ h3.le) hs
  have hcons := (C96_conserved (R := 1) (p := 1) (T := 1) hγ h one_pos one_pos).energy
  have hTr0 : 0 < o.Tr := lt_trans one_pos hTr
  refine ⟨hM1, hTr, ?_, (ptRatio_lt_one hγ h3).1, hPt⟩
  have e1 : (before γ 1 1 1 M (thetaBetaMach M γ θ)).u ^ 2 + (before γ 1 1 1 M (thetaBetaMach M γ θ)).v ^ 2 = M ^ 2 * γ := by
    simp only [before, flowAt, mul_pow, mul_one]
    rw [Real.sq_sqrt (by linarith)]
    linear_combination (M ^ 2 * γ) * Real.sin_sq_add_cos_sq (thetaBetaMach M γ θ)
  have e2 : (behind γ 1 1 1 o (thetaBetaMach M γ θ) θ).u ^ 2 + (behind γ 1 1 1 o (thetaBetaMach M γ θ) θ).v ^ 2 = o.M1 ^ 2 * (γ * o.Tr) := by
    simp only [behind, flowAt, mul_pow, mul_one, one_mul]
    rw [Real.sq_sqrt (mul_nonneg (by linarith) hTr0.le)]
    linear_combination (o.M1 ^ 2 * (γ * o.Tr)) * Real.sin_sq_add_cos_sq (thetaBetaMach M γ θ - θ)
  have e4 : (behind γ 1 1 1 o (thetaBetaMach M γ θ) θ).T = 1 * o.Tr := rfl
  have hcons' : γ / (γ - 1) * 1 * 1 + M ^ 2 * γ / 2 = γ / (γ - 1) * 1 * (1 * o.Tr) + o.M1 ^ 2 * (γ * o.Tr) / 2 := by
    rw [← e1, ← e2, ← e4]; exact hcons
  have hg : γ - 1 ≠ 0 := by linarith
  have hg0 : γ ≠ 0 := by linarith
  field_simp at hcons'
  linarith

theorem train_facts {γ : ℝ} (hγ : 1 < γ) : ∀ (θs : List ℝ) (s : Train), 0 < s.M → 0 < s.T → 0 < s.Pt → AttachedTrain γ s.M θs →
    let r := θs.foldl (trainStep γ) s
    0 < r.M ∧ s.T ≤ r.T ∧ 0 < r.Pt ∧ r.Pt ≤ s.Pt ∧ (θs ≠ [] → s.T < r.T ∧ r.Pt < s.Pt) ∧
      r.T * (1 + (γ - 1) / 2 * r.M ^ 2) = s.T * (1 + (γ - 1) / 2 * s.M ^ 2)
  | [], s, hM, hT, hP, _ => ⟨hM, le_refl _, hP, le_refl _, fun h => absurd rfl h, rfl⟩
  | θ :: θs, s, hM, hT, hP, h => by
    obtain ⟨h1, h2⟩ := h
    obtain ⟨a1, a2, a3, a4, a5⟩ := step_facts hγ h1
    have hT' : s.T < (trainStep γ s θ).T := by
      change s.T < s.T * _
      exact lt_mul_of_one_lt_right hT a2
    have hP' : (trainStep γ s θ).Pt < s.Pt := by
      change s.Pt * _ < s.Pt
      exact mul_lt_of_lt_one_right hP a5
    have hP0 : 0 < (trainStep γ s θ).Pt := mul_pos hP a4
    obtain ⟨b1, b2, b3, b4, b5, b6⟩ := train_facts hγ θs (trainStep γ s θ) a1 (hT.trans hT') hP0 h2
    refine ⟨b1, hT'.le.trans b2, b3, b4.trans hP'.le, fun _ => ⟨lt_of_lt_of_le hT' b2, lt_of_le_of_lt b4 hP'⟩, ?_⟩
    simp only [List.foldl_cons]
    rw [b6]
    change s.T * _ * _ = _
    rw [mul_assoc, ← a3]
    rfl

/-- A train of attached shocks keeps the stagnation temperature. -/
theorem C98_energy {γ M0 : ℝ} (hγ : 1 < γ) (hM : 0 < M0) {θs : List ℝ} (h : AttachedTrain γ M0 θs) :
    (shockTrain M0 γ θs).T * (1 + (γ - 1) / 2 * (shockTrain M0 γ θs).M ^ 2) = 1 + (γ - 1) / 2 * M0 ^ 2 := by
  have := (train_facts hγ θs ⟨M0, 1, 1⟩ hM one_pos one_pos h).2.2.2.2.2
  simpa [shockTrain] using this

/-- Each shock costs stagnation pressure, heats the flow and slows it down. -/
theorem C98_loss {γ M0 : ℝ} (hγ : 1 < γ) (hM : 0 < M0) {θs : List ℝ} (h : AttachedTrain γ M0 θs) (hne : θs ≠ []) :
    1 < (shockTrain M0 γ θs).T ∧ 0 < (shockTrain M0 γ θs).Pt ∧ (shockTrain M0 γ θs).Pt < 1 ∧
      0 < (shockTrain M0 γ θs).M ∧ (shockTrain M0 γ θs).M < M0 := by
  obtain ⟨a1, a2, a3, a4, a5, a6⟩ := train_facts hγ θs ⟨M0, 1, 1⟩ hM one_pos one_pos h
  obtain ⟨b1, b2⟩ := a5 hne
  refine ⟨b1, a3, b2, a1, ?_⟩
  have he := C98_energy hγ hM h
  have hT : 1 < (shockTrain M0 γ θs).T := b1
  have hMp : 0 < (shockTrain M0 γ θs).M := a1
  generalize (shockTrain M0 γ θs).M = m at *
  generalize (shockTrain M0 γ θs).T = t at *
  by_contra hge
  have h1 : M0 ^ 2 ≤ m ^ 2 := by nlinarith [not_lt.1 hge]
  have h2 : 0 < (γ - 1) / 2 := by linarith
  have h3 : 1 + (γ - 1) / 2 * M0 ^ 2 ≤ 1 + (γ - 1) / 2 * m ^ 2 := by nlinarith
  have h4 : 0 < 1 + (γ - 1) / 2 * m ^ 2 := by positivity
  nlinarith

/-- The Mach number the scramjet inlet reports is the one behind the last shock, and its velocity is
the speed at that Mach number and temperature. -/
theorem C98_inlet {γ R M0 T0 : ℝ} (hγ : 1 < γ) (hR : 0 < R) (hM : 0 < M0) (hT : 0 < T0) {θs : List ℝ} (h : AttachedTrain γ M0 θs) :
    (scramInlet M0 T0 (M0 * Real.sqrt (γ * R * T0)) γ (γ * R / (γ - 1)) θs).M = (shockTrain M0 γ θs).M ∧
    (scramInlet M0 T0 (M0 * Real.sqrt (γ * R * T0)) γ (γ * R / (γ - 1)) θs).u
      = (shockTrain M0 γ θs).M * Real.sqrt (γ * R * (scramInlet M0 T0 (M0 * Real.sqrt (γ * R * T0)) γ (γ * R / (γ - 1)) θs).T) := by
  obtain ⟨a1, a2, a3, a4, a5, a6⟩ := train_facts hγ θs ⟨M0, 1, 1⟩ hM one_pos one_pos h
  have he := C98_energy hγ hM h
  have hTp : 1 ≤ (shockTrain M0 γ θs).T := a2
  have hMp : 0 < (shockTrain M0 γ θs).M := a1
  simp only [scramInlet]
  generalize (shockTrain M0 γ θs).M = m at *
  generalize (shockTrain M0 γ θs).T = t at *
  have ht : 0 < t := by linarith
  have hg : γ - 1 ≠ 0 := by linarith
  constructor
  · rw [show 2 / (γ - 1) * (T0 / (t * T0) * (1 + (γ - 1) / 2 * M0 * M0) - 1) = m ^ 2 by
      rw [show 1 + (γ - 1) / 2 * M0 * M0 = 1 + (γ - 1) / 2 * M0 ^ 2 by ring, ← he]
      field_simp
      ring]
    exact Real.sqrt_sq hMp.le
  · have hK : Real.sqrt (γ * R * T0) ^ 2 = γ * R * T0 := Real.sq_sqrt (by positivity)
    have hK2 : 0 ≤ γ * R * (t * T0) := by positivity
    rw [← Real.sqrt_sq (mul_nonneg hMp.le (Real.sqrt_nonneg (γ * R * (t * T0))))]
    congr 1
    rw [mul_pow, Real.sq_sqrt hK2, show M0 * Real.sqrt (γ * R * T0) * (M0 * Real.sqrt (γ * R * T0)) = M0 ^ 2 * Real.sqrt (γ * R * T0) ^ 2 by ring, hK]
    have hM0 : M0 ^ 2 = (t * (1 + (γ - 1) / 2 * m ^ 2) - 1) * 2 / (γ - 1) := by
      rw [he]; field_simp; ring
    rw [hM0]
    field_simp
    ring

example : AttachedTrain (7 / 5) (Real.sqrt 2) [Real.arctan (1 / 100)] := ⟨attached_ex, trivial⟩

/-! ## C99: heat addition -/

/-- The flow of Mach number `M`, stagnation pressure `Pt` and stagnation temperature `Tt`. -/
noncomputable def ofStagnation (γ R Pt Tt M : ℝ) : Flow :=
  let k := 1 + (γ - 1) / 2 * M ^ 2
  ⟨Pt / k ^ (γ / (γ - 1)), Tt / k, M * Real.sqrt (γ * R * (Tt / k)), 0⟩

theorem k_pos {γ : ℝ} (hγ : 1 < γ) (M : ℝ) : 0 < 1 + (γ - 1) / 2 * M ^ 2 := by
  have : 0 ≤ (γ - 1) / 2 * M ^ 2 := mul_nonneg (by linarith) (sq_nonneg M)
  linarith

/-- Whatever Mach number makes the Rayleigh function zero: with the stagnation temperature ratio asked
for and the stagnation pressure ratio returned, mass and momentum are conserved. -/
theorem C99_conserved {γ R M0 M1 TtR Pt Tt : ℝ} (hγ : 1 < γ) (hR : 0 < R) (hM0 : 0 < M0) (hM1 : 0 < M1) (hTt : 0 < Tt)
    (hroot : rayleighFun γ M0 TtR M1 = 0) :
    let a := ofStagnation γ R Pt Tt M0
    let b := ofStagnation γ R (Pt * rayleighPtr γ M0 M1) (Tt * TtR) M1
    a.ρ R * a.u = b.ρ R * b.u ∧ a.p + a.ρ R * a.u ^ 2 = b.p + b.ρ R * b.u ^ 2 := by
  intro a b
  have k0 := k_pos hγ M0
  have k1 := k_pos hγ M1
  have g0 : 0 < 1 + γ * M0 ^ 2 := by positivity
  have g1 : 0 < 1 + γ * M1 ^ 2 := by positivity
  have hTtR : TtR = ((1 + γ * M0 ^ 2) ^ 2 * M1 ^ 2 * (1 + (γ - 1) / 2 * M1 ^ 2)) /
      ((1 + γ * M1 ^ 2) ^ 2 * M0 ^ 2 * (1 + (γ - 1) / 2 * M0 ^ 2)) := by
    rw [rayleighFun, Real.rpow_two, Real.rpow_two] at hroot
    rw [← sub_eq_zero.1 hroot]
    congr 1 <;> ring
  have hTR : 0 < TtR := by rw [hTtR]; positivity
  have hP : rayleighPtr γ M0 M1 = (1 + γ * M0 ^ 2) / (1 + γ * M1 ^ 2) *
      ((1 + (γ - 1) / 2 * M1 ^ 2) ^ (γ / (γ - 1)) / (1 + (γ - 1) / 2 * M0 ^ 2) ^ (γ / (γ - 1))) := by
    rw [rayleighPtr, ← Real.div_rpow k1.le k0.le]
    congr 2
    · ring
    · ring
    · congr 1 <;> ring
  have pa : a.p = Pt / (1 + (γ - 1) / 2 * M0 ^ 2) ^ (γ / (γ - 1)) := rfl
  have pb : b.p = a.p * ((1 + γ * M0 ^ 2) / (1 + γ * M1 ^ 2)) := by
    have : b.p = Pt * rayleighPtr γ M0 M1 / (1 + (γ - 1) / 2 * M1 ^ 2) ^ (γ / (γ - 1)) := rfl
    rw [this, hP, pa]
    have h1 := Real.rpow_pos_of_pos k0 (γ / (γ - 1))
    have h2 := Real.rpow_pos_of_pos k1 (γ / (γ - 1))
    generalize (1 + (γ - 1) / 2 * M0 ^ 2) ^ (γ / (γ - 1)) = X at *
    generalize (1 + (γ - 1) / 2 * M1 ^ 2) ^ (γ / (γ - 1)) = Y at *
    field_simp
  have ta : a.T = Tt / (1 + (γ - 1) / 2 * M0 ^ 2) := rfl
  have hTa : 0 < a.T := div_pos hTt k0
  obtain ⟨r, hr⟩ : ∃ r, r = (1 + γ * M0 ^ 2) * M1 / ((1 + γ * M1 ^ 2) * M0) := ⟨_, rfl⟩
  have hr0 : 0 < r := by rw [hr]; positivity
  have tb : b.T = a.T * r ^ 2 := by
    have : b.T = Tt * TtR / (1 + (γ - 1) / 2 * M1 ^ 2) := rfl
    rw [this, ta, hTtR, hr]
    generalize 1 + (γ - 1) / 2 * M0 ^ 2 = X at *
    generalize 1 + (γ - 1) / 2 * M1 ^ 2 = Y at *
    field_simp
  have ua : a.u = M0 * Real.sqrt (γ * R * a.T) := rfl
  have ub : b.u = M1 * (Real.sqrt (γ * R * a.T) * r) := by
    have : b.u = M1 * Real.sqrt (γ * R * b.T) := rfl
    rw [this, tb, ← mul_assoc, Real.sqrt_mul (by positivity), Real.sqrt_sq hr0.le]
  have hK : Real.sqrt (γ * R * a.T) ^ 2 = γ * R * a.T := Real.sq_sqrt (by positivity)
  simp only [Flow.ρ]
  rw [ua, ub, pb, tb]
  generalize Real.sqrt (γ * R * a.T) = K at *
  generalize a.T = T at *
  generalize a.p = p at *
  constructor
  · rw [hr]; field_simp
  · rw [show (M0 * K) ^ 2 = M0 ^ 2 * (γ * R * T) by rw [mul_pow, hK],
      show (M1 * (K * r)) ^ 2 = M1 ^ 2 * r ^ 2 * (γ * R * T) by rw [mul_pow, mul_pow, hK]; ring]
    field_simp

/-- The temperature at which the burner limits itself is exactly the highest one that can be reached: a
Mach number solving the Rayleigh equation exists if and only if the target is not above it. -/
theorem C99_choking {γ M0 Tt Tt4 : ℝ} (hγ : 1 < γ) (hM0 : 0 < M0) (hTt : 0 < Tt) (hheat : Tt ≤ Tt4) :
    (∃ M1, 0 < M1 ∧ rayleighFun γ M0 (Tt4 / Tt) M1 = 0) ↔ Tt4 ≤ chokeTemp γ M0 Tt := by
  have k0 := k_pos hγ M0
  have g0 : 0 < 1 + γ * M0 ^ 2 := by positivity
  have hf : ∀ M1, rayleighFun γ M0 (Tt4 / Tt) M1 = ((1 + γ * M0 ^ 2) ^ 2 * (M1 ^ 2 * (1 + (γ - 1) / 2 * M1 ^ 2))) /
      ((1 + γ * M1 ^ 2) ^ 2 * (M0 ^ 2 * (1 + (γ - 1) / 2 * M0 ^ 2))) - Tt4 / Tt := by
    intro M1
    rw [rayleighFun, Real.rpow_two, Real.rpow_two]
    congr 2 <;> ring
  have hch : chokeTemp γ M0 Tt = Tt * (1 + γ * M0 ^ 2) ^ 2 / (2 * (1 + γ) * (M0 ^ 2 * (1 + (γ - 1) / 2 * M0 ^ 2))) := by
    rw [chokeTemp, Real.rpow_two]
    congr 1 <;> ring
  have hD : 0 < M0 ^ 2 * (1 + (γ - 1) / 2 * M0 ^ 2) := by positivity
  rw [hch]
  constructor
  · rintro ⟨M1, hM1, h⟩
    have k1 := k_pos hγ M1
    have g1 : 0 < 1 + γ * M1 ^ 2 := by positivity
    rw [hf, sub_eq_zero, div_eq_div_iff (by positivity) hTt.ne'] at h
    rw [le_div_iff₀ (by positivity)]
    have hmax : 2 * (1 + γ) * (M1 ^ 2 * (1 + (γ - 1) / 2 * M1 ^ 2)) ≤ (1 + γ * M1 ^ 2) ^ 2 := by
      nlinarith [sq_nonneg (M1 ^ 2 - 1)]
    have h2 : Tt4 * (2 * (1 + γ) * (M0 ^ 2 * (1 + (γ - 1) / 2 * M0 ^ 2))) * (1 + γ * M1 ^ 2) ^ 2
        = Tt * (1 + γ * M0 ^ 2) ^ 2 * (2 * (1 + γ) * (M1 ^ 2 * (1 + (γ - 1) / 2 * M1 ^ 2))) := by
      linear_combination (-2 * (1 + γ)) * h
    have h3 : Tt4 * (2 * (1 + γ) * (M0 ^ 2 * (1 + (γ - 1) / 2 * M0 ^ 2))) * (1 + γ * M1 ^ 2) ^ 2
        ≤ Tt * (1 + γ * M0 ^ 2) ^ 2 * (1 + γ * M1 ^ 2) ^ 2 := by
      rw [h2]; exact mul_le_mul_of_nonneg_left hmax (by positivity)
    exact le_of_mul_le_mul_right h3 (by positivity)
  · intro hle
    have hcont : ContinuousOn (rayleighFun γ M0 (Tt4 / Tt)) (Set.uIcc M0 1) := by
      have : rayleighFun γ M0 (Tt4 / Tt) = fun M1 => ((1 + γ * M0 ^ 2) ^ 2 * (M1 ^ 2 * (1 + (γ - 1) / 2 * M1 ^ 2))) /
          ((1 + γ * M1 ^ 2) ^ 2 * (M0 ^ 2 * (1 + (γ - 1) / 2 * M0 ^ 2))) - Tt4 / Tt := funext hf
      rw [this]
      apply ContinuousOn.sub _ continuousOn_const
      apply ContinuousOn.div
      · fun_prop
      · fun_prop
      · intro x _
        have : 0 < 1 + γ * x ^ 2 := by positivity
        positivity
    have h0 : rayleighFun γ M0 (Tt4 / Tt) M0 ≤ 0 := by
      rw [hf, div_self (by positivity)]
      have : 1 ≤ Tt4 / Tt := (one_le_div hTt).2 hheat
      linarith
    have h1 : 0 ≤ rayleighFun γ M0 (Tt4 / Tt) 1 := by
      rw [hf, sub_nonneg, div_le_div_iff₀ hTt (by positivity)]
      rw [le_div_iff₀ (by positivity)] at hle
      have : 0 < γ + 1 := by linarith
      nlinarith
    obtain ⟨M1, hmem, hz⟩ := intermediate_value_uIcc hcont (Set.mem_uIcc.2 (Or.inl ⟨h0, h1⟩))
    refine ⟨M1, ?_, hz⟩
    rcases Set.mem_uIcc.1 hmem with h | h
    · exact lt_of_lt_of_le hM0 h.1
    · exact lt_of_lt_of_le one_pos h.1

/-- So the burner, which cuts its target back to that temperature, always has a solution. -/
theorem C99_limited {γ M0 Tt Tt4 : ℝ} (hγ : 1 < γ) (hM0 : 0 < M0) (hTt : 0 < Tt) (hheat : Tt ≤ Tt4) :
    ∃ M1, 0 < M1 ∧ rayleighFun γ M0 (limitedTemp γ M0 Tt Tt4 / Tt) M1 = 0 := by
  have k0 := k_pos hγ M0
  have hch : Tt ≤ chokeTemp γ M0 Tt := by
    rw [chokeTemp, Real.rpow_two, le_div_iff₀ (by
      have : 0 < 1 + (γ - 1) / 2 * M0 * M0 := by rw [show 1 + (γ - 1) / 2 * M0 * M0 = 1 + (γ - 1) / 2 * M0 ^ 2 by ring]; exact k0
      positivity)]
    apply mul_le_mul_of_nonneg_left _ hTt.le
    nlinarith [sq_nonneg (M0 ^ 2 - 1)]
  unfold limitedTemp
  split
  · exact (C99_choking hγ hM0 hTt hch).2 (le_refl _)
  · rename_i h
    exact (C99_choking hγ hM0 hTt hheat).2 (not_le.1 h).le

/-- At the limit the flow leaves the burner at Mach one. -/
theorem C99_sonic {γ M0 Tt M1 : ℝ} (hγ : 1 < γ) (hM0 : 0 < M0) (hTt : 0 < Tt) (hM1 : 0 < M1)
    (h : rayleighFun γ M0 (chokeTemp γ M0 Tt / Tt) M1 = 0) : M1 = 1 := by
  have k0 := k_pos hγ M0
  have k1 := k_pos hγ M1
  have g0 : 0 < 1 + γ * M0 ^ 2 := by positivity
  have g1 : 0 < 1 + γ * M1 ^ 2 := by positivity
  have k0' : 0 < 1 + (γ - 1) / 2 * M0 * M0 := by rw [show 1 + (γ - 1) / 2 * M0 * M0 = 1 + (γ - 1) / 2 * M0 ^ 2 by ring]; exact k0
  rw [rayleighFun, chokeTemp, Real.rpow_two, Real.rpow_two, sub_eq_zero, mul_div_assoc, mul_div_assoc, mul_div_cancel_left₀ _ hTt.ne',
    ← mul_div_assoc] at h
  rw [div_eq_div_iff (by rw [show 1 + γ * M1 * M1 = 1 + γ * M1 ^ 2 by ring]; positivity) (by positivity)] at h
  have h2 : (1 + γ * M0 ^ 2) ^ 2 * (M0 ^ 2 * (1 + (γ - 1) / 2 * M0 ^ 2)) * (M1 ^ 2 - 1) ^ 2 = 0 := by linear_combination -h
  have h3 : (M1 ^ 2 - 1) ^ 2 = 0 := (mul_eq_zero.1 h2).resolve_left (by positivity)
  have h4 : M1 ^ 2 - 1 = 0 := pow_eq_zero_iff (two_ne_zero) |>.1 h3
  nlinarith

example : ∃ M1, 0 < M1 ∧ rayleighFun (7 / 5) (1 / 5) (limitedTemp (7 / 5) (1 / 5) 600 1600 / 600) M1 = 0 :=
  C99_limited (by norm_num) (by norm_num) (by norm_num) (by norm_num)

/-! ## C100: area and Mach number -/

theorem flux_eq {γ R M Pt Tt : ℝ} (hγ : 1 < γ) (hR : 0 < R) (hTt : 0 < Tt) :
    (ofStagnation γ R Pt Tt M).ρ R * (ofStagnation γ R Pt Tt M).u
      = Pt / (R * Tt) * Real.sqrt (γ * R * Tt) * (M * (1 + (γ - 1) / 2 * M ^ 2) ^ (-((γ + 1) / (2 * (γ - 1))))) := by
  have k := k_pos hγ M
  simp only [Flow.ρ, ofStagnation]
  generalize 1 + (γ - 1) / 2 * M ^ 2 = X at *
  rw [← mul_div_assoc (γ * R), Real.sqrt_div (by positivity), Real.sqrt_eq_rpow X]
  have h1 : X ^ (-((γ + 1) / (2 * (γ - 1)))) = X / (X ^ (γ / (γ - 1)) * X ^ (1 / 2 : ℝ)) := by
    rw [← Real.rpow_add k, ← Real.rpow_one_sub' k.le]
    · congr 1
      have : γ - 1 ≠ 0 := by linarith
      field_simp
      ring
    · have h : γ / (γ - 1) + 1 / 2 > 1 := by
        have : 1 < γ / (γ - 1) := by rw [one_lt_div (by linarith)]; linarith
        linarith
      linarith
  rw [h1]
  have h2 := Real.rpow_pos_of_pos k (γ / (γ - 1))
  have h3 := Real.rpow_pos_of_pos k (1 / 2 : ℝ)
  generalize X ^ (γ / (γ - 1)) = P at *
  generalize X ^ (1 / 2 : ℝ) = S at *
  generalize Real.sqrt (γ * R * Tt) = K at *
  field_simp

theorem flux_coeff_pos {γ R Pt Tt : ℝ} (hγ : 1 < γ) (hR : 0 < R) (hPt : 0 < Pt) (hTt : 0 < Tt) : 0 < Pt / (R * Tt) * Real.sqrt (γ * R * Tt) := by
  have : 0 < Real.sqrt (γ * R * Tt) := Real.sqrt_pos.2 (by positivity)
  positivity

/-- The Mach number `fm_solver` looks for is the one at which the other area carries the same mass
flow of the same gas without loss. -/
theorem C100_area {γ R A0 A1 M0 M1 Pt Tt : ℝ} (hγ : 1 < γ) (hR : 0 < R) (hM1 : 0 < M1) (hPt : 0 < Pt) (hTt : 0 < Tt) (hA : 0 < A0) :
    fmFun (A1 / A0) M0 γ M1 = 0 ↔
      (ofStagnation γ R Pt Tt M0).ρ R * (ofStagnation γ R Pt Tt M0).u * A0
        = (ofStagnation γ R Pt Tt M1).ρ R * (ofStagnation γ R Pt Tt M1).u * A1 := by
  have k0 := k_pos hγ M0
  have k1 := k_pos hγ M1
  have hc := flux_coeff_pos hγ hR hPt hTt
  rw [flux_eq hγ hR hTt, flux_eq hγ hR hTt, fmFun, show (1 + (γ - 1) / 2 * M1 * M1) = 1 + (γ - 1) / 2 * M1 ^ 2 by ring,
    show (1 + (γ - 1) / 2 * M0 * M0) = 1 + (γ - 1) / 2 * M0 ^ 2 by ring, Real.div_rpow k1.le k0.le, Real.rpow_neg k0.le, Real.rpow_neg k1.le]
  have h0 := Real.rpow_pos_of_pos k0 ((γ + 1) / (2 * (γ - 1)))
  have h1 := Real.rpow_pos_of_pos k1 ((γ + 1) / (2 * (γ - 1)))
  generalize (1 + (γ - 1) / 2 * M0 ^ 2) ^ ((γ + 1) / (2 * (γ - 1))) = X at *
  generalize (1 + (γ - 1) / 2 * M1 ^ 2) ^ ((γ + 1) / (2 * (γ - 1))) = Y at *
  generalize Pt / (R * Tt) * Real.sqrt (γ * R * Tt) = C at *
  rw [sub_eq_zero, div_mul_div_comm, div_eq_div_iff (by positivity) hA.ne', mul_assoc C, mul_assoc C, mul_right_inj' hc.ne',
    show M0 * X⁻¹ * A0 = M0 * A0 / X by ring, show M1 * Y⁻¹ * A1 = M1 * A1 / Y by ring, div_eq_div_iff h0.ne' h1.ne']
  constructor <;> intro h <;> linarith

/-- The Mach number `mach_area` looks for is the one at which the exit carries the mass flow of the
sonic throat. -/
theorem C100_throat {γ R A At Me Pt Tt : ℝ} (hγ : 1 < γ) (hR : 0 < R) (hMe : 0 < Me) (hPt : 0 < Pt) (hTt : 0 < Tt) (hA : 0 < A) (hAt : 0 < At) :
    machAreaFun (A / At) γ Me = 0 ↔
      (ofStagnation γ R Pt Tt 1).ρ R * (ofStagnation γ R Pt Tt 1).u * At
        = (ofStagnation γ R Pt Tt Me).ρ R * (ofStagnation γ R Pt Tt Me).u * A := by
  have k0 := k_pos hγ 1
  have k1 := k_pos hγ Me
  have hc := flux_coeff_pos hγ hR hPt hTt
  have hg : 0 < γ + 1 := by linarith
  have hg1 : 0 < γ - 1 := by linarith
  have hb : 2 / (γ + 1) * (1 + (γ - 1) / 2 * Me ^ 2) = (1 + (γ - 1) / 2 * Me ^ 2) / (1 + (γ - 1) / 2 * 1 ^ 2) := by
    field_simp
    ring
  rw [flux_eq hγ hR hTt, flux_eq hγ hR hTt, machAreaFun, Real.rpow_two, Real.rpow_two, Real.rpow_two, hb,
    show (γ + 1) / (γ - 1) = (γ + 1) / (2 * (γ - 1)) * 2 by field_simp, Real.rpow_mul (by positivity), Real.rpow_two,
    Real.div_rpow k1.le k0.le, Real.rpow_neg k0.le, Real.rpow_neg k1.le]
  have h0 := Real.rpow_pos_of_pos k0 ((γ + 1) / (2 * (γ - 1)))
  have h1 := Real.rpow_pos_of_pos k1 ((γ + 1) / (2 * (γ - 1)))
  generalize (1 + (γ - 1) / 2 * 1 ^ 2) ^ ((γ + 1) / (2 * (γ - 1))) = X at *
  generalize (1 + (γ - 1) / 2 * Me ^ 2) ^ ((γ + 1) / (2 * (γ - 1))) = Y at *
  generalize Pt / (R * Tt) * Real.sqrt (γ * R * Tt) = C at *
  rw [sub_eq_zero, ← mul_pow, pow_left_inj₀ (by positivity) (by positivity) two_ne_zero, div_mul_div_comm, div_eq_div_iff hAt.ne' (by positivity),
    mul_assoc C, mul_assoc C, mul_right_inj' hc.ne', show 1 * X⁻¹ * At = At / X by ring, show Me * Y⁻¹ * A = Me * A / Y by ring,
    div_eq_div_iff h0.ne' h1.ne']
  constructor <;> intro h <;> linarith

/-- The pressure ratio returned belongs to that Mach number. -/
theorem C100_pressure {γ R Pt Tt Me : ℝ} (hγ : 1 < γ) : (ofStagnation γ R Pt Tt Me).p = Pt * prIsentropic γ Me := by
  have k1 := k_pos hγ Me
  simp only [ofStagnation, prIsentropic, Real.rpow_two]
  rw [neg_div, Real.rpow_neg k1.le]
  rfl

/-- Area ratio √2 and γ = 2: Mach 2 is a solution. -/
example : machAreaFun (Real.sqrt 2) 2 2 = 0 := by
  rw [machAreaFun, Real.rpow_two, Real.rpow_two, Real.rpow_two, Real.sq_sqrt (by norm_num), show ((2 : ℝ) + 1) / (2 - 1) = (3 : ℕ) by norm_num,
    Real.rpow_natCast]
  norm_num

end Verif.Physics.Shock
