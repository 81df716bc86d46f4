import Verif.Airfoil.Panel
import Mathlib.Analysis.SpecialFunctions.Complex.LogDeriv
import Mathlib.Analysis.Complex.Convex
import Mathlib.MeasureTheory.Integral.IntervalIntegral.FundThmCalculus

/-!
Complex velocity of source and vortex panels, written with integrals of point singularities, and its closed form.
-/

namespace Verif.Airfoil
open Complex MeasureTheory

/-- A point as a complex number. -/
def pt (x y : ℝ) : ℂ := ⟨x, y⟩

/-- Node `j` of an outline. -/
def Outline.node (o : Outline) (j : ℕ) : ℂ := pt (o.x j) (o.y j)

/-- Integral of `1 / (z - c)` over the straight line from `a` to `b` by arc length. -/
noncomputable def lineIntegral (a b z : ℂ) : ℂ :=
  ∫ s in (0 : ℝ)..‖b - a‖, 1 / (z - (a + s * ((b - a) / (‖b - a‖ : ℂ))))

/-- The point lies off the segment. -/
def OffSegment (a b z : ℂ) : Prop := ∀ t : ℝ, 0 ≤ t → t ≤ 1 → z ≠ a + t * (b - a)

theorem offSegment_slit {a b z : ℂ} (h : OffSegment a b z) : (z - b) / (z - a) ∈ slitPlane := by
  have hza : z - a ≠ 0 := by
    intro hz
    apply h 0 le_rfl zero_le_one
    simp; linear_combination hz
  rw [mem_slitPlane_iff]
  by_contra hcon
  rw [not_or, not_lt, not_not] at hcon
  obtain ⟨hre, him⟩ := hcon
  obtain ⟨k, hk⟩ : ∃ k : ℝ, (z - b) / (z - a) = (k : ℂ) := ⟨((z - b) / (z - a)).re, by
    apply Complex.ext <;> simp [him]⟩
  have hk0 : k ≤ 0 := by
    have : ((z - b) / (z - a)).re = k := by rw [hk]; simp
    linarith
  have heq : z - b = k * (z - a) := by rw [div_eq_iff hza] at hk; exact hk
  have h1 : (1 - k : ℝ) ≠ 0 := by linarith
  have h1c : ((1 - k : ℝ) : ℂ) ≠ 0 := by exact_mod_cast h1
  apply h (1 / (1 - k)) (by apply div_nonneg <;> linarith) (by rw [div_le_one (by linarith)]; linarith)
  -- z (1-k) = b - k a
  have e2 : ((1 - k : ℝ) : ℂ) * z = b - k * a := by push_cast; linear_combination heq
  have : z = ((1 - k : ℝ) : ℂ)⁻¹ * (b - k * a) := by rw [← e2, inv_mul_cancel_left₀ h1c]
  rw [this]
  push_cast at h1c ⊢
  field_simp
  ring

theorem lineIntegral_closed {a b z : ℂ} (hab : a ≠ b) (hza : z ≠ a) (h : (z - b) / (z - a) ∈ slitPlane) :
    lineIntegral a b z = -((‖b - a‖ : ℂ) / (b - a)) * log ((z - b) / (z - a)) := by
  have hza' : z - a ≠ 0 := sub_ne_zero.mpr hza
  have hba : b - a ≠ 0 := sub_ne_zero.mpr (Ne.symm hab)
  have hL : (0 : ℝ) < ‖b - a‖ := norm_pos_iff.mpr hba
  obtain ⟨L, hLd⟩ : ∃ L : ℝ, L = ‖b - a‖ := ⟨_, rfl⟩
  obtain ⟨e, he⟩ : ∃ e : ℂ, e = (b - a) / (‖b - a‖ : ℂ) := ⟨_, rfl⟩
  have hLc : ((‖b - a‖ : ℝ) : ℂ) ≠ 0 := by exact_mod_cast hL.ne'
  have he0 : e ≠ 0 := by rw [he]; exact div_ne_zero hba hLc
  have hslit : ∀ s ∈ Set.uIcc (0 : ℝ) ‖b - a‖, (z - (a + s * e)) / (z - a) ∈ slitPlane := by
    intro s hs
    rw [Set.uIcc_of_le hL.le] at hs
    have hstar := starConvex_one_slitPlane
    have h1 := hstar h (a := 1 - s / ‖b - a‖) (b := s / ‖b - a‖) (by
      rw [sub_nonneg, div_le_one hL]; exact hs.2) (div_nonneg hs.1 hL.le) (by ring)
    have : (z - (a + s * e)) / (z - a) = (1 - s / ‖b - a‖ : ℝ) • (1 : ℂ) + (s / ‖b - a‖ : ℝ) • ((z - b) / (z - a)) := by
      rw [he]
      simp only [real_smul]
      push_cast
      field_simp
      ring
    rw [this]; exact h1
  have hder : ∀ s ∈ Set.uIcc (0 : ℝ) ‖b - a‖,
      HasDerivAt (fun s : ℝ => -e⁻¹ * log ((z - (a + s * e)) / (z - a))) (1 / (z - (a + s * e))) s := by
    intro s hs
    have hm := hslit s hs
    have hne : z - (a + s * e) ≠ 0 := by
      intro h0
      rw [h0, zero_div] at hm
      exact slitPlane_ne_zero hm rfl
    have h1 : HasDerivAt (fun s : ℝ => (z - (a + s * e)) / (z - a)) (-e / (z - a)) s := by
      have h2 : HasDerivAt (fun s : ℝ => (s : ℂ)) 1 s := Complex.ofRealCLM.hasDerivAt
      have h3 := ((h2.mul_const e).const_add a).const_sub z
      have h4 := h3.div_const (z - a)
      simpa using h4
    have h2 := (h1.clog_real hm).const_mul (-e⁻¹)
    have e1 : 1 / (z - (a + s * e)) = -e⁻¹ * (-e / (z - a) / ((z - (a + s * e)) / (z - a))) := by
      generalize z - (a + s * e) = w at *
      field_simp
    rw [e1]; exact h2
  have hint : IntervalIntegrable (fun s : ℝ => 1 / (z - (a + s * e))) volume 0 ‖b - a‖ := by
    apply ContinuousOn.intervalIntegrable
    apply ContinuousOn.div continuousOn_const
    · fun_prop
    · intro s hs h0
      have hm := hslit s hs
      rw [h0, zero_div] at hm
      exact slitPlane_ne_zero hm rfl
  have hft := intervalIntegral.integral_eq_sub_of_hasDerivAt hder hint
  unfold lineIntegral
  rw [← he, hft]
  have h0 : (z - (a + ((0 : ℝ) : ℂ) * e)) / (z - a) = 1 := by
    rw [div_eq_one_iff_eq hza']; simp
  have h1 : (z - (a + ((‖b - a‖ : ℝ) : ℂ) * e)) / (z - a) = (z - b) / (z - a) := by
    rw [he, mul_div_cancel₀ _ hLc]; congr 1; ring
  rw [h0, h1, log_one, he, inv_div]
  ring

/-- The complex velocity `u - i v` at `z`: the free stream at the angle `α`, sources of strength `q j` per unit of length
on panel `j` (a point source of unit strength at `c` has `1 / (2 π (z - c))`), and clockwise vortices of strength `γ` per
unit of length on all panels (`i / (2 π (z - c))`). -/
noncomputable def complexVelocity (o : Outline) (n : ℕ) (α : ℝ) (q : ℕ → ℝ) (γ : ℝ) (z : ℂ) : ℂ :=
  exp (-I * α) + ∑ j ∈ Finset.range n, (q j + I * γ) / (2 * Real.pi) * lineIntegral (o.node j) (o.node (j + 1)) z

end Verif.Airfoil
