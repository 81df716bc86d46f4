import Verif.Rotor.Blade
import Mathlib.RingTheory.RootsOfUnity.Complex
import Mathlib.Tactic.Linarith
import Mathlib.Tactic.FieldSimp
import Mathlib.Tactic.Positivity
import Mathlib.Tactic.LinearCombination

/-! Integration over the blade, velocities at the blade, induced velocity and power balance of rotors (C180-C183). -/

namespace Verif.Rotor
open Real

/-! ### C180: thrust and torque are the integrals of the blade loading -/

/-- Trapezoidal rule for samples `f` at the points `r 0, …, r (n-1)`. -/
noncomputable def trapezoid (n : ℕ) (r f : ℕ → ℝ) : ℝ :=
  ∑ i ∈ Finset.range (n - 1), (f i + f (i + 1)) / 2 * (r (i + 1) - r i)

theorem deltar_sum (n : ℕ) (hn : 2 ≤ n) (r f : ℕ → ℝ) :
    ∑ i ∈ Finset.range n, f i * deltar n r i = trapezoid n r f := by
  obtain ⟨m, rfl⟩ : ∃ m, n = m + 2 := ⟨n - 2, by omega⟩
  have key : ∀ m : ℕ, ∑ i ∈ Finset.range (m + 1), f (i + 1) * (if i + 1 = m + 1 then (r (m + 1) - r m) / 2
      else (r (i + 1) - r i) / 2 + (r (i + 2) - r (i + 1)) / 2) =
      ∑ i ∈ Finset.range (m + 1), f (i + 1) * ((r (i + 1) - r i) / 2)
        + ∑ i ∈ Finset.range m, f (i + 1) * ((r (i + 2) - r (i + 1)) / 2) := by
    intro m
    rw [Finset.sum_range_succ, Finset.sum_range_succ (fun i => f (i + 1) * ((r (i + 1) - r i) / 2))]
    rw [if_pos rfl, add_right_comm, ← Finset.sum_add_distrib]
    congr 1
    apply Finset.sum_congr rfl
    intro i hi
    rw [if_neg (by have := Finset.mem_range.1 hi; omega)]
    ring
  rw [Finset.sum_range_succ']
  have h1 : ∀ i ∈ Finset.range (m + 1), f (i + 1) * deltar (m + 2) r (i + 1) =
      f (i + 1) * (if i + 1 = m + 1 then (r (m + 1) - r m) / 2
      else (r (i + 1) - r i) / 2 + (r (i + 2) - r (i + 1)) / 2) := by
    intro i _
    simp [deltar]
  rw [Finset.sum_congr rfl h1, key]
  unfold trapezoid
  have h2 : m + 2 - 1 = m + 1 := by omega
  rw [h2]
  have h3 : ∑ i ∈ Finset.range (m + 1), (f i + f (i + 1)) / 2 * (r (i + 1) - r i) =
      ∑ i ∈ Finset.range (m + 1), f (i + 1) * ((r (i + 1) - r i) / 2)
      + ∑ i ∈ Finset.range (m + 1), f i * ((r (i + 1) - r i) / 2) := by
    rw [← Finset.sum_add_distrib]
    apply Finset.sum_congr rfl; intros; ring
  rw [h3, Finset.sum_range_succ' (fun i => f i * ((r (i + 1) - r i) / 2))]
  simp only [deltar, if_true, zero_add]
  ring

/-- The thrust (or torque) is the number of blades times the trapezoidal rule applied to the loading. -/
theorem C180_trapezoid (B : ℝ) (n Na : ℕ) (hn : 2 ≤ n) (r : ℕ → ℝ) (f : ℕ → ℕ → ℝ) :
    total false B n Na r f = B * trapezoid n r (fun i => f i 0) := by
  unfold total
  rw [← deltar_sum n hn]
  simp

/-- In the two-dimensional analysis the loading is first averaged over the azimuth. -/
theorem C180_azimuth (B : ℝ) (n Na : ℕ) (hn : 2 ≤ n) (r : ℕ → ℝ) (f : ℕ → ℕ → ℝ) :
    total true B n Na r f = B * trapezoid n r (fun i => (∑ j ∈ Finset.range Na, f i j) / Na) := by
  unfold total
  rw [← deltar_sum n hn]
  congr 1
  apply Finset.sum_congr rfl
  intro i _
  simp only [if_true, meanAz, ← Finset.sum_mul]
  ring

/-- A loading that does not depend on the azimuth gives the same total in both analyses. -/
theorem C180_axisymmetric (B : ℝ) (n Na : ℕ) (hn : 2 ≤ n) (hN : 0 < Na) (r : ℕ → ℝ) (f : ℕ → ℕ → ℝ)
    (h : ∀ i j, f i j = f i 0) : total true B n Na r f = total false B n Na r f := by
  rw [C180_azimuth B n Na hn, C180_trapezoid B n Na hn]
  congr 2
  funext i
  have : (Na : ℝ) ≠ 0 := by positivity
  rw [Finset.sum_congr rfl fun j _ => h i j]
  simp
  field_simp

/-- A loading linear in the radius is integrated exactly, whatever the spacing of the stations. -/
theorem C180_linear (B a b : ℝ) (n Na : ℕ) (hn : 2 ≤ n) (r : ℕ → ℝ) (f : ℕ → ℕ → ℝ) (h : ∀ i < n, f i 0 = a + b * r i) :
    total false B n Na r f = B * (a * (r (n - 1) - r 0) + b * (r (n - 1) ^ 2 - r 0 ^ 2) / 2) := by
  rw [C180_trapezoid B n Na hn]
  congr 1
  unfold trapezoid
  have h1 : ∀ i ∈ Finset.range (n - 1), (f i 0 + f (i + 1) 0) / 2 * (r (i + 1) - r i) =
      (fun i => a * r i + b * r i ^ 2 / 2) (i + 1) - (fun i => a * r i + b * r i ^ 2 / 2) i := by
    intro i hi
    have := Finset.mem_range.1 hi
    rw [h i (by omega), h (i + 1) (by omega)]
    ring
  rw [Finset.sum_congr rfl h1, Finset.sum_range_sub (fun i => a * r i + b * r i ^ 2 / 2)]
  ring

/-- The widths add up to the length of the blade that carries stations. -/
theorem C180_widths (n : ℕ) (hn : 2 ≤ n) (r : ℕ → ℝ) : ∑ i ∈ Finset.range n, deltar n r i = r (n - 1) - r 0 := by
  have := deltar_sum n hn r fun _ => 1
  simp only [one_mul] at this
  rw [this]
  unfold trapezoid
  rw [Finset.sum_congr rfl fun i _ => (by ring : ((1 : ℝ) + 1) / 2 * (r (i + 1) - r i) = r (i + 1) - r i),
    Finset.sum_range_sub]

/-- Bounds of the loading bound the thrust: stations outward, loading between `m` and `M`. -/
theorem C180_bounds (B m M : ℝ) (hB : 0 ≤ B) (n Na : ℕ) (hn : 2 ≤ n) (r : ℕ → ℝ) (hr : ∀ i, i + 1 < n → r i ≤ r (i + 1))
    (f : ℕ → ℕ → ℝ) (h : ∀ i < n, m ≤ f i 0 ∧ f i 0 ≤ M) :
    B * (m * (r (n - 1) - r 0)) ≤ total false B n Na r f ∧ total false B n Na r f ≤ B * (M * (r (n - 1) - r 0)) := by
  rw [C180_trapezoid B n Na hn]
  have hs : ∑ i ∈ Finset.range (n - 1), (r (i + 1) - r i) = r (n - 1) - r 0 := Finset.sum_range_sub r _
  unfold trapezoid
  constructor
  · apply mul_le_mul_of_nonneg_left _ hB
    rw [← hs, Finset.mul_sum]
    apply Finset.sum_le_sum
    intro i hi
    have hi := Finset.mem_range.1 hi
    have h1 := h i (by omega)
    have h2 := h (i + 1) (by omega)
    apply mul_le_mul_of_nonneg_right _ (sub_nonneg.2 (hr i (by omega)))
    linarith [h1.1, h2.1]
  · apply mul_le_mul_of_nonneg_left _ hB
    rw [← hs, Finset.mul_sum]
    apply Finset.sum_le_sum
    intro i hi
    have hi := Finset.mem_range.1 hi
    have h1 := h i (by omega)
    have h2 := h (i + 1) (by omega)
    apply mul_le_mul_of_nonneg_right _ (sub_nonneg.2 (hr i (by omega)))
    linarith [h1.2, h2.2]

example : total false 2 3 24 (fun i => (i : ℝ) + 1) (fun i _ => (i : ℝ) + 1) = 8 := by
  rw [C180_linear 2 0 1 3 24 (by norm_num) _ _ (by intros; ring)]
  norm_num

/-! ### Sums over the azimuth -/

theorem sum_cis (N : ℕ) (hN : 2 ≤ N) : ∑ j ∈ Finset.range N, Complex.exp ((azimuth N j : ℝ) * Complex.I) = 0 := by
  have hp := Complex.isPrimitiveRoot_exp N (by omega)
  have := hp.geom_sum_eq_zero (by omega)
  rw [← this]
  apply Finset.sum_congr rfl
  intro j _
  rw [← Complex.exp_nat_mul]
  congr 1
  unfold azimuth
  push_cast
  ring

theorem sum_cos (N : ℕ) (hN : 2 ≤ N) : ∑ j ∈ Finset.range N, cos (azimuth N j) = 0 := by
  have h := congrArg Complex.re (sum_cis N hN)
  rw [Complex.re_sum] at h
  simpa [Complex.exp_ofReal_mul_I_re] using h

theorem sum_sin (N : ℕ) (hN : 2 ≤ N) : ∑ j ∈ Finset.range N, sin (azimuth N j) = 0 := by
  have h := congrArg Complex.im (sum_cis N hN)
  rw [Complex.im_sum] at h
  simpa [Complex.exp_ofReal_mul_I_im] using h

/-- Without azimuthal variation of the section coefficients there is no in-plane force: the one-dimensional analysis reports
none. -/
theorem C180_no_rotor_drag (B ρ ω : ℝ) (n Na : ℕ) (hN : 2 ≤ Na) (r c : ℕ → ℝ) (Cl Cd : ℕ → ℕ → ℝ) :
    rotorDrag false B ρ ω n Na r c Cl Cd = 0 := by
  unfold rotorDrag meanAz
  rw [Finset.sum_eq_zero, mul_zero]
  intro i _
  simp only [Bool.false_eq_true, if_false]
  rw [Finset.sum_add_distrib, ← Finset.mul_sum, ← Finset.mul_sum, sum_sin Na hN, sum_cos Na hN]
  simp

/-- Blades without lift whose sections have more drag on the advancing side (positive sine of the azimuth) than on the retreating one
are held back: the in-plane force is positive. -/
theorem C180_rotor_drag_sign (B ρ ω : ℝ) (n Na : ℕ) (hn : 0 < n) (hN : 3 ≤ Na) (r c : ℕ → ℝ) (Cd : ℕ → ℕ → ℝ) (K : ℕ → ℝ) (hB : 0 < B) (hρ : 0 < ρ)
    (hω : ω ≠ 0) (hr : ∀ i < n, 0 < r i) (hc : ∀ i < n, 0 < c i) (hd : ∀ i < n, 0 < deltar n r i)
    (hadv : ∀ i < n, ∀ j < Na, 0 < sin (azimuth Na j) → K i < Cd i j) (hret : ∀ i < n, ∀ j < Na, sin (azimuth Na j) < 0 → Cd i j ≤ K i) :
    0 < rotorDrag true B ρ ω n Na r c (fun _ _ => 0) Cd := by
  have hNp : (0 : ℝ) < Na := by exact_mod_cast (by omega : 0 < Na)
  unfold rotorDrag meanAz
  apply mul_pos hB
  apply Finset.sum_pos
  · intro i hi
    have hi' := Finset.mem_range.mp hi
    apply div_pos _ hNp
    simp only [if_true, mul_zero, zero_mul, add_zero]
    obtain ⟨W, hW⟩ : ∃ W, W = 0.5 * ρ * c i * (ω * r i) ^ 2 * deltar n r i := ⟨_, rfl⟩
    have hW0 : 0 < W := by
      have := hr i hi'; have := hc i hi'; have := hd i hi'
      have : 0 < (ω * r i) ^ 2 := by have : ω * r i ≠ 0 := mul_ne_zero hω (hr i hi').ne'; positivity
      rw [hW]; positivity
    have e : ∑ j ∈ Finset.range Na, 0.5 * ρ * c i * Cd i j * (ω * r i) ^ 2 * deltar n r i * sin (azimuth Na j)
        = W * ∑ j ∈ Finset.range Na, (Cd i j - K i) * sin (azimuth Na j) := by
      have h0 : ∑ j ∈ Finset.range Na, K i * sin (azimuth Na j) = 0 := by rw [← Finset.mul_sum, sum_sin Na (by omega), mul_zero]
      have h1 : ∑ j ∈ Finset.range Na, (Cd i j - K i) * sin (azimuth Na j) = ∑ j ∈ Finset.range Na, Cd i j * sin (azimuth Na j) := by
        rw [← sub_zero (∑ j ∈ Finset.range Na, Cd i j * sin (azimuth Na j)), ← h0, ← Finset.sum_sub_distrib]
        apply Finset.sum_congr rfl; intro j _; ring
      rw [h1, Finset.mul_sum]
      apply Finset.sum_congr rfl
      intro j _
      rw [hW]; ring
    rw [e]
    apply mul_pos hW0
    apply Finset.sum_pos'
    · intro j hj
      have hj' := Finset.mem_range.mp hj
      rcases lt_trichotomy (sin (azimuth Na j)) 0 with h | h | h
      · exact mul_nonneg_of_nonpos_of_nonpos (by linarith [hret i hi' j hj' h]) h.le
      · rw [h, mul_zero]
      · exact mul_nonneg (by linarith [hadv i hi' j hj' h]) h.le
    · have hs : 0 < sin (azimuth Na 1) := by
        apply sin_pos_of_pos_of_lt_pi
        · have := pi_pos; unfold azimuth; push_cast; positivity
        · have h3 : (3 : ℝ) ≤ Na := by exact_mod_cast hN
          have := pi_pos
          unfold azimuth
          rw [show (2 * π * ((1 : ℕ) : ℝ) / Na) = 2 * π / Na by push_cast; ring] <;> rw [div_lt_iff₀ hNp] <;> nlinarith
      exact ⟨1, Finset.mem_range.mpr (by omega), mul_pos (by linarith [hadv i hi' 1 (by omega) hs]) hs⟩
  · exact ⟨0, Finset.mem_range.mpr hn⟩

/-- Stations at which the hypotheses hold: three azimuths, drag growing with the sine. -/
example : ∀ j, 0 < sin (azimuth 3 j) → (1 : ℝ) < 1 + sin (azimuth 3 j) := by intro j h; linarith

/-! ### C181: velocities seen by the blade -/

/-- Speed of the cross flow: if the rotor frame is turned so that one of the two components vanishes, the tangential and radial
velocities are its components in a rotated frame.  Missing: cross flow with both components, where this is false (see
the counterexample: the sign of line 322 makes the radial direction not normal to the tangential one). -/
theorem C181_crossflow_partial (f : Flow) (ψ : ℝ) (h : f.y = 0 ∨ f.z = 0) :
    crossT f ψ ^ 2 + crossR f ψ ^ 2 = f.y ^ 2 + f.z ^ 2 := by
  have h1 := sin_sq_add_cos_sq ψ
  unfold crossT crossR
  rcases h with h | h
  · rw [h]; linear_combination f.z ^ 2 * h1
  · rw [h]; linear_combination f.y ^ 2 * h1

/-- With both components the speed is wrong by `4 y z sin ψ cos ψ`. -/
theorem C181_crossflow_error (f : Flow) (ψ : ℝ) :
    crossT f ψ ^ 2 + crossR f ψ ^ 2 = f.y ^ 2 + f.z ^ 2 + 4 * f.y * f.z * sin ψ * cos ψ := by
  have h1 := sin_sq_add_cos_sq ψ
  unfold crossT crossR
  linear_combination (f.y ^ 2 + f.z ^ 2) * h1

/-- A cross flow of speed `√2` is seen with speed 2 by the blade at 45 degrees. -/
theorem C181_crossflow_counterexample :
    ¬ ∀ (f : Flow) (ψ : ℝ), crossT f ψ ^ 2 + crossR f ψ ^ 2 = f.y ^ 2 + f.z ^ 2 := by
  intro H
  have h := H ⟨0, 1, 1⟩ (π / 4)
  rw [C181_crossflow_error] at h
  simp only [sin_pi_div_four, cos_pi_div_four] at h
  have : sqrt 2 * sqrt 2 = 2 := mul_self_sqrt (by norm_num)
  nlinarith

/-- Over one revolution the cross flow averages out: the mean tangential speed of a station is `ω r`. -/
theorem C181_mean (f : Flow) (rows : List Flow) (ω : ℝ) (r : ℕ → ℝ) (Na : ℕ) (hN : 2 ≤ Na) (i : ℕ) (b : Bool)
    (s : ℕ → ℕ → Seen) (u : Bool) (h : seen rows f false u none ω r Na = some (b, s)) :
    (∑ j ∈ Finset.range Na, (s i j).Ut) / Na = ω * r i := by
  have hN' : (Na : ℝ) ≠ 0 := by positivity
  simp only [seen, Bool.false_eq_true, if_false, Option.some.injEq, Prod.mk.injEq] at h
  obtain ⟨-, rfl⟩ := h
  have h0 : ∑ j ∈ Finset.range Na, ((if crossUsed rows u = true then crossT f (azimuth Na j) else 0) + 0) = 0 := by
    by_cases hc : crossUsed rows u = true
    · simp only [if_pos hc, add_zero, crossT]
      rw [Finset.sum_add_distrib, ← Finset.mul_sum, ← Finset.mul_sum, sum_sin Na hN, sum_cos Na hN]
      simp
    · simp [hc]
  show (∑ j ∈ Finset.range Na, (ω * r i - ((if crossUsed rows u = true then crossT f (azimuth Na j) else 0) + 0))) / Na = _
  rw [Finset.sum_sub_distrib, h0]
  simp
  field_simp

/-- The one-dimensional analysis sees the axial speed and the rotation only. -/
theorem C181_axial (f : Flow) (rows : List Flow) (ω : ℝ) (r : ℕ → ℝ) (Na i j : ℕ) :
    ∃ s, seen rows f false false none ω r Na = some (false, s) ∧ (s i j).Ua = axial f ∧ (s i j).Ut = ω * r i ∧
      (s i j).U ^ 2 = (s i j).Ua ^ 2 + (s i j).Ut ^ 2 := by
  refine ⟨_, by simp [seen, crossUsed]; rfl, ?_, ?_, ?_⟩
  · simp
  · simp
  · rw [sq_sqrt (by nlinarith [mul_self_nonneg (axial f), mul_self_nonneg (ω * r i)])]
    ring

/-- The axial speed is that of the rotor within a millionth of a metre per second and is never zero. -/
theorem C181_guard (f : Flow) : axial f ≠ 0 ∧ |axial f - f.x| ≤ 1e-6 ∧ (f.x ≠ 0 → axial f = f.x) := by
  unfold axial
  split_ifs with h
  · rw [h]; refine ⟨by norm_num, by norm_num [abs_of_pos], fun h => absurd rfl h⟩
  · refine ⟨h, by norm_num, fun _ => rfl⟩

/-- In the two-dimensional analysis without disturbances the total speed is that of the three components. -/
theorem C181_speed (f : Flow) (rows : List Flow) (hf : f ∈ rows) (ω : ℝ) (r : ℕ → ℝ) (Na i j : ℕ)
    (hc : 1e-3 < |f.y| ∨ 1e-3 < |f.z|) :
    ∃ s, seen rows f false true none ω r Na = some (true, s) ∧ (s i j).Ua = axial f ∧
      (s i j).Ut = ω * r i - crossT f (azimuth Na j) ∧
      (s i j).U ^ 2 = (s i j).Ua ^ 2 + (s i j).Ut ^ 2 + crossR f (azimuth Na j) ^ 2 := by
  have hcross : crossUsed rows true = true := by
    unfold crossUsed
    rw [Bool.and_true, Bool.or_eq_true, decide_eq_true_iff, decide_eq_true_iff]
    rcases hc with h | h
    · exact Or.inl ⟨f, hf, h⟩
    · exact Or.inr ⟨f, hf, h⟩
  refine ⟨_, by simp [seen, hcross]; rfl, ?_, ?_, ?_⟩
  · simp
  · simp
  · rw [sq_sqrt (by nlinarith [mul_self_nonneg (axial f), mul_self_nonneg (ω * r i - crossT f (azimuth Na j)),
      mul_self_nonneg (crossR f (azimuth Na j))])]
    ring

/-- A nonuniform freestream is added to what the one-dimensional analysis sees, and makes the analysis two dimensional. -/
theorem C181_nonuniform (f : Flow) (rows : List Flow) (d : Disturbance) (ω : ℝ) (r : ℕ → ℝ) (Na i j : ℕ) :
    ∃ s, seen rows f false false (some d) ω r Na = some (true, s) ∧ (s i j).Ua = axial f + d.a i j ∧
      (s i j).Ut = ω * r i - d.t i j ∧
      (s i j).U ^ 2 = (s i j).Ua ^ 2 + (s i j).Ut ^ 2 + d.r i j ^ 2 := by
  refine ⟨_, by simp [seen, crossUsed]; rfl, ?_, ?_, ?_⟩
  · simp
  · simp
  · rw [sq_sqrt (by nlinarith [mul_self_nonneg (axial f + d.a i j), mul_self_nonneg (ω * r i - d.t i j),
      mul_self_nonneg (d.r i j)])]
    ring

/-- The cross flow is considered before a nonuniform freestream switches to the two-dimensional analysis: with
`use_2d_analysis` left off and an undisturbed (zero) nonuniform freestream the blades do not see the cross flow, although
the analysis is two dimensional. -/
theorem C181_nonuniform_counterexample :
    ¬ ∀ (f : Flow) (rows : List Flow) (u : Bool) (d : Disturbance) (ω : ℝ) (r : ℕ → ℝ) (Na i j : ℕ) (s : ℕ → ℕ → Seen),
      f ∈ rows → (1e-3 < |f.y| ∨ 1e-3 < |f.z|) → seen rows f false u (some d) ω r Na = some (true, s) →
      (s i j).Ut = ω * r i - crossT f (azimuth Na j) - d.t i j := by
  intro H
  obtain ⟨s, hs, -, ht, -⟩ := C181_nonuniform ⟨1, 1, 0⟩ [⟨1, 1, 0⟩] ⟨fun _ _ => 0, fun _ _ => 0, fun _ _ => 0⟩ 0
    (fun _ => 0) 1 0 0
  have h := H _ _ _ _ _ _ _ 0 0 s (List.mem_singleton.2 rfl) (Or.inl (by norm_num)) hs
  rw [ht] at h
  simp [crossT, azimuth] at h

/-- Swept blades cannot be analysed: line 296 raises an exception. -/
theorem C181_swept_counterexample :
    ¬ ∀ (rows : List Flow) (f : Flow) (swept u : Bool) (ω : ℝ) (r : ℕ → ℝ) (Na : ℕ),
      (seen rows f swept u none ω r Na).isSome := by
  intro H
  simpa [seen] using H [] ⟨1, 0, 0⟩ true false 1 (fun _ => 1) 24

/-! ### C182: induced velocity -/

/-- Momentum: without radial flow the induced velocity is normal to the velocity at the disc, for every value of the wake
parameter. -/
theorem C182_orthogonal (s : Seen) (hU : s.U ^ 2 = s.Ua ^ 2 + s.Ut ^ 2) (ψ : ℝ) :
    (induced s ψ).1 * (wake s ψ).1 = (induced s ψ).2 * (wake s ψ).2 := by
  have h1 := sin_sq_add_cos_sq ψ
  simp only [induced, wake]
  linear_combination (s.U ^ 2 / 4) * h1 + hU / 4

/-- What the blade feels is what it sees plus the induced velocity. -/
theorem C182_velocities (s : Seen) (ψ : ℝ) :
    (wake s ψ).1 = s.Ua + (induced s ψ).1 ∧ (wake s ψ).2 = s.Ut - (induced s ψ).2 := by
  simp only [induced]
  constructor <;> ring

/-- No solution is lost: every velocity at the disc that meets the momentum relation belongs to some wake parameter. -/
theorem C182_complete (s : Seen) (hU : s.U ^ 2 = s.Ua ^ 2 + s.Ut ^ 2) (hp : 0 < s.U) (Wa Wt : ℝ)
    (h : (Wa - s.Ua) * Wa = (s.Ut - Wt) * Wt) : ∃ ψ, wake s ψ = (Wa, Wt) := by
  have hc : ((2 * Wt - s.Ut) / s.U) ^ 2 + ((2 * Wa - s.Ua) / s.U) ^ 2 = 1 := by
    rw [div_pow, div_pow, ← add_div, div_eq_one_iff_eq (by positivity)]
    linear_combination 4 * h - hU
  let z : ℂ := ⟨(2 * Wt - s.Ut) / s.U, (2 * Wa - s.Ua) / s.U⟩
  have hz : ‖z‖ = 1 := by
    rw [Complex.norm_def, Complex.normSq_apply]
    rw [sqrt_eq_one]
    show (2 * Wt - s.Ut) / s.U * ((2 * Wt - s.Ut) / s.U) + (2 * Wa - s.Ua) / s.U * ((2 * Wa - s.Ua) / s.U) = 1
    linear_combination hc
  have hz0 : z ≠ 0 := by
    intro h0; rw [h0] at hz; simp at hz
  refine ⟨Complex.arg z, ?_⟩
  have hs : sin (Complex.arg z) = (2 * Wa - s.Ua) / s.U := by
    rw [Complex.sin_arg, hz, div_one]
  have hcs : cos (Complex.arg z) = (2 * Wt - s.Ut) / s.U := by
    rw [Complex.cos_arg hz0, hz, div_one]
  simp only [wake, hs, hcs]
  have := hp.ne'
  ext
  · simp only; field_simp; ring
  · simp only; field_simp; ring

/-- With radial flow the relation is missed by a quarter of the square of the radial velocity. -/
theorem C182_radial (s : Seen) (ur : ℝ) (hU : s.U ^ 2 = s.Ua ^ 2 + s.Ut ^ 2 + ur ^ 2) (ψ : ℝ) :
    (induced s ψ).1 * (wake s ψ).1 - (induced s ψ).2 * (wake s ψ).2 = ur ^ 2 / 4 := by
  have h1 := sin_sq_add_cos_sq ψ
  simp only [induced, wake]
  linear_combination (s.U ^ 2 / 4) * h1 + hU / 4

/-- So the momentum relation is false for the two-dimensional analysis in cross flow. -/
theorem C182_orthogonal_counterexample :
    ¬ ∀ (rows : List Flow) (f : Flow) (ω : ℝ) (r : ℕ → ℝ) (Na i j : ℕ) (s : ℕ → ℕ → Seen) (ψ : ℝ), f ∈ rows →
      seen rows f false true none ω r Na = some (true, s) →
      (induced (s i j) ψ).1 * (wake (s i j) ψ).1 = (induced (s i j) ψ).2 * (wake (s i j) ψ).2 := by
  intro H
  obtain ⟨s, hs, -, -, hU⟩ := C181_speed ⟨1, 0, 1⟩ [⟨1, 0, 1⟩] (List.mem_singleton.2 rfl) 1 (fun _ => 1) 1 0 0
    (Or.inr (by norm_num))
  have h := H _ _ _ _ _ 0 0 s 0 (List.mem_singleton.2 rfl) hs
  have h2 := C182_radial _ _ hU 0
  rw [h] at h2
  simp [crossR, azimuth] at h2

/-- At a root the circulation of the wake is that with which `spin` loads the blade. -/
theorem C182_converged (s : Seen) (r R B c : ℝ) (cl : ℝ → ℝ → ℝ) (ψ : ℝ) (h : residual s r R B c cl ψ = 0) :
    bladeGamma (wake s ψ).1 (wake s ψ).2 c (cl (wake s ψ).1 (wake s ψ).2) =
      (induced s ψ).2 * (4 * π * r / B) * tipLoss r R (inflow r R (wake s ψ).1 (wake s ψ).2) B *
        sqrt (1 + (4 * inflow r R (wake s ψ).1 (wake s ψ).2 * R / (π * B * r)) ^ 2) := by
  unfold residual wakeGamma at h
  rw [pow_two]
  linarith

/-- A blade without circulation, away from the tip, has no swirl; without radial flow it has no axial induction either
unless the flow at the disc stands still axially. -/
theorem C182_unloaded (s : Seen) (hU : s.U ^ 2 = s.Ua ^ 2 + s.Ut ^ 2) (r R B c : ℝ) (hr : 0 < r) (hB : 0 < B)
    (cl : ℝ → ℝ → ℝ) (ψ : ℝ) (h : residual s r R B c cl ψ = 0)
    (hF : tipLoss r R (inflow r R (wake s ψ).1 (wake s ψ).2) B ≠ 0)
    (h0 : bladeGamma (wake s ψ).1 (wake s ψ).2 c (cl (wake s ψ).1 (wake s ψ).2) = 0) :
    (induced s ψ).2 = 0 ∧ ((induced s ψ).1 = 0 ∨ (wake s ψ).1 = 0) := by
  have h1 := C182_converged s r R B c cl ψ h
  rw [h0] at h1
  have hs : sqrt (1 + (4 * inflow r R (wake s ψ).1 (wake s ψ).2 * R / (π * B * r)) ^ 2) ≠ 0 :=
    (sqrt_pos.2 (by positivity)).ne'
  have hk : 4 * π * r / B ≠ 0 := by positivity
  have hv : (induced s ψ).2 = 0 := by
    rcases mul_eq_zero.1 h1.symm with h2 | h2
    · rcases mul_eq_zero.1 h2 with h3 | h3
      · rcases mul_eq_zero.1 h3 with h4 | h4
        · exact h4
        · exact absurd h4 hk
      · exact absurd h3 hF
    · exact absurd h2 hs
  refine ⟨hv, ?_⟩
  have h5 := C182_orthogonal s hU ψ
  rw [hv, zero_mul] at h5
  exact mul_eq_zero.1 h5

/-- The velocity at the disc never exceeds what the blade sees, and neither does the induced one. -/
theorem C182_bounds (s : Seen) (hU : s.U ^ 2 = s.Ua ^ 2 + s.Ut ^ 2) (ψ : ℝ) :
    (wake s ψ).1 ^ 2 + (wake s ψ).2 ^ 2 + ((induced s ψ).1 ^ 2 + (induced s ψ).2 ^ 2) = s.U ^ 2 := by
  have h1 := sin_sq_add_cos_sq ψ
  simp only [induced, wake]
  linear_combination (s.U ^ 2 / 2) * h1 - hU / 2

example : (induced ⟨3, 4, 5⟩ (π / 2)).1 = 1 ∧ (induced ⟨3, 4, 5⟩ (π / 2)).2 = 2 := by
  simp [induced, wake]; norm_num

/-! ### C183: power balance -/

/-- At one station: shaft power = propulsive power + drag of the section times its speed + power in the induced
velocities. -/
theorem C183_station (ρ V ω r c Cl Cd : ℝ) (hCl : Cl ≠ 0) (ψ : ℝ) (s : Seen) (hs : s.Ua = V ∧ s.Ut = ω * r)
    (hU : s.U ^ 2 = s.Ua ^ 2 + s.Ut ^ 2) :
    ω * (load ρ c r (wake s ψ).1 (wake s ψ).2 Cl Cd).dQ =
      V * (load ρ c r (wake s ψ).1 (wake s ψ).2 Cl Cd).dT
      + 0.5 * ρ * sqrt ((wake s ψ).1 * (wake s ψ).1 + (wake s ψ).2 * (wake s ψ).2) ^ 3 * c * Cd
      + ρ * bladeGamma (wake s ψ).1 (wake s ψ).2 c Cl *
        ((induced s ψ).2 * (wake s ψ).1 + (induced s ψ).1 * (wake s ψ).2) := by
  have ho := C182_orthogonal s hU ψ
  obtain ⟨hwa, hwt⟩ := C182_velocities s ψ
  obtain ⟨h1, h2⟩ := hs
  rw [h1] at hwa
  rw [h2] at hwt
  have hW : sqrt ((wake s ψ).1 * (wake s ψ).1 + (wake s ψ).2 * (wake s ψ).2) ^ 2 =
      (wake s ψ).1 * (wake s ψ).1 + (wake s ψ).2 * (wake s ψ).2 :=
    sq_sqrt (add_nonneg (mul_self_nonneg _) (mul_self_nonneg _))
  unfold load bladeGamma
  simp only
  generalize sqrt ((wake s ψ).1 * (wake s ψ).1 + (wake s ψ).2 * (wake s ψ).2) = W at *
  generalize (wake s ψ).1 = Wa at *
  generalize (wake s ψ).2 = Wt at *
  generalize (induced s ψ).1 = va at *
  generalize (induced s ψ).2 = vt at *
  have e1 : V = Wa - va := by linarith
  have e2 : ω * r = Wt + vt := by linarith
  have e3 : ω * (ρ * (0.5 * W * c * Cl * (Wa + Cd / Cl * Wt) * r)) =
      ρ * (0.5 * W * c * Cl * (Wa + Cd / Cl * Wt)) * (Wt + vt) := by rw [← e2]; ring
  rw [e3, e1]
  obtain ⟨ε, hε⟩ : ∃ ε, Cd = ε * Cl := ⟨Cd / Cl, by field_simp⟩
  have hε' : Cd / Cl = ε := by rw [hε]; field_simp
  rw [hε', hε]
  linear_combination (-(ρ * W * c * ε * Cl) / 2) * hW - (ρ * W * c * ε * Cl / 2) * ho

end Verif.Rotor
