import Verif.Rotor.PowerProps
import Mathlib.Analysis.SpecialFunctions.Complex.Arctan
import Mathlib.Analysis.Real.Pi.Bounds

/-! Section coefficients and tip loss of rotors (C186, C187). -/

namespace Verif.Rotor
open Real

/-! ### C186: lift and drag of the default section -/

/-- In subsonic flow the correction is the Karman-Tsien rule, written with `β = √(1-M²)`. -/
theorem C186_karman_tsien (Ma Cl : ℝ) (h0 : 0 ≤ Ma) (h1 : Ma < 1) (hC : 0 < Cl) :
    karmanTsien Ma Cl = Cl / (sqrt (1 - Ma ^ 2) + (1 - sqrt (1 - Ma ^ 2)) * Cl / 2) := by
  unfold karmanTsien
  rw [if_pos ⟨h1, hC⟩, ← pow_two]
  have hp : 0 < 1 - Ma ^ 2 := by nlinarith
  have hs : sqrt (1 - Ma ^ 2) ^ 2 = 1 - Ma ^ 2 := sq_sqrt hp.le
  have hb := sqrt_pos.2 hp
  generalize sqrt (1 - Ma ^ 2) = b at *
  have : Ma ^ 2 / (1 + b) = 1 - b := by
    rw [div_eq_iff (by positivity)]
    linear_combination hs
  rw [this]

/-- It leaves incompressible flow alone, keeps the sign of the lift, and raises lift coefficients up to two. -/
theorem C186_compressible (Ma Cl : ℝ) (h0 : 0 ≤ Ma) (h1 : Ma < 1) :
    karmanTsien 0 Cl = Cl ∧ (0 < Cl → 0 < karmanTsien Ma Cl) ∧ (Cl ≤ 0 → karmanTsien Ma Cl = Cl) ∧
      (Cl ≤ 2 → Cl ≤ karmanTsien Ma Cl) := by
  have hp : 0 < 1 - Ma ^ 2 := by nlinarith
  have hb := sqrt_pos.2 hp
  have hb1 : sqrt (1 - Ma ^ 2) ≤ 1 := by
    rw [sqrt_le_one]; nlinarith
  have hneg : Cl ≤ 0 → karmanTsien Ma Cl = Cl := by
    intro h
    unfold karmanTsien
    rw [if_neg (fun h2 => absurd h2.2 (not_lt.2 h))]
  have hpos : 0 < Cl → 0 < sqrt (1 - Ma ^ 2) + (1 - sqrt (1 - Ma ^ 2)) * Cl / 2 := by
    intro h
    have : 0 ≤ (1 - sqrt (1 - Ma ^ 2)) * Cl := mul_nonneg (by linarith) h.le
    linarith
  refine ⟨?_, ?_, hneg, ?_⟩
  · unfold karmanTsien
    split_ifs <;> simp
  · intro h
    rw [C186_karman_tsien Ma Cl h0 h1 h]
    exact div_pos h (hpos h)
  · intro h2
    by_cases h : 0 < Cl
    · rw [C186_karman_tsien Ma Cl h0 h1 h, le_div_iff₀ (hpos h)]
      have : sqrt (1 - Ma ^ 2) + (1 - sqrt (1 - Ma ^ 2)) * Cl / 2 ≤ 1 := by nlinarith
      nlinarith
    · rw [hneg (not_lt.1 h)]

/-- The correction keeps the order of lift coefficients, also across zero. -/
theorem C186_compressible_mono (Ma x y : ℝ) (h0 : 0 ≤ Ma) (h1 : Ma < 1) (h : x ≤ y) :
    karmanTsien Ma x ≤ karmanTsien Ma y := by
  by_cases hy : 0 < y
  · by_cases hx : 0 < x
    · have hp : 0 < 1 - Ma ^ 2 := by nlinarith
      have hb := sqrt_pos.2 hp
      have hb1 : sqrt (1 - Ma ^ 2) ≤ 1 := by rw [sqrt_le_one]; nlinarith
      rw [C186_karman_tsien Ma x h0 h1 hx, C186_karman_tsien Ma y h0 h1 hy]
      generalize sqrt (1 - Ma ^ 2) = b at *
      have hk : 0 ≤ 1 - b := by linarith
      have d1 : 0 < b + (1 - b) * x / 2 := by positivity
      have d2 : 0 < b + (1 - b) * y / 2 := by positivity
      rw [div_le_div_iff₀ d1 d2]
      nlinarith
    · rw [(C186_compressible Ma x h0 h1).2.2.1 (not_lt.1 hx)]
      exact (not_lt.1 hx).trans ((C186_compressible Ma y h0 h1).2.1 hy).le
  · rw [(C186_compressible Ma x h0 h1).2.2.1 (h.trans (not_lt.1 hy)), (C186_compressible Ma y h0 h1).2.2.1 (not_lt.1 hy)]
    exact h

/-- Below the stall the lift slope is 2π (corrected for compressibility), with the sign of the angle. -/
theorem C186_linear (tc α Ma Re : ℝ) (hs : 2 * π * α ≤ clMax tc Re) (hα : α < π / 2) :
    clDefault tc α Ma Re = karmanTsien Ma (2 * π * α) := by
  simp [clDefault, if_neg (not_lt.2 hs), if_neg (not_le.2 hα)]

/-- Positive stall: no angle gives more lift than the maximum. -/
theorem C186_stall (tc α Ma Re : ℝ) (h0 : 0 ≤ Ma) (h1 : Ma < 1) (hRe : 0 ≤ Re) :
    clDefault tc α Ma Re ≤ karmanTsien Ma (clMax tc Re) := by
  have hmax : 0 ≤ clMax tc Re := by
    unfold clMax
    have : (0 : ℝ) ≤ (Re / (9 * 10 ^ 6)) ^ (0.1 : ℝ) := rpow_nonneg (by positivity) _
    apply mul_nonneg _ this
    split_ifs with h
    · norm_num
    · linarith [not_lt.1 h]
  unfold clDefault
  apply C186_compressible_mono Ma _ _ h0 h1
  split_ifs with ha hb
  · exact hmax
  · exact le_rfl
  · linarith

/-- Negative stall is missing: at minus one radian the lift coefficient is still `2π` times the angle. -/
theorem C186_negative_stall_counterexample :
    ¬ ∀ (tc α Ma Re : ℝ), 0 ≤ Ma → Ma < 1 → 0 ≤ Re → -karmanTsien Ma (clMax tc Re) ≤ clDefault tc α Ma Re := by
  intro H
  have h := H 0 (-1) 0 (9 * 10 ^ 6) le_rfl (by norm_num) (by norm_num)
  have hm : clMax 0 (9 * 10 ^ 6) = 0.7005 := by
    unfold clMax
    norm_num
  have hπ := pi_gt_three
  rw [C186_linear 0 (-1) 0 _ (by rw [hm]; linarith) (by linarith), (C186_compressible 0 _ le_rfl (by norm_num)).1,
    (C186_compressible 0 _ le_rfl (by norm_num)).1, hm] at h
  linarith

/-- The largest lift grows with the Reynolds number. -/
theorem C186_reynolds (tc Re Re' : ℝ) (h0 : 0 ≤ Re) (h : Re ≤ Re') : clMax tc Re ≤ clMax tc Re' := by
  unfold clMax
  apply mul_le_mul_of_nonneg_left
  · apply rpow_le_rpow (by positivity) (by linarith) (by norm_num)
  · split_ifs with h
    · norm_num
    · linarith [not_lt.1 h]

/-- The drag polar is positive everywhere. -/
theorem C186_polar_pos (x : ℝ) : 0 < polar x := by
  unfold polar
  nlinarith [sq_nonneg (x * (x - 1.2)), sq_nonneg (x - 0.3), sq_nonneg x, sq_nonneg (x * (x - 1.209)), sq_nonneg (x ^ 2)]

/-- Drag is positive; attached it falls with the Reynolds number as its fifth root. -/
theorem C186_drag (α Re Cl : ℝ) (hRe : 0 < Re) :
    0 < cdDefault α Re Cl ∧ (α < π / 2 → cdDefault α (32 * Re) Cl = cdDefault α Re Cl / 2) := by
  have hp := C186_polar_pos Cl
  constructor
  · unfold cdDefault
    split_ifs
    · norm_num
    · have : (0 : ℝ) < (50000 / Re) ^ (0.2 : ℝ) := rpow_pos_of_pos (by positivity) _
      positivity
  · intro h
    unfold cdDefault
    rw [if_neg (not_le.2 h), if_neg (not_le.2 h)]
    have e : 50000 / (32 * Re) = 50000 / Re / 32 := by field_simp
    rw [e, div_rpow (by positivity) (by norm_num)]
    have : (32 : ℝ) ^ (0.2 : ℝ) = 2 := by
      rw [show (32 : ℝ) = 2 ^ (5 : ℝ) by norm_num, ← rpow_mul (by norm_num)]
      norm_num
    rw [this]
    ring

/-- The reported lift coefficient is never zero, so the ratio of drag to lift exists; it differs from the section's by at most
a millionth. -/
theorem C186_nonzero (Cl : ℝ) : nonzero Cl ≠ 0 ∧ |nonzero Cl - Cl| ≤ 1e-6 := by
  unfold nonzero
  split_ifs with h
  · subst h
    norm_num
  · refine ⟨h, ?_⟩
    norm_num

/-- The angle of attack is measured from the velocity at the disc: turning the blade by `x` adds `x`. -/
theorem C186_angle (β x c Wa Wt a ν tc : ℝ) :
    (sectionDefault (β + x) c Wa Wt a ν tc).α = (sectionDefault β c Wa Wt a ν tc).α + x ∧
      (0 < Wt → (sectionDefault β c Wa Wt a ν tc).α = β - arctan (Wa / Wt)) ∧
      (sectionDefault β c Wa Wt a ν tc).W ^ 2 = Wa ^ 2 + Wt ^ 2 := by
  simp only [sectionDefault]
  refine ⟨by ring, fun h => ?_, ?_⟩
  · rw [Complex.arg_of_re_nonneg (x := ⟨Wt, Wa⟩) h.le, arctan_eq_arcsin]
    congr 2
    rw [Complex.norm_def, Complex.normSq_apply]
    have e : (Wt * Wt + Wa * Wa) = Wt ^ 2 * (1 + (Wa / Wt) ^ 2) := by field_simp
    show Wa / sqrt (Wt * Wt + Wa * Wa) = _
    rw [e, sqrt_mul (by positivity), sqrt_sq h.le]
    field_simp
  · rw [sq_sqrt (by nlinarith [mul_self_nonneg Wa, mul_self_nonneg Wt])]
    ring

/-- Compressibility never raises the friction: the factor lies between zero and one and is one at rest. -/
theorem C186_drag_factor (T Ma : ℝ) (hT : 0 < T) :
    0 < dragFactor T Ma ∧ dragFactor T Ma ≤ 1 ∧ dragFactor T 0 = 1 := by
  have hm := mul_self_nonneg Ma
  have hTp : 1 ≤ 1 + 0.035 * (Ma * Ma) + 0.45 * (1 + 1.78 * (Ma * Ma) - 1) := by linarith
  have hform : dragFactor T Ma = (fun Tp => 1 / Tp * (1 / (Tp ^ (2.5 : ℝ) * (Tp * T + 110.4) / (T + 110.4))) ^ (0.2 : ℝ))
      (1 + 0.035 * (Ma * Ma) + 0.45 * (1 + 1.78 * (Ma * Ma) - 1)) := rfl
  have hz : dragFactor T 0 = 1 := by
    unfold dragFactor
    have : T + 552 / 5 ≠ 0 := by positivity
    norm_num
    rw [div_self this]
    norm_num
  refine ⟨?_, ?_, hz⟩
  · rw [hform]
    generalize 1 + 0.035 * (Ma * Ma) + 0.45 * (1 + 1.78 * (Ma * Ma) - 1) = Tp at *
    have : 0 < Tp := by linarith
    simp only
    positivity
  · rw [hform]
    generalize 1 + 0.035 * (Ma * Ma) + 0.45 * (1 + 1.78 * (Ma * Ma) - 1) = Tp at *
    have hp : 0 < Tp := by linarith
    have h1 : 1 ≤ Tp ^ (2.5 : ℝ) := one_le_rpow hTp (by norm_num)
    have h2 : 1 ≤ Tp ^ (2.5 : ℝ) * (Tp * T + 110.4) / (T + 110.4) := by
      rw [le_div_iff₀ (by positivity), one_mul]
      have : T + 110.4 ≤ Tp * T + 110.4 := by nlinarith
      nlinarith
    have h3 : (1 / (Tp ^ (2.5 : ℝ) * (Tp * T + 110.4) / (T + 110.4))) ^ (0.2 : ℝ) ≤ 1 := by
      apply rpow_le_one (by positivity) _ (by norm_num)
      rw [div_le_one (by linarith)]
      exact h2
    have h4 : 0 ≤ (1 / (Tp ^ (2.5 : ℝ) * (Tp * T + 110.4) / (T + 110.4))) ^ (0.2 : ℝ) := by positivity
    have h5 : 1 / Tp ≤ 1 := by rw [div_le_one hp]; exact hTp
    have h6 : 0 < 1 / Tp := by positivity
    simp only
    nlinarith

/-- Each radial station stalls according to its own thickness in the one-dimensional analysis.  Missing: the
two-dimensional analysis, see the counterexamples. -/
theorem C186_thickness_partial (Nr Na : ℕ) (tc : ℕ → ℝ) (i j : ℕ) : thicknessAt false Nr Na tc i j = some (tc i) := by
  simp [thicknessAt]

/-- In the two-dimensional analysis with as many azimuthal as radial stations, a section stalls according to the thickness at
the radius whose number is that of its azimuth. -/
theorem C186_thickness_counterexample :
    ¬ ∀ (Nr Na : ℕ) (tc : ℕ → ℝ) (i j : ℕ) (t : ℝ), i < Nr → j < Na → thicknessAt true Nr Na tc i j = some t → t = tc i := by
  intro H
  have h := H 2 2 (fun k => k) 0 1 1 (by norm_num) (by norm_num) (by simp [thicknessAt])
  norm_num at h

/-- With different numbers of stations (the default 24 azimuths and 20 radii) the two-dimensional analysis of the default
section fails. -/
theorem C186_fails (Nr Na : ℕ) (h : Nr ≠ Na) (h1 : Nr ≠ 1) (h2 : Na ≠ 1) (tc : ℕ → ℝ) (i j : ℕ) :
    thicknessAt true Nr Na tc i j = none := by
  simp [thicknessAt, h, h1, h2]

example : thicknessAt true 20 24 (fun _ => 0.12) 3 4 = none := C186_fails 20 24 (by norm_num) (by norm_num) (by norm_num) _ _ _

/-! ### C187: tip loss -/

/-- The inflow ratio used in the tip loss is positive. -/
theorem C187_inflow (r R Wa Wt : ℝ) :
    0 < inflow r R Wa Wt ∧ (0 < r → 0 < R → 0 < Wa → 0 < Wt → inflow r R Wa Wt * (R * Wt) = r * Wa) := by
  unfold inflow
  constructor
  · split_ifs with h
    · norm_num
    · exact not_le.1 h
  · intro h1 h2 h3 h4
    rw [if_neg (not_le.2 (by positivity))]
    field_simp

theorem tipPiece_mem (r R lam B : ℝ) (hr : 0 < r) (hR : r ≤ R) (hl : 0 < lam) (hB : 0 ≤ B) :
    0 < tipPiece r R lam B ∧ tipPiece r R lam B ≤ 1 := by
  unfold tipPiece
  refine ⟨exp_pos _, ?_⟩
  rw [exp_le_one_iff, neg_nonpos]
  have : 0 ≤ R / r - 1 := by
    rw [sub_nonneg, le_div_iff₀ hr]; linarith
  positivity

/-- The tip loss factor lies between zero and one. -/
theorem C187_range (r R lam B : ℝ) (hr : 0 < r) (hR : r ≤ R) (hl : 0 < lam) (hB : 0 ≤ B) :
    0 ≤ tipLoss r R lam B ∧ tipLoss r R lam B < 1 := by
  obtain ⟨h1, -⟩ := tipPiece_mem r R lam B hr hR hl hB
  have hπ := pi_pos
  unfold tipLoss
  constructor
  · have := arccos_nonneg (tipPiece r R lam B)
    positivity
  · rw [div_lt_one hπ]
    have := arccos_lt_pi_div_two.2 h1
    linarith

/-- At the tip it is zero, inside it is positive. -/
theorem C187_tip (r R lam B : ℝ) (hr : 0 < r) (hl : 0 < lam) (hB : 0 < B) :
    tipLoss r r lam B = 0 ∧ (r < R → 0 < tipLoss r R lam B) := by
  constructor
  · unfold tipLoss tipPiece
    rw [div_self hr.ne']
    simp
  · intro h
    unfold tipLoss
    have : tipPiece r R lam B < 1 := by
      unfold tipPiece
      rw [exp_lt_one_iff, neg_lt_zero]
      have : 0 < R / r - 1 := by
        rw [sub_pos, lt_div_iff₀ hr]; linarith
      positivity
    have := arccos_pos.2 this
    have := pi_pos
    positivity

/-- Towards the tip the factor falls; with more blades, or less inflow, it is closer to one. -/
theorem C187_mono (r r' R lam lam' B B' : ℝ) (hr : 0 < r) (h : r ≤ r') (hR : r' ≤ R) (hl : 0 < lam) (hll : lam ≤ lam')
    (hB : 0 ≤ B) (hBB : B ≤ B') : tipLoss r' R lam' B ≤ tipLoss r R lam B' := by
  unfold tipLoss
  have hπ := pi_pos
  apply div_le_div_of_nonneg_right _ hπ.le
  apply mul_le_mul_of_nonneg_left _ (by norm_num)
  apply arccos_le_arccos
  unfold tipPiece
  apply exp_le_exp.2
  rw [neg_le_neg_iff]
  have hr' : 0 < r' := by linarith
  have h1 : R / r' ≤ R / r := div_le_div_of_nonneg_left (by linarith) hr h
  have h2 : 0 ≤ R / r' - 1 := by rw [sub_nonneg, le_div_iff₀ hr']; linarith
  have h3 : B / 2 * (R / r' - 1) ≤ B' / 2 * (R / r - 1) := by
    apply mul_le_mul (by linarith) (by linarith) h2 (by linarith)
  calc B / 2 * (R / r' - 1) / lam' ≤ B / 2 * (R / r' - 1) / lam := by
        apply div_le_div_of_nonneg_left (by positivity) hl hll
    _ ≤ _ := div_le_div_of_nonneg_right h3 hl.le

/-- So the converged circulation vanishes at the tip. -/
theorem C187_circulation (s : Seen) (R B c : ℝ) (hR : 0 < R) (hB : 0 < B) (cl : ℝ → ℝ → ℝ) (ψ : ℝ)
    (h : residual s R R B c cl ψ = 0) : bladeGamma (wake s ψ).1 (wake s ψ).2 c (cl (wake s ψ).1 (wake s ψ).2) = 0 := by
  rw [C182_converged s R R B c cl ψ h, (C187_tip R R _ B hR (C187_inflow R R _ _).1 hB).1]
  ring

example : 0 < tipLoss 0.5 1 0.2 2 ∧ tipLoss 0.5 1 0.2 2 < 1 :=
  ⟨(C187_tip 0.5 1 0.2 2 (by norm_num) (by norm_num) (by norm_num)).2 (by norm_num),
    (C187_range 0.5 1 0.2 2 (by norm_num) (by norm_num) (by norm_num) (by norm_num)).2⟩

end Verif.Rotor
