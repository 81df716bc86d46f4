import Verif.Airfoil.BoundaryLayer
import Mathlib.Tactic.Linarith
import Mathlib.Tactic.FieldSimp
import Mathlib.Tactic.NormNum
import Mathlib.Analysis.Calculus.MeanValue
import Mathlib.Analysis.Calculus.Deriv.Pow

namespace Verif.Airfoil
open Real

/-- **C223.** In the attached range of the pressure-gradient parameter the laminar shape factor falls and the friction function
rises with the parameter, across the change of formula at zero. -/
theorem C223_laminar_closures (a b : ℝ) (h0 : -0.09 ≤ a) (hab : a < b) (h1 : b ≤ 0.25) :
    laminarH b < laminarH a ∧ laminarL a < laminarL b ∧ 2 ≤ laminarH b ∧ laminarH a ≤ 3.6 := by
  have pos : (0 : ℝ) < 0.14 + a := by norm_num at h0 ⊢; linarith
  have pos2 : (0 : ℝ) < 0.107 + a := by norm_num at h0 ⊢; linarith
  have posb : (0 : ℝ) < 0.14 + b := by linarith
  have posb2 : (0 : ℝ) < 0.107 + b := by linarith
  have frac : ∀ l : ℝ, 0 < 0.107 + l → 0.018 * l / (0.107 + l) = 0.018 - 0.018 * 0.107 / (0.107 + l) := by
    intro l hl
    field_simp
    ring
  have hle : ∀ l : ℝ, 0 < 0.14 + l → l ≤ 0 → 2.61 < 0.0731 / (0.14 + l) + 2.088 := by
    intro l hl hl0
    have : (0.5221 : ℝ) ≤ 0.0731 / (0.14 + l) := by
      rw [le_div_iff₀ hl]; nlinarith
    norm_num at this ⊢; linarith
  have hLle : ∀ l : ℝ, 0 < 0.107 + l → l ≤ 0 → 0.22 + 1.402 * l + 0.018 * l / (0.107 + l) ≤ 0.22 := by
    intro l hl hl0
    have : 0.018 * l / (0.107 + l) ≤ 0 := div_nonpos_of_nonpos_of_nonneg (by linarith) hl.le
    linarith
  unfold laminarH laminarL
  norm_num at h0 h1
  refine ⟨?_, ?_, ?_, ?_⟩
  · by_cases hb : 0 < b
    · by_cases ha : 0 < a
      · rw [if_pos hb, if_pos ha]; nlinarith
      · rw [if_pos hb, if_neg ha]
        have := hle a pos (not_lt.mp ha)
        nlinarith
    · rw [if_neg hb, if_neg (by linarith)]
      have : 0.0731 / (0.14 + b) < 0.0731 / (0.14 + a) := by
        apply div_lt_div_of_pos_left (by norm_num) pos (by linarith)
      linarith
  · by_cases hb : 0 < b
    · by_cases ha : 0 < a
      · rw [if_pos hb, if_pos ha]; nlinarith
      · rw [if_pos hb, if_neg ha]
        have := hLle a pos2 (not_lt.mp ha)
        nlinarith
    · rw [if_neg hb, if_neg (by linarith), frac a pos2, frac b posb2]
      have : (0.018 * 0.107 : ℝ) / (0.107 + b) < 0.018 * 0.107 / (0.107 + a) := by
        apply div_lt_div_of_pos_left (by norm_num) pos2 (by linarith)
      linarith
  · by_cases hb : 0 < b
    · rw [if_pos hb]; nlinarith
    · rw [if_neg hb]
      have := hle b posb (not_lt.mp hb)
      norm_num at this ⊢; linarith
  · by_cases ha : 0 < a
    · rw [if_pos ha]; nlinarith
    · rw [if_neg ha]
      have : 0.0731 / (0.14 + a) ≤ 1.48 := by
        rw [div_le_iff₀ pos]; linarith
      norm_num at this ⊢; linarith

/-- Two gradients on both sides of zero. -/
example : laminarH 0.1 < laminarH (-0.05) := (C223_laminar_closures (-0.05) 0.1 (by norm_num) (by norm_num) (by norm_num)).1

/-- **C223, counterexample.** Separation is not visible in the friction: at the parameter -0.095 the friction function is
negative, the coefficient reported positive. -/
theorem C223_separation_counterexample (re : ℝ) (h : 0 < re) : laminarL (-0.095) < 0 ∧ 0 < laminarCf (-0.095) re := by
  have h1 : laminarL (-0.095) < 0 := by
    unfold laminarL
    rw [if_neg (by norm_num)]
    norm_num
  refine ⟨h1, ?_⟩
  unfold laminarCf
  apply abs_pos.mpr
  apply div_ne_zero _ h.ne'
  linarith

/-- **C224.** Within each of the ranges 3.3 to 5.3 and above 5.3 the turbulent shape factor falls when the entrainment shape factor
grows. -/
theorem C224_shape_factor_partial (a b ha hb : ℝ) (h0 : 3.3 < a) (hab : a < b) (hr : b ≤ 5.3 ∨ 5.3 < a)
    (h1 : headH a = some ha) (h2 : headH b = some hb) : hb < ha ∧ 0 < hb := by
  have pa : 0 < a - 3.3 := by linarith
  have pb : 0 < b - 3.3 := by linarith
  have hlt : a - 3.3 < b - 3.3 := by linarith
  unfold headH at h1 h2
  rcases hr with hr | hr
  · rw [if_neg (by linarith), if_neg (by linarith), if_neg (by linarith)] at h1 h2
    simp only [Option.some.injEq] at h1 h2
    subst h1 h2
    have := Real.rpow_lt_rpow_of_neg pa hlt (by norm_num : (-0.326 : ℝ) < 0)
    have := Real.rpow_pos_of_pos pb (-0.326)
    constructor
    · linarith
    · positivity
  · rw [if_pos hr] at h1
    rw [if_pos (by linarith)] at h2
    simp only [Option.some.injEq] at h1 h2
    subst h1 h2
    have := Real.rpow_lt_rpow_of_neg pa hlt (by norm_num : (-0.777 : ℝ) < 0)
    have := Real.rpow_pos_of_pos pb (-0.777)
    constructor
    · linarith
    · positivity

/-- **C224, counterexample.** Across 3.3 it rises: the constant 3 for a separated layer lies below the values just above 3.3, and at
3.3 itself there is no value. -/
theorem C224_separated_counterexample :
    headH 3.2 = some 3 ∧ headH 3.3 = none ∧ ∃ h, headH (3.3 + 1e-6) = some h ∧ 10 < h := by
  refine ⟨?_, ?_, ?_⟩
  · unfold headH; rw [if_neg (by norm_num), if_pos (by norm_num)]
  · unfold headH; rw [if_neg (by norm_num), if_neg (by norm_num), if_pos rfl]
  · refine ⟨_, by unfold headH; rw [if_neg (by norm_num), if_neg (by norm_num), if_neg (by norm_num)], ?_⟩
    have h1 : (3.3 + 1e-6 - 3.3 : ℝ) ^ (-0.326 : ℝ) ≥ 10 := by
      have e : (3.3 + 1e-6 - 3.3 : ℝ) = (10 : ℝ) ^ (-6 : ℝ) := by
        rw [show (-6 : ℝ) = ((-6 : ℤ) : ℝ) by norm_num, Real.rpow_intCast]; norm_num
      rw [e, ← Real.rpow_mul (by norm_num)]
      calc (10 : ℝ) = 10 ^ (1 : ℝ) := (Real.rpow_one 10).symm
        _ ≤ 10 ^ (-6 * -0.326 : ℝ) := Real.rpow_le_rpow_of_exponent_le (by norm_num) (by norm_num)
    linarith

/-- **C225.** The turbulent part is computed with the viscosity of the laminar part exactly when transition is at the stagnation
point. -/
theorem C225_viscosity_partial (L xtr re : ℝ) (hre : re ≠ 0) : turbulentNu L xtr re = laminarNu L re ↔ xtr = 0 := by
  unfold turbulentNu laminarNu
  rw [div_left_inj' hre]
  constructor <;> intro h <;> linarith

/-- **C225, counterexample.** With transition at half the surface the fluid behind it has half the viscosity. -/
theorem C225_viscosity_counterexample : turbulentNu 1 (1 / 2) 1000000 = laminarNu 1 1000000 / 2 := by
  norm_num [turbulentNu, laminarNu]

/-- **C225.** The friction in the momentum equation is the friction reported when the edge velocity is that of the free stream. -/
theorem C225_friction_partial (re L xtr theta h dve : ℝ) :
    headRhs re L xtr theta h 1 dve = headCf (reportedRe re L xtr 1 theta) h / 2 - theta * (2 + h) * dve := by
  unfold headRhs equationRe reportedRe
  rw [mul_one, div_one]; ring

/-- **C225, counterexample.** At any other edge velocity it is not: the momentum thickness grows by more than half the friction
reported when the flow is faster. -/
theorem C225_friction_counterexample (re L xtr theta h ve : ℝ) (hre : 0 < re) (hL : xtr < L) (ht : 0 < theta) (hv : 1 < ve) :
    headCf (reportedRe re L xtr ve theta) h / 2 < headRhs re L xtr theta h ve 0 := by
  have hp : 0 < L - xtr := by linarith
  have h1 : 0 < equationRe re L xtr theta := by unfold equationRe; positivity
  have h2 : equationRe re L xtr theta < reportedRe re L xtr ve theta := by
    have : reportedRe re L xtr ve theta = equationRe re L xtr theta * ve := by unfold reportedRe equationRe; ring
    rw [this]
    nlinarith
  have h3 := Real.rpow_lt_rpow_of_neg h1 h2 (by norm_num : (-0.268 : ℝ) < 0)
  unfold headRhs headCf
  rw [if_neg h1.ne', if_neg (h1.trans h2).ne']
  have h4 : (0 : ℝ) < 10 ^ (-0.678 * h) := Real.rpow_pos_of_pos (by norm_num) _
  rw [mul_zero, sub_zero]
  nlinarith [mul_lt_mul_of_pos_left h3 h4]

example : headCf (reportedRe 1000000 1 (1 / 2) 2 (1 / 100)) 1.4 / 2 < headRhs 1000000 1 (1 / 2) (1 / 100) 1.4 2 0 :=
  C225_friction_counterexample _ _ _ _ _ _ (by norm_num) (by norm_num) (by norm_num) (by norm_num)

/-- **C226.** The velocity gradient is exact for velocities that are linear along the surface, whatever the spacing. -/
theorem C226_gradient_partial (x : ℕ → ℝ) (hx : StrictMono x) (c s : ℝ) (i : ℕ) : gradient x (fun k => c + s * x k) i = s := by
  have h1 : 0 < x (i + 1) - x i := sub_pos.mpr (hx (by omega))
  have h2 : 0 < x (i + 1 + 1) - x (i + 1) := sub_pos.mpr (hx (by omega))
  have h3 : 0 < x (i + 2) - x i := sub_pos.mpr (hx (by omega))
  unfold gradient
  dsimp only
  have e1 : (c + s * x (i + 1) - (c + s * x i)) / (x (i + 1) - x i) = s := by
    rw [div_eq_iff h1.ne']; ring
  have e2 : (c + s * x (i + 1 + 1) - (c + s * x (i + 1))) / (x (i + 1 + 1) - x (i + 1)) = s := by
    rw [div_eq_iff h2.ne']; ring
  rw [e1, e2, div_eq_iff (by linarith)]; ring

/-- **C226.** For a velocity quadratic in the distance the error is the curvature times a definite length, which never vanishes:
the second weight is the whole interval instead of its second part. -/
theorem C226_quadratic_counterexample (x : ℕ → ℝ) (hx : StrictMono x) (k : ℝ) (hk : k ≠ 0) (i : ℕ) :
    gradient x (fun j => k * x j ^ 2) i =
        2 * k * x (i + 1) - k * (x (i + 1) - x i) ^ 2 / (x (i + 2) + x (i + 1) - 2 * x i) ∧
      gradient x (fun j => k * x j ^ 2) i ≠ 2 * k * x (i + 1) := by
  have h1 : 0 < x (i + 1) - x i := sub_pos.mpr (hx (by omega))
  have h2 : 0 < x (i + 2) - x (i + 1) := sub_pos.mpr (hx (by omega))
  have key : gradient x (fun j => k * x j ^ 2) i =
        2 * k * x (i + 1) - k * (x (i + 1) - x i) ^ 2 / (x (i + 2) + x (i + 1) - 2 * x i) := by
    unfold gradient
    dsimp only
    rw [show i + 1 + 1 = i + 2 by omega]
    have e1 : (k * x (i + 1) ^ 2 - k * x i ^ 2) / (x (i + 1) - x i) = k * (x (i + 1) + x i) := by
      rw [div_eq_iff h1.ne']; ring
    have e2 : (k * x (i + 2) ^ 2 - k * x (i + 1) ^ 2) / (x (i + 2) - x (i + 1)) = k * (x (i + 2) + x (i + 1)) := by
      rw [div_eq_iff h2.ne']; ring
    rw [e1, e2]
    have h3 : x (i + 2) + x (i + 1) - 2 * x i ≠ 0 := by linarith
    have h4 : x (i + 1) - x i + (x (i + 2) - x i) ≠ 0 := by linarith
    generalize x i = p at *
    generalize x (i + 1) = q at *
    generalize x (i + 2) = r at *
    rw [show q - p + (r - p) = r + q - 2 * p by ring, eq_sub_iff_add_eq, ← add_div, div_eq_iff h3]
    ring
  refine ⟨key, ?_⟩
  rw [key]
  have h5 : 0 < x (i + 2) + x (i + 1) - 2 * x i := by linarith
  have : k * (x (i + 1) - x i) ^ 2 / (x (i + 2) + x (i + 1) - 2 * x i) ≠ 0 :=
    div_ne_zero (mul_ne_zero hk (pow_ne_zero _ h1.ne')) h5.ne'
  intro h
  apply this
  linarith

/-- **C227.** With two or more jumps every panel behind a jump takes the value of the panel before it and all others are kept. -/
theorem C227_smoothing_partial (n : ℕ) (tol : ℝ) (v : ℕ → ℝ) (h : 2 ≤ (jumps n tol v).length) (k : ℕ) :
    (k + 1 < n → tol < |(v (k + 1) - v k) / v k| → smooth n tol v (k + 1) = v k) ∧
    (¬ tol < |(v (k + 1) - v k) / v k| → smooth n tol v (k + 1) = v (k + 1)) ∧ smooth n tol v 0 = v 0 := by
  unfold smooth
  rw [if_pos (by omega)]
  refine ⟨?_, ?_, ?_⟩
  · intro hk hj
    rw [if_pos]
    · simp
    · refine ⟨by omega, ?_⟩
      simp only [jumps, List.mem_filter, List.mem_range, Nat.add_sub_cancel]
      exact ⟨by omega, by simpa using hj⟩
  · intro hj
    rw [if_neg]
    rintro ⟨_, hm⟩
    simp only [jumps, List.mem_filter, Nat.add_sub_cancel] at hm
    exact hj (by simpa using hm.2)
  · simp

/-- **C227, counterexample.** A single jump is left as it is. -/
theorem C227_single_counterexample (n : ℕ) (tol : ℝ) (v : ℕ → ℝ) (h : (jumps n tol v).length = 1) : smooth n tol v = v := by
  unfold smooth
  rw [if_neg (by omega)]

/-- Such a layer: the thickness triples once. -/
example : smooth 3 1 (fun k => if k ≤ 1 then 1 else 3) = fun k => if k ≤ 1 then 1 else 3 := by
  apply C227_single_counterexample
  unfold jumps
  norm_num [List.range_succ, List.filter]

/-- **C228.** When the criterion, once met, stays met up to the trailing edge, the transition panel is the first one that meets
it; when it is never met, the last panel. -/
theorem C228_transition_partial (n m : ℕ) (hm : m < n) (crit : ℕ → ℝ) (hlow : ∀ i < m, crit i ≤ 0) :
    ((∀ i, m ≤ i → i < n → 0 < crit i) → transitionPanel n crit = m) ∧
    ((∀ i < n, crit i ≤ 0) → transitionPanel n crit = n - 1) := by
  constructor
  · intro hup
    have : ((List.range n).filter fun i => ¬ 0 < crit i) = List.range m := by
      obtain ⟨k, rfl⟩ : ∃ k, n = m + k := ⟨n - m, by omega⟩
      rw [List.range_add, List.filter_append]
      have h1 : (List.range m).filter (fun i => ¬ 0 < crit i) = List.range m := by
        rw [List.filter_eq_self]
        intro a ha
        simpa using hlow a (List.mem_range.mp ha)
      have h2 : ((List.range k).map (m + ·)).filter (fun i => ¬ 0 < crit i) = [] := by
        rw [List.filter_eq_nil_iff]
        intro a ha
        rw [List.mem_map] at ha
        obtain ⟨j, hj, rfl⟩ := ha
        rw [List.mem_range] at hj
        simpa using hup (m + j) (by omega) (by omega)
      rw [h1, h2, List.append_nil]
    unfold transitionPanel
    simp only [this, List.length_range]
    rw [if_neg (by omega)]
  · intro hall
    have : ((List.range n).filter fun i => ¬ 0 < crit i) = List.range n := by
      rw [List.filter_eq_self]
      intro a ha
      simpa using hall a (List.mem_range.mp ha)
    unfold transitionPanel
    simp only [this, List.length_range, if_true]

/-- **C228, counterexample.** Panels that fall below the criterion again are counted as laminar ones before the transition: with the
criterion met on the second of five panels only, the fifth is taken for the transition. -/
theorem C228_relapse_counterexample : transitionPanel 5 (fun i => if i = 1 then 1 else -1) = 4 := by
  unfold transitionPanel
  norm_num [List.range_succ, List.filter]

/-- **C229.** The drag is proportional to the momentum thickness at the end of the upper surface and positive with it. -/
theorem C229_drag_partial (n : ℕ) (theta : ℕ → ℝ) (ue h k : ℝ) :
    sectionDrag n (fun i => k * theta i) ue h = k * sectionDrag n theta ue h ∧
      (0 < ue → 0 < theta (n - 1) → 0 < sectionDrag n theta ue h) := by
  refine ⟨by unfold sectionDrag; ring, ?_⟩
  intro h1 h2
  unfold sectionDrag
  have := Real.rpow_pos_of_pos h1 ((5 + h) / 2)
  positivity

/-- **C229, counterexample.** The lower surface does not count: layers that differ anywhere but on the last panel give the same
drag. -/
theorem C229_lower_surface_counterexample (n : ℕ) (t1 t2 : ℕ → ℝ) (ue h : ℝ) (he : t1 (n - 1) = t2 (n - 1)) :
    sectionDrag n t1 ue h = sectionDrag n t2 ue h := by
  unfold sectionDrag
  rw [he]

/-- For example a lower trailing edge a hundred times as thick. -/
example : sectionDrag 10 (fun i => if i = 0 then 100 else 1) 0.99 1.05 = sectionDrag 10 (fun _ => 1) 0.99 1.05 :=
  C229_lower_surface_counterexample _ _ _ _ _ (by norm_num)

/-- **C223, flat plate.** At constant speed the integrated laminar equation gives Thwaites' momentum thickness `θ² = 0.45 ν x / Vₑ`. -/
theorem C223_flat_plate (nu ve θ x : ℝ) (hv : 0 < ve) (h : θ ^ 2 * ve ^ 6 = laminarRhs nu ve * x) : θ ^ 2 = 0.45 * nu * x / ve := by
  rw [eq_div_iff hv.ne']
  have h5 : ve ^ 5 ≠ 0 := by positivity
  apply mul_right_cancel₀ h5
  calc θ ^ 2 * ve * ve ^ 5 = θ ^ 2 * ve ^ 6 := by ring
    _ = 0.45 * nu * x * ve ^ 5 := by rw [h, laminarRhs]; ring

example : (3 : ℝ) ^ 2 = 0.45 * 1 * 40 / 2 := C223_flat_plate 1 2 3 40 (by norm_num) (by norm_num [laminarRhs])

/-- Specification: Michel's momentum Reynolds number of transition. -/
noncomputable def michel (reX : ℝ) : ℝ := 1.174 * (1 + 22400 / reX) * reX ^ (0.46 : ℝ)

/-- **C228 fails for Michel's criterion.** The constant is ten times too large: at every station there is a momentum Reynolds number
that is past Michel's limit and still laminar for the code. -/
theorem C228_michel_counterexample (reX : ℝ) (h : 0 < reX) : ∃ reTheta, michel reX < reTheta ∧ criterion reTheta reX < 0 := by
  have hp := Real.rpow_pos_of_pos h 0.46
  refine ⟨1.174 * (1 + 100000 / reX) * reX ^ (0.46 : ℝ), ?_, ?_⟩
  · unfold michel
    have : (22400 : ℝ) / reX < 100000 / reX := div_lt_div_of_pos_right (by norm_num) h
    apply mul_lt_mul_of_pos_right _ hp
    linarith
  · unfold criterion
    have : (100000 : ℝ) / reX < 224000 / reX := div_lt_div_of_pos_right (by norm_num) h
    have := mul_lt_mul_of_pos_right (show 1.174 * (1 + 100000 / reX) < 1.174 * (1 + 224000 / reX) by linarith) hp
    linarith

/-- **C229, wake.** With the momentum equation of a wake without friction, `d ln θ = -(H + 2) d ln u`, and a shape factor that goes to
one linearly in the logarithm of the speed, the drag is twice the momentum thickness far behind. -/
theorem C229_wake_partial (n : ℕ) (theta : ℕ → ℝ) (ue h : ℝ) (lt : ℝ → ℝ) (hu : 0 < ue) (hu1 : ue ≠ 1) (h0 : 0 < theta (n - 1))
    (hstart : lt (log ue) = log (theta (n - 1)))
    (hlt : ∀ s, HasDerivAt lt (-((1 + (h - 1) * (s / log ue)) + 2)) s) : sectionDrag n theta ue h = 2 * exp (lt 0) := by
  have hl : log ue ≠ 0 := by
    intro e
    rcases Real.log_eq_zero.1 e with h | h | h
    · exact hu.ne' h
    · exact hu1 h
    · linarith
  have hF : ∀ s, HasDerivAt (fun s => lt s + 3 * s + (h - 1) / log ue * (s ^ 2 / 2)) 0 s := by
    intro s
    have h1 : HasDerivAt (fun s : ℝ => 3 * s) 3 s := by simpa using (hasDerivAt_id s).const_mul (3 : ℝ)
    have h2 : HasDerivAt (fun s : ℝ => (h - 1) / log ue * (s ^ 2 / 2)) ((h - 1) / log ue * s) s := by
      have := ((hasDerivAt_pow 2 s).div_const 2).const_mul ((h - 1) / log ue)
      exact this.congr_deriv (by push_cast; ring)
    exact (((hlt s).add h1).add h2).congr_deriv (by field_simp; ring)
  have hc := is_const_of_deriv_eq_zero (fun s => (hF s).differentiableAt) (fun s => (hF s).deriv) 0 (log ue)
  have e : lt 0 = log (theta (n - 1)) + log ue * ((5 + h) / 2) := by
    rw [hstart] at hc
    have : (h - 1) / log ue * (log ue ^ 2 / 2) = (h - 1) * log ue / 2 := by field_simp
    rw [this] at hc
    linarith
  rw [e, exp_add, exp_log h0, sectionDrag, Real.rpow_def_of_pos hu, mul_assoc]

/-- A wake with shape factor two where the logarithm of the speed is one. -/
example : sectionDrag 5 (fun _ => 1) (exp 1) 2 = 2 * exp (7 / 2 - 3 * 0 - 0 ^ 2 / 2) := by
  refine C229_wake_partial 5 (fun _ => 1) (exp 1) 2 (fun s => 7 / 2 - 3 * s - s ^ 2 / 2) (exp_pos 1) (by norm_num) (by norm_num)
    (by norm_num) fun s => ?_
  have h1 : HasDerivAt (fun s : ℝ => 3 * s) 3 s := by simpa using (hasDerivAt_id s).const_mul (3 : ℝ)
  exact ((h1.const_sub (7 / 2)).sub ((hasDerivAt_pow 2 s).div_const 2)).congr_deriv (by rw [log_exp]; push_cast; ring)

end Verif.Airfoil
