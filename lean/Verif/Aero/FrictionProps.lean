import Verif.Aero.Friction
import Mathlib.Analysis.Complex.ExponentialBounds

/-!
C129 skin friction.
-/

namespace Verif.Aero
open Real

/-! ## C129 -/

/-- With transition at the leading edge the mixed plate is the turbulent plate. -/
theorem C129_turbulent (Re M T : ℝ) : mixedPlate Re M T 0 = some (turbulentPlate Re M T) := by
  have h : mixed Re 0 = turbulent Re := by
    have h0 : (0 : ℝ) ^ (1.25 : ℝ) = 0 := zero_rpow (by norm_num)
    simp [mixed, h0]
  unfold mixedPlate turbulentPlate
  rw [if_neg (by norm_num), h]

/-- With transition at the trailing edge it is Blasius' laminar plate. -/
theorem C129_laminar (Re M T : ℝ) (h : 0 < Re) :
    ∃ f, mixedPlate Re M T 1 = some f ∧ f.cf = 1.328 / √Re * f.kComp * f.kReyn := by
  have hm : mixed Re 1 = 1.328 / √Re := by
    have e : ∀ x : ℝ, x ^ (0.5 : ℝ) = √x := fun x => by rw [sqrt_eq_rpow]; norm_num
    simp [mixed, h.ne', e]
  refine ⟨compressible (mixed Re 1) Re M T, ?_, ?_⟩
  · unfold mixedPlate; rw [if_neg (by norm_num)]
  · rw [hm]; rfl

/-- Any other point of transition is refused. -/
theorem C129_refused (Re M T xt : ℝ) : mixedPlate Re M T xt = none ↔ ¬ (0 ≤ xt ∧ xt ≤ 1) := by
  unfold mixedPlate
  split_ifs with h
  · simp only [true_iff, not_and_or, not_le]; exact h
  · simp only [false_iff, not_not]
    rw [not_or, not_lt, not_lt] at h; exact h

theorem filmTemp_eq {M T : ℝ} (hT : T ≠ 0) : filmTemp M T = T * (1 + 0.1151 * M ^ 2) := by
  unfold filmTemp; field_simp; ring

theorem factors (cf Re M T : ℝ) (hR : 0 < Re) (hT : 0 < T) :
    (compressible cf Re M T).kComp = (1 + 0.1151 * M ^ 2)⁻¹
      ∧ (compressible cf Re M T).kReyn
        = (((1 + 0.1151 * M ^ 2) ^ (1.5 : ℝ) * ((T * (1 + 0.1151 * M ^ 2) + 216) / (T + 216)))⁻¹) ^ (0.2 : ℝ) := by
  have hd : 0 < 1 + 0.1151 * M ^ 2 := by positivity
  constructor
  · show T / filmTemp M T = _
    rw [filmTemp_eq hT.ne']
    field_simp
  · show (Re / (Re * (filmTemp M T / T) ^ (1.5 : ℝ) * ((filmTemp M T + 216) / (T + 216)))) ^ (0.2 : ℝ) = _
    rw [filmTemp_eq hT.ne', mul_div_cancel_left₀ _ hT.ne']
    congr 1
    have : 0 < (1 + 0.1151 * M ^ 2) ^ (1.5 : ℝ) := by positivity
    field_simp

/-- The corrections for compressibility are one at rest, never above one, positive, the less the faster, and do not
depend on the Reynolds number. -/
theorem C129_corrections (cf cf' Re Re' M M' T : ℝ) (hR : 0 < Re) (hR' : 0 < Re') (hT : 0 < T) (hM : |M| ≤ |M'|) :
    (compressible cf Re 0 T).kComp = 1 ∧ (compressible cf Re 0 T).kReyn = 1
      ∧ (compressible cf Re M T).kComp = (compressible cf' Re' M T).kComp
      ∧ (compressible cf Re M T).kReyn = (compressible cf' Re' M T).kReyn
      ∧ 0 < (compressible cf Re M T).kComp ∧ 0 < (compressible cf Re M T).kReyn
      ∧ (compressible cf Re M T).kComp ≤ 1 ∧ (compressible cf Re M T).kReyn ≤ 1
      ∧ (compressible cf Re M' T).kComp ≤ (compressible cf Re M T).kComp
      ∧ (compressible cf Re M' T).kReyn ≤ (compressible cf Re M T).kReyn := by
  have key : ∀ M M' : ℝ, |M| ≤ |M'| → (compressible cf Re M' T).kComp ≤ (compressible cf Re M T).kComp
      ∧ (compressible cf Re M' T).kReyn ≤ (compressible cf Re M T).kReyn := by
    intro M M' h
    have hs : M ^ 2 ≤ M' ^ 2 := sq_le_sq.2 h
    have h1 : 0 < 1 + 0.1151 * M ^ 2 := by positivity
    have h2 : 1 + 0.1151 * M ^ 2 ≤ 1 + 0.1151 * M' ^ 2 := by linarith
    rw [(factors cf Re M T hR hT).1, (factors cf Re M T hR hT).2, (factors cf Re M' T hR hT).1,
      (factors cf Re M' T hR hT).2]
    constructor
    · gcongr
    · gcongr
  have z : (compressible cf Re 0 T).kComp = 1 ∧ (compressible cf Re 0 T).kReyn = 1 := by
    rw [(factors cf Re 0 T hR hT).1, (factors cf Re 0 T hR hT).2]
    have : T + 216 ≠ 0 := by positivity
    norm_num [this]
  have k0 := key 0 M (by simp)
  refine ⟨z.1, z.2, ?_, ?_, ?_, ?_, by linarith [k0.1], by linarith [k0.2], (key M M' hM).1, (key M M' hM).2⟩
  · rw [(factors cf Re M T hR hT).1, (factors cf' Re' M T hR' hT).1]
  · rw [(factors cf Re M T hR hT).2, (factors cf' Re' M T hR' hT).2]
  · rw [(factors cf Re M T hR hT).1]; positivity
  · rw [(factors cf Re M T hR hT).2]; positivity

example : (0 : ℝ) < 1e7 ∧ (0 : ℝ) < 1e6 ∧ (0 : ℝ) < 220 ∧ |(0.5 : ℝ)| ≤ |(-0.8 : ℝ)| := by norm_num [abs_of_neg]

/-- Turbulent friction is positive and falls as the Reynolds number grows. -/
theorem C129_decreasing (Re Re' : ℝ) (h : 1 < Re) (h' : Re < Re') : 0 < turbulent Re' ∧ turbulent Re' < turbulent Re := by
  have l : 0 < logb 10 Re := logb_pos (by norm_num) h
  have l' : logb 10 Re < logb 10 Re' := logb_lt_logb (by norm_num) (by linarith) h'
  have p := rpow_pos_of_pos l (2.58 : ℝ)
  have q : logb 10 Re ^ (2.58 : ℝ) < logb 10 Re' ^ (2.58 : ℝ) := rpow_lt_rpow l.le l' (by norm_num)
  unfold turbulent
  constructor
  · exact div_pos (by norm_num) (by linarith)
  · exact div_lt_div_of_pos_left (by norm_num) p q

/-- The fully laminar plate has less friction than the fully turbulent one from a Reynolds number of a hundred thousand
on. -/
theorem C129_laminar_less_partial (Re : ℝ) (h : 1e5 ≤ Re) : 1.328 / √Re < turbulent Re := by
  have hR : 0 < Re := lt_of_lt_of_le (by norm_num) h
  obtain ⟨L, hL⟩ : ∃ L, L = logb 10 Re := ⟨_, rfl⟩
  have hRL : Re = (10 : ℝ) ^ L := by rw [hL, rpow_logb (by norm_num) (by norm_num) hR]
  have hL5 : 5 ≤ L := by
    rw [hL, le_logb_iff_rpow_le (by norm_num) hR]
    have : (10 : ℝ) ^ (5 : ℝ) = 1e5 := by
      rw [show (5 : ℝ) = ((5 : ℕ) : ℝ) by norm_num, rpow_natCast]; norm_num
    rw [this]; exact h
  -- growth in L
  have hL0 : 0 < L := by linarith
  obtain ⟨u, hu⟩ : ∃ u, u = L / 5 - 1 := ⟨_, rfl⟩
  have hu0 : 0 ≤ u := by rw [hu]; linarith
  have eL : L = 5 * (1 + u) := by rw [hu]; ring
  have a1 : L ^ (2.58 : ℝ) ≤ 5 ^ (2.58 : ℝ) * exp (2.58 * u) := by
    rw [eL, mul_rpow (by norm_num) (by linarith)]
    have e1 : 1 + u ≤ exp u := by linarith [add_one_le_exp u]
    have e2 : (1 + u) ^ (2.58 : ℝ) ≤ exp u ^ (2.58 : ℝ) := rpow_le_rpow (by linarith) e1 (by norm_num)
    have e3 : exp u ^ (2.58 : ℝ) = exp (2.58 * u) := by rw [← exp_mul]; congr 1; ring
    rw [e3] at e2
    exact mul_le_mul_of_nonneg_left e2 (by positivity)
  have a2 : (5 : ℝ) ^ (2.58 : ℝ) ≤ 66 := by
    have b1 : (5 : ℝ) ^ (2.58 : ℝ) ≤ (5 : ℝ) ^ (2.6 : ℝ) := rpow_le_rpow_of_exponent_le (by norm_num) (by norm_num)
    have b2 : (5 : ℝ) ^ (2.6 : ℝ) ≤ 66 := by
      have : ((5 : ℝ) ^ (2.6 : ℝ)) ^ (5 : ℕ) ≤ 66 ^ (5 : ℕ) := by
        rw [← rpow_natCast, ← rpow_mul (by norm_num)]
        have : (2.6 : ℝ) * ((5 : ℕ) : ℝ) = ((13 : ℕ) : ℝ) := by norm_num
        rw [this, rpow_natCast]; norm_num
      exact le_of_pow_le_pow_left₀ (by norm_num) (by norm_num) this
    linarith
  have hs : √Re = (10 : ℝ) ^ (2.5 : ℝ) * (10 : ℝ) ^ (2.5 * u) := by
    rw [sqrt_eq_rpow, hRL, ← rpow_mul (by norm_num), ← rpow_add (by norm_num)]
    congr 1
    rw [eL]; ring
  have a3 : (316 : ℝ) ≤ (10 : ℝ) ^ (2.5 : ℝ) := by
    have : (316 : ℝ) ^ (2 : ℕ) ≤ ((10 : ℝ) ^ (2.5 : ℝ)) ^ (2 : ℕ) := by
      rw [← rpow_natCast (_ ^ (2.5 : ℝ)), ← rpow_mul (by norm_num)]
      have : (2.5 : ℝ) * ((2 : ℕ) : ℝ) = ((5 : ℕ) : ℝ) := by norm_num
      rw [this, rpow_natCast]; norm_num
    exact le_of_pow_le_pow_left₀ (by norm_num) (by positivity) this
  have a4 : exp (2.58 * u) ≤ (10 : ℝ) ^ (2.5 * u) := by
    rw [rpow_def_of_pos (by norm_num)]
    apply exp_le_exp.2
    have : (2 : ℝ) * log 2 ≤ log 10 := by
      rw [← log_rpow (by norm_num)]
      exact log_le_log (by norm_num) (by norm_num)
    have l2 := log_two_gt_d9
    nlinarith
  have a5 : 0 < (10 : ℝ) ^ (2.5 * u) := by positivity
  have a6 : L ^ (2.58 : ℝ) ≤ 66 * (10 : ℝ) ^ (2.5 * u) :=
    a1.trans (mul_le_mul a2 a4 (exp_pos _).le (by norm_num))
  have a7 : 0 < L ^ (2.58 : ℝ) := rpow_pos_of_pos hL0 _
  unfold turbulent
  rw [← hL, hs, div_lt_div_iff₀ (by positivity) a7]
  have a8 : 316 * (10 : ℝ) ^ (2.5 * u) ≤ (10 : ℝ) ^ (2.5 : ℝ) * (10 : ℝ) ^ (2.5 * u) :=
    mul_le_mul_of_nonneg_right a3 a5.le
  nlinarith

/-- Not at low Reynolds numbers: at a hundred, keeping the plate laminar raises the friction. -/
theorem C129_laminar_less_counterexample : ¬ ∀ Re : ℝ, 1 < Re → 1.328 / √Re < turbulent Re := by
  intro H
  have h := H 100 (by norm_num)
  have e1 : √(100 : ℝ) = 10 := by rw [show (100 : ℝ) = 10 ^ 2 by norm_num]; exact sqrt_sq (by norm_num)
  have e2 : logb 10 (100 : ℝ) = 2 := by
    rw [show (100 : ℝ) = 10 ^ (2 : ℕ) by norm_num, logb_pow, logb_self_eq_one (by norm_num)]; norm_num
  have e3 : (4 : ℝ) ≤ 2 ^ (2.58 : ℝ) := by
    have : (2 : ℝ) ^ (2 : ℝ) ≤ 2 ^ (2.58 : ℝ) := rpow_le_rpow_of_exponent_le (by norm_num) (by norm_num)
    have e : (2 : ℝ) ^ (2 : ℝ) = 4 := by norm_num
    linarith
  unfold turbulent at h
  rw [e1, e2] at h
  have : 0.455 / (2 : ℝ) ^ (2.58 : ℝ) ≤ 0.455 / 4 := div_le_div_of_nonneg_left (by norm_num) (by norm_num) e3
  norm_num at this h
  linarith

end Verif.Aero
