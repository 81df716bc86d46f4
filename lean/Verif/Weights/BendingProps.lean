import Verif.Weights.Bending
import Verif.Weights.CommonProps
import Mathlib.Analysis.Complex.ExponentialBounds
import Mathlib.Analysis.SpecialFunctions.Trigonometric.InverseDeriv
import Mathlib.MeasureTheory.Integral.IntervalIntegral.FundThmCalculus
/-
C402: bending weight of tapered panels.
-/

namespace Verif.Weights

open Real

/-! ### The formula in fewer variables -/

/-- The formula depends on its origin only through `u = A + B C`, the thickness continued to the root. -/
noncomputable def bigU (x u B : ℝ) : ℂ :=
  (1 / (4 * B ^ 3) : ℝ) * ((((2 * u ^ 2 - B ^ 2) * π * x - 2 * (2 * u ^ 2 - B ^ 2) * √(1 - x ^ 2) + 2 / 3 * B * √(1 - x ^ 2) * (3 * u * x + B * (-1 + x ^ 2))
      + 2 * B * u * arcsin x - 2 * (2 * u ^ 2 - B ^ 2) * x * arcsin x : ℝ) : ℂ)
    - (4 * u ^ 2 : ℝ) * csqrt (-(u ^ 2 - B ^ 2)) * (log (u - B * x) : ℝ) / (B : ℂ)
    - (4 * (u * (u ^ 2 - B ^ 2)) * x * log (u - B * x) : ℝ) / csqrt (-(u ^ 2 - B ^ 2))
    + (8 * u ^ 2 : ℝ) * csqrt (-(u ^ 2 - B ^ 2)) * Complex.log ((-(u - B * x) : ℝ) : ℂ) / (B : ℂ)
    + (4 * (u * (u ^ 2 - B ^ 2)) * x : ℝ) * Complex.log (((u * x - B : ℝ) : ℂ) - csqrt (-(u ^ 2 - B ^ 2)) * (√(1 - x ^ 2) : ℝ))
      / csqrt (-(u ^ 2 - B ^ 2))
    - ((1 / B) * 4 * u ^ 2 : ℝ) * csqrt (-(u ^ 2 - B ^ 2)) * Complex.log (((u * x - B : ℝ) : ℂ) + csqrt (-(u ^ 2 - B ^ 2)) * (√(1 - x ^ 2) : ℝ))
    + ((1 / B) * 4 * u : ℝ) * csqrt (-(u ^ 2 - B ^ 2) ^ 2) * Complex.log ((((u ^ 2 - B ^ 2) * x : ℝ) : ℂ) + csqrt (-(u ^ 2 - B ^ 2) ^ 2) * (√(1 - x ^ 2) : ℝ)))

theorem bigIntegral_eq (x A B C : ℝ) : bigIntegral x A B C = bigU x (A + B * C) B := by
  have e1 : -A ^ 2 - 2 * A * B * C - B ^ 2 * (-1 + C ^ 2) = -((A + B * C) ^ 2 - B ^ 2) := by ring
  have e2 : -A ^ 2 + B ^ 2 - 2 * A * B * C - B ^ 2 * C ^ 2 = -((A + B * C) ^ 2 - B ^ 2) := by ring
  have e3 : A ^ 2 + 2 * A * B * C + B ^ 2 * (-1 + C ^ 2) = (A + B * C) ^ 2 - B ^ 2 := by ring
  have e4 : A ^ 3 + 3 * A ^ 2 * B * C + B ^ 3 * C * (-1 + C ^ 2) + A * B ^ 2 * (-1 + 3 * C ^ 2) = (A + B * C) * ((A + B * C) ^ 2 - B ^ 2) := by ring
  have e5 : 2 * A ^ 2 + 4 * A * B * C + B ^ 2 * (-1 + 2 * C ^ 2) = 2 * (A + B * C) ^ 2 - B ^ 2 := by ring
  have e6 : 2 * A ^ 2 * π * x + 4 * A * B * C * π * x + B ^ 2 * (-1 + 2 * C ^ 2) * π * x = (2 * (A + B * C) ^ 2 - B ^ 2) * π * x := by ring
  have e7 : 3 * A * x + B * (-1 + 3 * C * x + x ^ 2) = 3 * (A + B * C) * x + B * (-1 + x ^ 2) := by ring
  have e8 : -A - B * C + B * x = -(A + B * C - B * x) := by ring
  have e9 : -B + A * x + B * C * x = (A + B * C) * x - B := by ring
  have e10 : A ^ 2 * x + 2 * A * B * C * x + B ^ 2 * (-1 + C ^ 2) * x = ((A + B * C) ^ 2 - B ^ 2) * x := by ring
  unfold bigIntegral bigU
  rw [e1, e2, e3, e4, e5, e6, e7, e8, e9, e10]

theorem csqrt_neg {r : ℝ} (h : 0 < r) : csqrt (-r) = Complex.I * (√r : ℂ) := by
  unfold csqrt
  rw [if_neg (by linarith), neg_neg]

theorem csqrt_pos {r : ℝ} (h : 0 ≤ r) : csqrt r = (√r : ℂ) := by unfold csqrt; rw [if_pos h]

theorem log_polar {r t : ℝ} (hr : 0 < r) (h1 : -π < t) (h2 : t ≤ π) :
    Complex.log (((r * cos t : ℝ) : ℂ) + ((r * sin t : ℝ) : ℂ) * Complex.I) = (log r : ℝ) + (t : ℝ) * Complex.I := by
  have h : ((r * cos t : ℝ) : ℂ) + ((r * sin t : ℝ) : ℂ) * Complex.I = Complex.exp ((log r : ℝ) + (t : ℝ) * Complex.I) := by
    rw [Complex.exp_add, Complex.exp_mul_I, ← Complex.ofReal_exp, exp_log hr]
    push_cast
    ring
  rw [h, Complex.log_exp (by simpa using h1) (by simpa using h2)]

/-! ### The real part, for a thickness that stays positive to the tip -/

/-- Cosine of the angle in the logarithms. -/
noncomputable def bendQ (u B x : ℝ) : ℝ := (u * x - B) / (u - B * x)

/-- The real part times `4 B³`. -/
noncomputable def bendF (u B x : ℝ) : ℝ :=
  (2 * u ^ 2 - B ^ 2) * π * x - 2 * (2 * u ^ 2 - B ^ 2) * √(1 - x ^ 2) + 2 / 3 * B * √(1 - x ^ 2) * (3 * u * x + B * (-1 + x ^ 2))
    + 2 * B * u * arcsin x - 2 * (2 * u ^ 2 - B ^ 2) * x * arcsin x - 8 * π * u ^ 2 * √(u ^ 2 - B ^ 2) / B
    - 4 * u * √(u ^ 2 - B ^ 2) * x * arccos (bendQ u B x) + 4 * u ^ 2 * √(u ^ 2 - B ^ 2) * arccos (bendQ u B x) / B
    - 4 * u * (u ^ 2 - B ^ 2) * arccos x / B

theorem bend_thick {u B x : ℝ} (hu : |B| < u) (h1 : -1 ≤ x) (h2 : x ≤ 1) : 0 < u - B * x := by
  have := abs_lt.1 hu
  have : |B * x| ≤ |B| := by
    rw [abs_mul]
    exact mul_le_of_le_one_right (abs_nonneg _) (abs_le.2 ⟨h1, h2⟩)
  have := le_abs_self (B * x)
  linarith

theorem bend_sq {u B : ℝ} (hu : |B| < u) : 0 < u ^ 2 - B ^ 2 := by
  have := abs_lt.1 hu
  nlinarith

theorem bend_cos {u B x : ℝ} (hu : |B| < u) (h1 : -1 ≤ x) (h2 : x ≤ 1) : 1 - bendQ u B x ^ 2 = (√(u ^ 2 - B ^ 2) * √(1 - x ^ 2) / (u - B * x)) ^ 2 := by
  have ht := bend_thick hu h1 h2
  have hs := sq_sqrt (bend_sq hu).le
  have hc := sq_sqrt (show 0 ≤ 1 - x ^ 2 by nlinarith)
  rw [div_pow, mul_pow, hs, hc]
  have ht' := pow_ne_zero 2 ht.ne'
  unfold bendQ
  rw [div_pow, eq_div_iff ht', sub_mul, div_mul_cancel₀ _ ht']
  ring

theorem bend_sin {u B x : ℝ} (hu : |B| < u) (h1 : -1 ≤ x) (h2 : x ≤ 1) : √(1 - bendQ u B x ^ 2) = √(u ^ 2 - B ^ 2) * √(1 - x ^ 2) / (u - B * x) := by
  rw [bend_cos hu h1 h2, sqrt_sq]
  have := bend_thick hu h1 h2
  positivity

theorem bend_range {u B x : ℝ} (hu : |B| < u) (h1 : -1 ≤ x) (h2 : x ≤ 1) : -1 ≤ bendQ u B x ∧ bendQ u B x ≤ 1 := by
  have h := bend_cos hu h1 h2
  have : bendQ u B x ^ 2 ≤ 1 := by nlinarith [sq_nonneg (√(u ^ 2 - B ^ 2) * √(1 - x ^ 2) / (u - B * x))]
  exact abs_le.1 ((sq_le_one_iff_abs_le_one _).1 this)

theorem bendQ_gt {u B x : ℝ} (hu : |B| < u) (h1 : -1 < x) (h2 : x ≤ 1) : -1 < bendQ u B x := by
  have ht := bend_thick hu h1.le h2
  have := abs_lt.1 hu
  unfold bendQ
  rw [lt_div_iff₀ ht]
  nlinarith

theorem bigU_re {u B x : ℝ} (hu : |B| < u) (hB : B ≠ 0) (h1 : -1 < x) (h2 : x ≤ 1) : (bigU x u B).re = 1 / (4 * B ^ 3) * bendF u B x := by
  have ht := bend_thick hu h1.le h2
  have hs2 := bend_sq hu
  have hs := sqrt_pos.2 hs2
  have hss := sq_sqrt hs2.le
  obtain ⟨q1, q2⟩ := bend_range hu h1.le h2
  have hq := bendQ_gt hu h1 h2
  have hsin := bend_sin hu h1.le h2
  have hcosq := cos_arccos q1 q2
  have hsinq := sin_arccos (bendQ u B x)
  rw [hsin] at hsinq
  have hr1 : (u - B * x) * cos (arccos (bendQ u B x)) = u * x - B := by
    rw [hcosq]; unfold bendQ; field_simp
  have hr2 : (u - B * x) * sin (arccos (bendQ u B x)) = √(u ^ 2 - B ^ 2) * √(1 - x ^ 2) := by
    rw [hsinq]; field_simp
  have hlt : arccos (bendQ u B x) < π := by
    rcases (arccos_le_pi (bendQ u B x)).lt_or_eq with h | h
    · exact h
    · rw [arccos_eq_pi] at h; linarith
  have hge := arccos_nonneg (bendQ u B x)
  have l1 : Complex.log (((u * x - B : ℝ) : ℂ) + Complex.I * (√(u ^ 2 - B ^ 2) : ℂ) * ((√(1 - x ^ 2) : ℝ) : ℂ)) =
      (log (u - B * x) : ℝ) + (arccos (bendQ u B x) : ℝ) * Complex.I := by
    rw [← log_polar ht (by linarith [pi_pos]) hlt.le, hr1, hr2]
    congr 1
    push_cast
    ring
  have l2 : Complex.log (((u * x - B : ℝ) : ℂ) - Complex.I * (√(u ^ 2 - B ^ 2) : ℂ) * ((√(1 - x ^ 2) : ℝ) : ℂ)) =
      (log (u - B * x) : ℝ) + ((-arccos (bendQ u B x) : ℝ) : ℂ) * Complex.I := by
    rw [← log_polar ht (by linarith) (by linarith [pi_pos]), cos_neg, sin_neg, hr1, mul_neg, hr2]
    congr 1
    push_cast
    ring
  have l3 : Complex.log ((-(u - B * x) : ℝ) : ℂ) = (log (u - B * x) : ℝ) + (π : ℝ) * Complex.I := by
    rw [← log_polar ht (by linarith [pi_pos]) le_rfl, cos_pi, sin_pi]
    congr 1
    push_cast
    ring
  have l4 : Complex.log ((((u ^ 2 - B ^ 2) * x : ℝ) : ℂ) + Complex.I * ((u ^ 2 - B ^ 2 : ℝ) : ℂ) * ((√(1 - x ^ 2) : ℝ) : ℂ)) =
      (log (u ^ 2 - B ^ 2) : ℝ) + (arccos x : ℝ) * Complex.I := by
    rw [← log_polar hs2 (by linarith [pi_pos, arccos_nonneg x]) (arccos_le_pi x), cos_arccos h1.le h2, sin_arccos]
    congr 1
    push_cast
    ring
  have hT : csqrt (-(u ^ 2 - B ^ 2) ^ 2) = Complex.I * ((u ^ 2 - B ^ 2 : ℝ) : ℂ) := by
    rw [csqrt_neg (by positivity), sqrt_sq hs2.le]
  unfold bigU
  rw [hT, csqrt_neg hs2, l1, l2, l3, l4]
  have hK : u * (u ^ 2 - B ^ 2) = u * √(u ^ 2 - B ^ 2) ^ 2 := by rw [hss]
  have key : ∀ (R M : ℝ) (z : ℂ), z = (R : ℂ) + (M : ℂ) * Complex.I → (((1 / (4 * B ^ 3) : ℝ) : ℂ) * z).re = 1 / (4 * B ^ 3) * R := by
    intro R M z hz
    rw [hz, Complex.re_ofReal_mul]
    simp
  refine key _ (4 * u * (u ^ 2 - B ^ 2) * log (u ^ 2 - B ^ 2) / B) _ ?_
  unfold bendF
  rw [hK]
  generalize √(u ^ 2 - B ^ 2) = s at *
  generalize log (u - B * x) = L
  generalize log (u ^ 2 - B ^ 2) = M
  generalize arccos (bendQ u B x) = θ
  generalize arccos x = φ
  generalize arcsin x = a
  generalize √(1 - x ^ 2) = c
  have hs' : (s : ℂ) ≠ 0 := by exact_mod_cast hs.ne'
  have hB' : (B : ℂ) ≠ 0 := by exact_mod_cast hB
  have hI := Complex.I_ne_zero
  push_cast
  field_simp
  ring_nf
  simp only [Complex.I_sq, show Complex.I ^ 3 = -Complex.I by rw [pow_succ, Complex.I_sq]; ring]
  ring

/-! ### Derivatives -/

/-- Derivative of `bendF`. -/
noncomputable def bendG (u B x : ℝ) : ℝ :=
  (2 * u ^ 2 - B ^ 2) * (π - 2 * arcsin x) + 2 * B * √(1 - x ^ 2) * (2 * u + B * x) - 4 * u * √(u ^ 2 - B ^ 2) * arccos (bendQ u B x)

theorem root_deriv {x : ℝ} (h1 : -1 < x) (h2 : x < 1) : HasDerivAt (fun y : ℝ => √(1 - y ^ 2)) (-x / √(1 - x ^ 2)) x := by
  have hp : 0 < 1 - x ^ 2 := by nlinarith
  have hq : HasDerivAt (fun y : ℝ => 1 - y ^ 2) (-(2 * x)) x := by simpa using ((hasDerivAt_pow 2 x).const_sub 1)
  refine (hq.sqrt hp.ne').congr_deriv ?_
  have := sqrt_pos.2 hp
  field_simp

theorem bendQ_lt {u B x : ℝ} (hu : |B| < u) (h1 : -1 ≤ x) (h2 : x < 1) : bendQ u B x < 1 := by
  have ht := bend_thick hu h1 h2.le
  have := abs_lt.1 hu
  unfold bendQ
  rw [div_lt_iff₀ ht]
  nlinarith

theorem angle_deriv {u B x : ℝ} (hu : |B| < u) (h1 : -1 < x) (h2 : x < 1) :
    HasDerivAt (fun y => arccos (bendQ u B y)) (-√(u ^ 2 - B ^ 2) / ((u - B * x) * √(1 - x ^ 2))) x := by
  have ht := bend_thick hu h1.le h2.le
  have hs2 := bend_sq hu
  have hs := sqrt_pos.2 hs2
  have hss := sq_sqrt hs2.le
  have hc := sqrt_pos.2 (show 0 < 1 - x ^ 2 by nlinarith)
  have hn : HasDerivAt (fun y : ℝ => u * y - B) u x := by simpa using ((hasDerivAt_id x).const_mul u).sub_const B
  have hd : HasDerivAt (fun y : ℝ => u - B * y) (-B) x := by simpa using ((hasDerivAt_id x).const_mul B).const_sub u
  have hq : HasDerivAt (bendQ u B) ((u ^ 2 - B ^ 2) / (u - B * x) ^ 2) x := by
    refine (hn.div hd ht.ne').congr_deriv ?_
    congr 1
    ring
  have h := (hasDerivAt_arccos (bendQ_gt hu h1 h2.le).ne' (bendQ_lt hu h1.le h2).ne).comp x hq
  refine h.congr_deriv ?_
  rw [bend_sin hu h1.le h2.le]
  rw [show (u ^ 2 - B ^ 2) / (u - B * x) ^ 2 = √(u ^ 2 - B ^ 2) ^ 2 / (u - B * x) ^ 2 by rw [hss]]
  generalize √(u ^ 2 - B ^ 2) = s at *
  generalize u - B * x = d at *
  field_simp

theorem bendF_deriv {u B x : ℝ} (hu : |B| < u) (hB : B ≠ 0) (h1 : -1 < x) (h2 : x < 1) : HasDerivAt (bendF u B) (bendG u B x) x := by
  have ht := bend_thick hu h1.le h2.le
  have hs2 := bend_sq hu
  have hss := sq_sqrt hs2.le
  have hcc := sq_sqrt (show 0 ≤ 1 - x ^ 2 by nlinarith)
  have hc := sqrt_pos.2 (show 0 < 1 - x ^ 2 by nlinarith)
  have hθ := angle_deriv hu h1 h2
  have hr := root_deriv h1 h2
  have ha := hasDerivAt_arcsin h1.ne' h2.ne
  have hac := hasDerivAt_arccos h1.ne' h2.ne
  have hi := hasDerivAt_id x
  have hp : HasDerivAt (fun y : ℝ => 3 * u * y + B * (-1 + y ^ 2)) (3 * u + B * (2 * x)) x := by
    have := (hi.const_mul (3 * u)).add (((hasDerivAt_pow 2 x).const_add (-1)).const_mul B)
    refine this.congr_deriv ?_
    simp
  have h := ((((((((hi.const_mul ((2 * u ^ 2 - B ^ 2) * π)).sub (hr.const_mul (2 * (2 * u ^ 2 - B ^ 2)))).add ((hr.const_mul (2 / 3 * B)).mul hp)).add
    (ha.const_mul (2 * B * u))).sub ((hi.const_mul (2 * (2 * u ^ 2 - B ^ 2))).mul ha)).sub_const (8 * π * u ^ 2 * √(u ^ 2 - B ^ 2) / B)).sub
    ((hi.const_mul (4 * u * √(u ^ 2 - B ^ 2))).mul hθ)).add ((hθ.const_mul (4 * u ^ 2 * √(u ^ 2 - B ^ 2))).div_const B)).sub
    ((hac.const_mul (4 * u * (u ^ 2 - B ^ 2))).div_const B)
  refine h.congr_deriv ?_
  unfold bendG
  simp only [id_eq]
  generalize arccos (bendQ u B x) = θ
  generalize arcsin x = a
  have e1 : -(4 * u * √(u ^ 2 - B ^ 2)) * (x * (-√(u ^ 2 - B ^ 2) / ((u - B * x) * √(1 - x ^ 2)))) +
      4 * u ^ 2 * √(u ^ 2 - B ^ 2) * (-√(u ^ 2 - B ^ 2) / ((u - B * x) * √(1 - x ^ 2))) / B + 4 * u * (u ^ 2 - B ^ 2) / (√(1 - x ^ 2) * B) = 0 := by
    rw [show 4 * u * (u ^ 2 - B ^ 2) / (√(1 - x ^ 2) * B) = 4 * u * √(u ^ 2 - B ^ 2) ^ 2 / (√(1 - x ^ 2) * B) by rw [hss]]
    generalize √(u ^ 2 - B ^ 2) = s at *
    generalize √(1 - x ^ 2) = c at *
    have hd : x = (u - (u - B * x)) / B := by field_simp; ring
    generalize u - B * x = d at *
    rw [hd]
    field_simp
    ring
  have e2 : 2 / 3 * B * (-x / √(1 - x ^ 2)) * (3 * u * x + B * (-1 + x ^ 2)) + 2 / 3 * B * √(1 - x ^ 2) * (3 * u + B * (2 * x)) + 2 * B * u / √(1 - x ^ 2) =
      2 * B * √(1 - x ^ 2) * (2 * u + B * x) := by
    have hx : x ^ 2 = 1 - √(1 - x ^ 2) ^ 2 := by rw [hcc]; ring
    generalize √(1 - x ^ 2) = c at *
    field_simp
    linear_combination (-3 * u - B * x) * hx
  linear_combination e1 + e2

theorem bendG_deriv {u B x : ℝ} (hu : |B| < u) (h1 : -1 < x) (h2 : x < 1) :
    HasDerivAt (bendG u B) (-(4 * B ^ 3 * (x * √(1 - x ^ 2) / (u - B * x)))) x := by
  have ht := bend_thick hu h1.le h2.le
  have hs2 := bend_sq hu
  have hss := sq_sqrt hs2.le
  have hcc := sq_sqrt (show 0 ≤ 1 - x ^ 2 by nlinarith)
  have hc := sqrt_pos.2 (show 0 < 1 - x ^ 2 by nlinarith)
  have hθ := angle_deriv hu h1 h2
  have hr := root_deriv h1 h2
  have ha := hasDerivAt_arcsin h1.ne' h2.ne
  have hi := hasDerivAt_id x
  have hl : HasDerivAt (fun y : ℝ => 2 * u + B * y) B x := by simpa using (hi.const_mul B).const_add (2 * u)
  have h := ((((ha.const_mul 2).const_sub π).const_mul (2 * u ^ 2 - B ^ 2)).add ((hr.const_mul (2 * B)).mul hl)).sub (hθ.const_mul (4 * u * √(u ^ 2 - B ^ 2)))
  refine h.congr_deriv ?_
  have e : 4 * u * √(u ^ 2 - B ^ 2) * (-√(u ^ 2 - B ^ 2) / ((u - B * x) * √(1 - x ^ 2))) = -(4 * u * (u ^ 2 - B ^ 2) / ((u - B * x) * √(1 - x ^ 2))) := by
    rw [show 4 * u * (u ^ 2 - B ^ 2) = 4 * u * √(u ^ 2 - B ^ 2) ^ 2 by rw [hss]]
    ring
  rw [e]
  have hx : x ^ 2 = 1 - √(1 - x ^ 2) ^ 2 := by rw [hcc]; ring
  generalize √(1 - x ^ 2) = c at *
  have ht' := ht.ne'
  rw [← sub_eq_zero]
  have key : (2 * u ^ 2 - B ^ 2) * -(2 * (1 / c)) + (2 * B * (-x / c) * (2 * u + B * x) + 2 * B * c * B) - -(4 * u * (u ^ 2 - B ^ 2) / ((u - B * x) * c)) -
      -(4 * B ^ 3 * (x * c / (u - B * x))) =
      (((2 * u ^ 2 - B ^ 2) * -2 + 2 * B * -x * (2 * u + B * x) + 2 * B * c ^ 2 * B) * (u - B * x) + 4 * u * (u ^ 2 - B ^ 2) + 4 * B ^ 3 * x * c ^ 2) /
        ((u - B * x) * c) := by
    field_simp
    ring
  rw [key, div_eq_zero_iff]
  left
  linear_combination (2 * B ^ 2 * u + 2 * B ^ 3 * x) * hx

theorem bendQ_cont {u B : ℝ} (hu : |B| < u) : ContinuousOn (bendQ u B) (Set.Icc (-1) 1) := by
  unfold bendQ
  refine ContinuousOn.div (by fun_prop) (by fun_prop) fun x hx => (bend_thick hu hx.1 hx.2).ne'

theorem bendF_cont {u B : ℝ} (hu : |B| < u) : ContinuousOn (bendF u B) (Set.Icc (-1) 1) := by
  have h1 : ContinuousOn (fun x => arccos (bendQ u B x)) (Set.Icc (-1) 1) := continuous_arccos.comp_continuousOn (bendQ_cont hu)
  have h2 := continuous_arcsin
  have h3 := continuous_arccos
  unfold bendF
  fun_prop

theorem bendG_cont {u B : ℝ} (hu : |B| < u) : ContinuousOn (bendG u B) (Set.Icc (-1) 1) := by
  have h1 : ContinuousOn (fun x => arccos (bendQ u B x)) (Set.Icc (-1) 1) := continuous_arccos.comp_continuousOn (bendQ_cont hu)
  have h2 := continuous_arcsin
  unfold bendG
  fun_prop

/-- The load of the part of the wing outside `y`, over the thickness there, with the arm to the root. -/
noncomputable def outer (t : ℝ → ℝ) (y : ℝ) : ℝ := ∫ η in y..1, η * √(1 - η ^ 2) / t η

theorem bendG_integral {u B x : ℝ} (hu : |B| < u) (h1 : -1 ≤ x) (h2 : x ≤ 1) : bendG u B x = 4 * B ^ 3 * outer (fun η => u - B * η) x := by
  have hc : ContinuousOn (fun η => -(4 * B ^ 3 * (η * √(1 - η ^ 2) / (u - B * η)))) (Set.Icc x 1) := by
    refine (ContinuousOn.mul continuousOn_const (ContinuousOn.div (by fun_prop) (by fun_prop) fun η hη => ?_)).neg
    exact (bend_thick hu (h1.trans hη.1) hη.2).ne'
  have h := intervalIntegral.integral_eq_sub_of_hasDerivAt_of_le h2 ((bendG_cont hu).mono (Set.Icc_subset_Icc h1 le_rfl))
    (fun y hy => bendG_deriv hu (lt_of_le_of_lt h1 hy.1) hy.2) (hc.intervalIntegrable_of_Icc h2)
  have hone : bendG u B 1 = 0 := by
    have : bendQ u B 1 = 1 := by
      unfold bendQ
      have := abs_lt.1 hu
      rw [mul_one, mul_one, div_self (by linarith)]
    unfold bendG
    rw [this, arccos_one, arcsin_one, show π - 2 * (π / 2) = 0 by ring]
    norm_num
  rw [hone, intervalIntegral.integral_neg, intervalIntegral.integral_const_mul] at h
  unfold outer
  linarith

theorem bendF_integral {u B a b : ℝ} (hu : |B| < u) (hB : B ≠ 0) (h1 : -1 ≤ a) (h : a ≤ b) (h2 : b ≤ 1) :
    bendF u B b - bendF u B a = 4 * B ^ 3 * ∫ y in a..b, outer (fun η => u - B * η) y := by
  have hg := intervalIntegral.integral_eq_sub_of_hasDerivAt_of_le h ((bendF_cont hu).mono (Set.Icc_subset_Icc h1 h2))
    (fun y hy => bendF_deriv hu hB (lt_of_le_of_lt h1 hy.1) (lt_of_lt_of_le hy.2 h2))
    (((bendG_cont hu).mono (Set.Icc_subset_Icc h1 h2)).intervalIntegrable_of_Icc h)
  rw [← hg, ← intervalIntegral.integral_const_mul]
  refine intervalIntegral.integral_congr fun y hy => ?_
  rw [Set.uIcc_of_le h] at hy
  exact bendG_integral hu (h1.trans hy.1) (hy.2.trans h2)

theorem outer_const {G y : ℝ} (h1 : -1 ≤ y) (h2 : y ≤ 1) : outer (fun _ => G) y = √(1 - y ^ 2) ^ 3 / 3 / G := by
  unfold outer
  rw [intervalIntegral.integral_div]
  congr 1
  have hd : ∀ x ∈ Set.Ioo y 1, HasDerivAt (fun x : ℝ => -(√(1 - x ^ 2) ^ 3 / 3)) (x * √(1 - x ^ 2)) x := by
    intro x hx
    have hc := sqrt_pos.2 (show 0 < 1 - x ^ 2 by nlinarith [hx.1, hx.2])
    refine ((((root_deriv (lt_of_le_of_lt h1 hx.1) hx.2).pow 3).div_const 3).neg).congr_deriv ?_
    push_cast
    field_simp
  rw [intervalIntegral.integral_eq_sub_of_hasDerivAt_of_le h2 (by fun_prop) hd (Continuous.intervalIntegrable (by fun_prop) _ _)]
  norm_num

/-! ### The property -/

/-- Thickness of a panel at a station, continued in a straight line beyond its ends. -/
noncomputable def BendSeg.line (RC : ℝ) (a b : BendSeg) (y : ℝ) : ℝ := a.thick RC + (b.thick RC - a.thick RC) / (b.y - a.y) * (y - a.y)

/-- **C402, both formulas.** The bending weight of a panel, tapered or not, is the integral over the panel of the load outside over thickness, if the
thickness, continued in a straight line, is positive everywhere to the tip. -/
theorem C402_integral_partial (RC : ℝ) (a b : BendSeg) (h1 : 0 ≤ a.y) (h : a.y < b.y) (h2 : b.y ≤ 1) (hd : a.thick RC ≠ b.thick RC ∨ (a.chord = b.chord ∧ a.tc = b.tc))
    (ht : ∀ y, -1 ≤ y → y ≤ 1 → 0 < BendSeg.line RC a b y) :
    panelBend RC a b = some ((∫ y in a.y..b.y, outer (BendSeg.line RC a b) y) / cos a.sweep ^ 2) := by
  have hne : b.y - a.y ≠ 0 := by linarith
  unfold panelBend
  by_cases hs : a.chord = b.chord ∧ a.tc = b.tc
  · rw [if_pos hs]
    have hl : BendSeg.line RC a b = fun _ => b.tc * (b.chord * RC) := by
      funext y
      unfold BendSeg.line BendSeg.thick
      rw [hs.1, hs.2]
      ring
    rw [hl, C144_panel (by linarith) h.le h2]
    congr 1
    have hi : ∫ y in a.y..b.y, outer (fun _ => b.tc * (b.chord * RC)) y = ∫ y in a.y..b.y, √(1 - y ^ 2) ^ 3 / 3 / (b.tc * (b.chord * RC)) := by
      refine intervalIntegral.integral_congr fun y hy => ?_
      rw [Set.uIcc_of_le h.le] at hy
      exact outer_const (by linarith [hy.1]) (by linarith [hy.2])
    rw [hi]
    simp only [intervalIntegral.integral_div]
    rw [one_div, mul_inv]
    ring
  · rw [if_neg hs]
    have hd' : a.thick RC - b.thick RC ≠ 0 := sub_ne_zero.2 (hd.resolve_right hs)
    simp only
    have hB : (a.thick RC - b.thick RC) / (b.y - a.y) ≠ 0 := div_ne_zero hd' hne
    rw [if_neg (by push Not; exact ⟨hne, hB⟩)]
    have hl : BendSeg.line RC a b =
        fun η => a.thick RC + (a.thick RC - b.thick RC) / (b.y - a.y) * a.y - (a.thick RC - b.thick RC) / (b.y - a.y) * η := by
      funext y
      unfold BendSeg.line
      field_simp
      ring
    rw [hl] at ht ⊢
    generalize (a.thick RC - b.thick RC) / (b.y - a.y) = B at *
    have hu : |B| < a.thick RC + B * a.y := by
      have p := ht (-1) le_rfl (by norm_num)
      have q := ht 1 (by norm_num) le_rfl
      exact abs_lt.2 ⟨by linarith, by linarith⟩
    congr 1
    have hre : ∀ (z : ℂ) (r : ℝ), (z / (r : ℂ)).re = z.re / r := fun z r => by rw [Complex.div_ofReal_re]
    rw [hre, bigIntegral_eq, bigIntegral_eq, Complex.sub_re, bigU_re hu hB (by linarith) h2, bigU_re hu hB (by linarith) (by linarith)]
    rw [← mul_sub, bendF_integral hu hB (by linarith) h.le h2]
    congr 1
    field_simp

/-- **C402, sign.** Under the same conditions it is not negative. -/
theorem C402_positive_partial (RC : ℝ) (a b : BendSeg) (h1 : 0 ≤ a.y) (h : a.y < b.y) (h2 : b.y ≤ 1) (hd : a.thick RC ≠ b.thick RC ∨ (a.chord = b.chord ∧ a.tc = b.tc))
    (ht : ∀ y, -1 ≤ y → y ≤ 1 → 0 < BendSeg.line RC a b y) : ∃ w, panelBend RC a b = some w ∧ 0 ≤ w := by
  refine ⟨_, C402_integral_partial RC a b h1 h h2 hd ht, div_nonneg ?_ (sq_nonneg _)⟩
  refine intervalIntegral.integral_nonneg h.le fun y hy => ?_
  unfold outer
  refine intervalIntegral.integral_nonneg (by linarith [hy.2]) fun η hη => ?_
  have := ht η (by linarith [hη.1, hy.1]) hη.2
  have : 0 ≤ η := by linarith [hη.1, hy.1]
  positivity

/-- **C402, splitting.** A further segment on the straight line between two others changes nothing, whatever the thickness. -/
theorem C402_split (RC : ℝ) (a m b : BendSeg) (h1 : a.y < m.y) (h2 : m.y < b.y) (hs : m.sweep = a.sweep) (hm : m.thick RC = BendSeg.line RC a b m.y)
    (hd : a.thick RC ≠ b.thick RC) : ∃ v w, panelBend RC a m = some v ∧ panelBend RC m b = some w ∧ panelBend RC a b = some (v + w) := by
  have hab : b.y - a.y ≠ 0 := by linarith
  have ham : m.y - a.y ≠ 0 := by linarith
  have hmb : b.y - m.y ≠ 0 := by linarith
  have hB : (a.thick RC - b.thick RC) / (b.y - a.y) ≠ 0 := div_ne_zero (sub_ne_zero.2 hd) hab
  have e1 : (a.thick RC - m.thick RC) / (m.y - a.y) = (a.thick RC - b.thick RC) / (b.y - a.y) := by
    rw [hm]; unfold BendSeg.line; field_simp; ring
  have e2 : (m.thick RC - b.thick RC) / (b.y - m.y) = (a.thick RC - b.thick RC) / (b.y - a.y) := by
    rw [hm]; unfold BendSeg.line; field_simp; ring
  have e3 : m.thick RC + (a.thick RC - b.thick RC) / (b.y - a.y) * m.y = a.thick RC + (a.thick RC - b.thick RC) / (b.y - a.y) * a.y := by
    rw [hm]; unfold BendSeg.line; field_simp; ring
  have ne : ∀ p q : BendSeg, p.thick RC ≠ q.thick RC → ¬(p.chord = q.chord ∧ p.tc = q.tc) := by
    intro p q hpq hc
    exact hpq (by unfold BendSeg.thick; rw [hc.1, hc.2])
  have n1 : a.thick RC ≠ m.thick RC := fun hc => hB (by rw [← e1, hc, sub_self, zero_div])
  have n2 : m.thick RC ≠ b.thick RC := fun hc => hB (by rw [← e2, hc, sub_self, zero_div])
  refine ⟨_, _, by unfold panelBend; rw [if_neg (ne _ _ n1)]; simp only; rw [e1, if_neg (by push Not; exact ⟨ham, hB⟩)],
    by unfold panelBend; rw [if_neg (ne _ _ n2)]; simp only; rw [e2, if_neg (by push Not; exact ⟨hmb, hB⟩)], ?_⟩
  unfold panelBend
  rw [if_neg (ne _ _ hd)]
  simp only
  rw [if_neg (by push Not; exact ⟨hab, hB⟩), hs, ← Complex.add_re, ← add_div]
  simp only [bigIntegral_eq, e3]
  congr 3
  ring

theorem bigU_re_35 {x : ℝ} (h1 : -1 ≤ x) (h2 : x ≤ 1) : (bigU x 3 5).re = 1 / 500 * (-7 * π * x + 14 * √(1 - x ^ 2)
    + 10 / 3 * √(1 - x ^ 2) * (9 * x + 5 * (-1 + x ^ 2)) + 30 * arcsin x + 14 * x * arcsin x - 144 / 5 * log (3 - 5 * x) + 48 * x * log (3 - 5 * x)
    + 288 / 5 * log |-(3 - 5 * x)| - 48 * x * log |3 * x - 5 - 4 * √(1 - x ^ 2)| - 144 / 5 * log |3 * x - 5 + 4 * √(1 - x ^ 2)|
    - 192 / 5 * (π - arccos x)) := by
  have hS : csqrt (-((3 : ℝ) ^ 2 - 5 ^ 2)) = ((4 : ℝ) : ℂ) := by
    rw [csqrt_pos (by norm_num), show (-((3 : ℝ) ^ 2 - 5 ^ 2)) = 4 ^ 2 by norm_num, sqrt_sq (by norm_num)]
  have hT : csqrt (-((3 : ℝ) ^ 2 - 5 ^ 2) ^ 2) = Complex.I * ((16 : ℝ) : ℂ) := by
    rw [csqrt_neg (by norm_num), show (((3 : ℝ) ^ 2 - 5 ^ 2) ^ 2) = 16 ^ 2 by norm_num, sqrt_sq (by norm_num)]
  have hre : ∀ r : ℝ, (Complex.log (r : ℂ)).re = log |r| := fun r => by rw [Complex.log_re, Complex.norm_real, norm_eq_abs]
  have l4 : Complex.log (((((3 : ℝ) ^ 2 - 5 ^ 2) * x : ℝ) : ℂ) + Complex.I * ((16 : ℝ) : ℂ) * ((√(1 - x ^ 2) : ℝ) : ℂ)) =
      (log 16 : ℝ) + ((π - arccos x : ℝ) : ℂ) * Complex.I := by
    rw [← log_polar (by norm_num) (by linarith [pi_pos, arccos_le_pi x]) (by linarith [arccos_nonneg x]), cos_pi_sub, sin_pi_sub, cos_arccos h1 h2, sin_arccos]
    congr 1
    push_cast
    ring
  have w1 : (((3 * x - 5 : ℝ) : ℂ) - ((4 : ℝ) : ℂ) * ((√(1 - x ^ 2) : ℝ) : ℂ)) = ((3 * x - 5 - 4 * √(1 - x ^ 2) : ℝ) : ℂ) := by push_cast; ring
  have w2 : (((3 * x - 5 : ℝ) : ℂ) + ((4 : ℝ) : ℂ) * ((√(1 - x ^ 2) : ℝ) : ℂ)) = ((3 * x - 5 + 4 * √(1 - x ^ 2) : ℝ) : ℂ) := by push_cast; ring
  unfold bigU
  rw [hS, hT, l4, w1, w2, Complex.re_ofReal_mul]
  have k1 := hre (-(3 - 5 * x))
  have k2 := hre (3 * x - 5 - 4 * √(1 - x ^ 2))
  have k3 := hre (3 * x - 5 + 4 * √(1 - x ^ 2))
  rw [← k1, ← k2, ← k3]
  generalize Complex.log ((-(3 - 5 * x) : ℝ) : ℂ) = z1
  generalize Complex.log ((3 * x - 5 - 4 * √(1 - x ^ 2) : ℝ) : ℂ) = z2
  generalize Complex.log ((3 * x - 5 + 4 * √(1 - x ^ 2) : ℝ) : ℂ) = z3
  generalize log (3 - 5 * x) = L
  generalize √(1 - x ^ 2) = c
  generalize arcsin x = a
  generalize π - arccos x = t
  generalize log 16 = M
  have e : ∀ (p q : ℝ) (z : ℂ), ((p : ℂ) * (q : ℂ) * z / ((5 : ℝ) : ℂ)).re = p * q * z.re / 5 := by
    intro p q z
    rw [Complex.div_ofReal_re, ← Complex.ofReal_mul, Complex.re_ofReal_mul]
  have e' : ∀ (p : ℝ) (z : ℂ), ((p : ℂ) * z / ((4 : ℝ) : ℂ)).re = p * z.re / 4 := by
    intro p z
    rw [Complex.div_ofReal_re, Complex.re_ofReal_mul]
  have e'' : ∀ (p q : ℝ) (z : ℂ), ((p : ℂ) * (q : ℂ) * z).re = p * q * z.re := by
    intro p q z
    rw [← Complex.ofReal_mul, Complex.re_ofReal_mul]
  have e4 : ∀ p q : ℝ, ((p : ℂ) * (Complex.I * (q : ℂ)) * ((M : ℂ) + (t : ℂ) * Complex.I)).re = -(p * q * t) := by
    intro p q
    simp
  simp only [Complex.add_re, Complex.sub_re, e, e', e'', e4, Complex.ofReal_re, Complex.div_ofReal_re]
  ring

/-- **C402, false in general.** A panel over the inner 28 % of the span whose chord goes from 1 to 8/15 at the same relative thickness has a negative
bending weight: its thickness, continued in a straight line, is used up before the tip. -/
theorem C402_negative_counterexample : ∃ w, panelBend 30 ⟨0, 1, 1 / 10, 0⟩ ⟨7 / 25, 8 / 15, 1 / 10, 0⟩ = some w ∧ w < 0 := by
  have h5 : log 5 ≤ log 3 + 2 / 3 := by
    have : log 5 = log 3 + log (5 / 3) := by rw [← log_mul (by norm_num) (by norm_num)]; norm_num
    rw [this]
    have := log_le_sub_one_of_pos (show (0 : ℝ) < 5 / 3 by norm_num)
    linarith
  have h3 : 1 < log 3 := by
    rw [lt_log_iff_exp_lt (by norm_num)]
    exact exp_one_lt_three
  have ha : 7 / 25 ≤ arcsin (7 / 25) := by
    rw [le_arcsin_iff_sin_le ⟨by linarith [pi_gt_three], by linarith [pi_gt_three]⟩ ⟨by norm_num, by norm_num⟩]
    exact sin_le (by norm_num)
  have hc : √(1 - (7 / 25 : ℝ) ^ 2) = 24 / 25 := by
    rw [show (1 - (7 / 25 : ℝ) ^ 2) = (24 / 25) ^ 2 by norm_num, sqrt_sq (by norm_num)]
  have s1 : panelBend 30 ⟨0, 1, 1 / 10, 0⟩ ⟨7 / 25, 8 / 15, 1 / 10, 0⟩ = some ((bigU (7 / 25) 3 5).re - (bigU 0 3 5).re) := by
    unfold panelBend
    rw [if_neg (by norm_num)]
    simp only
    have e1 : BendSeg.thick ⟨0, 1, 1 / 10, 0⟩ 30 = 3 := by unfold BendSeg.thick; norm_num
    have e2 : (BendSeg.thick ⟨0, 1, 1 / 10, 0⟩ 30 - BendSeg.thick ⟨7 / 25, 8 / 15, 1 / 10, 0⟩ 30) / (7 / 25 - 0) = 5 := by unfold BendSeg.thick; norm_num
    rw [e2, e1, if_neg (by norm_num), bigIntegral_eq, bigIntegral_eq]
    norm_num
  refine ⟨_, s1, ?_⟩
  rw [bigU_re_35 (by norm_num) (by norm_num), bigU_re_35 (by norm_num) (by norm_num), hc, arccos_zero, arcsin_zero, arccos_eq_pi_div_two_sub_arcsin]
  have q1 : |-(3 - 5 * (7 / 25 : ℝ))| = 8 / 5 := by norm_num [abs_of_neg]
  have q2 : |3 * (7 / 25 : ℝ) - 5 - 4 * (24 / 25)| = 8 := by norm_num [abs_of_neg]
  have q3 : |3 * (7 / 25 : ℝ) - 5 + 4 * (24 / 25)| = 8 / 25 := by norm_num [abs_of_neg]
  have q4 : |-(3 - 5 * (0 : ℝ))| = 3 := by norm_num
  have q5 : √(1 - (0 : ℝ) ^ 2) = 1 := by norm_num
  have q6 : |3 * (0 : ℝ) - 5 + 4 * 1| = 1 := by norm_num
  rw [q1, q2, q3, q4, q5, q6, log_one, show (3 - 5 * (7 / 25 : ℝ)) = 8 / 5 by norm_num, show (3 - 5 * (0 : ℝ)) = 3 by norm_num,
    log_div (by norm_num) (by norm_num), log_div (by norm_num) (by norm_num), show log (25 : ℝ) = 2 * log 5 by
      rw [show (25 : ℝ) = 5 ^ 2 by norm_num, log_pow]; norm_num]
  have hp := pi_gt_three
  linarith

/-- **C402, no result.** Chord and relative thickness changing so that the thickness stays the same divide by zero. -/
theorem C402_zero_counterexample : panelBend 10 ⟨0, 1, 1 / 10, 0⟩ ⟨1, 1 / 2, 1 / 5, 0⟩ = none := by
  unfold panelBend
  rw [if_neg (by norm_num)]
  simp only
  rw [if_pos (by right; unfold BendSeg.thick; norm_num)]

/-- A wing tapering to two thirds of its thickness. -/
example : ∀ y, -1 ≤ y → y ≤ 1 → 0 < BendSeg.line 3 ⟨0, 1, 1 / 10, 0.4⟩ ⟨1, 2 / 3, 1 / 10, 0⟩ y := by
  intro y _ _
  unfold BendSeg.line BendSeg.thick
  norm_num
  linarith
example : BendSeg.thick ⟨0.5, 0.75, 1 / 10, 0.4⟩ 4 = BendSeg.line 4 ⟨0, 1, 1 / 10, 0.4⟩ ⟨1, 0.5, 1 / 10, 0⟩ 0.5 := by
  unfold BendSeg.line BendSeg.thick
  norm_num

end Verif.Weights
