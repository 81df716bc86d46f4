import Verif.Noise.Jet
import Mathlib.Analysis.Calculus.MeanValue
import Mathlib.Analysis.SpecialFunctions.Trigonometric.ArctanDeriv
import Mathlib.Analysis.SpecificLimits.Basic
import Mathlib.Analysis.Real.Pi.Bounds
import Mathlib.Analysis.Complex.ExponentialBounds
import Mathlib.Tactic.LinearCombination

/-!
C300 apparent source angles, C301 mixed stream, C302 spreading of the components, C303 total and excitation, C304 installation effects,
C305 similarity.
-/

namespace Verif.Noise.Jet
open Real

/-! ### C300 -/

theorem sourceAngle_eq (B : ℝ) : sourceAngle B = π / 2 - arctan B := by
  have key : ∀ x : ℝ, 0 ≤ x → arcsin ((x ^ 2 + 1) ^ (-0.5 : ℝ)) = π / 2 - arctan x := by
    intro x hx
    have h1 : (x ^ 2 + 1) ^ (-0.5 : ℝ) = (√(1 + x ^ 2))⁻¹ := by
      rw [sqrt_eq_rpow, ← rpow_neg (by positivity), add_comm]; norm_num
    rw [h1, arctan_eq_arccos hx, arccos]; ring
  unfold sourceAngle
  split_ifs with h
  · exact key B h
  · have := key (-B) (by linarith)
    rw [neg_sq, arctan_neg] at this
    rw [this]; ring

theorem sourceAngle_mem (B : ℝ) : 0 < sourceAngle B ∧ sourceAngle B < π := by
  rw [sourceAngle_eq]
  constructor <;> linarith [arctan_lt_pi_div_two B, neg_pi_div_two_lt_arctan B]

/-- The angle computed for a source `Xo + XJ` downstream of the nozzle is the direction of the microphone seen from there: the microphone,
at the distance `d` and angle `theta` from the nozzle, has the coordinates `(Xo + XJ + d cos theta, d sin theta)` with respect to the source. -/
theorem C300_direction (theta d Xo XJ : ℝ) (hd : 0 < d) (h0 : 0 < theta) (h1 : theta < π) :
    ∃ r, 0 < r ∧ r * cos (sourceAngle (sourceB theta d Xo XJ)) = Xo + XJ + d * cos theta ∧
      r * sin (sourceAngle (sourceB theta d Xo XJ)) = d * sin theta := by
  have hs : 0 < sin theta := sin_pos_of_pos_of_lt_pi h0 h1
  have hc := cos_arctan_pos (sourceB theta d Xo XJ)
  have ht := tan_arctan (sourceB theta d Xo XJ)
  rw [tan_eq_sin_div_cos, div_eq_iff hc.ne'] at ht
  rw [sourceAngle_eq, cos_pi_div_two_sub, sin_pi_div_two_sub]
  refine ⟨d * sin theta / cos (arctan (sourceB theta d Xo XJ)), by positivity, ?_, by field_simp⟩
  rw [ht]
  generalize cos (arctan (sourceB theta d Xo XJ)) = c at hc
  unfold sourceB
  field_simp

example : ∃ r, 0 < r ∧ r * cos (sourceAngle (sourceB (π / 2) 10 0 10)) = 10 ∧ r * sin (sourceAngle (sourceB (π / 2) 10 0 10)) = 10 := by
  have := C300_direction (π / 2) 10 0 10 (by norm_num) (by positivity) (by linarith [pi_pos])
  simpa using this

/-- Whatever angle the search returns, it lies strictly between 0 and 180 degrees, and the source moved by no more than the tolerance in the
last step. -/
theorem C300_settled (theta d Xo tol : ℝ) (xj : ℝ → ℝ) (fuel : ℕ) :
    ∀ t t', 0 < t → t < π → settle xj (fun X => sourceAngle (sourceB theta d Xo X)) tol fuel t = some t' →
      0 < t' ∧ t' < π ∧ ∃ u, t' = (u + sourceAngle (sourceB theta d Xo (xj u))) / 2 ∧ |xj u - xj t'| ≤ tol := by
  induction fuel with
  | zero => intro t t' _ _ h; simp [settle] at h
  | succ n ih =>
    intro t t' h0 h1 h
    have hm := sourceAngle_mem (sourceB theta d Xo (xj t))
    rw [settle] at h
    split_ifs at h with hc
    · exact ih _ _ (by linarith) (by linarith) h
    · injection h with h
      subst h
      exact ⟨by linarith, by linarith, t, rfl, not_lt.1 hc⟩

theorem arctan_lip (x y : ℝ) : |arctan x - arctan y| ≤ |x - y| := by
  have := Convex.norm_image_sub_le_of_norm_deriv_le (f := arctan) (s := Set.univ) (C := 1) (x := y) (y := x)
    (fun z _ => differentiableAt_arctan z) (fun z _ => by
      rw [Real.deriv_arctan, norm_eq_abs, abs_of_nonneg (by positivity), div_le_one (by positivity)]
      nlinarith [sq_nonneg z]) convex_univ (Set.mem_univ _) (Set.mem_univ _)
  simpa [norm_eq_abs] using this

/-- The averaged step shrinks distances when the position formula is non-decreasing and not too steep for the distance. -/
theorem relax_contracts (theta d Xo K : ℝ) (xj : ℝ → ℝ) (hs : 0 < d * sin theta) (hmono : Monotone xj)
    (hlip : ∀ x y, |xj x - xj y| ≤ K * |x - y|) (hK : K < 3 * (d * sin theta)) :
    ∃ k, 0 ≤ k ∧ k < 1 ∧ ∀ x y, |(x + sourceAngle (sourceB theta d Xo (xj x))) / 2 - (y + sourceAngle (sourceB theta d Xo (xj y))) / 2| ≤
      k * |x - y| := by
  have hsin : sin theta ≠ 0 := fun h => by rw [h, mul_zero] at hs; exact lt_irrefl _ hs
  have hd : d ≠ 0 := fun h => by rw [h, zero_mul] at hs; exact lt_irrefl _ hs
  have hK0 : 0 ≤ K := by have := hlip 1 0; rw [sub_zero, abs_one, mul_one] at this; exact le_trans (abs_nonneg _) this
  set L := K / (d * sin theta) with hL
  have hL0 : 0 ≤ L := div_nonneg hK0 hs.le
  have hL3 : L < 3 := by rw [hL, div_lt_iff₀ hs]; linarith
  have hB : ∀ x y, sourceB theta d Xo (xj x) - sourceB theta d Xo (xj y) = (xj x - xj y) / (d * sin theta) := by
    intro x y; unfold sourceB; field_simp; ring
  have main : ∀ x y, x ≤ y → |(x + sourceAngle (sourceB theta d Xo (xj x))) / 2 - (y + sourceAngle (sourceB theta d Xo (xj y))) / 2| ≤
      max (1 / 2) ((L - 1) / 2) * |x - y| := by
    intro x y hxy
    have hb := hB y x
    have hbm : 0 ≤ sourceB theta d Xo (xj y) - sourceB theta d Xo (xj x) := by
      rw [hb]; exact div_nonneg (sub_nonneg.2 (hmono hxy)) hs.le
    have h1 := arctan_lip (sourceB theta d Xo (xj y)) (sourceB theta d Xo (xj x))
    have h2 : 0 ≤ arctan (sourceB theta d Xo (xj y)) - arctan (sourceB theta d Xo (xj x)) :=
      sub_nonneg.2 (arctan_mono (sub_nonneg.1 hbm))
    have h3 : sourceB theta d Xo (xj y) - sourceB theta d Xo (xj x) ≤ L * (y - x) := by
      have := hlip y x
      rw [abs_of_nonneg (sub_nonneg.2 (hmono hxy)), abs_of_nonneg (sub_nonneg.2 hxy)] at this
      rw [hb, hL, div_mul_eq_mul_div]
      exact (div_le_div_iff_of_pos_right hs).2 this
    rw [abs_of_nonneg h2, abs_of_nonneg hbm] at h1
    rw [sourceAngle_eq, sourceAngle_eq, abs_sub_comm x y, abs_of_nonneg (sub_nonneg.2 hxy)]
    have m1 := le_max_left (1 / 2 : ℝ) ((L - 1) / 2)
    have m2 := le_max_right (1 / 2 : ℝ) ((L - 1) / 2)
    generalize max (1 / 2 : ℝ) ((L - 1) / 2) = k at m1 m2 ⊢
    have hyx := sub_nonneg.2 hxy
    rw [abs_le]
    constructor <;> nlinarith
  refine ⟨max (1 / 2) ((L - 1) / 2), le_max_of_le_left (by norm_num), max_lt (by norm_num) (by linarith), fun x y => ?_⟩
  rcases le_total x y with h | h
  · exact main x y h
  · rw [abs_sub_comm, abs_sub_comm x y]; exact main y x h

theorem settle_some (xj ang : ℝ → ℝ) (tol K k : ℝ) (ht : 0 < tol) (hK : 0 ≤ K) (hk0 : 0 ≤ k) (hk1 : k < 1)
    (hlip : ∀ x y, |xj x - xj y| ≤ K * |x - y|)
    (hc : ∀ x y, |(x + ang (xj x)) / 2 - (y + ang (xj y)) / 2| ≤ k * |x - y|) (t : ℝ) :
    ∃ N, ∀ fuel, N ≤ fuel → ∃ t', settle xj ang tol fuel t = some t' := by
  have step : ∀ n t, K * k ^ n * |t - (t + ang (xj t)) / 2| ≤ tol → ∀ fuel, n + 1 ≤ fuel → ∃ t', settle xj ang tol fuel t = some t' := by
    intro n
    induction n with
    | zero =>
      intro t h fuel hf
      obtain ⟨m, rfl⟩ : ∃ m, fuel = m + 1 := ⟨fuel - 1, by omega⟩
      rw [settle]
      rw [if_neg (not_lt.2 (le_trans (hlip _ _) (by simpa using h)))]
      exact ⟨_, rfl⟩
    | succ n ih =>
      intro t h fuel hf
      obtain ⟨m, rfl⟩ : ∃ m, fuel = m + 1 := ⟨fuel - 1, by omega⟩
      rw [settle]
      split_ifs with hcase
      · refine ih _ ?_ m (by omega)
        refine le_trans ?_ h
        have := hc t ((t + ang (xj t)) / 2)
        have hpow : 0 ≤ K * k ^ n := by positivity
        calc K * k ^ n * |(t + ang (xj t)) / 2 - ((t + ang (xj t)) / 2 + ang (xj ((t + ang (xj t)) / 2))) / 2|
            ≤ K * k ^ n * (k * |t - (t + ang (xj t)) / 2|) := mul_le_mul_of_nonneg_left this hpow
          _ = _ := by ring
      · exact ⟨_, rfl⟩
  have hlim : Filter.Tendsto (fun n : ℕ => K * k ^ n * |t - (t + ang (xj t)) / 2|) Filter.atTop (nhds 0) := by
    have := ((tendsto_pow_atTop_nhds_zero_of_lt_one hk0 hk1).const_mul K).mul_const |t - (t + ang (xj t)) / 2|
    simpa using this
  obtain ⟨n, hn⟩ := (hlim.eventually (gt_mem_nhds ht)).exists
  exact ⟨n + 1, step n t hn.le⟩

/-- The search for a source ends when the microphone is far enough from the jet axis for the steepness `K` of the position formula. -/
theorem C300_terminates_partial (theta d Xo K tol r0 : ℝ) (xj0 xj : ℝ → ℝ) (hs : 0 < d * sin theta) (hmono : Monotone xj)
    (hlip : ∀ x y, |xj x - xj y| ≤ K * |x - y|) (hK : K < 3 * (d * sin theta)) (ht : 0 < tol) (t : ℝ) :
    ∃ N, ∀ fuel, N ≤ fuel → ∃ t', locate xj0 xj (fun X => sourceAngle (sourceB theta d Xo X)) r0 tol fuel t = some t' := by
  obtain ⟨k, hk0, hk1, hc⟩ := relax_contracts theta d Xo K xj hs hmono hlip hK
  have hK0 : 0 ≤ K := by have := hlip 1 0; rw [sub_zero, abs_one, mul_one] at this; exact le_trans (abs_nonneg _) this
  obtain ⟨N, hN⟩ := settle_some xj (fun X => sourceAngle (sourceB theta d Xo X)) tol K k ht hK0 hk0 hk1 hlip hc
    (sourceAngle (sourceB theta d Xo (xj0 t)))
  refine ⟨N, fun fuel hf => ?_⟩
  unfold locate; dsimp only
  split_ifs
  · exact hN fuel hf
  · exact ⟨_, rfl⟩


theorem xjPrimary_mono (zk D ratio : ℝ) (h : 0 ≤ zk * D) : Monotone (xjPrimary zk D ratio) := by
  intro x y hxy
  have : arctan (18 * x / π - 9) ≤ arctan (18 * y / π - 9) := by
    refine arctan_mono (sub_le_sub_right ?_ _)
    exact (div_le_div_iff_of_pos_right pi_pos).2 (by linarith)
  unfold xjPrimary
  exact mul_le_mul_of_nonneg_left (by linarith) h

theorem atan_lip (u w x y : ℝ) (hu : 0 ≤ u) : |arctan (u * x / π - w) - arctan (u * y / π - w)| ≤ u / π * |x - y| := by
  refine le_trans (arctan_lip _ _) (le_of_eq ?_)
  rw [show u * x / π - w - (u * y / π - w) = u / π * (x - y) by ring, abs_mul, abs_of_nonneg (by have := pi_pos; positivity)]

theorem xjPrimary_lip (zk D ratio : ℝ) (h : 0 ≤ zk * D) (x y : ℝ) :
    |xjPrimary zk D ratio x - xjPrimary zk D ratio y| ≤ zk * D * (72 / π) * |x - y| := by
  unfold xjPrimary
  rw [show zk * D * (4 + 4 * arctan (18 * x / π - 9) + ratio) - zk * D * (4 + 4 * arctan (18 * y / π - 9) + ratio) =
    zk * D * 4 * (arctan (18 * x / π - 9) - arctan (18 * y / π - 9)) by ring, abs_mul, abs_of_nonneg (by linarith)]
  have := mul_le_mul_of_nonneg_left (atan_lip 18 9 x y (by norm_num)) (show 0 ≤ zk * D * 4 by linarith)
  refine le_trans this (le_of_eq (by ring))

example (t : ℝ) : ∃ N, ∀ fuel, N ≤ fuel → ∃ t', locate (xjPrimary (1 / 2) 1 5) (xjPrimary (1 / 2) 1 5)
    (fun X => sourceAngle (sourceB (π / 2) 100 0 X)) 1 (1 / 200) fuel t = some t' := by
  refine C300_terminates_partial (π / 2) 100 0 _ (1 / 200) 1 _ _ (by simp) (xjPrimary_mono _ _ _ (by norm_num)) (xjPrimary_lip _ _ _ (by norm_num)) ?_
    (by norm_num) t
  rw [sin_pi_div_two]
  have : 72 / π < 72 := by rw [div_lt_iff₀ pi_pos]; linarith [pi_gt_three]
  linarith

/-- The factor in front of the two other position formulas. -/
noncomputable def gainS (zk D St Vs a Va : ℝ) : ℝ := zk * D * (1 + 0.5 / √St) * √(1 + 0.7 * Vs / a) * (Vs / (Vs - Va))
noncomputable def gainM (zk D Vm a Va : ℝ) : ℝ := zk * D * √(0.5 + 0.5 * Vm / a) * (Vm / (Vm - Va))

theorem xjSecondary_eq (zk D St Vs a Va t : ℝ) :
    xjSecondary zk D St Vs a Va t = gainS zk D St Vs a Va * (2 + 1.6 * arctan (4.5 * t / π - 2.25)) := by
  unfold xjSecondary gainS; ring

theorem xjMixed_eq (zk D St Vm a Va t : ℝ) :
    xjMixed zk D St Vm a Va t = gainM zk D Vm a Va * (6 + exp (-St) + 0.5 / √St + 1.1 * arctan (18 * t / π - 13)) := by
  unfold xjMixed gainM; ring

/-- The three angles of a band are found, whatever angles the previous time step left, when the lateral distance of the microphone exceeds the
three bounds (of the order of ten jet diameters). -/
theorem C300_angles_partial (e : Engine) (Va : ℝ) (q : Point) (f : ℝ) (st : Memory) (hz : 0 ≤ e.zk q) (hDp : 0 < e.Dp)
    (hD : 0 < (e.mixed q).D) (hl : 0 < q.dist * sin q.theta)
    (hs0 : 0 ≤ gainS (e.zk q) (e.mixed q).D (e.strS Va q f) e.Vs q.a Va) (hm0 : 0 ≤ gainM (e.zk q) (e.mixed q).D (e.mixed q).V q.a Va)
    (hp : e.zk q * e.Dp * (72 / π) < 3 * (q.dist * sin q.theta))
    (hs : gainS (e.zk q) (e.mixed q).D (e.strS Va q f) e.Vs q.a Va * (7.2 / π) < 3 * (q.dist * sin q.theta))
    (hm : gainM (e.zk q) (e.mixed q).D (e.mixed q).V q.a Va * (19.8 / π) < 3 * (q.dist * sin q.theta)) :
    ∃ N, ∀ fuel, N ≤ fuel → ∃ t, e.angles Va q f fuel st = some t := by
  obtain ⟨N1, h1⟩ := C300_terminates_partial q.theta q.dist 0 _ (e.Dp / 200) e.Dp (xjPrimary (e.zk q) e.Dp (e.As / e.Ap))
    (xjPrimary (e.zk q) e.Dp (e.As / e.Ap)) hl (xjPrimary_mono _ _ _ (by positivity)) (xjPrimary_lip _ _ _ (by positivity)) hp (by positivity) st.tp
  obtain ⟨N2, h2⟩ := C300_terminates_partial q.theta q.dist 0 (gainS (e.zk q) (e.mixed q).D (e.strS Va q f) e.Vs q.a Va * (7.2 / π))
    ((e.mixed q).D / 200) e.Ds (xjSecondary (e.zk q) e.Ds (e.strS Va q f) e.Vs q.a Va) (xjSecondary (e.zk q) (e.mixed q).D (e.strS Va q f) e.Vs q.a Va) hl
    (fun x y hxy => by
      rw [xjSecondary_eq, xjSecondary_eq]
      have : arctan (4.5 * x / π - 2.25) ≤ arctan (4.5 * y / π - 2.25) :=
        arctan_mono (sub_le_sub_right ((div_le_div_iff_of_pos_right pi_pos).2 (by linarith)) _)
      exact mul_le_mul_of_nonneg_left (by linarith) hs0)
    (fun x y => by
      rw [xjSecondary_eq, xjSecondary_eq]
      generalize gainS (e.zk q) (e.mixed q).D (e.strS Va q f) e.Vs q.a Va = g at hs0
      have := mul_le_mul_of_nonneg_left (atan_lip 4.5 2.25 x y (by norm_num)) (show 0 ≤ g * 1.6 by linarith)
      rw [show g * (2 + 1.6 * arctan (4.5 * x / π - 2.25)) - g * (2 + 1.6 * arctan (4.5 * y / π - 2.25)) =
        g * 1.6 * (arctan (4.5 * x / π - 2.25) - arctan (4.5 * y / π - 2.25)) by ring, abs_mul, abs_of_nonneg (by linarith)]
      exact le_trans this (le_of_eq (by ring))) hs (by positivity) st.ts
  obtain ⟨N3, h3⟩ := C300_terminates_partial q.theta q.dist 0 (gainM (e.zk q) (e.mixed q).D (e.mixed q).V q.a Va * (19.8 / π))
    ((e.mixed q).D / 200) (e.mixed q).D (xjMixed (e.zk q) (e.mixed q).D (e.strM Va q f) (e.mixed q).V q.a Va)
    (xjMixed (e.zk q) (e.mixed q).D (e.strM Va q f) (e.mixed q).V q.a Va) hl
    (fun x y hxy => by
      rw [xjMixed_eq, xjMixed_eq]
      have : arctan (18 * x / π - 13) ≤ arctan (18 * y / π - 13) :=
        arctan_mono (sub_le_sub_right ((div_le_div_iff_of_pos_right pi_pos).2 (by linarith)) _)
      exact mul_le_mul_of_nonneg_left (by linarith) hm0)
    (fun x y => by
      rw [xjMixed_eq, xjMixed_eq]
      generalize gainM (e.zk q) (e.mixed q).D (e.mixed q).V q.a Va = g at hm0
      generalize 6 + exp (-e.strM Va q f) + 0.5 / √(e.strM Va q f) = c
      have := mul_le_mul_of_nonneg_left (atan_lip 18 13 x y (by norm_num)) (show 0 ≤ g * 1.1 by linarith)
      rw [show g * (c + 1.1 * arctan (18 * x / π - 13)) - g * (c + 1.1 * arctan (18 * y / π - 13)) =
        g * 1.1 * (arctan (18 * x / π - 13) - arctan (18 * y / π - 13)) by ring, abs_mul, abs_of_nonneg (by linarith)]
      exact le_trans this (le_of_eq (by ring))) hm (by positivity) st.tm
  refine ⟨max N1 (max N2 N3), fun fuel hf => ?_⟩
  obtain ⟨a1, b1⟩ := h1 fuel (le_trans (le_max_left _ _) hf)
  obtain ⟨a2, b2⟩ := h2 fuel (le_trans (le_trans (le_max_left _ _) (le_max_right _ _)) hf)
  obtain ⟨a3, b3⟩ := h3 fuel (le_trans (le_trans (le_max_right _ _) (le_max_right _ _)) hf)
  refine ⟨(a1, a2, a3), ?_⟩
  unfold Engine.angles
  dsimp only
  rw [b1]
  simp only [Option.bind_eq_bind, Option.bind_some]
  rw [b2]
  simp only [Option.bind_some]
  rw [b3]
  rfl

/-- A microphone a few diameters away, behind the engine: from the angle `t` of an earlier time step the search for the primary source jumps
for ever between 80 and 100 degrees. -/
theorem C300_endless_counterexample :
    ∃ theta d zk D ratio t, 0 < theta ∧ theta < π ∧ 0 < zk ∧ zk ≤ 1 ∧ 0 < D ∧ D < d ∧ 0 < ratio ∧ 0 < t ∧ t < π ∧
      ∀ fuel, locate (xjPrimary zk D ratio) (xjPrimary zk D ratio) (fun X => sourceAngle (sourceB theta d 0 X)) D (D / 200) fuel t = none := by
  have hpi := pi_pos
  have h3 : 0 < √3 := by positivity
  have h33 : √3 * √3 = 3 := mul_self_sqrt (by norm_num)
  set x := 5 / (π * √3) with hx
  have hx0 : 0 < x := by positivity
  have hcx := cos_arctan_pos x
  have hc1 := cos_le_one (arctan x)
  have hsx : sin (arctan x) = x * cos (arctan x) := by
    have := tan_arctan x
    rwa [tan_eq_sin_div_cos, div_eq_iff hcx.ne'] at this
  set c := cos (arctan x) with hc
  set w := tan (π / 18) * (π * √3) / 4 with hw
  have ht0 : 0 < tan (π / 18) := tan_pos_of_pos_of_lt_pi_div_two (by positivity) (by linarith)
  have ht1 : tan (π / 18) < 1 / √3 := by
    rw [← tan_pi_div_six]
    exact tan_lt_tan_of_nonneg_of_lt_pi_div_two (by positivity) (by linarith) (by linarith)
  have hw0 : 0 < w := by positivity
  have hw1 : w < π / 4 := by
    rw [lt_div_iff₀ h3] at ht1
    rw [hw]; nlinarith
  have htw0 : 0 < tan w := tan_pos_of_pos_of_lt_pi_div_two hw0 (by linarith)
  have htw1 : tan w < 1 := by
    rw [← tan_pi_div_four]
    exact tan_lt_tan_of_nonneg_of_lt_pi_div_two hw0.le (by linarith) hw1
  have hD : 20 * c / (π * √3) < 10 := by
    rw [div_lt_iff₀ (by positivity)]
    have : (3 : ℝ) < π := pi_gt_three
    have : (1 : ℝ) < √3 := by nlinarith
    nlinarith
  have hB : ∀ t, sourceB (π / 2 + arctan x) 10 0 (xjPrimary (1 / 2) (20 * c / (π * √3)) 1 t) = 4 / (π * √3) * arctan (18 * t / π - 9) := by
    intro t
    unfold sourceB xjPrimary
    rw [sin_add, cos_add, sin_pi_div_two, cos_pi_div_two, hsx, ← hc, hx]
    field_simp
    ring
  have hva : sourceAngle (sourceB (π / 2 + arctan x) 10 0 (xjPrimary (1 / 2) (20 * c / (π * √3)) 1 (4 * π / 9))) = 2 * π / 3 := by
    rw [hB, show 18 * (4 * π / 9) / π - 9 = -1 by field_simp; norm_num, arctan_neg, arctan_one, sourceAngle_eq,
      show 4 / (π * √3) * -(π / 4) = -(√3)⁻¹ by field_simp, arctan_neg, arctan_inv_sqrt_three]
    ring
  have hvb : sourceAngle (sourceB (π / 2 + arctan x) 10 0 (xjPrimary (1 / 2) (20 * c / (π * √3)) 1 (5 * π / 9))) = π / 3 := by
    rw [hB, show 18 * (5 * π / 9) / π - 9 = 1 by field_simp; norm_num, arctan_one, sourceAngle_eq,
      show 4 / (π * √3) * (π / 4) = (√3)⁻¹ by field_simp, arctan_inv_sqrt_three]
    ring
  have hgap : xjPrimary (1 / 2) (20 * c / (π * √3)) 1 (5 * π / 9) - xjPrimary (1 / 2) (20 * c / (π * √3)) 1 (4 * π / 9) = 20 * c / √3 := by
    unfold xjPrimary
    rw [show 18 * (5 * π / 9) / π - 9 = 1 by field_simp; norm_num, show 18 * (4 * π / 9) / π - 9 = -1 by field_simp; norm_num,
      arctan_neg, arctan_one]
    field_simp
    ring
  have hgt : 20 * c / (π * √3) / 200 < 20 * c / √3 := by
    rw [div_div, div_lt_div_iff₀ (by positivity) h3]
    have : (3 : ℝ) < π := pi_gt_three
    have : 0 < c * √3 := by positivity
    nlinarith
  have hloop : ∀ fuel, settle (xjPrimary (1 / 2) (20 * c / (π * √3)) 1) (fun X => sourceAngle (sourceB (π / 2 + arctan x) 10 0 X))
        (20 * c / (π * √3) / 200) fuel (4 * π / 9) = none ∧
      settle (xjPrimary (1 / 2) (20 * c / (π * √3)) 1) (fun X => sourceAngle (sourceB (π / 2 + arctan x) 10 0 X))
        (20 * c / (π * √3) / 200) fuel (5 * π / 9) = none := by
    intro fuel
    induction fuel with
    | zero => exact ⟨rfl, rfl⟩
    | succ n ih =>
      constructor
      · rw [settle]
        rw [hva, show (4 * π / 9 + 2 * π / 3) / 2 = 5 * π / 9 by ring, if_pos]
        · exact ih.2
        · rw [abs_sub_comm, hgap, abs_of_pos (by positivity)]; exact hgt
      · rw [settle]
        rw [hvb, show (5 * π / 9 + π / 3) / 2 = 4 * π / 9 by ring, if_pos]
        · exact ih.1
        · rw [hgap, abs_of_pos (by positivity)]; exact hgt
  refine ⟨π / 2 + arctan x, 10, 1 / 2, 20 * c / (π * √3), 1, π * (9 + tan w) / 18, ?_, ?_, by norm_num, by norm_num, by positivity, hD, by norm_num,
    by positivity, by nlinarith, fun fuel => ?_⟩
  · linarith [arctan_pos.2 hx0]
  · linarith [arctan_lt_pi_div_two x]
  · unfold locate
    dsimp only
    have h1 : sourceAngle (sourceB (π / 2 + arctan x) 10 0 (xjPrimary (1 / 2) (20 * c / (π * √3)) 1 (π * (9 + tan w) / 18))) = 4 * π / 9 := by
      rw [hB, show 18 * (π * (9 + tan w) / 18) / π - 9 = tan w by field_simp; ring, arctan_tan (by linarith) (by linarith), sourceAngle_eq,
        show 4 / (π * √3) * w = tan (π / 18) by rw [hw]; field_simp, arctan_tan (by linarith) (by linarith)]
      ring
    rw [h1, if_pos (by have : 0 < 20 * c / (π * √3) := by positivity
                       linarith)]
    exact (hloop fuel).1

/-! ### C301 -/

theorem Cp_pos : 0 < Cp := by unfold Cp Rgas; norm_num
theorem Rgas_pos : 0 < Rgas := by unfold Rgas; norm_num

/-- The static temperature of the mixed stream is at least the average of the static temperatures of the two streams. -/
theorem mixed_static (mp ms Vp Vs Tp Ts k : ℝ) (hp : 0 < mp) (hs : 0 < ms) (h1 : Vp ^ 2 < k * Tp) (h2 : Vs ^ 2 < k * Ts) :
    ((mp * Vp + ms * Vs) / (mp + ms)) ^ 2 < k * ((mp * Tp + ms * Ts) / (mp + ms)) := by
  have hm : 0 < mp + ms := by linarith
  rw [div_pow, mul_div_assoc', div_lt_div_iff₀ (by positivity) hm]
  have h3 : (mp * Vp + ms * Vs) ^ 2 ≤ (mp + ms) * (mp * Vp ^ 2 + ms * Vs ^ 2) := by nlinarith [mul_pos hp hs, sq_nonneg (Vp - Vs)]
  have h4 : mp * Vp ^ 2 + ms * Vs ^ 2 < k * (mp * Tp + ms * Ts) := by nlinarith
  have h5 : (mp * Vp + ms * Vs) ^ 2 < (mp + ms) * (k * (mp * Tp + ms * Ts)) := lt_of_le_of_lt h3 (mul_lt_mul_of_pos_left h4 hm)
  nlinarith

/-- The mixed stream carries the mass, the momentum and the stagnation enthalpy of the two streams, and its density is that of the gas at ambient
pressure and at its own static temperature. -/
theorem C301_conserves_partial (p s : Stream) (pamb : ℝ) (hp : 0 < p.mdot) (hs : 0 < s.mdot) (hVp : 0 < p.V) (hVs : 0 < s.V)
    (hTp : p.V ^ 2 < 2 * Cp * p.T) (hTs : s.V ^ 2 < 2 * Cp * s.T) (ha : 0 < pamb) :
    (mix p s pamb).mdot = p.mdot + s.mdot ∧ (mix p s pamb).mdot * (mix p s pamb).V = p.mdot * p.V + s.mdot * s.V ∧
      (mix p s pamb).mdot * (mix p s pamb).T = p.mdot * p.T + s.mdot * s.T ∧ 0 < (mix p s pamb).rho ∧
      pamb = (mix p s pamb).rho * Rgas * ((mix p s pamb).T - (mix p s pamb).V ^ 2 / (2 * Cp)) := by
  have hm : 0 < p.mdot + s.mdot := by linarith
  have hV : 0 < (mix p s pamb).V := by
    change 0 < (p.mdot * p.V + s.mdot * s.V) / (p.mdot + s.mdot)
    positivity
  have hst : (mix p s pamb).V ^ 2 < 2 * Cp * (mix p s pamb).T :=
    mixed_static p.mdot s.mdot p.V s.V p.T s.T (2 * Cp) hp hs hTp hTs
  have hrho : (mix p s pamb).rho = gasDensity pamb (mix p s pamb).T (mix p s pamb).V Cp := rfl
  have hA : (mix p s pamb).A = p.A * p.rho * p.V * (1 + s.mdot / p.mdot) / ((mix p s pamb).rho * (mix p s pamb).V) := rfl
  have hVm : (mix p s pamb).V = (p.mdot * p.V + s.mdot * s.V) / (p.mdot + s.mdot) := rfl
  have hTm : (mix p s pamb).T = (p.mdot * p.T + s.mdot * s.T) / (p.mdot + s.mdot) := rfl
  have hden : 0 < Rgas * (mix p s pamb).T - 0.5 * Rgas * (mix p s pamb).V ^ 2 / Cp := by
    have h1 : (mix p s pamb).V ^ 2 / Cp < 2 * (mix p s pamb).T := by rw [div_lt_iff₀ Cp_pos]; linarith
    have h2 : 0.5 * Rgas * (mix p s pamb).V ^ 2 / Cp = 0.5 * Rgas * ((mix p s pamb).V ^ 2 / Cp) := by ring
    rw [h2]
    nlinarith [Rgas_pos]
  have hrp : 0 < (mix p s pamb).rho := by rw [hrho, gasDensity]; positivity
  have hmass : (mix p s pamb).mdot = p.mdot + s.mdot := by
    rw [Stream.mdot, hA]
    have : p.A * p.rho * p.V = p.mdot := by rw [Stream.mdot]; ring
    rw [this]
    field_simp
  refine ⟨hmass, ?_, ?_, hrp, ?_⟩
  · rw [hmass, hVm]; field_simp
  · rw [hmass, hTm]; field_simp
  · have h1 : (mix p s pamb).rho * (Rgas * (mix p s pamb).T - 0.5 * Rgas * (mix p s pamb).V ^ 2 / Cp) = pamb := by
      rw [hrho, gasDensity, div_mul_cancel₀ _ hden.ne']
    refine h1.symm.trans ?_
    have := Cp_pos
    field_simp
    ring

/-- Its speed and stagnation temperature lie between those of the two streams. -/
theorem C301_between (p s : Stream) (pamb : ℝ) (hp : 0 < p.mdot) (hs : 0 < s.mdot) :
    min p.V s.V ≤ (mix p s pamb).V ∧ (mix p s pamb).V ≤ max p.V s.V ∧ min p.T s.T ≤ (mix p s pamb).T ∧ (mix p s pamb).T ≤ max p.T s.T := by
  have hm : 0 < p.mdot + s.mdot := by linarith
  have key : ∀ x y : ℝ, min x y ≤ (p.mdot * x + s.mdot * y) / (p.mdot + s.mdot) ∧ (p.mdot * x + s.mdot * y) / (p.mdot + s.mdot) ≤ max x y := by
    intro x y
    rw [le_div_iff₀ hm, div_le_iff₀ hm]
    have a1 := min_le_left x y
    have a2 := min_le_right x y
    have a3 := le_max_left x y
    have a4 := le_max_right x y
    constructor <;> nlinarith
  exact ⟨(key _ _).1, (key _ _).2, (key _ _).1, (key _ _).2⟩

/-- The mixed diameter is that of a circle with the mixed area. -/
theorem C301_diameter (m : Stream) (h : 0 ≤ m.A) : π * (m.D / 2) ^ 2 = m.A := by
  have hpi := pi_pos
  have : m.D ^ 2 = 4 * m.A / π := by
    rw [Stream.D, ← rpow_natCast, ← rpow_mul (by positivity)]; norm_num
  rw [div_pow, this]; field_simp; ring

/-- The exit densities take the stagnation pressure for the static one: for a gas at the stagnation state `P`, `T` expanded isentropically to the
speed `V` the density that is used exceeds the density of the gas. -/
theorem C301_stagnation_counterexample (P T V cp : ℝ) (hP : 0 < P) (hT : 0 < T) (hV : 0 < V) (hcp : 0 < cp) (hst : V ^ 2 < 2 * cp * T) :
    P * (1 - V ^ 2 / (2 * cp * T)) ^ (cp / Rgas) / (Rgas * (T - V ^ 2 / (2 * cp))) < gasDensity P T V cp := by
  have hR := Rgas_pos
  have hx0 : 0 < 1 - V ^ 2 / (2 * cp * T) := by rw [sub_pos, div_lt_one (by positivity)]; exact hst
  have hx1 : 1 - V ^ 2 / (2 * cp * T) < 1 := by
    have : 0 < V ^ 2 / (2 * cp * T) := by positivity
    linarith
  have hpow : (1 - V ^ 2 / (2 * cp * T)) ^ (cp / Rgas) < 1 := rpow_lt_one hx0.le hx1 (by positivity)
  have hd : 0 < Rgas * (T - V ^ 2 / (2 * cp)) := by
    refine mul_pos hR ?_
    rw [sub_pos, div_lt_iff₀ (by positivity)]; linarith
  have he : Rgas * T - 0.5 * Rgas * V ^ 2 / cp = Rgas * (T - V ^ 2 / (2 * cp)) := by field_simp; ring
  rw [gasDensity, he]
  refine (div_lt_div_iff_of_pos_right hd).2 ?_
  nlinarith

example : (mix ⟨1, 400, 800, 1⟩ ⟨4, 300, 350, 1⟩ 101325).mdot = 1600 ∧ 300 ≤ (mix ⟨1, 400, 800, 1⟩ ⟨4, 300, 350, 1⟩ 101325).V := by
  have h := C301_conserves_partial ⟨1, 400, 800, 1⟩ ⟨4, 300, 350, 1⟩ 101325 (by norm_num [Stream.mdot]) (by norm_num [Stream.mdot])
    (by norm_num) (by norm_num) (by norm_num [Cp, Rgas]) (by norm_num [Cp, Rgas]) (by norm_num)
  have h2 := C301_between ⟨1, 400, 800, 1⟩ ⟨4, 300, 350, 1⟩ 101325 (by norm_num [Stream.mdot]) (by norm_num [Stream.mdot])
  refine ⟨h.1.trans (by norm_num [Stream.mdot]), le_trans ?_ h2.1⟩
  norm_num

/-! ### C302 -/

theorem primaryBand_shift (j : Flow) (t d d' ex St : ℝ) : primaryBand j t d' ex St - primaryBand j t d ex St = d' - d := by
  unfold primaryBand; ring
theorem secondary_shift (j : Flow) (t d d' ex St : ℝ) : secondary j t d' ex St - secondary j t d ex St = d' - d := by
  unfold secondary; ring
theorem mixed_shift (j : Flow) (t d d' ex St : ℝ) : mixed j t d' ex St - mixed j t d ex St = d' - d := by
  unfold mixed; ring

theorem spread (D d d' : ℝ) (hD : 0 < D) (hd : 0 < d) (hd' : 0 < d') :
    20 * logb 10 (D / d') - 20 * logb 10 (D / d) = 20 * logb 10 (d / d') := by
  rw [logb_div hD.ne' hd'.ne', logb_div hD.ne' hd.ne', logb_div hd.ne' hd'.ne']; ring

/-- For the same source angles every component falls by spherical spreading and by the difference of the atmospheric attenuation when the
microphone moves from `q.dist` to `d`: the secondary and mixed jets in all bands, the primary jet in the bands before the last. -/
theorem C302_spreading_partial (e : Engine) (Va aoa : ℝ) (q : Point) (i : ℕ) (f old old' : ℝ) (t : ℝ × ℝ × ℝ) (d : ℝ) (hq : 0 < q.dist) (hd : 0 < d)
    (hDp : 0 < e.Dp) (hD : 0 < (e.mixed q).D) :
    let l := e.levels Va aoa q i f old t
    let l' := e.levels Va aoa { q with dist := d } i f old' t
    let fall := 20 * logb 10 (q.dist / d) - (Air.attenuation d i - Air.attenuation q.dist i)
    l'.s - l.s = fall ∧ l'.m - l.m = fall ∧ (i < 23 → l'.p - l.p = fall) := by
  have h1 := spread e.Dp q.dist d hDp hq hd
  have h2 := spread (e.mixed q).D q.dist d hD hq hd
  have hj : e.jet Va { q with dist := d } = e.jet Va q := rfl
  have hM : e.mixed { q with dist := d } = e.mixed q := rfl
  dsimp only
  refine ⟨?_, ?_, fun hi => ?_⟩
  · have := secondary_shift (e.jet Va q) t.2.1 (levelShift q.p (e.fanJet q).rho q.rho (e.mixed q).D q.dist (Air.attenuation q.dist i))
      (levelShift q.p (e.fanJet q).rho q.rho (e.mixed q).D d (Air.attenuation d i)) (2 * q.a / (e.Vs * e.zk q)) (e.strS Va q f)
    have h3 : levelShift q.p (e.fanJet q).rho q.rho (e.mixed q).D d (Air.attenuation d i) -
      levelShift q.p (e.fanJet q).rho q.rho (e.mixed q).D q.dist (Air.attenuation q.dist i) =
        20 * logb 10 (q.dist / d) - (Air.attenuation d i - Air.attenuation q.dist i) := by unfold levelShift; linarith
    rw [h3] at this
    rw [← this]
    unfold Engine.levels
    dsimp only
    rw [hj, hM]
    exact (add_sub_add_right_eq_sub _ _ _).trans (add_sub_add_right_eq_sub _ _ _)
  · have := mixed_shift (e.jet Va q) t.2.2 (levelShift q.p (e.mixed q).rho q.rho (e.mixed q).D q.dist (Air.attenuation q.dist i))
      (levelShift q.p (e.mixed q).rho q.rho (e.mixed q).D d (Air.attenuation d i)) (e.exMixed Va q f t.2.2) (e.strM Va q f)
    have h3 : levelShift q.p (e.mixed q).rho q.rho (e.mixed q).D d (Air.attenuation d i) -
      levelShift q.p (e.mixed q).rho q.rho (e.mixed q).D q.dist (Air.attenuation q.dist i) =
        20 * logb 10 (q.dist / d) - (Air.attenuation d i - Air.attenuation q.dist i) := by unfold levelShift; linarith
    rw [h3] at this
    rw [← this]
    unfold Engine.levels
    dsimp only
    rw [hj, hM]
    exact ((add_sub_add_right_eq_sub _ _ _).trans (add_sub_add_right_eq_sub _ _ _)).trans (add_sub_add_right_eq_sub _ _ _)
  · have := primaryBand_shift (e.jet Va q) t.1 (levelShiftPrimary q.p (e.core q).rho (e.fanJet q).rho q.rho e.Dp q.dist (Air.attenuation q.dist i))
      (levelShiftPrimary q.p (e.core q).rho (e.fanJet q).rho q.rho e.Dp d (Air.attenuation d i)) (5 * excDirect e.exa * e.exps q) (e.strP Va f)
    have h3 : levelShiftPrimary q.p (e.core q).rho (e.fanJet q).rho q.rho e.Dp d (Air.attenuation d i) -
      levelShiftPrimary q.p (e.core q).rho (e.fanJet q).rho q.rho e.Dp q.dist (Air.attenuation q.dist i) =
        20 * logb 10 (q.dist / d) - (Air.attenuation d i - Air.attenuation q.dist i) := by unfold levelShiftPrimary; linarith
    rw [h3] at this
    rw [← this]
    unfold Engine.levels primary
    dsimp only
    rw [if_pos hi, if_pos hi, hj]
    exact add_sub_add_right_eq_sub _ _ _

/-- The last band of the primary jet is never computed: without a plug it reads 0 dB at every time step, at any distance and for any engine. -/
theorem C302_lastBand_counterexample (e : Engine) (f : ℝ) (fuel : ℕ) (qs : List Point) (ls : List Levels) (hplug : e.plug = 0)
    (h : e.history 23 f fuel qs = some ls) : ls.length = qs.length ∧ ∀ l ∈ ls, l.p = 0 := by
  have key : ∀ (Va aoa : ℝ) (qs : List Point) (st : Memory) (ls : List Levels), st.spl = 0 → e.march Va aoa 23 f fuel st qs = some ls →
      ls.length = qs.length ∧ ∀ l ∈ ls, l.p = 0 := by
    intro Va aoa qs
    induction qs with
    | nil => intro st ls _ h; rw [Engine.march] at h; injection h with h; subst h; simp
    | cons q qs ih =>
      intro st ls hst h
      rw [Engine.march] at h
      simp only [Option.bind_eq_bind, Option.bind_eq_some_iff, Option.pure_def, Option.some.injEq] at h
      obtain ⟨t, -, rest, hr, rfl⟩ := h
      have hp : (e.levels Va aoa q 23 f st.spl t).p = 0 := by
        change primary _ _ 23 _ _ _ _ + plugPrimary _ _ _ _ _ = 0
        rw [primary, if_neg (lt_irrefl _), plugPrimary, hplug, hst]; ring
      obtain ⟨a1, a2⟩ := ih _ rest hp hr
      refine ⟨by simp [a1], fun l hl => ?_⟩
      rcases List.mem_cons.1 hl with rfl | hl
      · exact hp
      · exact a2 l hl
  unfold Engine.history at h
  split at h
  · exact absurd h (by simp)
  · exact key _ _ _ _ _ rfl h

/-! ### C303 -/

/-- The total of a band is the sum of the acoustic energies of the three jets. -/
theorem C303_energy (p s m : ℝ) : (10 : ℝ) ^ (sum3 p s m / 10) = (10 : ℝ) ^ (p / 10) + (10 : ℝ) ^ (s / 10) + (10 : ℝ) ^ (m / 10) := by
  have h : 0 < (10 : ℝ) ^ (p / 10) + (10 : ℝ) ^ (s / 10) + (10 : ℝ) ^ (m / 10) := by positivity
  have e : ∀ x : ℝ, 0.1 * x = x / 10 := fun x => by ring
  rw [sum3, e, e, e, mul_div_cancel_left₀ _ (by norm_num : (10 : ℝ) ≠ 0), rpow_logb (by norm_num) (by norm_num) h]

/-- It is above each of them and at most 10 log10(3) dB above the loudest. -/
theorem C303_bounds (p s m : ℝ) : max p (max s m) < sum3 p s m ∧ sum3 p s m ≤ max p (max s m) + 10 * logb 10 3 := by
  have hE := C303_energy p s m
  have up : ∀ x y : ℝ, (10 : ℝ) ^ (x / 10) < (10 : ℝ) ^ (y / 10) → x < y := fun x y h => by
    have := (rpow_lt_rpow_left_iff (by norm_num : (1 : ℝ) < 10)).1 h
    linarith
  have hp : 0 < (10 : ℝ) ^ (p / 10) := by positivity
  have hs : 0 < (10 : ℝ) ^ (s / 10) := by positivity
  have hm : 0 < (10 : ℝ) ^ (m / 10) := by positivity
  refine ⟨max_lt (up _ _ (by linarith)) (max_lt (up _ _ (by linarith)) (up _ _ (by linarith))), ?_⟩
  set M := max p (max s m) with hM
  have mono : ∀ x, x ≤ M → (10 : ℝ) ^ (x / 10) ≤ (10 : ℝ) ^ (M / 10) := fun x h => rpow_le_rpow_of_exponent_le (by norm_num) (by linarith)
  have h1 := mono p (le_max_left _ _)
  have h2 := mono s (le_trans (le_max_left _ _) (le_max_right _ _))
  have h3 := mono m (le_trans (le_max_right _ _) (le_max_right _ _))
  have h4 : (10 : ℝ) ^ (sum3 p s m / 10) ≤ (10 : ℝ) ^ ((M + 10 * logb 10 3) / 10) := by
    rw [hE, add_div, rpow_add (by norm_num), mul_div_cancel_left₀ _ (by norm_num : (10 : ℝ) ≠ 0),
      rpow_logb (by norm_num) (by norm_num) (by norm_num)]
    linarith
  have := (rpow_le_rpow_left_iff (by norm_num : (1 : ℝ) < 10)).1 h4
  linarith

/-- Excitation is at most one and continuous across the lock-in range, so the contraction of the source region stays between 0 and 1. -/
theorem C303_excitation (St : ℝ) : 0 < excitation St ∧ excitation St ≤ 1 ∧ (0.25 ≤ St → St ≤ 0.5 → excitation St = 1) := by
  refine ⟨exp_pos _, ?_, fun h1 h2 => ?_⟩
  · unfold excitation
    rw [exp_le_one_iff]
    split_ifs with h
    · simp
    · rw [Classical.not_and_iff_not_or_not, not_lt, not_lt] at h
      rw [neg_nonpos]
      rcases h with h | h
      · nlinarith
      · nlinarith
  · unfold excitation
    split_ifs with h
    · simp
    · rw [Classical.not_and_iff_not_or_not, not_lt, not_lt] at h
      rcases h with h | h
      · rw [le_antisymm h h1]; norm_num
      · rw [le_antisymm h2 h]; norm_num

theorem C303_contraction (exa St : ℝ) (h : 0 ≤ exa) : 0 < contraction (excDirect exa) (excitation St) ∧ contraction (excDirect exa) (excitation St) < 1 := by
  obtain ⟨h0, h1, -⟩ := C303_excitation St
  have h2 : 0 < excDirect exa := exp_pos _
  have h3 : excDirect exa ≤ 2 := by
    have : excDirect exa ≤ exp 0.6 := exp_le_exp.2 (by have : 0 ≤ exa ^ (0.5 : ℝ) := by positivity
                                                       linarith)
    refine le_trans this ?_
    have h5 : exp 0.6 ^ 5 = exp 1 ^ 3 := by rw [← exp_nat_mul, ← exp_nat_mul]; norm_num
    have h6 := exp_one_lt_d9
    by_contra hc
    rw [not_le] at hc
    have h7 : (2 : ℝ) ^ 5 < exp 0.6 ^ 5 := pow_lt_pow_left₀ hc (by norm_num) (by norm_num)
    have h8 : exp 1 ^ 3 < 2.7182818286 ^ 3 := pow_lt_pow_left₀ h6 (exp_pos _).le (by norm_num)
    rw [h5] at h7
    have h9 : (2.7182818286 : ℝ) ^ 3 < 2 ^ 5 := by norm_num
    linarith
  unfold contraction
  generalize excDirect exa = u at h2 h3
  generalize excitation St = v at h0 h1
  constructor <;> nlinarith [mul_pos h2 h0]

/-- The bypass term is the excess of the bypass ratio over 5.5, limited to the range 0 to 4. -/
theorem C303_bypass (mp ms : ℝ) : bypassTerm mp ms = max 0 (min 4 (ms / mp - 5.5)) := by
  unfold bypassTerm
  dsimp only
  split_ifs with h1 h2
  · rw [max_eq_left]; exact le_trans (min_le_right _ _) h1.le
  · rw [min_eq_left h2.le]; norm_num
  · rw [min_eq_right (not_lt.1 h2), max_eq_right (not_lt.1 h1)]

/-- Only the speed of the first control point enters: replacing all later speeds by any others changes no level. -/
theorem C303_speed_counterexample (e : Engine) (i : ℕ) (f : ℝ) (fuel : ℕ) (q : Point) (qs : List Point) (w : Point → ℝ) :
    e.history i f fuel (q :: qs.map (fun x => { x with v := w x })) = e.history i f fuel (q :: qs) := by
  have key : ∀ (Va aoa : ℝ) (qs : List Point) (st : Memory),
      e.march Va aoa i f fuel st (qs.map (fun x => { x with v := w x })) = e.march Va aoa i f fuel st qs := by
    intro Va aoa qs
    induction qs with
    | nil => intro st; rfl
    | cons x xs ih =>
      intro st
      rw [List.map_cons, Engine.march, Engine.march]
      have h1 : e.angles Va { x with v := w x } f fuel st = e.angles Va x f fuel st := rfl
      have h2 : ∀ t, e.levels Va aoa { x with v := w x } i f st.spl t = e.levels Va aoa x i f st.spl t := fun _ => rfl
      rw [h1]
      simp only [h2, ih]
  unfold Engine.history
  dsimp only
  have h1 : (List.map (fun x : Point => x.alpha / (π / 180)) (q :: qs.map (fun x => { x with v := w x }))) =
      List.map (fun x : Point => x.alpha / (π / 180)) (q :: qs) := by simp [List.map_map, Function.comp_def]
  rw [h1, show (q :: qs.map (fun x => { x with v := w x })).length = (q :: qs).length by simp]
  rw [Engine.march, Engine.march]
  simp only [key]

/-! ### C304 -/

theorem tau_zero : tau (π / 3) = 0 := by unfold tau; have := pi_pos; field_simp; norm_num

/-- The angle of attack has no effect at zero incidence or at 60 degrees, is proportional to the incidence and adds noise for a positive one. -/
theorem C304_attack (aoa mach t : ℝ) (hm : 0 ≤ mach) : attackEffect 0 mach t = 0 ∧ attackEffect aoa mach (π / 3) = 0 ∧
    (∀ k, attackEffect (k * aoa) mach t = k * attackEffect aoa mach t) ∧ (0 ≤ aoa → 0 ≤ attackEffect aoa mach t) := by
  unfold attackEffect
  refine ⟨by ring, by rw [tau_zero]; ring, fun k => by ring, fun h => by positivity⟩

/-- Without a plug there is no plug effect; with one it adds noise upstream of the angle where the factor changes sign. -/
theorem C304_plug (V Vm a t plug D : ℝ) (hV : 0 ≤ V) (hVm : 0 ≤ Vm) (ha : 0 < a) (hD : 0 < D) (hplug : 0 ≤ plug) :
    plugPrimary V a t 0 D = 0 ∧ plugSecondary V a t 0 D = 0 ∧ plugMixed V Vm a t 0 D = 0 ∧ (t ≤ 10 * π / 18 → 0 ≤ plugPrimary V a t plug D) ∧
      (t ≤ 6 * π / 18 → 0 ≤ plugSecondary V a t plug D) ∧ (t ≤ 9 * π / 18 → 0 ≤ plugMixed V Vm a t plug D) := by
  have key : ∀ n : ℝ, t ≤ n * π / 18 → 0 ≤ n - 18 * t / π := fun n h => by
    rw [sub_nonneg, div_le_iff₀ pi_pos]; linarith
  unfold plugPrimary plugSecondary plugMixed
  refine ⟨by simp, by simp, by simp, fun h => ?_, fun h => ?_, fun h => ?_⟩
  · have := key _ h; positivity
  · have := key _ h; positivity
  · have := key _ h; positivity

/-- The ground adds between 0 and `5 Vm / a` dB, and the addition dies out with the height of the engine. -/
theorem C304_ground (Vm a t h D f : ℝ) (hV : 0 ≤ Vm) (ha : 0 < a) :
    0 ≤ groundEffect Vm a t h D f ∧ groundEffect Vm a t h D f ≤ 5 * Vm / a * exp (-(h / D - 2.5) ^ 2) := by
  unfold groundEffect
  have hden : 0 < 2 + |h * f / a - 1| := by positivity
  have hsin : sin (π * h * f / a - π / 2) ^ 2 ≤ 1 := sin_sq_le_one _
  generalize sin (π * h * f / a - π / 2) = s at hsin
  have habs := abs_nonneg (h * f / a - 1)
  generalize |h * f / a - 1| = b at habs hden
  have hexp : exp (-(9 * (t / π) - 6.75) ^ 2 - (h / D - 2.5) ^ 2) ≤ exp (-(h / D - 2.5) ^ 2) :=
    exp_le_exp.2 (by nlinarith [sq_nonneg (9 * (t / π) - 6.75)])
  refine ⟨by positivity, ?_⟩
  rw [mul_div_assoc]
  have h1 : (1 + s ^ 2) / (2 + b) ≤ 1 := by rw [div_le_one hden]; linarith
  have h0 : 0 ≤ 5 * Vm / a := by positivity
  calc 5 * Vm / a * exp (-(9 * (t / π) - 6.75) ^ 2 - (h / D - 2.5) ^ 2) * ((1 + s ^ 2) / (2 + b))
      ≤ 5 * Vm / a * exp (-(9 * (t / π) - 6.75) ^ 2 - (h / D - 2.5) ^ 2) * 1 := mul_le_mul_of_nonneg_left h1 (by positivity)
    _ ≤ 5 * Vm / a * exp (-(h / D - 2.5) ^ 2) := by rw [mul_one]; exact mul_le_mul_of_nonneg_left hexp h0

/-- The wing over the jet adds between 0 and 2.5 dB to the secondary jet. -/
theorem C304_wing_partial (xe ye ce t D : ℝ) (hc : 0 < ce) (hD : 0 < D) : 0 ≤ installEffect xe ye ce t D ∧ installEffect xe ye ce t D ≤ 2.5 := by
  unfold installEffect
  dsimp only
  split_ifs with h
  · norm_num
  · exact ⟨by positivity, not_lt.1 h⟩

/-- The effect does not die out when the engine is moved away from the wing: far away it tends to a constant, which reaches the limit of 2.5 dB for a
chord of fourteen diameters behind the nozzle. -/
theorem C304_wing_counterexample (xe ce t D : ℝ) (hD : 0 < D) :
    Filter.Tendsto (fun ye => installEffect xe ye ce t D) Filter.atTop (nhds (min 2.5 (0.18 * ((ce - xe) ^ 2 / (ce * D))))) := by
  have h1 : Filter.Tendsto (fun ye : ℝ => exp (-ye / D)) Filter.atTop (nhds 0) := by
    refine tendsto_exp_atBot.comp ?_
    have : (fun ye : ℝ => -ye / D) = fun ye => -(ye / D) := by funext y; ring
    rw [this]
    exact Filter.tendsto_neg_atTop_atBot.comp (Filter.Tendsto.atTop_div_const hD Filter.tendsto_id)
  have h2 : Filter.Tendsto (fun ye : ℝ => 0.5 * ((ce - xe) ^ 2 / (ce * D)) * (exp (-ye / D) * (1.8 * t / π) - 0.6) ^ 2) Filter.atTop
      (nhds (0.5 * ((ce - xe) ^ 2 / (ce * D)) * (0 * (1.8 * t / π) - 0.6) ^ 2)) :=
    (((h1.mul_const _).sub_const _).pow 2).const_mul _
  have h3 : (0.5 * ((ce - xe) ^ 2 / (ce * D)) * (0 * (1.8 * t / π) - 0.6) ^ 2) = 0.18 * ((ce - xe) ^ 2 / (ce * D)) := by ring
  rw [h3] at h2
  have h4 : (fun ye => installEffect xe ye ce t D) =
      fun ye => min 2.5 (0.5 * ((ce - xe) ^ 2 / (ce * D)) * (exp (-ye / D) * (1.8 * t / π) - 0.6) ^ 2) := by
    funext ye
    unfold installEffect
    dsimp only
    split_ifs with h
    · rw [min_eq_left h.le]
    · rw [min_eq_right (not_lt.1 h)]
  rw [h4]
  exact tendsto_const_nhds.min h2

example : min 2.5 (0.18 * (((14 : ℝ) - 0) ^ 2 / (14 * 1))) = (2.5 : ℝ) := by norm_num

/-! ### C305 -/

/-- A geometrically similar engine: all lengths times `k`, shaft speed divided by `k` (same tip speed), same jet speeds. -/
noncomputable def Engine.scale (k : ℝ) (e : Engine) : Engine :=
  ⟨e.noiseSpeedCore, e.noiseSpeedFan, e.thrust, e.rotation / k, k * e.Dp, k * e.Ds, k * e.height, e.exa, k * e.plug, k * e.xe, k * e.ye, k * e.ce⟩

/-- The same flight condition heard at `k` times the distance. -/
noncomputable def Point.scale (k : ℝ) (q : Point) : Point := { q with dist := k * q.dist }

theorem scale_Ap (k : ℝ) (e : Engine) : (e.scale k).Ap = k ^ 2 * e.Ap := by
  change π * (k * e.Dp / 2) ^ 2 = k ^ 2 * (π * (e.Dp / 2) ^ 2); ring
theorem scale_As (k : ℝ) (e : Engine) : (e.scale k).As = k ^ 2 * e.As := by
  change π * (k * e.Ds / 2) ^ 2 = k ^ 2 * (π * (e.Ds / 2) ^ 2); ring
theorem scale_Vp (k : ℝ) (e : Engine) : (e.scale k).Vp = e.Vp := rfl
theorem scale_Vs (k : ℝ) (e : Engine) : (e.scale k).Vs = e.Vs := rfl

theorem mix_scale (k : ℝ) (hk : k ≠ 0) (p s : Stream) (pamb : ℝ) :
    mix { p with A := k ^ 2 * p.A } { s with A := k ^ 2 * s.A } pamb = { mix p s pamb with A := k ^ 2 * (mix p s pamb).A } := by
  have e1 : Stream.mdot { p with A := k ^ 2 * p.A } = k ^ 2 * p.mdot := by simp only [Stream.mdot]; ring
  have e2 : Stream.mdot { s with A := k ^ 2 * s.A } = k ^ 2 * s.mdot := by simp only [Stream.mdot]; ring
  have hk2 : k ^ 2 ≠ 0 := pow_ne_zero 2 hk
  have e3 : ∀ x y : ℝ, (k ^ 2 * p.mdot * x + k ^ 2 * s.mdot * y) / (k ^ 2 * p.mdot + k ^ 2 * s.mdot) = (p.mdot * x + s.mdot * y) / (p.mdot + s.mdot) := by
    intro x y
    rw [show k ^ 2 * p.mdot * x + k ^ 2 * s.mdot * y = k ^ 2 * (p.mdot * x + s.mdot * y) by ring, ← mul_add, mul_div_mul_left _ _ hk2]
  have e4 : k ^ 2 * s.mdot / (k ^ 2 * p.mdot) = s.mdot / p.mdot := mul_div_mul_left _ _ hk2
  unfold mix
  simp only [e1, e2, e3, e4]
  congr 1
  ring

theorem scale_mixed (k : ℝ) (hk : k ≠ 0) (e : Engine) (q : Point) :
    (e.scale k).mixed (q.scale k) = { e.mixed q with A := k ^ 2 * (e.mixed q).A } := by
  have h1 : (e.scale k).core (q.scale k) = { e.core q with A := k ^ 2 * (e.core q).A } := by
    unfold Engine.core; rw [scale_Ap]; rfl
  have h2 : (e.scale k).fanJet (q.scale k) = { e.fanJet q with A := k ^ 2 * (e.fanJet q).A } := by
    unfold Engine.fanJet; rw [scale_As]; rfl
  unfold Engine.mixed
  rw [h1, h2, mix_scale k hk]
  rfl

theorem scale_D (k : ℝ) (hk : 0 < k) (e : Engine) (q : Point) (hA : 0 ≤ (e.mixed q).A) :
    ((e.scale k).mixed (q.scale k)).D = k * (e.mixed q).D := by
  rw [scale_mixed k hk.ne']
  have hpi := pi_pos
  unfold Stream.D
  dsimp only
  rw [show 4 * (k ^ 2 * (e.mixed q).A) / π = k ^ 2 * (4 * (e.mixed q).A / π) by ring, mul_rpow (by positivity) (by positivity), ← rpow_natCast,
    ← rpow_mul hk.le]
  norm_num

theorem scale_V (k : ℝ) (hk : k ≠ 0) (e : Engine) (q : Point) : ((e.scale k).mixed (q.scale k)).V = (e.mixed q).V := by rw [scale_mixed k hk]
theorem scale_rho (k : ℝ) (hk : k ≠ 0) (e : Engine) (q : Point) : ((e.scale k).mixed (q.scale k)).rho = (e.mixed q).rho := by rw [scale_mixed k hk]

theorem scale_shear (k : ℝ) (hk : k ≠ 0) (Vp Vs Va Ap As : ℝ) : shearSpeed Vp Vs Va (k ^ 2 * Ap) (k ^ 2 * As) = shearSpeed Vp Vs Va Ap As := by
  unfold shearSpeed
  have : (Vs * (k ^ 2 * As) + Va * (k ^ 2 * Ap)) / (k ^ 2 * As + k ^ 2 * Ap) = (Vs * As + Va * Ap) / (As + Ap) := by
    rw [show Vs * (k ^ 2 * As) + Va * (k ^ 2 * Ap) = k ^ 2 * (Vs * As + Va * Ap) by ring, ← mul_add, mul_div_mul_left _ _ (pow_ne_zero 2 hk)]
  rw [this]

theorem scale_shaft (k : ℝ) (hk : 0 < k) (e : Engine) (q : Point) (hA : 0 ≤ (e.mixed q).A) :
    (e.scale k).N1 / 60 * (((e.scale k).mixed (q.scale k)).D / ((e.scale k).mixed (q.scale k)).V) = e.N1 / 60 * ((e.mixed q).D / (e.mixed q).V) := by
  rw [scale_D k hk e q hA, scale_V k hk.ne']
  have : (e.scale k).N1 = e.N1 / k := by
    change e.rotation / k * 0.92 * (e.thrust / 52700) = e.rotation * 0.92 * (e.thrust / 52700) / k; ring
  rw [this]
  generalize (e.mixed q).V = v
  field_simp

theorem scale_exps (k : ℝ) (hk : 0 < k) (e : Engine) (q : Point) (hA : 0 ≤ (e.mixed q).A) : (e.scale k).exps (q.scale k) = e.exps q := by
  unfold Engine.exps; rw [scale_shaft k hk e q hA]

theorem scale_zk (k : ℝ) (hk : 0 < k) (e : Engine) (q : Point) (hA : 0 ≤ (e.mixed q).A) : (e.scale k).zk (q.scale k) = e.zk q := by
  unfold Engine.zk; rw [scale_exps k hk e q hA]; rfl

theorem scale_strP (k : ℝ) (hk : 0 < k) (e : Engine) (Va f : ℝ) : (e.scale k).strP Va (f / k) = e.strP Va f := by
  unfold Engine.strP
  rw [scale_Ap, scale_As, scale_Vp, scale_Vs, scale_shear k hk.ne', show (e.scale k).Dp = k * e.Dp from rfl,
    show f / k * (k * e.Dp) = f * e.Dp by field_simp]

theorem scale_strS (k : ℝ) (hk : 0 < k) (e : Engine) (Va f : ℝ) (q : Point) (hA : 0 ≤ (e.mixed q).A) :
    (e.scale k).strS Va (q.scale k) (f / k) = e.strS Va q f := by
  unfold Engine.strS
  rw [scale_D k hk e q hA, scale_Vs, show f / k * (k * (e.mixed q).D) = f * (e.mixed q).D by field_simp]

theorem scale_strM (k : ℝ) (hk : 0 < k) (e : Engine) (Va f : ℝ) (q : Point) (hA : 0 ≤ (e.mixed q).A) :
    (e.scale k).strM Va (q.scale k) (f / k) = e.strM Va q f := by
  unfold Engine.strM
  rw [scale_D k hk e q hA, scale_V k hk.ne', show f / k * (k * (e.mixed q).D) = f * (e.mixed q).D by field_simp]

theorem settle_scale (k : ℝ) (hk : 0 < k) (xj ang ang' : ℝ → ℝ) (h : ∀ X, ang' (k * X) = ang X) (tol : ℝ) (fuel : ℕ) :
    ∀ t, settle (fun t => k * xj t) ang' (k * tol) fuel t = settle xj ang tol fuel t := by
  induction fuel with
  | zero => intro t; rfl
  | succ n ih =>
    intro t
    rw [settle, settle, h, ← mul_sub, abs_mul, abs_of_pos hk, ih]
    simp only [mul_lt_mul_iff_right₀ hk]

theorem locate_scale (k : ℝ) (hk : 0 < k) (xj0 xj ang ang' : ℝ → ℝ) (h : ∀ X, ang' (k * X) = ang X) (r0 tol : ℝ) (fuel : ℕ) (t : ℝ) :
    locate (fun t => k * xj0 t) (fun t => k * xj t) ang' (k * r0) (k * tol) fuel t = locate xj0 xj ang r0 tol fuel t := by
  unfold locate
  simp only [settle_scale k hk xj ang ang' h, h, mul_lt_mul_iff_right₀ hk]

/-- A similar engine at a similar distance has the same source angles at the frequency divided by `k`. -/
theorem C305_angles (k : ℝ) (hk : 0 < k) (e : Engine) (Va f : ℝ) (q : Point) (hA : 0 ≤ (e.mixed q).A) (fuel : ℕ) (st : Memory) :
    (e.scale k).angles Va (q.scale k) (f / k) fuel st = e.angles Va q f fuel st := by
  have hang : ∀ X, sourceAngle (sourceB (q.scale k).theta (q.scale k).dist 0 (k * X)) = sourceAngle (sourceB q.theta q.dist 0 X) := by
    intro X
    unfold sourceB
    rw [show (q.scale k).theta = q.theta from rfl, show (q.scale k).dist = k * q.dist from rfl, zero_add, zero_add, mul_div_mul_left _ _ hk.ne']
  have hr : (e.scale k).As / (e.scale k).Ap = e.As / e.Ap := by rw [scale_Ap, scale_As, mul_div_mul_left _ _ (pow_ne_zero 2 hk.ne')]
  have h1 : xjPrimary (e.zk q) (k * e.Dp) (e.As / e.Ap) = fun t => k * xjPrimary (e.zk q) e.Dp (e.As / e.Ap) t := by
    funext t; unfold xjPrimary; ring
  have h2 : ∀ D, xjSecondary (e.zk q) (k * D) (e.strS Va q f) e.Vs q.a Va = fun t => k * xjSecondary (e.zk q) D (e.strS Va q f) e.Vs q.a Va t := by
    intro D; funext t; unfold xjSecondary; ring
  have h3 : xjMixed (e.zk q) (k * (e.mixed q).D) (e.strM Va q f) (e.mixed q).V q.a Va =
      fun t => k * xjMixed (e.zk q) (e.mixed q).D (e.strM Va q f) (e.mixed q).V q.a Va t := by
    funext t; unfold xjMixed; ring
  unfold Engine.angles
  dsimp only
  rw [scale_zk k hk e q hA, scale_strS k hk e Va f q hA, scale_strM k hk e Va f q hA, scale_D k hk e q hA, scale_V k hk.ne', scale_Vs, hr,
    show (e.scale k).Dp = k * e.Dp from rfl, show (e.scale k).Ds = k * e.Ds from rfl, show (q.scale k).a = q.a from rfl, h1, h2, h2, h3,
    mul_div_assoc, mul_div_assoc, locate_scale k hk _ _ _ _ hang, locate_scale k hk _ _ _ _ hang, locate_scale k hk _ _ _ _ hang]

/-- Apart from the absorption of the air, the levels of the primary (before the last band) and of the secondary jet of a similar engine are the same
at the frequency divided by `k`. -/
theorem C305_levels_partial (k : ℝ) (hk : 0 < k) (e : Engine) (Va aoa f old old' : ℝ) (q : Point) (hA : 0 ≤ (e.mixed q).A) (i : ℕ) (t : ℝ × ℝ × ℝ) :
    let l := e.levels Va aoa q i f old t
    let l' := (e.scale k).levels Va aoa (q.scale k) i (f / k) old' t
    (i < 23 → l'.p + Air.attenuation (k * q.dist) i = l.p + Air.attenuation q.dist i) ∧
      l'.s + Air.attenuation (k * q.dist) i = l.s + Air.attenuation q.dist i := by
  have hk2 : k ^ 2 ≠ 0 := pow_ne_zero 2 hk.ne'
  have hlog : ∀ Ap As : ℝ, logArea (k ^ 2 * Ap) (k ^ 2 * As) = logArea Ap As := by
    intro Ap As; unfold logArea; rw [mul_div_mul_left _ _ hk2]
  have hdc : ((e.scale k).core (q.scale k)).rho = (e.core q).rho := rfl
  have hdf : ((e.scale k).fanJet (q.scale k)).rho = (e.fanJet q).rho := rfl
  have hjet : (e.scale k).jet Va (q.scale k) = { e.jet Va q with Ap := k ^ 2 * e.Ap, As := k ^ 2 * e.As } := by
    have hc : ((e.scale k).core (q.scale k)).mdot = k ^ 2 * (e.core q).mdot := by
      change (e.scale k).Ap * e.Vp * (e.core q).rho = k ^ 2 * (e.Ap * e.Vp * (e.core q).rho); rw [scale_Ap]; ring
    have hf : ((e.scale k).fanJet (q.scale k)).mdot = k ^ 2 * (e.fanJet q).mdot := by
      change (e.scale k).As * e.Vs * (e.fanJet q).rho = k ^ 2 * (e.As * e.Vs * (e.fanJet q).rho); rw [scale_As]; ring
    have hb : bypassTerm (k ^ 2 * (e.core q).mdot) (k ^ 2 * (e.fanJet q).mdot) = bypassTerm (e.core q).mdot (e.fanJet q).mdot := by
      unfold bypassTerm; rw [mul_div_mul_left _ _ hk2]
    unfold Engine.jet
    rw [hc, hf, hb, scale_V k hk.ne', scale_Ap, scale_As, scale_Vp, scale_Vs, scale_shear k hk.ne']
    rfl
  have hsp : ∀ D : ℝ, logb 10 (k * D / (k * q.dist)) = logb 10 (D / q.dist) := fun D => by rw [mul_div_mul_left _ _ hk.ne']
  dsimp only
  refine ⟨fun hi => ?_, ?_⟩
  · have hband : ∀ d ex St, primaryBand ((e.scale k).jet Va (q.scale k)) t.1 d ex St = primaryBand (e.jet Va q) t.1 d ex St := by
      intro d ex St
      rw [hjet]
      unfold primaryBand
      simp only [hlog]
      rfl
    have hplug : plugPrimary e.Vp q.a t.1 (k * e.plug) (k * e.Dp) = plugPrimary e.Vp q.a t.1 e.plug e.Dp := by
      unfold plugPrimary; rw [mul_left_comm, mul_div_mul_left _ _ hk.ne']
    have hd := primaryBand_shift (e.jet Va q) t.1
      (levelShiftPrimary q.p (e.core q).rho (e.fanJet q).rho q.rho e.Dp q.dist (Air.attenuation q.dist i))
      (levelShiftPrimary q.p (e.core q).rho (e.fanJet q).rho q.rho (k * e.Dp) (k * q.dist) (Air.attenuation (k * q.dist) i))
      (5 * excDirect e.exa * e.exps q) (e.strP Va f)
    have hs : levelShiftPrimary q.p (e.core q).rho (e.fanJet q).rho q.rho (k * e.Dp) (k * q.dist) (Air.attenuation (k * q.dist) i) -
        levelShiftPrimary q.p (e.core q).rho (e.fanJet q).rho q.rho e.Dp q.dist (Air.attenuation q.dist i) =
          Air.attenuation q.dist i - Air.attenuation (k * q.dist) i := by unfold levelShiftPrimary; rw [hsp]; ring
    rw [hs] at hd
    unfold Engine.levels primary
    dsimp only
    rw [if_pos hi, if_pos hi, hband, scale_exps k hk e q hA, scale_strP k hk, hdc, hdf]
    rw [show (e.scale k).Dp = k * e.Dp from rfl, show (e.scale k).plug = k * e.plug from rfl, show (e.scale k).exa = e.exa from rfl, scale_Vp,
      show (q.scale k).a = q.a from rfl, show (q.scale k).p = q.p from rfl, show (q.scale k).rho = q.rho from rfl,
      show (q.scale k).dist = k * q.dist from rfl, hplug]
    linarith
  · have hband : ∀ d ex St, secondary ((e.scale k).jet Va (q.scale k)) t.2.1 d ex St = secondary (e.jet Va q) t.2.1 d ex St := by
      intro d ex St
      rw [hjet]
      unfold secondary
      simp only [hlog]
      rfl
    have hplug : plugSecondary e.Vs q.a t.2.1 (k * e.plug) (k * e.Ds) = plugSecondary e.Vs q.a t.2.1 e.plug e.Ds := by
      unfold plugSecondary; rw [mul_left_comm, mul_div_mul_left _ _ hk.ne']
    have hinst : installEffect (k * e.xe) (k * e.ye) (k * e.ce) t.2.1 (k * (e.mixed q).D) = installEffect e.xe e.ye e.ce t.2.1 (e.mixed q).D := by
      unfold installEffect
      rw [← mul_neg, mul_div_mul_left _ _ hk.ne', show (k * e.ce - k * e.xe) ^ 2 = k ^ 2 * (e.ce - e.xe) ^ 2 by ring,
        show k * e.ce * (k * (e.mixed q).D) = k ^ 2 * (e.ce * (e.mixed q).D) by ring, mul_div_mul_left _ _ hk2]
    have hd := secondary_shift (e.jet Va q) t.2.1
      (levelShift q.p (e.fanJet q).rho q.rho (e.mixed q).D q.dist (Air.attenuation q.dist i))
      (levelShift q.p (e.fanJet q).rho q.rho (k * (e.mixed q).D) (k * q.dist) (Air.attenuation (k * q.dist) i))
      (2 * q.a / (e.Vs * e.zk q)) (e.strS Va q f)
    have hs : levelShift q.p (e.fanJet q).rho q.rho (k * (e.mixed q).D) (k * q.dist) (Air.attenuation (k * q.dist) i) -
        levelShift q.p (e.fanJet q).rho q.rho (e.mixed q).D q.dist (Air.attenuation q.dist i) =
          Air.attenuation q.dist i - Air.attenuation (k * q.dist) i := by unfold levelShift; rw [hsp]; ring
    rw [hs] at hd
    unfold Engine.levels
    dsimp only
    rw [hband, scale_zk k hk e q hA, scale_strS k hk e Va f q hA, hdf, scale_D k hk e q hA]
    rw [show (e.scale k).Ds = k * e.Ds from rfl, show (e.scale k).plug = k * e.plug from rfl, scale_Vs,
      show (e.scale k).xe = k * e.xe from rfl, show (e.scale k).ye = k * e.ye from rfl, show (e.scale k).ce = k * e.ce from rfl,
      show (q.scale k).a = q.a from rfl, show (q.scale k).p = q.p from rfl, show (q.scale k).rho = q.rho from rfl,
      show (q.scale k).dist = k * q.dist from rfl, hplug, hinst]
    linarith

/-- The mixed jet depends on the size of the nozzles themselves: one of its terms takes the logarithm of `(1 + As) / Ap`. Both areas times four, at the
same Strouhal number, give another level. -/
theorem C305_mixed_counterexample : ∃ (j : Flow) (t dspl ex St : ℝ), mixed { j with Ap := 4 * j.Ap, As := 4 * j.As } t dspl ex St ≠ mixed j t dspl ex St := by
  refine ⟨⟨300, 300, 340, 0, 340, 800, 1, 1, 1, 0⟩, π / 3, 0, 0, 1, ?_⟩
  have hF : ∀ A B : ℝ, mixedFV ⟨300, 300, 340, 0, 340, 800, A, B, 1, 0⟩ (π / 3) 1 = 1 := by
    intro A B; unfold mixedFV; dsimp only; norm_num
  have hlog : logArea (4 * 1) (4 * 1) = logArea 1 1 := by unfold logArea; norm_num
  have h2 : 0 < logb 10 ((1 + 1) / 1) := logb_pos (by norm_num) (by norm_num)
  have h5 : 0 < logb 10 ((1 + 4 * 1) / (4 * 1)) := logb_pos (by norm_num) (by norm_num)
  have hlt : logb 10 ((1 + 4 * 1) / (4 * 1)) < logb 10 ((1 + 1) / 1) := logb_lt_logb (by norm_num) (by norm_num) (by norm_num)
  intro h
  unfold mixed at h
  simp only [hF, tau_zero, hlog, logb_one] at h
  generalize logb 10 ((1 + 1) / 1) = x at *
  generalize logb 10 ((1 + 4 * 1) / (4 * 1)) = y at *
  have he : 0 < 0.5 / exp ((4.5 * (π / 3) / π - 4) ^ 2) := by positivity
  generalize 0.5 / exp ((4.5 * (π / 3) / π - 4) ^ 2) = u at *
  norm_num at h
  nlinarith


/-- **C303, first and following points.** The levels at the first point are those for its own speed and the mean angle of attack in
degrees; at each point the angle of each jet is sought from the angle of the same jet at the point before. -/
theorem C303_march (e : Engine) (i : ℕ) (f : ℝ) (fuel : ℕ) (q r : Point) (qs : List Point) (l m : Levels) (ls : List Levels)
    (h : e.history i f fuel (q :: r :: qs) = some (l :: m :: ls)) :
    ∃ tp ts tm t', e.angles q.v q f fuel Memory.start = some (tp, ts, tm)
      ∧ l = e.levels q.v (((q :: r :: qs).map fun x => x.alpha * 180 / π).sum / (qs.length + 2)) q i f Memory.start.spl (tp, ts, tm)
      ∧ e.angles q.v r f fuel ⟨tp, ts, tm, l.p⟩ = some t'
      ∧ m = e.levels q.v (((q :: r :: qs).map fun x => x.alpha * 180 / π).sum / (qs.length + 2)) r i f l.p t' := by
  have ha : ((q :: r :: qs).map (fun x : Point => x.alpha / (π / 180))).sum / ((q :: r :: qs).length : ℝ)
      = ((q :: r :: qs).map fun x => x.alpha * 180 / π).sum / (qs.length + 2) := by
    have e1 : (fun x : Point => x.alpha / (π / 180)) = fun x => x.alpha * 180 / π := by
      funext x
      rw [div_div_eq_mul_div]
    rw [e1]
    congr 1
    push_cast [List.length_cons]
    ring
  simp only [Engine.history] at h
  rw [ha] at h
  generalize ((q :: r :: qs).map fun x => x.alpha * 180 / π).sum / (qs.length + 2 : ℝ) = al at *
  simp only [Engine.march, Option.bind_eq_bind, Option.bind_eq_some_iff, Option.pure_def, Option.some.injEq] at h
  obtain ⟨⟨tp, ts, tm⟩, h1, rest, ⟨t', h2, rest', h3, h4⟩, h5⟩ := h
  subst h4
  simp only [List.cons.injEq] at h5
  obtain ⟨rfl, rfl, rfl⟩ := h5
  exact ⟨tp, ts, tm, t', h1, rfl, h2, rfl⟩

end Verif.Noise.Jet
