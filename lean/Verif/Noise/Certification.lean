import Verif.Noise.LevelProps
import Mathlib.Algebra.Order.Round
import Mathlib.Algebra.Group.Int.Even

/-!
`noise_certification_limits.py` and `Fidelity_Zero/shevell.py`.
-/

namespace Verif.Noise.Cert
open Real

/-- `np.rint`: to the nearest integer, halves to the even one. -/
noncomputable def rint (x : ℝ) : ℤ :=
  let f := ⌊x⌋
  if x - f < 1 / 2 then f else if 1 / 2 < x - f then f + 1 else if Even f then f else f + 1

/-- `np.around(x, decimals=1)`. -/
noncomputable def around (x : ℝ) : ℝ := rint (x * 10) / 10

/-- `np.around(np.log((w/C))*T/np.log(2),decimals=1)` (noise_certification_limits.py:63-65), `w` in pounds. -/
noncomputable def limit (T C w : ℝ) : ℝ := around (log (w / C) * T / log 2)

/-- `C_flyover` (noise_certification_limits.py:48-53). -/
noncomputable def cFlyover (n : ℤ) : ℝ := if 3 < n then 8.96e-3 else if n = 3 then 1.27e-2 else 2.13e-2

/-- noise_certification_limits.py:59-60, 63. -/
noncomputable def sidelineLimit (w : ℝ) : ℝ := limit 2.56 6.82e-7 w

/-- noise_certification_limits.py:48-56, 64. -/
noncomputable def flyoverLimit (n : ℤ) (w : ℝ) : ℝ := limit 4 (cFlyover n) w

/-- noise_certification_limits.py:57-58, 65. -/
noncomputable def approachLimit (w : ℝ) : ℝ := limit 2.33 1.68e-8 w

/-! ## Shevell -/

/-- What `shevell` returns (shevell.py:67-70). -/
structure Shevell where
  takeoff : ℝ
  sideLine : ℝ
  landing : ℝ

/-- `noise_increase_due_to_thrust` (shevell.py:49, 52); `T` in pounds. -/
noncomputable def thrustNoise (T : ℝ) : ℝ :=
  let p := T / 25000 * 100;
  -0.0002193 * p ^ 2 + 0.09454 * p - 7.30116

/-- `noise_landing` (shevell.py:50, 53). -/
noncomputable def landingNoise (T TL : ℝ) : ℝ :=
  let r := TL / T * 100;
  -0.0015766 * r ^ 2 + 0.34882 * r - 19.2569

/-- Engines together (shevell.py:48, 59, 61, 63). -/
noncomputable def engines (n : ℝ) : ℝ := 10 * logb 10 ((10 : ℝ) ^ (101 / 10 : ℝ) * n)

/-- Airframe (shevell.py:65); `w` in pounds. -/
noncomputable def airframe (w : ℝ) : ℝ := 40 + 10 * logb 10 w

/-- Engines on approach (shevell.py:63-64). -/
noncomputable def landingEngine (n T TL : ℝ) : ℝ := engines n - 5 + 9.1 + thrustNoise T + landingNoise T TL

/-- `shevell` (shevell.py:48-72). -/
noncomputable def shevell (w n T TL : ℝ) : Shevell where
  takeoff := engines n - 4 + -4 + thrustNoise T
  sideLine := engines n - 4 + -6.5 + thrustNoise T
  landing := 10 * logb 10 ((10 : ℝ) ^ (airframe w / 10) + (10 : ℝ) ^ (landingEngine n T TL / 10))

/-! ## C126 -/

theorem rint_near (x : ℝ) : |(rint x : ℝ) - x| ≤ 1 / 2 := by
  have h1 := Int.floor_le x
  have h2 := Int.lt_floor_add_one x
  unfold rint
  dsimp only
  rw [abs_le]
  split_ifs <;> push_cast <;> constructor <;> linarith

theorem rint_mono {x y : ℝ} (h : x ≤ y) : rint x ≤ rint y := by
  have hf : ⌊x⌋ ≤ ⌊y⌋ := Int.floor_mono h
  have b : ∀ z, ⌊z⌋ ≤ rint z ∧ rint z ≤ ⌊z⌋ + 1 := fun z => by
    unfold rint; dsimp only; split_ifs <;> constructor <;> omega
  rcases hf.lt_or_eq with hlt | heq
  · have := (b x).2; have := (b y).1; omega
  · unfold rint
    dsimp only
    rw [heq]
    have hx := h
    split_ifs with a1 a2 a3 a4 a5 a6 a7 a8 <;> first | omega | (exfalso; linarith)

theorem rint_add (x : ℝ) (k : ℤ) (hk : Even k) : rint (x + k) = rint x + k := by
  unfold rint
  dsimp only
  rw [Int.floor_add_intCast]
  have e : x + (k : ℝ) - ((⌊x⌋ + k : ℤ) : ℝ) = x - ⌊x⌋ := by push_cast; ring
  rw [e]
  have he : Even (⌊x⌋ + k) ↔ Even ⌊x⌋ := by
    rw [Int.even_add]; simp [hk]
  by_cases h : Even ⌊x⌋
  · rw [if_pos (he.2 h), if_pos h]; split_ifs <;> ring
  · rw [if_neg (fun hc => h (he.1 hc)), if_neg h]; split_ifs <;> ring

theorem around_near (x : ℝ) : |around x - x| ≤ 0.05 := by
  have := rint_near (x * 10)
  unfold around
  rw [abs_le] at *
  norm_num at *
  constructor <;> linarith [this.1, this.2]

theorem limit_eq (T C w : ℝ) : limit T C w = around (T * logb 2 (w / C)) := by
  unfold limit logb
  congr 1
  ring

theorem limit_mono (T C : ℝ) (hT : 0 ≤ T) (hC : 0 < C) {w w' : ℝ} (hw : 0 < w) (h : w ≤ w') :
    limit T C w ≤ limit T C w' := by
  rw [limit_eq, limit_eq]
  have h1 : logb 2 (w / C) ≤ logb 2 (w' / C) :=
    Real.logb_le_logb_of_le (by norm_num) (by positivity) (by gcongr)
  have h2 : T * logb 2 (w / C) * 10 ≤ T * logb 2 (w' / C) * 10 := by
    have := mul_le_mul_of_nonneg_left h1 hT
    linarith
  have h3 := rint_mono h2
  unfold around
  have h4 : ((rint (T * logb 2 (w / C) * 10) : ℤ) : ℝ) ≤ (rint (T * logb 2 (w' / C) * 10) : ℤ) := by exact_mod_cast h3
  linarith

/-- A heavier aircraft is allowed at least as much noise, at each of the three points. -/
theorem C126_monotone (w w' : ℝ) (hw : 0 < w) (h : w ≤ w') (n : ℤ) :
    sidelineLimit w ≤ sidelineLimit w' ∧ flyoverLimit n w ≤ flyoverLimit n w' ∧ approachLimit w ≤ approachLimit w' := by
  refine ⟨limit_mono _ _ (by norm_num) (by norm_num) hw h, limit_mono _ _ (by norm_num) ?_ hw h,
    limit_mono _ _ (by norm_num) (by norm_num) hw h⟩
  unfold cFlyover; split_ifs <;> norm_num

/-- Twice the weight raises the flyover limit by exactly 4 dB. -/
theorem C126_doubling (n : ℤ) (w : ℝ) (hw : 0 < w) : flyoverLimit n (2 * w) = flyoverLimit n w + 4 := by
  have hC : 0 < cFlyover n := by unfold cFlyover; split_ifs <;> norm_num
  unfold flyoverLimit
  rw [limit_eq, limit_eq]
  have h1 : logb 2 (2 * w / cFlyover n) = 1 + logb 2 (w / cFlyover n) := by
    rw [mul_div_assoc, Real.logb_mul (by norm_num) (by positivity), Real.logb_self_eq_one (by norm_num)]
  rw [h1]
  unfold around
  have h2 : 4 * (1 + logb 2 (w / cFlyover n)) * 10 = 4 * logb 2 (w / cFlyover n) * 10 + ((40 : ℤ) : ℝ) := by push_cast; ring
  rw [h2, rint_add _ _ (by decide)]
  push_cast; ring

/-- More engines are allowed at least as much; one engine is treated as two. -/
theorem C126_engines (n m : ℤ) (w : ℝ) (hw : 0 < w) (h : n ≤ m) : flyoverLimit n w ≤ flyoverLimit m w := by
  have hC : ∀ n, 0 < cFlyover n := fun n => by unfold cFlyover; split_ifs <;> norm_num
  have hle : cFlyover m ≤ cFlyover n := by
    unfold cFlyover; split_ifs <;> first | omega | norm_num
  have h1 : w / cFlyover n ≤ w / cFlyover m := by
    have := hC m; gcongr
  unfold flyoverLimit
  have key := limit_mono 4 1 (by norm_num) (by norm_num) (w := w / cFlyover n) (w' := w / cFlyover m)
    (div_pos hw (hC n)) h1
  unfold limit at key ⊢
  simpa using key

/-- A limit of the regulation: `top` at and above the weight `wTop`, less by `per` for each halving of the weight, down to
`low`. -/
noncomputable def regulation (top wTop per low w : ℝ) : ℝ := max low (min top (top - per * logb 2 (wTop / w)))

theorem log2_between (p q lo hi : ℕ) (hp : 0 < p) (hq : 0 < q) (h1 : 2 ^ lo * q ^ 100 ≤ p ^ 100)
    (h2 : p ^ 100 ≤ 2 ^ hi * q ^ 100) :
    (lo : ℝ) / 100 ≤ logb 2 ((p : ℝ) / q) ∧ logb 2 ((p : ℝ) / q) ≤ (hi : ℝ) / 100 := by
  have hp' : (0 : ℝ) < p := by exact_mod_cast hp
  have hq' : (0 : ℝ) < q := by exact_mod_cast hq
  have e : logb 2 (((p : ℝ) / q) ^ 100) = 100 * logb 2 ((p : ℝ) / q) := by rw [Real.logb_pow]; norm_num
  have a1 : (lo : ℝ) ≤ logb 2 (((p : ℝ) / q) ^ 100) := by
    rw [Real.le_logb_iff_rpow_le (by norm_num) (by positivity), rpow_natCast, div_pow, le_div_iff₀ (by positivity)]
    exact_mod_cast h1
  have a2 : logb 2 (((p : ℝ) / q) ^ 100) ≤ (hi : ℝ) := by
    rw [Real.logb_le_iff_le_rpow (by norm_num) (by positivity), rpow_natCast, div_pow, div_le_iff₀ (by positivity)]
    exact_mod_cast h2
  rw [e] at a1 a2
  constructor <;> linarith

theorem limit_regulation (top wTop per low T C w : ℝ) (hw : 0 < w) (hC : 0 < C) (ht : 0 < wTop) (hT : T = per)
    (hb : |T * logb 2 (wTop / C) - top| ≤ 0.05) (h1 : low ≤ top - per * logb 2 (wTop / w))
    (h2 : top - per * logb 2 (wTop / w) ≤ top) : |limit T C w - regulation top wTop per low w| ≤ 0.1 := by
  have h3 : regulation top wTop per low w = top - per * logb 2 (wTop / w) := by
    unfold regulation; rw [min_eq_right h2, max_eq_right h1]
  have h4 := around_near (T * logb 2 (w / C))
  rw [limit_eq, h3]
  have e : logb 2 (wTop / C) = logb 2 (wTop / w) + logb 2 (w / C) := by
    rw [← Real.logb_mul (by positivity) (by positivity)]
    congr 1; field_simp
  subst hT
  rw [e] at hb
  rw [abs_le] at *
  norm_num at *
  constructor <;> nlinarith [h4.1, h4.2, hb.1, hb.2]

/-- Between the weights where the regulation has a slope, the limits agree with it to a tenth of a decibel. -/
theorem C126_regulation_partial (w : ℝ) (hw : 0 < w) :
    (94 ≤ 103 - 2.56 * logb 2 (882000 / w) → w ≤ 882000 →
        |sidelineLimit w - regulation 103 882000 2.56 94 w| ≤ 0.1)
      ∧ (98 ≤ 105 - 2.33 * logb 2 (617300 / w) → w ≤ 617300 →
        |approachLimit w - regulation 105 617300 2.33 98 w| ≤ 0.1)
      ∧ (∀ n : ℤ, 3 < n → 89 ≤ 106 - 4 * logb 2 (850000 / w) → w ≤ 850000 →
        |flyoverLimit n w - regulation 106 850000 4 89 w| ≤ 0.1)
      ∧ (89 ≤ 104 - 4 * logb 2 (850000 / w) → w ≤ 850000 →
        |flyoverLimit 3 w - regulation 104 850000 4 89 w| ≤ 0.1)
      ∧ (∀ n : ℤ, n ≤ 2 → 89 ≤ 101 - 4 * logb 2 (850000 / w) → w ≤ 850000 →
        |flyoverLimit n w - regulation 101 850000 4 89 w| ≤ 0.1) := by
  have slope : ∀ top wTop per : ℝ, 0 ≤ per → 0 < wTop → w ≤ wTop → top - per * logb 2 (wTop / w) ≤ top := by
    intro top wTop per hp ht hle
    have : 0 ≤ logb 2 (wTop / w) := Real.logb_nonneg (by norm_num) ((one_le_div hw).2 hle)
    nlinarith
  have b1 := log2_between (882000 * 10 ^ 9) 682 4023 4024 (by norm_num) (by norm_num) (by decide +kernel) (by decide +kernel)
  have b2 := log2_between (617300 * 10 ^ 10) 168 4506 4507 (by norm_num) (by norm_num) (by decide +kernel) (by decide +kernel)
  have b3 := log2_between (850000 * 10 ^ 5) 896 2649 2650 (by norm_num) (by norm_num) (by decide +kernel) (by decide +kernel)
  have b4 := log2_between (850000 * 10 ^ 4) 127 2599 2600 (by norm_num) (by norm_num) (by decide +kernel) (by decide +kernel)
  have b5 := log2_between (850000 * 10 ^ 4) 213 2525 2526 (by norm_num) (by norm_num) (by decide +kernel) (by decide +kernel)
  norm_num at b1 b2 b3 b4 b5
  refine ⟨fun h1 h2 => ?_, fun h1 h2 => ?_, fun n hn h1 h2 => ?_, fun h1 h2 => ?_, fun n hn h1 h2 => ?_⟩
  · refine limit_regulation 103 882000 2.56 94 2.56 _ w hw (by norm_num) (by norm_num) rfl ?_ h1
      (slope _ _ _ (by norm_num) (by norm_num) h2)
    rw [show (882000 / 6.82e-7 : ℝ) = 441000000000000 / 341 by norm_num, abs_le]
    constructor <;> norm_num <;> linarith [b1.1, b1.2]
  · refine limit_regulation 105 617300 2.33 98 2.33 _ w hw (by norm_num) (by norm_num) rfl ?_ h1
      (slope _ _ _ (by norm_num) (by norm_num) h2)
    rw [show (617300 / 1.68e-8 : ℝ) = 771625000000000 / 21 by norm_num, abs_le]
    constructor <;> norm_num <;> linarith [b2.1, b2.2]
  · have hc : cFlyover n = 8.96e-3 := by unfold cFlyover; rw [if_pos hn]
    unfold flyoverLimit
    rw [hc]
    refine limit_regulation 106 850000 4 89 4 _ w hw (by norm_num) (by norm_num) rfl ?_ h1
      (slope _ _ _ (by norm_num) (by norm_num) h2)
    rw [show (850000 / 8.96e-3 : ℝ) = 664062500 / 7 by norm_num, abs_le]
    constructor <;> norm_num <;> linarith [b3.1, b3.2]
  · have hc : cFlyover 3 = 1.27e-2 := by unfold cFlyover; norm_num
    unfold flyoverLimit
    rw [hc]
    refine limit_regulation 104 850000 4 89 4 _ w hw (by norm_num) (by norm_num) rfl ?_ h1
      (slope _ _ _ (by norm_num) (by norm_num) h2)
    rw [show (850000 / 1.27e-2 : ℝ) = 8500000000 / 127 by norm_num, abs_le]
    constructor <;> norm_num <;> linarith [b4.1, b4.2]
  · have hc : cFlyover n = 2.13e-2 := by unfold cFlyover; rw [if_neg (by omega), if_neg (by omega)]
    unfold flyoverLimit
    rw [hc]
    refine limit_regulation 101 850000 4 89 4 _ w hw (by norm_num) (by norm_num) rfl ?_ h1
      (slope _ _ _ (by norm_num) (by norm_num) h2)
    rw [show (850000 / 2.13e-2 : ℝ) = 8500000000 / 213 by norm_num, abs_le]
    constructor <;> norm_num <;> linarith [b5.1, b5.2]

example : |flyoverLimit 2 425000 - 97| ≤ 0.1 := by
  have e : logb 2 (850000 / 425000 : ℝ) = 1 := by
    rw [show (850000 / 425000 : ℝ) = 2 by norm_num]; exact Real.logb_self_eq_one (by norm_num)
  have h := (C126_regulation_partial 425000 (by norm_num)).2.2.2.2 2 le_rfl (by rw [e]; norm_num) (by norm_num)
  have hr : regulation 101 850000 4 89 425000 = 97 := by unfold regulation; rw [e]; norm_num
  rwa [hr] at h

/-- Outside those weights they go on: the regulation does not ask for less than 98 dB on approach, the code asks a light
aircraft for 90.1 dB or less. -/
theorem C126_light_counterexample : ¬ ∀ w : ℝ, 0 < w → |approachLimit w - regulation 105 617300 2.33 98 w| ≤ 0.1 := by
  intro H
  have h := H (617300 / 128) (by norm_num)
  have hr : 98 ≤ regulation 105 617300 2.33 98 (617300 / 128) := le_max_left _ _
  have b2 := log2_between (617300 * 10 ^ 10) 168 4506 4507 (by norm_num) (by norm_num) (by decide +kernel) (by decide +kernel)
  norm_num at b2
  have h4 := around_near (2.33 * logb 2 (617300 / 128 / 1.68e-8))
  have e : logb 2 (617300 / 128 / 1.68e-8 : ℝ) = logb 2 (771625000000000 / 21) - 7 := by
    rw [show (617300 / 128 / 1.68e-8 : ℝ) = 771625000000000 / 21 / 2 ^ 7 by norm_num,
      Real.logb_div (by norm_num) (by norm_num), Real.logb_pow, Real.logb_self_eq_one (by norm_num)]
    norm_num
  unfold approachLimit at h
  rw [limit_eq, abs_le] at h
  rw [e] at h h4
  rw [abs_le] at h4
  norm_num at h h4
  linarith [h.1, h4.2, b2.2]

/-! ## C128 Shevell -/

/-- `k` times the engines: louder by `10 log10 k` at take-off and to the side. -/
theorem C128_engines (w n T TL k : ℝ) (hn : 0 < n) (hk : 0 < k) :
    (shevell w (k * n) T TL).takeoff = (shevell w n T TL).takeoff + 10 * logb 10 k
      ∧ (shevell w (k * n) T TL).sideLine = (shevell w n T TL).sideLine + 10 * logb 10 k := by
  have h : engines (k * n) = engines n + 10 * logb 10 k := by
    unfold engines
    rw [show (10 : ℝ) ^ (101 / 10 : ℝ) * (k * n) = (10 : ℝ) ^ (101 / 10 : ℝ) * n * k by ring,
      Real.logb_mul (by positivity) hk.ne']
    ring
  constructor
  · show engines (k * n) - 4 + -4 + thrustNoise T = engines n - 4 + -4 + thrustNoise T + _
    rw [h]; ring
  · show engines (k * n) - 4 + -6.5 + thrustNoise T = engines n - 4 + -6.5 + thrustNoise T + _
    rw [h]; ring

/-- One engine of 25 000 lb is 101 dB less the distance and attenuation terms, to 0.1 dB; the sideline is 2.5 dB below. -/
theorem C128_reference (w TL : ℝ) :
    |(shevell w 1 25000 TL).takeoff - (101 - 4 - 4)| ≤ 0.1
      ∧ ∀ n T, (shevell w n T TL).sideLine = (shevell w n T TL).takeoff - 2.5 := by
  constructor
  · have h : engines 1 = 101 := by
      unfold engines
      rw [mul_one, Real.logb_rpow (by norm_num) (by norm_num)]; norm_num
    show |engines 1 - 4 + -4 + thrustNoise 25000 - _| ≤ _
    rw [h]
    norm_num [thrustNoise, abs_le]
  · intro n T
    show engines n - 4 + -6.5 + thrustNoise T = engines n - 4 + -4 + thrustNoise T - 2.5
    norm_num
    ring

/-- On landing the same engine at full thrust is 101 dB less attenuation plus the distance term, to 0.2 dB, and its energy adds
to that of an airframe of 40 dB plus ten times the logarithm of the weight. -/
theorem C128_landing_reference {w : ℝ} (hw : 0 < w) :
    ∃ x : ℝ, |x - (101 - 5 + 9.1)| ≤ 0.2 ∧
      (10 : ℝ) ^ ((shevell w 1 25000 25000).landing / 10) = 10 ^ (4 : ℕ) * w + (10 : ℝ) ^ (x / 10) := by
  have h : engines 1 = 101 := by
    unfold engines
    rw [mul_one, Real.logb_rpow (by norm_num) (by norm_num)]; norm_num
  refine ⟨landingEngine 1 25000 25000, ?_, ?_⟩
  · unfold landingEngine
    rw [h]
    norm_num [thrustNoise, landingNoise, abs_le]
  · show (10 : ℝ) ^ (10 * logb 10 ((10 : ℝ) ^ (airframe w / 10) + (10 : ℝ) ^ (landingEngine 1 25000 25000 / 10)) / 10) = _
    have ha : (10 : ℝ) ^ (airframe w / 10) = 10 ^ (4 : ℕ) * w := by
      unfold airframe
      rw [show (40 + 10 * logb 10 w) / 10 = 4 + logb 10 w by ring, Real.rpow_add (by norm_num),
        Real.rpow_logb (by norm_num) (by norm_num) hw]
      norm_num
    rw [ha, show ∀ y : ℝ, 10 * y / 10 = y by intro y; ring, Real.rpow_logb (by norm_num) (by norm_num) (by positivity)]

/-- On landing the airframe and the engines add as energies: above either, below the louder plus 10 log10 2. -/
theorem C128_landing (w n T TL : ℝ) :
    airframe w < (shevell w n T TL).landing ∧ landingEngine n T TL < (shevell w n T TL).landing
      ∧ (shevell w n T TL).landing ≤ max (airframe w) (landingEngine n T TL) + 10 * logb 10 2 := by
  have hs : (shevell w n T TL).landing = level (power (airframe w) + power (landingEngine n T TL)) := rfl
  have h1 := power_pos (airframe w)
  have h2 := power_pos (landingEngine n T TL)
  rw [hs]
  refine ⟨?_, ?_, ?_⟩
  · calc airframe w = level (power (airframe w)) := (level_power _).symm
      _ < _ := level_lt h1 (by linarith)
  · calc landingEngine n T TL = level (power (landingEngine n T TL)) := (level_power _).symm
      _ < _ := level_lt h2 (by linarith)
  · have hm := power_le (le_max_left (airframe w) (landingEngine n T TL))
    have hm' := power_le (le_max_right (airframe w) (landingEngine n T TL))
    have hp := power_pos (max (airframe w) (landingEngine n T TL))
    calc level (power (airframe w) + power (landingEngine n T TL))
        ≤ level (power (max (airframe w) (landingEngine n T TL)) * 2) := level_le (by positivity) (by linarith)
      _ = _ := by
          rw [level_mul hp (by norm_num), level_power]; rfl

/-- A heavier aircraft is louder on landing. -/
theorem C128_weight (w w' n T TL : ℝ) (hw : 0 < w) (h : w < w') :
    (shevell w n T TL).landing < (shevell w' n T TL).landing := by
  have ha : airframe w < airframe w' := by
    unfold airframe
    have := Real.logb_lt_logb (b := 10) (by norm_num) hw h
    linarith
  have hp : power (airframe w) < power (airframe w') :=
    Real.rpow_lt_rpow_of_exponent_lt (by norm_num) (by linarith)
  have h1 := power_pos (airframe w)
  have h2 := power_pos (landingEngine n T TL)
  show level (power (airframe w) + power (landingEngine n T TL)) < level (power (airframe w') + power (landingEngine n T TL))
  exact level_lt (by linarith) (by linarith)

/-- Up to 53 800 lb a stronger engine is louder. -/
theorem C128_thrust_partial (w n T T' TL TL' : ℝ) (h : T < T') (h' : T' ≤ 53800) :
    (shevell w n T TL).takeoff < (shevell w n T' TL').takeoff := by
  show engines n - 4 + -4 + thrustNoise T < engines n - 4 + -4 + thrustNoise T'
  have : thrustNoise T < thrustNoise T' := by
    unfold thrustNoise
    dsimp only
    norm_num
    nlinarith
  linarith

/-- Beyond, it is quieter. -/
theorem C128_thrust_counterexample :
    ¬ ∀ w n T T' TL TL' : ℝ, 0 < n → 0 < T → T < T' → (shevell w n T TL).takeoff ≤ (shevell w n T' TL').takeoff := by
  intro H
  have h := H 1 1 60000 100000 1 1 (by norm_num) (by norm_num) (by norm_num)
  have h' : engines 1 - 4 + -4 + thrustNoise 60000 ≤ engines 1 - 4 + -4 + thrustNoise 100000 := h
  norm_num [thrustNoise] at h'
  linarith

end Verif.Noise.Cert
