import Verif.Noise.Propeller
import Verif.Noise.LevelProps
import Mathlib.MeasureTheory.Integral.IntervalIntegral.FundThmCalculus
import Mathlib.Analysis.SpecialFunctions.Integrals.Basic
import Mathlib.Analysis.Real.Pi.Bounds
import Mathlib.Tactic.LinearCombination

/-!
C295 retarded geometry, C296 harmonic noise, C297 coordinates of sources, C298 broadband noise, C299 total of a propeller.
-/

namespace Verif.Noise.Mic
open Real

/-! ### C295 -/

theorem lateral_sq (o : Pt) : o.lateral ^ 2 = o.y ^ 2 + o.z ^ 2 := sq_sqrt (by positivity)
theorem dist_sq' (o : Pt) : o.dist ^ 2 = o.x ^ 2 + o.lateral ^ 2 := by rw [lateral_sq, Pt.dist, sq_sqrt (by positivity)]; ring

theorem dist_pos' (o : Pt) (h : 0 < o.lateral) : 0 < o.dist := by
  have h1 : 0 ≤ o.dist := sqrt_nonneg _
  have h2 := dist_sq' o
  by_contra hn
  have : o.dist = 0 := le_antisymm (not_lt.1 hn) h1
  rw [this] at h2
  nlinarith [sq_nonneg o.x]

theorem angle_spec (o : Pt) (h : 0 < o.lateral) : cos o.angle = o.x / o.dist ∧ sin o.angle = o.lateral / o.dist := by
  have hd := dist_pos' o h
  have hsq := dist_sq' o
  have habs : |o.x| ≤ o.dist := abs_le_of_sq_le_sq (by nlinarith [sq_nonneg o.lateral]) hd.le
  obtain ⟨h1, h2⟩ := abs_le.1 habs
  unfold Pt.angle
  constructor
  · rw [cos_arccos]
    · rw [le_div_iff₀ hd]; linarith
    · rw [div_le_one hd]; exact h2
  · rw [sin_arccos]
    have : 1 - (o.x / o.dist) ^ 2 = (o.lateral / o.dist) ^ 2 := by
      field_simp; linarith
    rw [this, sqrt_sq (by positivity)]

theorem retarded_spec (M : ℝ) (o : Pt) (h0 : 0 ≤ M) (h1 : M < 1) (h : 0 < o.lateral) :
    let c := o.x / o.dist
    let s := o.lateral / o.dist
    let q := √(1 - M ^ 2 * s ^ 2)
    cos (retarded M o) = c * q + M * s ^ 2 ∧ sin (retarded M o) = s * (q - M * c) ∧ 0 < q - M * c ∧ q ^ 2 = 1 - M ^ 2 * s ^ 2 ∧ c ^ 2 + s ^ 2 = 1 ∧ 0 < s := by
  intro c s q
  have hd := dist_pos' o h
  have hs : 0 < s := div_pos h hd
  have hcs : c ^ 2 + s ^ 2 = 1 := by simp only [c, s]; field_simp; linarith [dist_sq' o]
  have hM : M ^ 2 < 1 := by nlinarith
  have hq : q ^ 2 = 1 - M ^ 2 * s ^ 2 := by
    apply sq_sqrt
    nlinarith [sq_nonneg c, sq_nonneg s, sq_nonneg M]
  have hq0 : 0 ≤ q := sqrt_nonneg _
  have hpos : 0 < q - M * c := by
    have : (M * c) ^ 2 < q ^ 2 := by rw [hq]; nlinarith
    have := abs_lt_of_sq_lt_sq this hq0
    linarith [(abs_lt.1 this).2]
  have hone : (c * q + M * s ^ 2) ^ 2 + (s * (q - M * c)) ^ 2 = 1 := by
    have : (c * q + M * s ^ 2) ^ 2 + (s * (q - M * c)) ^ 2 = (c ^ 2 + s ^ 2) * (q ^ 2 + M ^ 2 * s ^ 2) := by ring
    rw [this, hcs, hq]; ring
  have hle : (c * q + M * s ^ 2) ^ 2 ≤ 1 := by nlinarith [sq_nonneg (s * (q - M * c))]
  obtain ⟨a1, a2⟩ := abs_le.1 (abs_le_one_iff_mul_self_le_one.2 (by nlinarith : (c * q + M * s ^ 2) * (c * q + M * s ^ 2) ≤ 1))
  obtain ⟨e1, e2⟩ := angle_spec o h
  have he : retarded M o = arccos (c * q + M * s ^ 2) := by unfold retarded; rw [e1, e2]
  refine ⟨by rw [he, cos_arccos a1 a2], ?_, hpos, hq, hcs, hs⟩
  rw [he, sin_arccos]
  have : 1 - (c * q + M * s ^ 2) ^ 2 = (s * (q - M * c)) ^ 2 := by linarith
  rw [this, sqrt_sq (by positivity)]

/-- **C295, emission.** The retarded angle and distance are those of the point where the sound heard now was emitted: the microphone is at
that angle and distance from it, the source has moved on by the Mach number times the distance, and no other distance fits. -/
theorem C295_emission (M : ℝ) (o : Pt) (h0 : 0 ≤ M) (h1 : M < 1) (h : 0 < o.lateral) :
    0 < emissionDist M o ∧ o.x + M * emissionDist M o = emissionDist M o * cos (retarded M o) ∧ o.lateral = emissionDist M o * sin (retarded M o) ∧
      ∀ d, 0 < d → d ^ 2 = (o.x + M * d) ^ 2 + o.lateral ^ 2 → d = emissionDist M o := by
  obtain ⟨e1, e2, e3, e4, e5, e6⟩ := retarded_spec M o h0 h1 h
  have hd := dist_pos' o h
  set c := o.x / o.dist with hc
  set s := o.lateral / o.dist with hs
  set q := √(1 - M ^ 2 * s ^ 2) with hq
  have hx : o.x = c * o.dist := by rw [hc]; field_simp
  have hy : o.lateral = s * o.dist := by rw [hs]; field_simp
  have hE : emissionDist M o = o.dist / (q - M * c) := by
    unfold emissionDist; rw [e2, hy]; field_simp
  have hpos : 0 < emissionDist M o := by rw [hE]; exact div_pos hd e3
  have h2 : o.x + M * emissionDist M o = emissionDist M o * cos (retarded M o) := by
    have hEd : emissionDist M o * (q - M * c) = o.dist := by rw [hE]; field_simp
    rw [e1, hx]
    linear_combination -c * hEd - emissionDist M o * M * e5
  have h3 : o.lateral = emissionDist M o * sin (retarded M o) := by
    rw [hE, e2, hy]
    have := e3.ne'
    field_simp
  refine ⟨hpos, h2, h3, fun d hd0 hdd => ?_⟩
  have hE2 : emissionDist M o ^ 2 = (o.x + M * emissionDist M o) ^ 2 + o.lateral ^ 2 := by
    rw [h2, h3]
    linear_combination -(emissionDist M o ^ 2) * (sin_sq_add_cos_sq (retarded M o))
  set e := emissionDist M o
  have hfac : (d - e) * ((1 - M ^ 2) * (d + e) - 2 * M * o.x) = 0 := by linear_combination hdd - hE2
  rcases mul_eq_zero.1 hfac with h' | h'
  · linarith
  · exfalso
    have hM : 0 < 1 - M ^ 2 := by nlinarith
    have : -(d * ((1 - M ^ 2) * e)) = o.x ^ 2 + o.lateral ^ 2 := by linear_combination hdd - d * h'
    have h5 : 0 < d * ((1 - M ^ 2) * e) := mul_pos hd0 (mul_pos hM hpos)
    nlinarith [sq_nonneg o.x, sq_nonneg o.lateral]

theorem azimuth_spec (o : Pt) (h : 0 < o.lateral) (hy : 0 ≤ o.y) : sin o.azimuth = o.z / o.lateral ∧ cos o.azimuth = o.y / o.lateral := by
  unfold Pt.azimuth
  by_cases h0 : o.y = 0
  · rw [if_pos h0]
    have hl : o.lateral = |o.z| := by unfold Pt.lateral; rw [h0]; simp [sqrt_sq_eq_abs]
    have hz : o.z ≠ 0 := by intro hz; rw [hl, hz] at h; simp at h
    rw [hl, h0]
    split_ifs with hz'
    · rw [abs_of_pos hz']; simp [hz]
    · rw [abs_of_nonpos (not_lt.1 hz')]; simp [hz, div_neg]
  · rw [if_neg h0]
    have hp : 0 < o.y := lt_of_le_of_ne hy (Ne.symm h0)
    have hl : o.lateral = o.y * √(1 + (o.z / o.y) ^ 2) := by
      unfold Pt.lateral
      rw [← sqrt_sq hp.le, ← sqrt_mul (by positivity)]
      rw [sqrt_sq hp.le]
      congr 1
      field_simp
    have hs : 0 < √(1 + (o.z / o.y) ^ 2) := sqrt_pos.2 (by positivity)
    rw [sin_arctan, cos_arctan, hl]
    constructor <;> field_simp

theorem shaft_identity (r alpha z : ℝ) : (cos r * cos alpha + sin r * sin z * sin alpha) ^ 2 + (cos r * sin alpha - sin r * sin z * cos alpha) ^ 2 +
    (sin r * cos z) ^ 2 = 1 := by
  linear_combination (cos r ^ 2 + sin r ^ 2 * sin z ^ 2) * sin_sq_add_cos_sq alpha + sin r ^ 2 * sin_sq_add_cos_sq z + sin_sq_add_cos_sq r

theorem shaft_cos (M alpha : ℝ) (o : Pt) :
    cos (shaftAngle M alpha o) = cos (retarded M o) * cos alpha + sin (retarded M o) * sin o.azimuth * sin alpha ∧ 0 ≤ sin (shaftAngle M alpha o) := by
  have hb : (cos (retarded M o) * cos alpha + sin (retarded M o) * sin o.azimuth * sin alpha) ^ 2 ≤ 1 := by
    linarith [shaft_identity (retarded M o) alpha o.azimuth, sq_nonneg (cos (retarded M o) * sin alpha - sin (retarded M o) * sin o.azimuth * cos alpha),
      sq_nonneg (sin (retarded M o) * cos o.azimuth)]
  obtain ⟨a1, a2⟩ := abs_le.1 ((sq_le_one_iff_abs_le_one _).1 hb)
  exact ⟨cos_arccos a1 a2, sin_nonneg_of_nonneg_of_le_pi (arccos_nonneg _) (arccos_le_pi _)⟩

/-- **C295, shaft.** On the side of positive second coordinates the angle to the shaft is that between the shaft and the direction from
the point of emission to the microphone. -/
theorem C295_shaft_partial (M alpha : ℝ) (o : Pt) (h0 : 0 ≤ M) (h1 : M < 1) (h : 0 < o.lateral) (hy : 0 ≤ o.y) :
    cos (shaftAngle M alpha o) = ((o.x + M * emissionDist M o) * cos alpha + o.z * sin alpha) / emissionDist M o := by
  obtain ⟨e1, e2, e3, _⟩ := C295_emission M o h0 h1 h
  rw [(shaft_cos M alpha o).1, (azimuth_spec o h hy).1, e2, eq_div_iff e1.ne']
  field_simp
  linear_combination (sin alpha * o.z) * (-e3)

/-- **C295 fails on the other side.** There the height enters with the wrong sign. -/
theorem C295_side_counterexample (M alpha : ℝ) (o : Pt) (h0 : 0 ≤ M) (h1 : M < 1) (hy : o.y < 0) :
    cos (shaftAngle M alpha o) = ((o.x + M * emissionDist M o) * cos alpha - o.z * sin alpha) / emissionDist M o := by
  set o' : Pt := ⟨o.x, -o.y, -o.z⟩ with ho'
  have hl : o'.lateral = o.lateral := by simp [Pt.lateral, o']
  have hd : o'.dist = o.dist := by simp [Pt.dist, o']
  have ha : o'.azimuth = o.azimuth := by
    unfold Pt.azimuth
    rw [if_neg (by simp [o', hy.ne]), if_neg hy.ne]
    simp [o', neg_div_neg_eq]
  have hr : retarded M o' = retarded M o := by unfold retarded Pt.angle; rw [hd]
  have hs : shaftAngle M alpha o' = shaftAngle M alpha o := by unfold shaftAngle; rw [hr, ha]
  have he : emissionDist M o' = emissionDist M o := by unfold emissionDist; rw [hr, hl]
  have hpos : 0 < o.lateral := sqrt_pos.2 (by nlinarith [sq_nonneg o.z])
  have := C295_shaft_partial M alpha o' h0 h1 (by rw [hl]; exact hpos) (by simp [o']; exact hy.le)
  rw [hs, he] at this
  rw [this]
  simp [o']; ring

example : cos (shaftAngle (1 / 2) (π / 2) ⟨0, -3, -4⟩) = 4 / emissionDist (1 / 2) ⟨0, -3, -4⟩ := by
  rw [C295_side_counterexample (1 / 2) (π / 2) ⟨0, -3, -4⟩ (by norm_num) (by norm_num) (by norm_num)]; simp

/-- **C295, phase.** The cosine of the phase never needs the clip. -/
theorem C295_phase (M alpha : ℝ) (o : Pt) (hs : sin (shaftAngle M alpha o) ≠ 0) : |phaseCos M alpha o| ≤ 1 ∧ cos (phase M alpha o) = phaseCos M alpha o := by
  obtain ⟨e1, e2⟩ := shaft_cos M alpha o
  have hp : 0 < sin (shaftAngle M alpha o) := lt_of_le_of_ne e2 (Ne.symm hs)
  have h4 := sin_sq_add_cos_sq (shaftAngle M alpha o)
  have hb : (sin (retarded M o) * cos o.azimuth) ^ 2 ≤ sin (shaftAngle M alpha o) ^ 2 := by
    rw [e1] at h4
    linarith [shaft_identity (retarded M o) alpha o.azimuth, sq_nonneg (cos (retarded M o) * sin alpha - sin (retarded M o) * sin o.azimuth * cos alpha)]
  have habs : |phaseCos M alpha o| ≤ 1 := by
    unfold phaseCos
    rw [div_mul_eq_mul_div, abs_div, abs_of_pos hp, div_le_one hp]
    exact abs_le_of_sq_le_sq hb hp.le
  refine ⟨habs, ?_⟩
  obtain ⟨b1, b2⟩ := abs_le.1 habs
  unfold phase
  rw [if_neg (not_lt.2 b2), cos_arccos b1 b2]

/-! ### C296 -/

/-- Specification: a point moved away from the origin by a factor. -/
def Pt.times (k : ℝ) (o : Pt) : Pt := ⟨k * o.x, k * o.y, k * o.z⟩

theorem times_geometry (k : ℝ) (hk : 0 < k) (o : Pt) : (o.times k).lateral = k * o.lateral ∧ (o.times k).azimuth = o.azimuth ∧ (o.times k).angle = o.angle := by
  have hl : (o.times k).lateral = k * o.lateral := by
    unfold Pt.lateral Pt.times
    rw [← sqrt_sq hk.le, ← sqrt_mul (by positivity), sqrt_sq hk.le]; congr 1; ring
  have hd : (o.times k).dist = k * o.dist := by
    unfold Pt.dist Pt.times
    rw [← sqrt_sq hk.le, ← sqrt_mul (by positivity), sqrt_sq hk.le]; congr 1; ring
  refine ⟨hl, ?_, ?_⟩
  · unfold Pt.azimuth
    have h1 : (o.times k).y = 0 ↔ o.y = 0 := by simp [Pt.times, hk.ne']
    have h2 : 0 < (o.times k).z ↔ 0 < o.z := by simp [Pt.times, hk]
    by_cases hy : o.y = 0
    · rw [if_pos (h1.2 hy), if_pos hy]
      by_cases hz : 0 < o.z
      · rw [if_pos (h2.2 hz), if_pos hz]
      · rw [if_neg (fun h => hz (h2.1 h)), if_neg hz]
    · rw [if_neg (fun h => hy (h1.1 h)), if_neg hy]
      congr 1
      simp only [Pt.times]
      rw [mul_div_mul_left _ _ hk.ne']
  · unfold Pt.angle
    rw [hd]
    simp only [Pt.times]
    rw [mul_div_mul_left _ _ hk.ne']

theorem times_retarded (k : ℝ) (hk : 0 < k) (M alpha : ℝ) (o : Pt) : retarded M (o.times k) = retarded M o ∧ shaftAngle M alpha (o.times k) = shaftAngle M alpha o ∧
    phase M alpha (o.times k) = phase M alpha o ∧ emissionDist M (o.times k) = k * emissionDist M o := by
  obtain ⟨e1, e2, e3⟩ := times_geometry k hk o
  have h1 : retarded M (o.times k) = retarded M o := by unfold retarded; rw [e3]
  have h2 : shaftAngle M alpha (o.times k) = shaftAngle M alpha o := by unfold shaftAngle; rw [h1, e2]
  refine ⟨h1, h2, ?_, ?_⟩
  · unfold phase phaseCos; rw [h1, h2, e2]
  · unfold emissionDist; rw [h1, e1]; ring

theorem trapzC_mul (n : ℕ) (r : ℕ → ℝ) (f : ℕ → ℂ) (w : ℂ) : trapzC n r (fun i => f i * w) = trapzC n r f * w := by
  unfold trapzC
  rw [Finset.sum_mul]
  exact Finset.sum_congr rfl fun i _ => by ring

/-- The change of phase from a point to one further away. -/
noncomputable def Rot.turn (p : Rot) (o : Pt) (m k : ℝ) : ℂ := Complex.exp (((m * p.B * (p.omega * ((k - 1) * emissionDist p.Mx o) / p.a) : ℝ) : ℂ) * Complex.I)

theorem turn_norm (p : Rot) (o : Pt) (m k : ℝ) : ‖p.turn o m k‖ = 1 := by unfold Rot.turn; exact Complex.norm_exp_ofReal_mul_I _

theorem wave_times (p : Rot) (o : Pt) (m k : ℝ) (hk : 0 < k) : p.wave (o.times k) m = p.wave o m * p.turn o m k := by
  obtain ⟨e1, e2, e3, e4⟩ := times_retarded k hk p.Mx p.alpha o
  unfold Rot.wave Rot.turn Rot.doppler
  rw [e1, e3, e4, div_mul_eq_mul_div, ← Complex.exp_add]
  congr 2
  push_cast
  ring

theorem pressure_times (p : Rot) (J : ℝ → ℝ → ℝ) (o : Pt) (m k : ℝ) (hk : 0 < k) :
    ‖p.pT J (o.times k) m‖ = ‖p.pT J o m‖ / k ∧ ‖p.pL J (o.times k) m‖ = ‖p.pL J o m‖ / k := by
  obtain ⟨e1, e2, e3, e4⟩ := times_retarded k hk p.Mx p.alpha o
  obtain ⟨g1, -, -⟩ := times_geometry k hk o
  have hdop : p.doppler (o.times k) = p.doppler o := by unfold Rot.doppler; rw [e1]
  have hkx : ∀ i, p.kx (o.times k) m i = p.kx o m i := fun i => by unfold Rot.kx; rw [hdop]
  have hps : ∀ i, p.phiS (o.times k) m i = p.phiS o m i := fun i => by unfold Rot.phiS; rw [hdop]
  have hj : ∀ i, p.jmb J (o.times k) m i = p.jmb J o m i := fun i => by unfold Rot.jmb; rw [hdop, e2]
  have hnorm : ∀ z : ℂ, ‖z * (p.turn o m k / ((k : ℝ) : ℂ))‖ = ‖z‖ / k := by
    intro z
    rw [norm_mul, norm_div, turn_norm, Complex.norm_real, norm_eq_abs, abs_of_pos hk]; ring
  constructor
  · have : p.thickness J (o.times k) m = fun i => p.thickness J o m i * (p.turn o m k / ((k : ℝ) : ℂ)) := by
      funext i
      unfold Rot.thickness
      rw [wave_times p o m k hk, hkx, hps, hj, e1, g1]
      push_cast
      ring
    unfold Rot.pT
    rw [this, trapzC_mul, hnorm]
  · have : p.loading J (o.times k) m = fun i => p.loading J o m i * (p.turn o m k / ((k : ℝ) : ℂ)) := by
      funext i
      unfold Rot.loading
      rw [wave_times p o m k hk, hkx, hps, hj, hdop, e1, e2, g1]
      push_cast
      ring
    unfold Rot.pL
    rw [this, trapzC_mul, hnorm]

/-- **C296, spreading.** Moving the microphone away by a factor divides the pressures by it and lowers the level by twenty times its
logarithm. -/
theorem C296_spreading (p : Rot) (J : ℝ → ℝ → ℝ) (o : Pt) (m k : ℝ) (hk : 0 < k) :
    ‖p.pT J (o.times k) m‖ = ‖p.pT J o m‖ / k ∧ ‖p.pL J (o.times k) m‖ = ‖p.pL J o m‖ / k ∧
      (p.pT J o m ≠ 0 ∨ p.pL J o m ≠ 0 → p.level J (o.times k) m = p.level J o m - 20 * logb 10 k) := by
  obtain ⟨e1, e2⟩ := pressure_times p J o m k hk
  refine ⟨e1, e2, fun h => ?_⟩
  have hpos : 0 < ‖p.pL J o m‖ + ‖p.pT J o m‖ := by
    rcases h with h | h
    · exact add_pos_of_nonneg_of_pos (norm_nonneg _) (norm_pos_iff.2 h)
    · exact add_pos_of_pos_of_nonneg (norm_pos_iff.2 h) (norm_nonneg _)
  unfold Rot.level spl
  rw [e1, e2, ← add_div]
  have hr : (0 : ℝ) < 2e-5 := by norm_num
  generalize (2e-5 : ℝ) = q at *
  generalize ‖p.pL J o m‖ + ‖p.pT J o m‖ = u at *
  rw [abs_div, abs_of_pos hk, abs_of_pos hpos, div_right_comm, logb_div (div_pos hpos hr).ne' hk.ne']
  ring

/-- **C296, sum.** The level is at least that of the sum of both pressures, whatever their phases, and at most six decibels above the
louder of the two. -/
theorem C296_sum (p : Rot) (J : ℝ → ℝ → ℝ) (o : Pt) (m : ℝ) (h : p.pL J o m + p.pT J o m ≠ 0) :
    spl ‖p.pL J o m + p.pT J o m‖ ≤ p.level J o m ∧ p.level J o m ≤ spl (max ‖p.pL J o m‖ ‖p.pT J o m‖) + 20 * logb 10 2 := by
  have h0 : 0 < ‖p.pL J o m + p.pT J o m‖ := norm_pos_iff.2 h
  have h1 := norm_add_le (p.pL J o m) (p.pT J o m)
  unfold Rot.level spl
  rw [abs_of_nonneg (by positivity)]
  have hr : (0 : ℝ) < 2e-5 := by norm_num
  generalize (2e-5 : ℝ) = q at *
  generalize ‖p.pL J o m + p.pT J o m‖ = u at *
  generalize ‖p.pL J o m‖ = v at *
  generalize ‖p.pT J o m‖ = w at *
  have h2 : v + w ≤ 2 * max v w := by linarith [le_max_left v w, le_max_right v w]
  constructor
  · have := logb_le_logb_of_le (b := 10) (by norm_num) (div_pos h0 hr) (div_le_div_of_nonneg_right h1 hr.le)
    linarith
  · have hmax : 0 < max v w := by linarith
    have := logb_le_logb_of_le (b := 10) (by norm_num) (div_pos (by linarith : 0 < v + w) hr) (div_le_div_of_nonneg_right h2 hr.le)
    rw [mul_div_assoc, logb_mul (by norm_num) (div_pos hmax hr).ne'] at this
    linarith

theorem cos_integral (k : ℝ) (hk : k ≠ 0) : ∫ X in (-(1 / 2) : ℝ)..(1 / 2), cos (k * X) = 2 / k * sin (1 / 2 * k) := by
  have hd : ∀ X ∈ Set.uIcc (-(1 / 2) : ℝ) (1 / 2), HasDerivAt (fun X => sin (k * X) / k) (cos (k * X)) X := by
    intro X _
    have h := ((hasDerivAt_id X).const_mul k).sin.div_const k
    refine h.congr_deriv ?_
    simp; field_simp
  rw [intervalIntegral.integral_eq_sub_of_hasDerivAt hd (by apply Continuous.intervalIntegrable; fun_prop)]
  have : k * -(1 / 2) = -(1 / 2 * k) := by ring
  rw [this, sin_neg, mul_comm k (1 / 2)]; ring

theorem parabola_integral (k : ℝ) (hk : k ≠ 0) :
    ∫ X in (-(1 / 2) : ℝ)..(1 / 2), (1 - 4 * X ^ 2) * cos (k * X) = 8 / k ^ 2 * (2 / k * sin (1 / 2 * k) - cos (1 / 2 * k)) := by
  have hd : ∀ X ∈ Set.uIcc (-(1 / 2) : ℝ) (1 / 2), HasDerivAt (fun X => (1 - 4 * X ^ 2) * (sin (k * X) / k) - 8 * X * (cos (k * X) / k ^ 2) + 8 * (sin (k * X) / k ^ 3))
      ((1 - 4 * X ^ 2) * cos (k * X)) X := by
    intro X _
    have hs := ((hasDerivAt_id X).const_mul k).sin
    have hc := ((hasDerivAt_id X).const_mul k).cos
    have h1 : HasDerivAt (fun X : ℝ => 1 - 4 * X ^ 2) (-(8 * X)) X := by
      refine (((hasDerivAt_pow 2 X).const_mul 4).const_sub 1).congr_deriv ?_
      push_cast; ring
    have h2 : HasDerivAt (fun X : ℝ => 8 * X) 8 X := by
      refine ((hasDerivAt_id X).const_mul 8).congr_deriv (by ring)
    have h := ((h1.mul (hs.div_const k)).sub (h2.mul (hc.div_const (k ^ 2)))).add ((hs.div_const (k ^ 3)).const_mul 8)
    refine h.congr_deriv ?_
    simp only [id, mul_one]
    field_simp
    ring
  rw [intervalIntegral.integral_eq_sub_of_hasDerivAt hd (by apply Continuous.intervalIntegrable; fun_prop)]
  have : k * -(1 / 2) = -(1 / 2 * k) := by ring
  rw [this, sin_neg, cos_neg, mul_comm k (1 / 2)]
  field_simp
  ring

/-- **C296, chordwise shapes.** Beyond the first station the shape factors are the transforms of a parabolic thickness and of an even load
over the chord; at the first they are those for wave number zero. -/
theorem C296_shapes_partial (k : ℝ) (hk : k ≠ 0) (i : ℕ) (hi : i ≠ 0) :
    psiV k i = ∫ X in (-(1 / 2) : ℝ)..(1 / 2), (1 - 4 * X ^ 2) * cos (k * X) ∧ psiL k i = ∫ X in (-(1 / 2) : ℝ)..(1 / 2), cos (k * X) ∧
      psiV 0 0 = (∫ X in (-(1 / 2) : ℝ)..(1 / 2), (1 - 4 * X ^ 2) * cos (0 * X)) ∧ psiL 0 0 = ∫ X in (-(1 / 2) : ℝ)..(1 / 2), cos (0 * X) := by
  refine ⟨by rw [parabola_integral k hk, psiV, if_neg hi], by rw [cos_integral k hk, psiL, if_neg hi], ?_, ?_⟩
  · rw [psiV, if_pos rfl]
    simp only [zero_mul, cos_zero, mul_one]
    rw [intervalIntegral.integral_sub (by simp) (by apply Continuous.intervalIntegrable; fun_prop), intervalIntegral.integral_const_mul, integral_pow]
    norm_num
  · simp [psiL]; norm_num

/-- **C296 fails at the first station.** Its factors are those of wave number zero, whatever the wave number. -/
theorem C296_root_counterexample : psiL (2 * π) 0 = 1 ∧ ∫ X in (-(1 / 2) : ℝ)..(1 / 2), cos (2 * π * X) = 0 := by
  refine ⟨by simp [psiL], ?_⟩
  rw [cos_integral _ (by positivity)]
  have : 1 / 2 * (2 * π) = π := by ring
  rw [this, sin_pi, mul_zero]

/-- Specification: the same rotor with lengths in a unit smaller by the factor `k`: forces by length stay, forces and speeds grow by `k`,
densities fall by its cube. -/
noncomputable def Rot.inUnit (p : Rot) (k : ℝ) : Rot :=
  { p with Rtip := k * p.Rtip, D := k * p.D, a := k * p.a, V := k * p.V, rho := p.rho / k ^ 3, c := fun i => k * p.c i, mca := fun i => k * p.mca i, dQ := fun i => k * p.dQ i }

theorem unit_facts (p : Rot) (k : ℝ) (hk : 0 < k) (o : Pt) (m : ℝ) (J : ℝ → ℝ → ℝ) :
    (p.inUnit k).Mx = p.Mx ∧ (p.inUnit k).Mt = p.Mt ∧ (∀ i, (p.inUnit k).Mr i = p.Mr i) ∧ (p.inUnit k).doppler (o.times k) = p.doppler o ∧
      (∀ i, (p.inUnit k).kx (o.times k) m i = p.kx o m i) ∧ (∀ i, (p.inUnit k).phiS (o.times k) m i = p.phiS o m i) ∧
      (∀ i, (p.inUnit k).jmb J (o.times k) m i = p.jmb J o m i) ∧ (p.inUnit k).wave (o.times k) m = p.wave o m := by
  have hk' := hk.ne'
  have h1 : (p.inUnit k).Mx = p.Mx := by simp only [Rot.Mx, Rot.inUnit]; rw [mul_div_mul_left _ _ hk']
  have h2 : (p.inUnit k).Mt = p.Mt := by simp only [Rot.Mt, Rot.inUnit]; rw [mul_assoc, mul_div_mul_left _ _ hk']
  have h3 : ∀ i, (p.inUnit k).Mr i = p.Mr i := fun i => by unfold Rot.Mr; rw [h1, h2]; rfl
  obtain ⟨e1, e2, e3, e4⟩ := times_retarded k hk p.Mx p.alpha o
  have h4 : (p.inUnit k).doppler (o.times k) = p.doppler o := by unfold Rot.doppler; rw [h1, e1]
  have hc : ∀ a b : ℝ, k * a / (k * b) = a / b := fun a b => mul_div_mul_left _ _ hk'
  refine ⟨h1, h2, h3, h4, fun i => ?_, fun i => ?_, fun i => ?_, ?_⟩
  · unfold Rot.kx; rw [h2, h3, h4]; simp only [Rot.inUnit]; rw [hc]
  · unfold Rot.phiS; rw [h2, h3, h4]; simp only [Rot.inUnit]; rw [hc]
  · unfold Rot.jmb; rw [h1, h2, h4]; simp only [Rot.inUnit]; rw [e2]
  · unfold Rot.wave; rw [h1, h4]; simp only [Rot.inUnit]; rw [e3, e4]
    have : p.omega * (k * emissionDist p.Mx o) / (k * p.a) = p.omega * emissionDist p.Mx o / p.a := by
      rw [mul_left_comm, hc]
    rw [this]

/-- **C296, units.** The pressure of thickness does not depend on the unit of length. -/
theorem C296_units_partial (p : Rot) (J : ℝ → ℝ → ℝ) (o : Pt) (m k : ℝ) (hk : 0 < k) : (p.inUnit k).pT J (o.times k) m = p.pT J o m * ((1 / k : ℝ) : ℂ) := by
  obtain ⟨h1, h2, h3, h4, h5, h6, h7, h8⟩ := unit_facts p k hk o m J
  unfold Rot.pT
  rw [show (p.inUnit k).n = p.n from rfl, show (p.inUnit k).r = p.r from rfl, ← trapzC_mul]
  congr 1
  funext i
  unfold Rot.thickness
  rw [h1, h3, h5, h6, h7, h8, (times_retarded k hk p.Mx p.alpha o).1, (times_geometry k hk o).1]
  have hreal : (p.inUnit k).rho * (p.inUnit k).a ^ 2 * (p.inUnit k).B * sin (retarded p.Mx o) / (4 * √2 * π * (k * o.lateral / (p.inUnit k).D)) =
      p.rho * p.a ^ 2 * p.B * sin (retarded p.Mx o) / (4 * √2 * π * (o.lateral / p.D)) * (1 / k) := by
    simp only [Rot.inUnit]
    rw [mul_div_mul_left _ _ hk.ne']
    have : p.rho / k ^ 3 * (k * p.a) ^ 2 = p.rho * p.a ^ 2 * (1 / k) := by field_simp
    rw [this]; ring
  rw [hreal]
  simp only [Rot.inUnit]
  push_cast
  ring

/-- **C296 fails for the unit of length.** The pressure of the loads falls by the square of the factor: thrust and torque by length are
integrated over the relative radius, without the radius of the tip. -/
theorem C296_units_counterexample (p : Rot) (J : ℝ → ℝ → ℝ) (o : Pt) (m k : ℝ) (hk : 0 < k) :
    (p.inUnit k).pL J (o.times k) m = p.pL J o m * ((1 / k ^ 2 : ℝ) : ℂ) := by
  obtain ⟨h1, h2, h3, h4, h5, h6, h7, h8⟩ := unit_facts p k hk o m J
  unfold Rot.pL
  rw [show (p.inUnit k).n = p.n from rfl, show (p.inUnit k).r = p.r from rfl, ← trapzC_mul]
  congr 1
  funext i
  unfold Rot.loading
  rw [h1, h2, h4, h5, h6, h7, h8, (times_retarded k hk p.Mx p.alpha o).1, (times_geometry k hk o).1]
  have hl : (p.inUnit k).alpha = p.alpha := rfl
  rw [hl, (times_retarded k hk p.Mx p.alpha o).2.1]
  have hreal : cos (shaftAngle p.Mx p.alpha o) / p.doppler o * (p.inUnit k).dT i - 1 / ((p.inUnit k).r i ^ 2 * p.Mt * (p.inUnit k).Rtip) * (p.inUnit k).dQ i =
      cos (shaftAngle p.Mx p.alpha o) / p.doppler o * p.dT i - 1 / (p.r i ^ 2 * p.Mt * p.Rtip) * p.dQ i := by
    simp only [Rot.inUnit]
    have : 1 / (p.r i ^ 2 * p.Mt * (k * p.Rtip)) * (k * p.dQ i) = 1 / (p.r i ^ 2 * p.Mt * p.Rtip) * p.dQ i * (k * (1 / k)) := by ring
    rw [this, mul_one_div_cancel hk.ne', mul_one]
  have hreal2 : m * (p.inUnit k).B * p.Mt * sin (retarded p.Mx o) / (2 * √2 * π * (k * o.lateral) * (p.inUnit k).Rtip) =
      m * p.B * p.Mt * sin (retarded p.Mx o) / (2 * √2 * π * o.lateral * p.Rtip) * (1 / k ^ 2) := by
    simp only [Rot.inUnit]; ring
  rw [hreal, hreal2]
  push_cast
  ring

/-! ### C297 -/

/-- Specification: the microphone as seen from the hub of a rotor, forwards, to the right, up. The position of the aircraft has its third
component downwards; the origin of the rotor is given backwards, to the right, up; attitudes turn forwards, right, down. -/
def hubToMic (T : Mat3) (pos mic origin : Pt) : Pt :=
  let q := T.app ⟨-origin.x, origin.y, -origin.z⟩
  ⟨mic.x - (pos.x + q.x), mic.y - (pos.y + q.y), mic.z + (pos.z + q.z)⟩

/-- **C297, level flight.** With no attitude and a rotor at the nose the vector is that from the hub to the microphone. -/
theorem C297_hub_partial (pos mic origin : Pt) (hx : origin.x = 0) : pointSource Mat3.one origin (relative pos mic) = hubToMic Mat3.one pos mic origin := by
  unfold pointSource hubToMic relative Mat3.app Mat3.one Pt.dot
  ext <;> simp [hx] <;> ring

example : pointSource Mat3.one ⟨0, 2, 1⟩ (relative ⟨100, 0, -50⟩ ⟨120, 10, 0⟩) = ⟨20, 8, -51⟩ := by
  unfold pointSource relative Mat3.app Mat3.one Pt.dot
  ext <;> norm_num

/-- **C297 fails behind the nose.** A rotor behind the nose is taken to be as far ahead of it. -/
theorem C297_hub_counterexample (pos mic origin : Pt) :
    (pointSource Mat3.one origin (relative pos mic)).x = (hubToMic Mat3.one pos mic origin).x - 2 * origin.x := by
  unfold pointSource hubToMic relative Mat3.app Mat3.one Pt.dot
  simp; ring

theorem turnY_dist (c s : ℝ) (h : c ^ 2 + s ^ 2 = 1) (p : Pt) : (turnY c s p).dist = p.dist := by
  unfold turnY Pt.dist
  congr 1
  simp only
  linear_combination (p.x ^ 2 + p.z ^ 2) * h

theorem turnZ_dist (s c : ℝ) (h : c ^ 2 + s ^ 2 = 1) (p : Pt) : (turnZ s c p).dist = p.dist := by
  unfold turnZ Pt.dist
  congr 1
  simp only
  linear_combination (p.x ^ 2 + p.y ^ 2) * h

/-- **C297, sections.** For a rotor turned only in pitch the coordinates of blade sections keep the distance to the microphone, and this is
the distance used for harmonic noise in level flight; it is that of the hub for every radius. -/
theorem C297_sections_partial (r aoa c s azimuth alphaEff : ℝ) (h : c ^ 2 + s ^ 2 = 1) (origin rel : Pt) :
    (sectionSource r aoa c s azimuth alphaEff origin rel).dist = (pointSource Mat3.one origin rel).dist := by
  unfold sectionSource
  rw [turnY_dist _ _ (cos_sq_add_sin_sq _), turnZ_dist _ _ (cos_sq_add_sin_sq _), turnY_dist _ _ h, turnY_dist _ _ (cos_sq_add_sin_sq _)]
  unfold pointSource Mat3.app Mat3.one Pt.dot Pt.dist
  congr 1
  simp; ring

example : (sectionSource 1 0.1 (cos (π / 2)) (sin (π / 2)) 1 0.2 ⟨0, 3, 0⟩ ⟨4, 0, 0⟩).dist = 5 := by
  rw [C297_sections_partial _ _ _ _ _ _ (cos_sq_add_sin_sq _)]
  unfold pointSource Mat3.app Mat3.one Pt.dot Pt.dist
  rw [show ((5 : ℝ)) = √(5 ^ 2) by rw [sqrt_sq (by norm_num)]]
  congr 1; norm_num

/-- **C297 fails for sections.** Turned in yaw too, the coordinates lose distance; with an attitude harmonic and broadband noise have
different distances. -/
theorem C297_sections_counterexample :
    (sectionSource 1 0 0 0 0 0 ⟨0, 0, 0⟩ ⟨3, 0, 4⟩).dist = 0 ∧ (sectionSource 1 0 1 0 0 0 ⟨4, 0, 0⟩ ⟨3, 0, 0⟩).dist = 7 ∧
      (pointSource ⟨⟨0, -1, 0⟩, ⟨1, 0, 0⟩, ⟨0, 0, 1⟩⟩ ⟨4, 0, 0⟩ ⟨3, 0, 0⟩).dist = 5 := by
  refine ⟨?_, ?_, ?_⟩
  · unfold sectionSource turnY turnZ Pt.dist; simp
  · unfold sectionSource turnY turnZ Pt.dist
    rw [show ((7 : ℝ)) = √(7 ^ 2) by rw [sqrt_sq (by norm_num)]]
    congr 1; simp; norm_num
  · unfold pointSource Mat3.app Pt.dot Pt.dist
    rw [show ((5 : ℝ)) = √(5 ^ 2) by rw [sqrt_sq (by norm_num)]]
    congr 1; norm_num

/-! ### C298 -/

theorem telescope (r : ℕ → ℝ) (n : ℕ) : ∑ i ∈ Finset.range n, ((r (i + 1) - r i) + (r (i + 2) - r (i + 1))) / 2 = (r n + r (n + 1) - r 0 - r 1) / 2 := by
  induction n with
  | zero => simp
  | succ n ih => rw [Finset.sum_range_succ, ih]; ring

/-- **C298 fails for the widths.** The widths of the sections sum to the blade and one and a half times its first and last interval. -/
theorem C298_widths_counterexample (n : ℕ) (hn : 3 ≤ n) (r : ℕ → ℝ) :
    ∑ i ∈ Finset.range n, widths n r i = (r (n - 1) - r 0) + 3 / 2 * ((r 1 - r 0) + (r (n - 1) - r (n - 2))) := by
  obtain ⟨k, rfl⟩ : ∃ k, n = k + 3 := ⟨n - 3, by omega⟩
  rw [Finset.sum_range_succ, Finset.sum_range_succ']
  have h1 : widths (k + 3) r (k + 2) = 2 * (r (k + 2) - r (k + 1)) := by simp [widths]
  have h2 : widths (k + 3) r 0 = 2 * (r 1 - r 0) := by unfold widths; rw [if_neg (by omega), if_pos rfl]
  have h3 : ∑ i ∈ Finset.range (k + 1), widths (k + 3) r (i + 1) = (r (k + 1) + r (k + 2) - r 0 - r 1) / 2 := by
    rw [← telescope]
    refine Finset.sum_congr rfl fun i hi => ?_
    have := Finset.mem_range.1 hi
    unfold widths
    rw [if_neg (by omega), if_neg (by omega)]
    simp
  rw [h1, h2, h3]
  simp only [show k + 3 - 1 = k + 2 from rfl, show k + 3 - 2 = k + 1 from rfl]
  ring

/-- **C298, interior.** Away from both ends the width of a section reaches from the middle of the interval before to that of the next. -/
theorem C298_widths_partial (n : ℕ) (r : ℕ → ℝ) (i : ℕ) (h0 : 0 < i) (h1 : i + 1 < n) : widths n r i = (r i + r (i + 1)) / 2 - (r (i - 1) + r i) / 2 := by
  unfold widths; rw [if_neg (by omega), if_neg (by omega)]; ring

/-- **C298, even flow.** Where nothing changes around the disc the mean over the azimuth is that value, for any number of stations, and the
density is in proportion to the number of blades. -/
theorem C298_even (omega c0 chord dr B v : ℝ) (n : ℕ) (hn : 2 ≤ n) :
    azimuthMean n (fun _ => v) = v ∧ ∀ g : ℕ → ℝ, density omega c0 chord dr B n g = B * density omega c0 chord dr 1 n g := by
  have h1 : (n : ℝ) - 1 ≠ 0 := by
    have : (2 : ℝ) ≤ n := by exact_mod_cast hn
    linarith
  constructor
  · unfold azimuthMean
    rw [Finset.sum_const, Finset.card_range, nsmul_eq_mul, Nat.cast_sub (by omega)]
    push_cast
    have := pi_pos.ne'
    field_simp
    ring
  · intro g; unfold density; ring

/-- **C298 fails around the disc.** The values at the azimuths of the rotor, a full turn divided by their number, are integrated as if the
last were at the full turn: a value with mean two has another. -/
theorem C298_azimuth_counterexample : azimuthMean 4 (fun j => 2 + cos (2 * π * j / 4)) = 2 - 1 / 6 := by
  unfold azimuthMean
  have h0 : cos (2 * π * ((0 : ℕ) : ℝ) / 4) = 1 := by simp
  have h1 : cos (2 * π * ((1 : ℕ) : ℝ) / 4) = 0 := by rw [show 2 * π * ((1 : ℕ) : ℝ) / 4 = π / 2 by push_cast; ring, cos_pi_div_two]
  have h2 : cos (2 * π * ((2 : ℕ) : ℝ) / 4) = -1 := by rw [show 2 * π * ((2 : ℕ) : ℝ) / 4 = π by push_cast; ring, cos_pi]
  have h3 : cos (2 * π * ((3 : ℕ) : ℝ) / 4) = 0 := by
    rw [show 2 * π * ((3 : ℕ) : ℝ) / 4 = π / 2 + π by push_cast; ring, cos_add_pi, cos_pi_div_two, neg_zero]
  simp only [show (4 : ℕ) - 1 = 3 from rfl, Finset.sum_range_succ, Finset.sum_range_zero, Nat.zero_add, show 1 + 1 = 2 from rfl, show 2 + 1 = 3 from rfl]
  rw [h0, h1, h2, h3]
  have := pi_pos.ne'
  push_cast
  field_simp
  ring

/-- **C298 fails for the boundary layers.** The table is in chords; the same flow gives other thicknesses when it is declared nonuniform,
and only the thickness itself is ever multiplied by the chord. -/
theorem C298_layers_counterexample (l : Layer) (chord : ℝ) : (l.used false chord).delta = chord * l.delta ∧ (l.used true chord).delta = l.delta ∧
    ∀ b, (l.used b chord).deltaStar = l.deltaStar ∧ (l.used b chord).theta = l.theta := by
  refine ⟨by simp [Layer.used], by simp [Layer.used], fun b => ?_⟩
  cases b <;> simp [Layer.used]

/-! ### C299 -/

/-- **C299, bands.** The level of a band is that of the energies of tones and broadband noise together: no less than either, and within
three decibels of the louder. -/
theorem C299_band (h b : ℝ) : (10 : ℝ) ^ (bandTotal h b / 10) = (10 : ℝ) ^ (h / 10) + (10 : ℝ) ^ (b / 10) ∧ h < bandTotal h b ∧ b < bandTotal h b ∧
    bandTotal h b ≤ max h b + 10 * logb 10 2 := by
  have hp : ∀ x : ℝ, 0 < (10 : ℝ) ^ x := fun x => rpow_pos_of_pos (by norm_num) x
  have key : (10 : ℝ) ^ (bandTotal h b / 10) = (10 : ℝ) ^ (h / 10) + (10 : ℝ) ^ (b / 10) := by
    unfold bandTotal
    rw [mul_div_cancel_left₀ _ (by norm_num : (10 : ℝ) ≠ 0), rpow_logb (by norm_num) (by norm_num) (add_pos (hp _) (hp _))]
  have hlt : ∀ x y : ℝ, (10 : ℝ) ^ (x / 10) < (10 : ℝ) ^ (y / 10) → x < y := by
    intro x y hxy
    have := (rpow_lt_rpow_left_iff (by norm_num : (1 : ℝ) < 10)).1 hxy
    linarith
  refine ⟨key, hlt _ _ (by rw [key]; linarith [hp (b / 10)]), hlt _ _ (by rw [key]; linarith [hp (h / 10)]), ?_⟩
  unfold bandTotal
  have h1 : (10 : ℝ) ^ (h / 10) + (10 : ℝ) ^ (b / 10) ≤ 2 * (10 : ℝ) ^ (max h b / 10) := by
    have a1 : (10 : ℝ) ^ (h / 10) ≤ (10 : ℝ) ^ (max h b / 10) := rpow_le_rpow_of_exponent_le (by norm_num) (by linarith [le_max_left h b])
    have a2 : (10 : ℝ) ^ (b / 10) ≤ (10 : ℝ) ^ (max h b / 10) := rpow_le_rpow_of_exponent_le (by norm_num) (by linarith [le_max_right h b])
    linarith
  have h2 := logb_le_logb_of_le (b := 10) (by norm_num) (add_pos (hp (h / 10)) (hp (b / 10))) h1
  rw [logb_mul (by norm_num) (hp _).ne', logb_rpow (by norm_num) (by norm_num)] at h2
  linarith

/-- **C299 fails for silence.** A silent band counts as zero decibels, twice: `n` rotors at rest have a level of seventeen decibels and
more. -/
theorem C299_silence_counterexample (n : ℕ) (hn : 0 < n) :
    total (List.replicate (29 * n) (bandTotal (band [] 14 18) 0)) = some (10 * logb 10 58 + 10 * logb 10 n) := by
  have hb : band [] 14 18 = 0 := by simp [band, total]
  have hn' : (n : ℝ) ≠ 0 := by exact_mod_cast hn.ne'
  rw [C117_equal _ _ (by omega), hb]
  unfold bandTotal
  rw [zero_div, rpow_zero, Nat.cast_mul, logb_mul (by norm_num) hn', show (58 : ℝ) = (1 + 1) * (29 : ℕ) by norm_num,
    logb_mul (by norm_num) (by norm_num)]
  congr 1; ring


/-- **C296, sum over the stations.** The sum is the integral of the polygon through the values: exact for every integrand that is
affine in the radius. -/
theorem C296_integral (n : ℕ) (r : ℕ → ℝ) (a b : ℂ) :
    trapzC (n + 1) r (fun i => a + b * r i) = a * (r n - r 0) + b * (r n ^ 2 - r 0 ^ 2) / 2 := by
  unfold trapzC
  rw [Nat.add_sub_cancel]
  induction n with
  | zero => simp
  | succ n ih =>
    rw [Finset.sum_range_succ, ih]
    push_cast
    ring

end Verif.Noise.Mic
