import Verif.Geometry.Sections
import Verif.Geometry.PlanformProps

/-!
C270 volume between the spars, C271 stations and chords, C272 tails from volume coefficients, C273 fuel volume,
C274 nacelle size.
-/

namespace Verif.Geometry
open Real MeasureTheory intervalIntegral

/-! ### Specification of C270: a tapered box -/

/-- Cross section between the spars of a section of chord `c`: a trapezium over half the chord whose sides are the heights
of the section at the spars. -/
noncomputable def Box.cut (w : Box) (c : ℝ) : ℝ := (2 * w.halfFront c + 2 * w.halfRear c) * (c * 0.5) / 2

/-- Volume between the spars of both wing halves: the integral of the cross section over the span, the chord tapering
linearly. -/
noncomputable def Box.exact (w : Box) : ℝ := 2 * ∫ y in (0 : ℝ)..w.span / 2, w.cut (lerp 0 (w.span / 2) w.root w.tip y)

theorem cut_eq (w : Box) (c : ℝ) : w.cut c = w.tc * (thickFront * cos w.angleFront + thickRear * cos w.angleRear) / 2 * c ^ 2 := by
  simp only [Box.cut, Box.halfFront, Box.halfRear]; ring

theorem exact_eq (w : Box) (hb : 0 < w.span) : w.exact =
    w.tc * (thickFront * cos w.angleFront + thickRear * cos w.angleRear) / 2 * (w.span * (w.root ^ 2 + w.root * w.tip + w.tip ^ 2) / 3) := by
  have hne : (0 : ℝ) ≠ w.span / 2 := by positivity
  simp only [Box.exact, cut_eq]
  rw [intervalIntegral.integral_const_mul, int_lerp_sq _ _ _ _ hne]
  ring

theorem volume_eq (w : Box) (hb : 0 < w.span) : w.volume =
    w.exact - w.span / 12 * (w.tc * thickFront * cos w.angleFront) * (w.root ^ 2 - w.tip ^ 2) := by
  rw [exact_eq w hb]
  have hb' := hb.ne'
  simp only [Box.volume, Box.halfFront, Box.halfRear]
  generalize w.camberFront w.root = a, w.camberFront w.tip = b, w.camberRear w.root = c, w.camberRear w.tip = d
  generalize thickFront = f, thickRear = g, cos w.angleFront = u, cos w.angleRear = v
  field_simp
  ring

/-- **C270, straight wings.** The volume of an untapered wing is the volume between its spars. -/
theorem C270_straight_partial (w : Box) (hb : 0 < w.span) (h : w.root = w.tip) : w.volume = w.exact := by
  rw [volume_eq w hb, h]; ring

example : (⟨0.1, 2, 2, 10, 0.02, 0.4⟩ : Box).volume = (⟨0.1, 2, 2, 10, 0.02, 0.4⟩ : Box).exact :=
  C270_straight_partial _ (by norm_num) rfl

theorem thickFront_pos : 0 < thickFront := by
  have h : (0.3 : ℝ) ≤ sqrt 0.1 := Real.le_sqrt_of_sq_le (by norm_num)
  unfold thickFront; nlinarith

/-- **C270 fails for tapered wings.** The mid section is given the front spar of the tip; every wing with a tip shorter than
its root gets too little volume. -/
theorem C270_taper_counterexample (w : Box) (hb : 0 < w.span) (ht : 0 < w.tc) (h0 : 0 ≤ w.tip) (h : w.tip < w.root) :
    w.volume < w.exact := by
  rw [volume_eq w hb]
  have h1 : 0 < w.root ^ 2 - w.tip ^ 2 := by nlinarith
  have h2 : 0 < cos w.angleFront := Real.cos_arctan_pos _
  have := thickFront_pos
  have : 0 < w.span / 12 * (w.tc * thickFront * cos w.angleFront) * (w.root ^ 2 - w.tip ^ 2) := by positivity
  linarith

example : (⟨0.1, 2, 1, 10, 0.02, 0.4⟩ : Box).volume < (⟨0.1, 2, 1, 10, 0.02, 0.4⟩ : Box).exact :=
  C270_taper_counterexample _ (by norm_num) (by norm_num) (by norm_num) (by norm_num)

/-! The section of the NACA 4-digit series: half thickness and camber line in chords. -/

/-- Half thickness at the fraction `x` of the chord. -/
noncomputable def nacaHalf (t x : ℝ) : ℝ := 5 * t * (0.2969 * sqrt x - 0.1260 * x - 0.3516 * x ^ 2 + 0.2843 * x ^ 3 - 0.1015 * x ^ 4)

open Classical in
/-- Camber line: two parabolas meeting at the place `p` of the largest camber `m`. -/
noncomputable def nacaCamber (m p x : ℝ) : ℝ :=
  if x ≤ p then m * x / p ^ 2 * (2 * p - x) else m * (1 - x) / (1 - p) ^ 2 * (1 + x - 2 * p)

/-- **C270, sections.** With the largest camber between the spars the ends of the spars are points of the section: camber, and
half the thickness perpendicular to the camber line. -/
theorem C270_section_partial (w : Box) (c : ℝ) (h0 : 0.1 < w.p) (h1 : w.p < 0.6) :
    w.camberFront c = c * nacaCamber w.m w.p 0.1 ∧ w.camberRear c = c * nacaCamber w.m w.p 0.6 ∧
    ∃ s0 s1, HasDerivAt (nacaCamber w.m w.p) s0 0.1 ∧ HasDerivAt (nacaCamber w.m w.p) s1 0.6 ∧
      w.halfFront c = c * nacaHalf w.tc 0.1 * cos (arctan s0) ∧ w.halfRear c = c * nacaHalf w.tc 0.6 * cos (arctan s1) := by
  refine ⟨?_, ?_, 2 * w.m / w.p ^ 2 * (w.p - 0.1), 2 * w.m / (1 - w.p) ^ 2 * (w.p - 0.6), ?_, ?_, ?_, ?_⟩
  · rw [nacaCamber, if_pos h0.le, Box.camberFront]; ring
  · rw [nacaCamber, if_neg (not_le.2 h1), Box.camberRear]; ring
  · have h : HasDerivAt (fun x : ℝ => w.m * x / w.p ^ 2 * (2 * w.p - x)) (2 * w.m / w.p ^ 2 * (w.p - 0.1)) 0.1 := by
      refine ((((hasDerivAt_id (0.1 : ℝ)).const_mul w.m).div_const (w.p ^ 2)).mul ((hasDerivAt_id (0.1 : ℝ)).const_sub (2 * w.p))).congr_deriv ?_
      simp only [id]; ring
    refine h.congr_of_eventuallyEq ?_
    filter_upwards [Iio_mem_nhds h0] with x hx
    rw [nacaCamber, if_pos (le_of_lt hx)]
  · have h : HasDerivAt (fun x : ℝ => w.m * (1 - x) / (1 - w.p) ^ 2 * (1 + x - 2 * w.p)) (2 * w.m / (1 - w.p) ^ 2 * (w.p - 0.6)) 0.6 := by
      refine (((((hasDerivAt_id (0.6 : ℝ)).const_sub 1).const_mul w.m).div_const ((1 - w.p) ^ 2)).mul
        (((hasDerivAt_id (0.6 : ℝ)).const_add 1).sub_const (2 * w.p))).congr_deriv ?_
      simp only [id]; ring
    refine h.congr_of_eventuallyEq ?_
    filter_upwards [Ioi_mem_nhds h1] with x hx
    rw [nacaCamber, if_neg (not_le.2 hx)]
  · rw [Box.halfFront, Box.angleFront, nacaHalf, thickFront, show (0.126 : ℝ) = 0.1260 by norm_num]; ring
  · rw [Box.halfRear, Box.angleRear, nacaHalf, thickRear, show (0.126 : ℝ) = 0.1260 by norm_num]; ring

/-- With the largest camber behind the rear spar the wrong parabola is used there. -/
theorem C270_camber_counterexample : ∃ w : Box, w.camberRear 1 ≠ nacaCamber w.m w.p 0.6 :=
  ⟨⟨0.1, 1, 1, 10, 0.02, 0.8⟩, by rw [nacaCamber, if_pos (by norm_num), Box.camberRear]; norm_num⟩

example : (0.1 : ℝ) < (⟨0.1, 2, 1, 10, 0.02, 0.4⟩ : Box).p ∧ (⟨0.1, 2, 1, 10, 0.02, 0.4⟩ : Box).p < 0.6 := by norm_num

/-! ### C271 -/

/-- **C271.** The chord at a station tapers linearly from the root at the centre line to the tip at the half span. -/
theorem C271_linear (cr ct b y : ℝ) (hb : 0 < b) : chordAt cr ct b y = lerp 0 (b / 2) cr ct y := by
  have := hb.ne'
  simp only [chordAt, lerp, sub_zero]; field_simp; ring

example : chordAt 4 2 10 0 = 4 ∧ chordAt 4 2 10 5 = 2 := by constructor <;> norm_num [chordAt]

/-- **C271.** On a tapered wing the station of a chord and the chord of a station undo each other. -/
theorem C271_inverse (cr ct b y c : ℝ) (hb : 0 < b) (h : cr ≠ ct) :
    spanAt cr ct b (chordAt cr ct b y) = y ∧ chordAt cr ct b (spanAt cr ct b c) = c := by
  have h' : cr - ct ≠ 0 := sub_ne_zero.2 h
  constructor <;> · simp only [spanAt, chordAt, h', if_false]; field_simp; ring

/-- **C271.** A wing without taper has its chord at every station, and the station returned for it is the root. -/
theorem C271_straight (c b y : ℝ) : chordAt c c b y = c ∧ spanAt c c b c = 0 := by simp [chordAt, spanAt]

example : spanAt 4 2 10 (chordAt 4 2 10 3) = 3 := (C271_inverse 4 2 10 3 0 (by norm_num) (by norm_num)).1

/-! ### C272 -/

/-- **C272.** The horizontal tail returned has the requested volume coefficient: its planform area, the integral of its chord,
times the arm is the coefficient times the wing's area and mean aerodynamic chord. Aspect ratio and taper are kept. -/
theorem C272_horizontal (tail : TrapIn) (mac sref arm c : ℝ) (hm : 0 < mac) (hs : 0 < sref) (ha : 0 < arm) (hc : 0 < c)
    (har : 0 < tail.ar) (ht : 0 ≤ tail.taper) :
    let o := (horizontalTail tail mac sref arm c).2
    (2 * ∫ y in (0 : ℝ)..o.span / 2, lerp 0 (o.span / 2) o.root o.tip y) * arm / (sref * mac) = c ∧
    o.span ^ 2 = tail.ar * (horizontalTail tail mac sref arm c).1.sref ∧ o.tip = tail.taper * o.root := by
  intro o
  have hsr : 0 < (horizontalTail tail mac sref arm c).1.sref := by simp only [horizontalTail]; positivity
  obtain ⟨_, h2, _, _, h5, _⟩ := C37_trapezoid_partial (horizontalTail tail mac sref arm c).1 hsr har ht
  refine ⟨?_, ?_, rfl⟩
  · have : (2 * ∫ y in (0 : ℝ)..o.span / 2, lerp 0 (o.span / 2) o.root o.tip y) = mac * c * sref / arm := h5.symm
    rw [this]; field_simp
  · have h3 : o.span ^ 2 / (horizontalTail tail mac sref arm c).1.sref = tail.ar := h2
    rw [div_eq_iff hsr.ne'] at h3; exact h3

/-- **C272.** The same for the vertical tail with the wing's span in place of its chord. -/
theorem C272_vertical (tail : TrapIn) (span sref arm c : ℝ) (hm : 0 < span) (hs : 0 < sref) (ha : 0 < arm) (hc : 0 < c)
    (har : 0 < tail.ar) (ht : 0 ≤ tail.taper) :
    let o := (verticalTail tail span sref arm c).2
    (2 * ∫ y in (0 : ℝ)..o.span / 2, lerp 0 (o.span / 2) o.root o.tip y) * arm / (sref * span) = c ∧
    o.span ^ 2 = tail.ar * (verticalTail tail span sref arm c).1.sref ∧ o.tip = tail.taper * o.root := by
  intro o
  have hsr : 0 < (verticalTail tail span sref arm c).1.sref := by simp only [verticalTail]; positivity
  obtain ⟨_, h2, _, _, h5, _⟩ := C37_trapezoid_partial (verticalTail tail span sref arm c).1 hsr har ht
  refine ⟨?_, ?_, rfl⟩
  · have : (2 * ∫ y in (0 : ℝ)..o.span / 2, lerp 0 (o.span / 2) o.root o.tip y) = span * c * sref / arm := h5.symm
    rw [this]; field_simp
  · have h3 : o.span ^ 2 / (verticalTail tail span sref arm c).1.sref = tail.ar := h2
    rw [div_eq_iff hsr.ne'] at h3; exact h3

/-- A tail: aspect ratio 4, taper a half. -/
noncomputable def tailSample : TrapIn := ⟨0, 4, 1 / 2, 0, 1 / 10, 0, false, true⟩

example : (horizontalTail tailSample 4 100 20 1).1.sref = 20 := by norm_num [horizontalTail]

example : let o := (verticalTail tailSample 30 100 20 0.1).2
    (2 * ∫ y in (0 : ℝ)..o.span / 2, lerp 0 (o.span / 2) o.root o.tip y) * 20 / (100 * 30) = 0.1 :=
  (C272_vertical tailSample 30 100 20 0.1 (by norm_num) (by norm_num) (by norm_num) (by norm_num)
    (by norm_num [tailSample]) (by norm_num [tailSample])).1

/-! ### C273 -/

/-- **C273.** The fuel volume is 0.495 times thickness ratio, area and the mean geometric chord of the wing planform. -/
theorem C273_mean_chord (w : TrapIn) (hs : 0 < w.sref) (ha : 0 < w.ar) (ht : 0 ≤ w.taper) :
    fuelVolume w.sref w.ar w.tc = 0.495 * w.tc * w.sref * (wingPlanform w).mgc := by
  obtain ⟨h1, h2, _, _, _, _, h7, _⟩ := C37_trapezoid_partial w hs ha ht
  rw [h7]
  have hsp : (wingPlanform w).span = sqrt w.ar * sqrt w.sref := Real.sqrt_mul ha.le _
  have e1 : w.sref ^ (1.5 : ℝ) = w.sref * sqrt w.sref := by
    rw [show (1.5 : ℝ) = 1 + 1 / 2 by norm_num, Real.rpow_add hs, Real.rpow_one, Real.sqrt_eq_rpow]
  have e2 : w.ar ^ (-0.5 : ℝ) = (sqrt w.ar)⁻¹ := by
    rw [show (-0.5 : ℝ) = -(1 / 2) by norm_num, Real.rpow_neg ha.le, Real.sqrt_eq_rpow]
  have p1 := Real.sqrt_pos.2 hs
  have p2 := Real.sqrt_pos.2 ha
  have q1 := Real.sq_sqrt hs.le
  rw [fuelVolume, e1, e2, hsp]
  generalize sqrt w.sref = s at *
  generalize sqrt w.ar = r at *
  rw [← q1]; field_simp; norm_num; ring

/-- **C273.** Enlarging a wing without changing its shape multiplies the volume by the cube of the scale. -/
theorem C273_cube (sref ar tc k : ℝ) (hs : 0 < sref) (hk : 0 < k) : fuelVolume (k ^ 2 * sref) ar tc = k ^ 3 * fuelVolume sref ar tc := by
  have : (k ^ 2 * sref) ^ (1.5 : ℝ) = k ^ 3 * sref ^ (1.5 : ℝ) := by
    rw [Real.mul_rpow (by positivity) hs.le, ← Real.rpow_natCast k 2, ← Real.rpow_mul hk.le, ← Real.rpow_natCast k 3]
    norm_num
  rw [fuelVolume, fuelVolume, this]; ring

/-- **C273.** It fits: it is less than half of the slab of the wing's area, mean chord and thickness. -/
theorem C273_fits (w : TrapIn) (hs : 0 < w.sref) (ha : 0 < w.ar) (ht : 0 ≤ w.taper) (hc : 0 < w.tc) :
    0 < fuelVolume w.sref w.ar w.tc ∧ fuelVolume w.sref w.ar w.tc < w.sref * (w.tc * (wingPlanform w).mgc) / 2 := by
  obtain ⟨h1, _, _, _, _, _, h7, _⟩ := C37_trapezoid_partial w hs ha ht
  rw [C273_mean_chord w hs ha ht]
  have : 0 < (wingPlanform w).mgc := by rw [h7]; positivity
  have : 0 < w.tc * w.sref * (wingPlanform w).mgc := by positivity
  constructor <;> nlinarith

example : fuelVolume 100 4 0.1 = 0.495 * 0.1 * 100 * (wingPlanform ⟨100, 4, 1 / 2, 0, 0.1, 0, false, true⟩).mgc :=
  C273_mean_chord ⟨100, 4, 1 / 2, 0, 0.1, 0, false, true⟩ (by norm_num) (by norm_num) (by norm_num)

/-! ### C274 -/

/-- **C274.** More thrust gives a wider and longer nacelle with more wetted area. -/
theorem C274_monotone (lbf s t : ℝ) (hl : 0 < lbf) (h0 : 0 ≤ s) (h : s < t) :
    (turbofanGeometry lbf s).diameter < (turbofanGeometry lbf t).diameter ∧
    (turbofanGeometry lbf s).length < (turbofanGeometry lbf t).length ∧
    (turbofanGeometry lbf s).wetted < (turbofanGeometry lbf t).wetted := by
  have h1 : s / lbf < t / lbf := by gcongr
  have h2 : 0 ≤ s / lbf := by positivity
  have a := Real.rpow_lt_rpow h2 h1 (show (0 : ℝ) < 0.4134 by norm_num)
  have b := Real.rpow_lt_rpow h2 h1 (show (0 : ℝ) < 0.3876 by norm_num)
  have a0 := Real.rpow_nonneg h2 (0.4134 : ℝ)
  have b0 := Real.rpow_nonneg h2 (0.3876 : ℝ)
  have hpi := Real.pi_pos
  simp only [turbofanGeometry]
  refine ⟨by gcongr, by gcongr, ?_⟩
  have hd : 0.0254 * (1.0827 * (s / lbf) ^ (0.4134 : ℝ)) < 0.0254 * (1.0827 * (t / lbf) ^ (0.4134 : ℝ)) := by gcongr
  have hlen : 2.4077 * (s / lbf) ^ (0.3876 : ℝ) * 0.0254 < 2.4077 * (t / lbf) ^ (0.3876 : ℝ) * 0.0254 := by gcongr
  have := mul_lt_mul'' hd hlen (by positivity) (by positivity)
  have hpp : 0 < 1.1 * π := by positivity
  nlinarith [mul_lt_mul_of_pos_left this hpp]

/-- **C274.** The inlet takes 1/2.1 of the frontal area of the nacelle; the wetted area is a tenth more than that of a
cylinder of its diameter and length. -/
theorem C274_areas (lbf t : ℝ) :
    π * ((turbofanGeometry lbf t).inlet / 2) ^ 2 = π * ((turbofanGeometry lbf t).diameter / 2) ^ 2 / 2.1 ∧
    (turbofanGeometry lbf t).wetted = 1.1 * (π * (turbofanGeometry lbf t).diameter * (turbofanGeometry lbf t).length) := by
  constructor
  · simp only [turbofanGeometry]
    generalize 0.0254 * (1.0827 * (t / lbf) ^ (0.4134 : ℝ)) = d
    have : (d / sqrt 2.1 / 2) ^ 2 = d ^ 2 / (sqrt 2.1) ^ 2 / 4 := by ring
    rw [this, Real.sq_sqrt (by norm_num)]; ring
  · simp only [turbofanGeometry]; ring

/-- **C274, size.** In inches the nacelle is `1.0827 F^0.4134` wide and `2.4077 F^0.3876` long for a thrust of `F` pounds:
multiplying the thrust by `k` multiplies the two by these powers of `k`. -/
theorem C274_power (lbf t k : ℝ) (hl : 0 < lbf) (ht : 0 ≤ t) (hk : 0 ≤ k) :
    (turbofanGeometry lbf lbf).diameter / 0.0254 = 1.0827 ∧ (turbofanGeometry lbf lbf).length / 0.0254 = 2.4077 ∧
    (turbofanGeometry lbf (k * t)).diameter = k ^ (0.4134 : ℝ) * (turbofanGeometry lbf t).diameter ∧
    (turbofanGeometry lbf (k * t)).length = k ^ (0.3876 : ℝ) * (turbofanGeometry lbf t).length := by
  have h : k * t / lbf = k * (t / lbf) := by ring
  simp only [turbofanGeometry, div_self hl.ne', Real.one_rpow, h]
  rw [Real.mul_rpow hk (by positivity), Real.mul_rpow hk (by positivity)]
  refine ⟨by norm_num, by norm_num, by ring, by ring⟩

example : (turbofanGeometry 4 0).diameter < (turbofanGeometry 4 8).diameter := (C274_monotone 4 0 8 (by norm_num) le_rfl (by norm_num)).1

end Verif.Geometry
