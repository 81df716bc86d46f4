import Verif.Geometry.Planform
import Mathlib.Analysis.SpecialFunctions.Integrals.Basic
/-
C37: trapezoidal wings.  C38: segmented wings.  C75: the two descriptions agree.
C76: segment properties add up.
-/

namespace Verif.Geometry

open MeasureTheory intervalIntegral

/-! ### Specification: integrals of a linear chord -/

/-- Straight taper from `c0` at `y0` to `c1` at `y1`. -/
noncomputable def lerp (y0 y1 c0 c1 y : ℝ) : ℝ := c0 + (c1 - c0) * ((y - y0) / (y1 - y0))

theorem int_poly (a b c0 c1 c2 : ℝ) : ∫ y in a..b, (c0 + c1 * y + c2 * y ^ 2)
    = c0 * (b - a) + c1 * (b ^ 2 - a ^ 2) / 2 + c2 * (b ^ 3 - a ^ 3) / 3 := by
  have h : ∀ y ∈ Set.uIcc a b, HasDerivAt (fun y : ℝ => c0 * y + c1 * y ^ 2 / 2 + c2 * y ^ 3 / 3) (c0 + c1 * y + c2 * y ^ 2) y := by
    intro y _
    have h1 := (hasDerivAt_id y).const_mul c0
    have h2 := ((hasDerivAt_pow 2 y).const_mul c1).div_const 2
    have h3 := ((hasDerivAt_pow 3 y).const_mul c2).div_const 3
    exact ((h1.add h2).add h3).congr_deriv (by simp; ring)
  rw [integral_eq_sub_of_hasDerivAt h (Continuous.intervalIntegrable (by fun_prop) _ _)]
  ring

theorem int_lerp (y0 y1 c0 c1 : ℝ) (h : y0 ≠ y1) : ∫ y in y0..y1, lerp y0 y1 c0 c1 y = (y1 - y0) * (c0 + c1) / 2 := by
  have h' : y1 - y0 ≠ 0 := sub_ne_zero.2 (Ne.symm h)
  have e : ∀ y, lerp y0 y1 c0 c1 y = (c0 - (c1 - c0) * y0 / (y1 - y0)) + (c1 - c0) / (y1 - y0) * y + 0 * y ^ 2 := fun y => by
    simp only [lerp]; field_simp; ring
  simp only [e]
  rw [int_poly]; field_simp; ring

theorem int_lerp_sq (y0 y1 c0 c1 : ℝ) (h : y0 ≠ y1) :
    ∫ y in y0..y1, lerp y0 y1 c0 c1 y ^ 2 = (y1 - y0) * (c0 ^ 2 + c0 * c1 + c1 ^ 2) / 3 := by
  have h' : y1 - y0 ≠ 0 := sub_ne_zero.2 (Ne.symm h)
  set k := (c1 - c0) / (y1 - y0) with hk
  set d := c0 - k * y0 with hd
  have e : ∀ y, lerp y0 y1 c0 c1 y ^ 2 = d ^ 2 + 2 * d * k * y + k ^ 2 * y ^ 2 := fun y => by
    simp only [lerp, hd, hk]; field_simp; ring
  simp only [e]
  rw [int_poly, hd, hk]; field_simp; ring

theorem int_y_lerp (y0 y1 c0 c1 : ℝ) (h : y0 ≠ y1) :
    ∫ y in y0..y1, y * lerp y0 y1 c0 c1 y = (y1 - y0) * (y0 * (2 * c0 + c1) + y1 * (c0 + 2 * c1)) / 6 := by
  have h' : y1 - y0 ≠ 0 := sub_ne_zero.2 (Ne.symm h)
  have e : ∀ y, y * lerp y0 y1 c0 c1 y = 0 + (c0 - (c1 - c0) * y0 / (y1 - y0)) * y + (c1 - c0) / (y1 - y0) * y ^ 2 := fun y => by
    simp only [lerp]; field_simp; ring
  simp only [e]
  rw [int_poly]; field_simp; ring

/-! ### C37 -/

/-- **C37.** The chord `c` of the wing returned by `wing_planform` tapers linearly from root to tip
over the half span; the reference area is twice its integral, span squared over area is the aspect
ratio, tip over root the taper, the mean aerodynamic chord the integral of the squared chord over
the half area; the quarter-chord line of the returned leading edge has the requested sweep.
For the position of the aerodynamic centre see `C37_location_partial`. -/
theorem C37_trapezoid_partial (w : TrapIn) (hs : 0 < w.sref) (ha : 0 < w.ar) (ht : 0 ≤ w.taper) :
    let o := wingPlanform w
    let c := lerp 0 (o.span / 2) o.root o.tip
    0 < o.span ∧ o.span ^ 2 / w.sref = w.ar ∧ 0 < o.root ∧ o.tip / o.root = w.taper ∧
    w.sref = 2 * ∫ y in (0 : ℝ)..o.span / 2, c y ∧
    o.mac = (∫ y in (0 : ℝ)..o.span / 2, c y ^ 2) / (w.sref / 2) ∧
    o.mgc = w.sref / o.span ∧
    Real.tan o.leSweep * (o.span / 2) + o.tip / 4 - o.root / 4 = Real.tan w.sweep * (o.span / 2) ∧
    o.length = Real.tan o.leSweep * (o.span / 2) + o.tip := by
  intro o c
  have hsp2 : o.span ^ 2 = w.ar * w.sref := Real.sq_sqrt (by positivity)
  have hsp : 0 < o.span := Real.sqrt_pos.2 (by positivity)
  have hroot : o.root = 2 * w.sref / o.span / (1 + w.taper) := rfl
  have htip : o.tip = w.taper * o.root := rfl
  have h1t : 0 < 1 + w.taper := by linarith
  have hrpos : 0 < o.root := by rw [hroot]; positivity
  have hne : (0 : ℝ) ≠ o.span / 2 := by positivity
  have hI : ∫ y in (0 : ℝ)..o.span / 2, c y = w.sref / 2 := by
    simp only [c]
    rw [int_lerp _ _ _ _ hne, htip, hroot]
    field_simp; ring
  have hsum : o.root + o.tip ≠ 0 := by
    rw [htip]; have : 0 ≤ w.taper * o.root := by positivity
    linarith
  refine ⟨hsp, by rw [hsp2]; field_simp, hrpos, by rw [htip]; field_simp, by rw [hI]; ring, ?_, ?_, ?_, ?_⟩
  · have hm : o.mac = 2 / 3 * (o.root + o.tip - o.root * o.tip / (o.root + o.tip)) := rfl
    have harea : w.sref / 2 = o.span / 2 * (o.root + o.tip) / 2 := by
      rw [← hI]; simp only [c]; rw [int_lerp _ _ _ _ hne]; ring
    simp only [c]
    rw [int_lerp_sq _ _ _ _ hne, hm, harea]
    field_simp; ring
  · have hm : o.mgc = (o.root + o.tip) / 2 := rfl
    rw [hm, htip, hroot]; field_simp
  · have hle : Real.tan o.leSweep = Real.tan w.sweep - (4 / w.ar) * (0 - 1 / 4) * (1 - w.taper) / (1 + w.taper) :=
      Real.tan_arctan _
    have har : w.ar = o.span ^ 2 / w.sref := by rw [hsp2]; field_simp
    rw [hle, htip, hroot, har]
    field_simp; ring
  · have : o.length = Real.tan o.leSweep * o.span / 2 + o.tip := rfl
    rw [this]; ring

/-- **C37, location, symmetric wings.** The aerodynamic centre is the chord-weighted mean of the
quarter-chord line over the half span (height from the dihedral, laterally in the middle).
Missing: one-sided wings, for which it is false (`C37_location_counterexample`). -/
theorem C37_location_partial (w : TrapIn) (hs : 0 < w.sref) (ha : 0 < w.ar) (ht : 0 ≤ w.taper)
    (hsym : w.symmetric = true) (hver : w.vertical = false) :
    let o := wingPlanform w
    let c := lerp 0 (o.span / 2) o.root o.tip
    o.ac.1 = (∫ y in (0 : ℝ)..o.span / 2, (Real.tan o.leSweep * y + c y / 4) * c y) / (w.sref / 2) ∧
    o.ac.2.1 = 0 ∧
    o.ac.2.2 = (∫ y in (0 : ℝ)..o.span / 2, Real.tan w.dihedral * y * c y) / (w.sref / 2) := by
  intro o c
  have hsp : 0 < o.span := Real.sqrt_pos.2 (by positivity)
  have hroot : o.root = 2 * w.sref / o.span / (1 + w.taper) := rfl
  have htip : o.tip = w.taper * o.root := rfl
  have h1t : 0 < 1 + w.taper := by linarith
  have hrpos : 0 < o.root := by rw [hroot]; positivity
  have hne : (0 : ℝ) ≠ o.span / 2 := by positivity
  have hsum : o.root + o.tip ≠ 0 := by
    rw [htip]; have : 0 ≤ w.taper * o.root := by positivity
    linarith
  have harea : w.sref / 2 = o.span / 2 * (o.root + o.tip) / 2 := by
    rw [htip, hroot]; field_simp
  have hm : o.mac = 2 / 3 * (o.root + o.tip - o.root * o.tip / (o.root + o.tip)) := rfl
  have hy : ∀ k : ℝ, (∫ y in (0 : ℝ)..o.span / 2, k * y * c y) / (w.sref / 2) = k * (o.span / 6 * ((1 + 2 * w.taper) / (1 + w.taper))) := by
    intro k
    have : ∀ y, k * y * c y = k * (y * c y) := fun y => by ring
    simp only [this, intervalIntegral.integral_const_mul]
    simp only [c]
    rw [int_y_lerp _ _ _ _ hne, harea, htip]
    field_simp; ring
  have h2 : (∫ y in (0 : ℝ)..o.span / 2, c y ^ 2) / (w.sref / 2) = o.mac := by
    simp only [c]
    rw [int_lerp_sq _ _ _ _ hne, hm, harea]
    field_simp; ring
  have hcc : Continuous c := by simp only [c]; unfold lerp; fun_prop
  refine ⟨?_, by simp [o, wingPlanform, hsym], ?_⟩
  · have e : ∀ y, (Real.tan o.leSweep * y + c y / 4) * c y = Real.tan o.leSweep * y * c y + 1 / 4 * c y ^ 2 := fun y => by ring
    simp only [e]
    rw [intervalIntegral.integral_add (Continuous.intervalIntegrable (by fun_prop) _ _) (Continuous.intervalIntegrable (by fun_prop) _ _),
      intervalIntegral.integral_const_mul, add_div, mul_div_assoc, h2, hy]
    have : o.ac.1 = o.mac * (1 / 4) + o.span / 6 * ((1 + 2 * w.taper) / (1 + w.taper)) * Real.tan o.leSweep := rfl
    rw [this]; ring
  · rw [hy]
    simp [o, wingPlanform, hver]; ring

/-- C37 fails for a vertical tail (one-sided, vertical): the height of the aerodynamic centre is
half the chord-weighted mean height, because the formula is that of a half span. -/
theorem C37_location_counterexample (w : TrapIn) (hs : 0 < w.sref) (ha : 0 < w.ar) (ht : 0 ≤ w.taper)
    (hver : w.vertical = true) :
    let o := wingPlanform w
    let c := lerp 0 o.span o.root o.tip
    w.sref = ∫ y in (0 : ℝ)..o.span, c y ∧ 0 < o.ac.2.2 ∧
    (∫ y in (0 : ℝ)..o.span, y * c y) / w.sref = 2 * o.ac.2.2 := by
  intro o c
  have hsp : 0 < o.span := Real.sqrt_pos.2 (by positivity)
  have hroot : o.root = 2 * w.sref / o.span / (1 + w.taper) := rfl
  have htip : o.tip = w.taper * o.root := rfl
  have h1t : 0 < 1 + w.taper := by linarith
  have hrpos : 0 < o.root := by rw [hroot]; positivity
  have harea : w.sref = o.span * (o.root + o.tip) / 2 := by
    rw [htip, hroot]; field_simp
  have hz : o.ac.2.2 = o.span / 6 * ((1 + 2 * w.taper) / (1 + w.taper)) := by simp [o, wingPlanform, hver]
  have hne : (0 : ℝ) ≠ o.span := hsp.ne
  refine ⟨?_, ?_, ?_⟩
  · simp only [c]; rw [int_lerp _ _ _ _ hne, sub_zero]; exact harea
  · rw [hz]; positivity
  · simp only [c]
    rw [int_y_lerp _ _ _ _ hne, hz]
    have hsum : o.root + w.taper * o.root ≠ 0 := by positivity
    rw [show w.sref = o.span * (o.root + w.taper * o.root) / 2 by rw [← htip]; exact harea, htip]
    field_simp; ring

/-- Flap area and flapped wing area are the integrals of the flap chord and the wing chord over the
flap's span on both sides. -/
theorem C37_flap (root tip span s e frac : ℝ) (hs : 0 < span) :
    let c := lerp 0 (span / 2) root tip
    (flapArea root tip span s e frac).1 = 2 * ∫ y in s * (span / 2)..e * (span / 2), frac * c y ∧
    (flapArea root tip span s e frac).2 = 2 * ∫ y in s * (span / 2)..e * (span / 2), c y := by
  intro c
  have e1 : ∀ k y, k * c y = k * root + k * ((tip - root) / (span / 2)) * y + 0 * y ^ 2 := fun k y => by
    simp only [c, lerp, sub_zero]; field_simp; ring
  have e2 : ∀ y, c y = root + ((tip - root) / (span / 2)) * y + 0 * y ^ 2 := fun y => by
    simp only [c, lerp, sub_zero]; field_simp; ring
  constructor
  · simp only [e1]; rw [int_poly]; simp only [flapArea]; field_simp; ring
  · simp only [e2]; rw [int_poly]; simp only [flapArea]; field_simp; ring

/-! ### C38 -/

/-- Panel boundaries along the span. -/
noncomputable def SegIn.y (w : SegIn) (s : Station) : ℝ := s.loc * w.semispan

/-- `f` runs straight between the stations. -/
def SegIn.Straight (w : SegIn) (f : ℝ → ℝ) : Prop :=
  ∀ p ∈ panels w.stations, ∀ y ∈ Set.Icc (w.y p.1) (w.y p.2), f y = lerp (w.y p.1) (w.y p.2) (f (w.y p.1)) (f (w.y p.2)) y

/-- The chord distribution of the wing. -/
def SegIn.IsChord (w : SegIn) (c : ℝ → ℝ) : Prop :=
  w.Straight c ∧ ∀ s ∈ w.stations, c (w.y s) = w.rc * s.chord

/-- A line along the wing with given slope on each panel. -/
def SegIn.HasSlope (w : SegIn) (f : ℝ → ℝ) (slope : Station → ℝ) : Prop :=
  w.Straight f ∧ ∀ p ∈ panels w.stations, f (w.y p.2) - f (w.y p.1) = slope p.1 * (w.y p.2 - w.y p.1)

/-- At least two stations, span fractions increasing, positive chords. -/
structure SegIn.Ok (w : SegIn) (a z : Station) : Prop where
  span : 0 < w.span
  rc : 0 < w.rc
  first : w.stations.head? = some a
  last : w.stations.getLast? = some z
  two : 2 ≤ w.stations.length
  inc : ∀ p ∈ panels w.stations, p.1.loc < p.2.loc
  chord : ∀ s ∈ w.stations, 0 < s.chord

theorem int_lerp_mul (y0 y1 a0 a1 c0 c1 : ℝ) (h : y0 ≠ y1) :
    ∫ y in y0..y1, lerp y0 y1 a0 a1 y * lerp y0 y1 c0 c1 y
      = (y1 - y0) * (2 * a0 * c0 + a0 * c1 + a1 * c0 + 2 * a1 * c1) / 6 := by
  have h' : y1 - y0 ≠ 0 := sub_ne_zero.2 (Ne.symm h)
  set k := (c1 - c0) / (y1 - y0) with hk
  set d := c0 - k * y0 with hd
  set k' := (a1 - a0) / (y1 - y0) with hk'
  set d' := a0 - k' * y0 with hd'
  have e : ∀ y, lerp y0 y1 a0 a1 y * lerp y0 y1 c0 c1 y = d * d' + (d * k' + d' * k) * y + k * k' * y ^ 2 := fun y => by
    simp only [lerp, hd, hk, hd', hk']; field_simp; ring
  simp only [e]
  rw [int_poly, hd, hk, hd', hk']; field_simp; ring

theorem lerp_left (y0 y1 c0 c1 : ℝ) : lerp y0 y1 c0 c1 y0 = c0 := by simp [lerp]

theorem lerp_continuous (y0 y1 c0 c1 : ℝ) : Continuous (lerp y0 y1 c0 c1) := by unfold lerp; fun_prop

theorem panels_mem {l : List Station} {p : Station × Station} (h : p ∈ panels l) : p.1 ∈ l ∧ p.2 ∈ l := by
  induction l with
  | nil => simp [panels] at h
  | cons a l ih =>
    cases l with
    | nil => simp [panels] at h
    | cons b l =>
      simp only [panels, List.mem_cons] at h
      rcases h with rfl | h
      · simp
      · have := ih h
        simp only [List.mem_cons] at this ⊢
        tauto

theorem int_panels (f : ℝ → ℝ) (S : ℝ) : ∀ (a : Station) (l : List Station) (z : Station), (a :: l).getLast? = some z →
    (∀ p ∈ panels (a :: l), IntervalIntegrable f volume (p.1.loc * S) (p.2.loc * S)) →
    IntervalIntegrable f volume (a.loc * S) (z.loc * S) ∧
    ∫ y in a.loc * S..z.loc * S, f y = ((panels (a :: l)).map fun p => ∫ y in p.1.loc * S..p.2.loc * S, f y).sum
  | a, [], z, hz, _ => by
    simp only [List.getLast?_singleton, Option.some.injEq] at hz
    subst hz
    simp [panels]
  | a, b :: l, z, hz, h => by
    have hz' : (b :: l).getLast? = some z := by rwa [List.getLast?_cons_cons] at hz
    obtain ⟨h1, h2⟩ := int_panels f S b l z hz' fun p hp => h p (by simp [panels, hp])
    have h3 := h (a, b) (by simp [panels])
    refine ⟨h3.trans h1, ?_⟩
    rw [← integral_add_adjacent_intervals h3 h1, h2]
    simp [panels]

/-- Integrals of products of straight lines, panel by panel. -/
theorem int_straight (w : SegIn) {a z : Station} (hw : w.Ok a z) (f g : ℝ → ℝ) (hf : w.Straight f) (hg : w.Straight g) :
    ∫ y in w.y a..w.y z, f y * g y = ((panels w.stations).map fun p => (w.y p.2 - w.y p.1) *
      (2 * f (w.y p.1) * g (w.y p.1) + f (w.y p.1) * g (w.y p.2) + f (w.y p.2) * g (w.y p.1) + 2 * f (w.y p.2) * g (w.y p.2)) / 6).sum := by
  obtain ⟨l, hl⟩ : ∃ l, w.stations = a :: l := by
    have := hw.first
    cases h : w.stations with
    | nil => rw [h] at this; cases this
    | cons x l => rw [h] at this; cases this; exact ⟨l, rfl⟩
  have hS : 0 < w.semispan := by
    unfold SegIn.semispan SegIn.sides
    have := hw.span
    split_ifs <;> positivity
  have hlt : ∀ p ∈ panels w.stations, w.y p.1 < w.y p.2 := fun p hp => mul_lt_mul_of_pos_right (hw.inc p hp) hS
  have hcongr : ∀ p ∈ panels w.stations, ∀ y ∈ Set.uIcc (w.y p.1) (w.y p.2),
      f y * g y = lerp (w.y p.1) (w.y p.2) (f (w.y p.1)) (f (w.y p.2)) y * lerp (w.y p.1) (w.y p.2) (g (w.y p.1)) (g (w.y p.2)) y := by
    intro p hp y hy
    rw [Set.uIcc_of_le (hlt p hp).le] at hy
    rw [← hf p hp y hy, ← hg p hp y hy]
  have hint : ∀ p ∈ panels w.stations, IntervalIntegrable (fun y => f y * g y) volume (w.y p.1) (w.y p.2) := by
    intro p hp
    have h0 : IntervalIntegrable (fun y => lerp (w.y p.1) (w.y p.2) (f (w.y p.1)) (f (w.y p.2)) y *
        lerp (w.y p.1) (w.y p.2) (g (w.y p.1)) (g (w.y p.2)) y) volume (w.y p.1) (w.y p.2) :=
      ((lerp_continuous _ _ _ _).mul (lerp_continuous _ _ _ _)).intervalIntegrable _ _
    refine h0.congr fun y hy => ?_
    exact (hcongr p hp y (Set.uIoc_subset_uIcc hy)).symm
  have hlast : (a :: l).getLast? = some z := by rw [← hl]; exact hw.last
  have := (int_panels (fun y => f y * g y) w.semispan a l z hlast (by rw [← hl]; exact hint)).2
  rw [← hl] at this
  refine this.trans ?_
  congr 1
  refine List.map_congr_left fun p hp => ?_
  have e := integral_congr (μ := volume) (hcongr p hp)
  exact e.trans (int_lerp_mul _ _ _ _ _ _ (hlt p hp).ne)

theorem straight_one (w : SegIn) : w.Straight fun _ => 1 := fun p _ y _ => by simp [lerp]

theorem list_sum_mul (l : List ℝ) (k : ℝ) : l.sum * k = (l.map (· * k)).sum := by
  induction l with
  | nil => simp
  | cons a l ih => simp [add_mul, ih]

theorem list_sum_add {α : Type*} (l : List α) (f g : α → ℝ) : (l.map fun x => f x + g x).sum = (l.map f).sum + (l.map g).sum := by
  induction l with
  | nil => simp
  | cons a l ih => simp [ih]; ring

theorem sides_pos (w : SegIn) : 0 < w.sides := by unfold SegIn.sides; split_ifs <;> norm_num

theorem semispan_pos (w : SegIn) (h : 0 < w.span) : 0 < w.semispan := div_pos h (sides_pos w)

theorem area_eq (w : SegIn) (p : Station × Station) :
    w.area p = (w.y p.2 - w.y p.1) * (w.rc * p.1.chord + w.rc * p.2.chord) / 2 := by
  simp only [SegIn.area, SegIn.y]; ring

/-- **C38, area and mean aerodynamic chord**, for any number of stations. -/
theorem C38_area_mac (w : SegIn) {a z : Station} (hw : w.Ok a z) (c : ℝ → ℝ) (hc : w.IsChord c) :
    let o := segPlanform w
    o.area = w.sides * ∫ y in w.y a..w.y z, c y ∧
    o.ar = w.span ^ 2 / o.area ∧ o.mgc = o.area / w.span ∧
    o.mac = (∫ y in w.y a..w.y z, c y ^ 2) / ∫ y in w.y a..w.y z, c y := by
  intro o
  have h1 := int_straight w hw c (fun _ => 1) hc.1 (straight_one w)
  have h2 := int_straight w hw c c hc.1 hc.1
  simp only [mul_one] at h1
  have ha : ∫ y in w.y a..w.y z, c y = ((panels w.stations).map w.area).sum := by
    rw [h1]; congr 1
    refine List.map_congr_left fun p hp => ?_
    rw [area_eq, hc.2 _ (panels_mem hp).1, hc.2 _ (panels_mem hp).2]; ring
  have hs : ∫ y in w.y a..w.y z, c y ^ 2 = ((panels w.stations).map w.sqChord).sum * w.semispan := by
    simp only [pow_two]
    rw [h2, list_sum_mul, List.map_map]; congr 1
    refine List.map_congr_left fun p hp => ?_
    simp only [Function.comp]
    rw [hc.2 _ (panels_mem hp).1, hc.2 _ (panels_mem hp).2]
    have hne : p.2.loc - p.1.loc ≠ 0 := sub_ne_zero.2 (hw.inc p hp).ne'
    simp only [SegIn.sqChord, SegIn.y]
    split_ifs with hB
    · have : w.rc * p.1.chord = w.rc * p.2.chord := by
        rw [div_eq_zero_iff] at hB
        rcases hB with hB | hB
        · linarith
        · exact absurd (neg_eq_zero.1 hB) hne
      rw [← this]; ring
    · have hB' : w.rc * p.1.chord - w.rc * p.2.chord ≠ 0 := fun h => hB (by rw [h, zero_div])
      set A := w.rc * p.1.chord
      set A' := w.rc * p.2.chord
      set L := p.2.loc - p.1.loc with hL
      have e1 : A + (A - A') / (-L) * L = A' := by field_simp; ring
      rw [e1, sub_self, mul_zero, add_zero]
      have e2 : p.2.loc * w.semispan - p.1.loc * w.semispan = L * w.semispan := by rw [hL]; ring
      rw [e2]
      field_simp
      ring
  refine ⟨?_, rfl, rfl, ?_⟩
  · rw [ha]; simp only [o, segPlanform]; ring
  · rw [hs, ha]
    have hm : o.mac = w.semispan * w.sides / (((panels w.stations).map w.area).sum * w.sides) * ((panels w.stations).map w.sqChord).sum := rfl
    have hk := (sides_pos w).ne'
    rw [hm, mul_div_mul_right _ _ hk]; ring

/-- The three weighted sums of the centroid loop. -/
theorem centroids_sum (w : SegIn) (hS : 0 < w.semispan) (hrc : 0 < w.rc) (c q ζ : ℝ → ℝ) : ∀ (a : Station) (l : List Station),
    (∀ p ∈ panels (a :: l), p.1.loc < p.2.loc) → (∀ s ∈ a :: l, 0 < s.chord) → (∀ s ∈ a :: l, c (w.y s) = w.rc * s.chord) →
    (∀ p ∈ panels (a :: l), q (w.y p.2) - q (w.y p.1) = Real.tan p.1.sweep * (w.y p.2 - w.y p.1)) →
    (∀ p ∈ panels (a :: l), ζ (w.y p.2) - ζ (w.y p.1) = Real.tan p.1.dihedral * (w.y p.2 - w.y p.1)) →
    let cs := w.centroids (q (w.y a) - c (w.y a) / 4, w.y a, ζ (w.y a)) (panels (a :: l))
    let M (f g : ℝ → ℝ) (p : Station × Station) : ℝ := (w.y p.2 - w.y p.1) *
      (2 * f (w.y p.1) * g (w.y p.1) + f (w.y p.1) * g (w.y p.2) + f (w.y p.2) * g (w.y p.1) + 2 * f (w.y p.2) * g (w.y p.2)) / 6
    (cs.map fun r => r.2.1 * w.area r.1).sum = ((panels (a :: l)).map (M q c)).sum + 1 / 4 * ((panels (a :: l)).map (M c c)).sum ∧
    (cs.map fun r => r.2.2.1 * w.area r.1).sum = ((panels (a :: l)).map (M id c)).sum ∧
    (cs.map fun r => r.2.2.2 * w.area r.1).sum = ((panels (a :: l)).map (M ζ c)).sum
  | a, [], _, _, _, _, _ => by simp [panels, SegIn.centroids]
  | a, b :: l, hinc, hch, hc, hq, hz => by
    have ih := centroids_sum w hS hrc c q ζ b l (fun p hp => hinc p (by simp [panels, hp])) (fun s hs => hch s (by simp [hs]))
      (fun s hs => hc s (List.mem_cons_of_mem _ hs)) (fun p hp => hq p (by simp [panels, hp])) (fun p hp => hz p (by simp [panels, hp]))
    have hmem : (a, b) ∈ panels (a :: b :: l) := by simp [panels]
    have h1 := hinc _ hmem
    have hlt : w.y a < w.y b := mul_lt_mul_of_pos_right h1 hS
    have hca := hc a (by simp)
    have hcb := hc b (by simp)
    have hpa := hch a (by simp)
    have hpb := hch b (by simp)
    have hqab := hq _ hmem
    have hzab := hz _ hmem
    dsimp only at h1 hqab hzab
    have hlen : (b.loc - a.loc) * w.semispan = w.y b - w.y a := by simp only [SegIn.y]; ring
    have hle : Real.tan (w.le (a, b)) * (w.y b - w.y a) = c (w.y a) / 4 + (q (w.y b) - q (w.y a)) - c (w.y b) / 4 := by
      simp only [SegIn.le]
      rw [Real.tan_arctan, hlen, hqab, hca, hcb]
      have : w.y b - w.y a ≠ 0 := sub_ne_zero.2 hlt.ne'
      field_simp
    have hoff : (q (w.y a) - c (w.y a) / 4 + Real.tan (w.le (a, b)) * (w.y b - w.y a), w.y a + (w.y b - w.y a),
        ζ (w.y a) + Real.tan a.dihedral * (w.y b - w.y a)) = (q (w.y b) - c (w.y b) / 4, w.y b, ζ (w.y b)) := by
      rw [hle, ← hzab]; ext <;> dsimp only <;> ring
    have hA : w.area (a, b) = (w.y b - w.y a) * (c (w.y a) + c (w.y b)) / 2 := by rw [area_eq, hca, hcb]
    have hsum : 0 < c (w.y a) + c (w.y b) := by rw [hca, hcb]; positivity
    have htap : b.chord / a.chord = c (w.y b) / c (w.y a) := by rw [hca, hcb]; field_simp
    have hcpos : 0 < c (w.y a) := by rw [hca]; positivity
    intro cs M
    have hcs : cs = ((a, b), centroid (w.le (a, b)) (w.y b - w.y a) (q (w.y a) - c (w.y a) / 4) (w.y a) (ζ (w.y a))
        (c (w.y b) / c (w.y a)) a.dihedral (c (w.y a)) (c (w.y b))) ::
        w.centroids (q (w.y b) - c (w.y b) / 4, w.y b, ζ (w.y b)) (panels (b :: l)) := by
      simp only [cs, panels, SegIn.centroids, hlen]
      rw [hoff, htap, ← hca, ← hcb]
    have hy : c (w.y b) / c (w.y a) + 1 ≠ 0 := by
      have : 0 < c (w.y b) := by rw [hcb]; positivity
      positivity
    rw [hcs]
    simp only [List.map_cons, List.sum_cons, panels]
    rw [ih.1, ih.2.1, ih.2.2]
    refine ⟨?_, ?_, ?_⟩
    · have : ((centroid (w.le (a, b)) (w.y b - w.y a) (q (w.y a) - c (w.y a) / 4) (w.y a) (ζ (w.y a))
        (c (w.y b) / c (w.y a)) a.dihedral (c (w.y a)) (c (w.y b))).1) * w.area (a, b) = M q c (a, b) + 1 / 4 * M c c (a, b) := by
        simp only [centroid, M, hA, hle]
        have h3 : c (w.y b) + c (w.y a) ≠ 0 := by linarith
        field_simp; ring
      rw [this]; simp only [M]; ring
    · have : ((centroid (w.le (a, b)) (w.y b - w.y a) (q (w.y a) - c (w.y a) / 4) (w.y a) (ζ (w.y a))
        (c (w.y b) / c (w.y a)) a.dihedral (c (w.y a)) (c (w.y b))).2.1) * w.area (a, b) = M id c (a, b) := by
        simp only [centroid, M, hA, id]
        have h3 : c (w.y a) + c (w.y b) ≠ 0 := by linarith
        have h4 : 1 + c (w.y b) / c (w.y a) ≠ 0 := by rwa [add_comm] at hy
        have e : (1 + 2 * (c (w.y b) / c (w.y a))) / (1 + c (w.y b) / c (w.y a)) = (c (w.y a) + 2 * c (w.y b)) / (c (w.y a) + c (w.y b)) := by
          field_simp
        rw [e]
        field_simp; ring
      rw [this]
    · have : ((centroid (w.le (a, b)) (w.y b - w.y a) (q (w.y a) - c (w.y a) / 4) (w.y a) (ζ (w.y a))
        (c (w.y b) / c (w.y a)) a.dihedral (c (w.y a)) (c (w.y b))).2.2) * w.area (a, b) = M ζ c (a, b) := by
        have hzb : ζ (w.y b) = ζ (w.y a) + Real.tan a.dihedral * (w.y b - w.y a) := by linarith
        simp only [centroid, M, hA, hzb]
        have h3 : c (w.y a) + c (w.y b) ≠ 0 := by linarith
        have e : (1 + 2 * (c (w.y b) / c (w.y a))) / (1 + c (w.y b) / c (w.y a)) = (c (w.y a) + 2 * c (w.y b)) / (c (w.y a) + c (w.y b)) := by
          field_simp
        rw [e]
        field_simp; ring
      rw [this]

/-- **C38, aerodynamic centre.** For any number of stations starting at the root: its longitudinal
position is the chord-weighted mean of the quarter-chord line `q` (which starts at a quarter of the
root chord and has the sweep of each segment), its lateral and vertical positions the chord-weighted
means of the span coordinate (zero for a symmetric wing) and of the height `ζ` given by the
dihedrals. -/
theorem C38_centre (w : SegIn) {a z : Station} (hw : w.Ok a z) (h0 : a.loc = 0) (c q ζ : ℝ → ℝ) (hc : w.IsChord c)
    (hq : w.HasSlope q fun s => Real.tan s.sweep) (hq0 : q 0 = c 0 / 4)
    (hz : w.HasSlope ζ fun s => Real.tan s.dihedral) (hz0 : ζ 0 = 0) :
    let o := segPlanform w
    let A := ∫ y in w.y a..w.y z, c y
    o.ac.1 = (∫ y in w.y a..w.y z, q y * c y) / A ∧
    (o.ac.2.1 = if w.symmetric then 0 else (∫ y in w.y a..w.y z, y * c y) / A) ∧
    o.ac.2.2 = (∫ y in w.y a..w.y z, ζ y * c y) / A := by
  intro o A
  obtain ⟨l, hl⟩ : ∃ l, w.stations = a :: l := by
    have := hw.first
    cases h : w.stations with
    | nil => rw [h] at this; cases this
    | cons x l => rw [h] at this; cases this; exact ⟨l, rfl⟩
  have hS := semispan_pos w hw.span
  have hya : w.y a = 0 := by simp [SegIn.y, h0]
  have hs := centroids_sum w hS hw.rc c q ζ a l (by rw [← hl]; exact hw.inc) (by rw [← hl]; exact hw.chord)
    (by rw [← hl]; exact hc.2) (by rw [← hl]; exact hq.2) (by rw [← hl]; exact hz.2)
  rw [hya, hq0, hz0, sub_self, ← hl] at hs
  have hid : w.Straight id := by
    intro p hp y _
    have hlt : w.y p.1 < w.y p.2 := mul_lt_mul_of_pos_right (hw.inc p hp) hS
    have : w.y p.2 - w.y p.1 ≠ 0 := sub_ne_zero.2 hlt.ne'
    simp only [lerp, id]; field_simp; ring
  have i1 := int_straight w hw q c hq.1 hc.1
  have i2 := int_straight w hw c c hc.1 hc.1
  have i3 := int_straight w hw id c hid hc.1
  have i4 := int_straight w hw ζ c hz.1 hc.1
  obtain ⟨s1, s2, s3⟩ := hs
  have hm := C38_area_mac w hw c hc
  have hA : o.area / w.sides = A := by
    rw [hm.1]; simp only [A]
    field_simp [(sides_pos w).ne']
  have hmac : o.mac = (∫ y in w.y a..w.y z, c y * c y) / A := by
    rw [hm.2.2.2]; simp only [pow_two, A]
  have e1 : o.ac.1 = ((w.centroids (0, 0, 0) (panels w.stations)).map fun r => r.2.1 * w.area r.1).sum / (o.area / w.sides) - o.mac * (1 / 4) := rfl
  have e3 : o.ac.2.2 = ((w.centroids (0, 0, 0) (panels w.stations)).map fun r => r.2.2.2 * w.area r.1).sum / (o.area / w.sides) := rfl
  have e2 : o.ac.2.1 = if w.symmetric then 0 else
    ((w.centroids (0, 0, 0) (panels w.stations)).map fun r => r.2.2.1 * w.area r.1).sum / (o.area / w.sides) := rfl
  simp only [id] at i3 s2
  refine ⟨?_, ?_, ?_⟩
  · rw [e1, s1, hA, hmac, i1, i2]; ring
  · rw [e2, s2, hA, i3]
  · rw [e3, s3, hA, i4]

/-- A wing with a kink meets the hypotheses. -/
example : SegIn.Ok ⟨10, 2, true, [⟨0, 1, 1 / 10, 0, 0⟩, ⟨1 / 2, 3 / 4, 1 / 10, 0, 0⟩, ⟨1, 1 / 4, 1 / 10, 0, 0⟩]⟩
    ⟨0, 1, 1 / 10, 0, 0⟩ ⟨1, 1 / 4, 1 / 10, 0, 0⟩ where
  span := by norm_num
  rc := by norm_num
  first := rfl
  last := rfl
  two := by decide
  inc := by simp [panels]; norm_num
  chord := by simp

/-! ### C75 -/

/-- The trapezoidal wing `w` described by two stations. -/
noncomputable def twoStations (w : TrapIn) : SegIn :=
  let o := wingPlanform w
  { span := o.span, rc := o.root, symmetric := w.symmetric,
    stations := [⟨0, 1, w.tc, w.sweep, w.dihedral⟩, ⟨1, w.taper, w.tc, w.sweep, w.dihedral⟩] }

/-- **C75**, symmetric wings: both descriptions give the same area, aspect ratio, chords, sweeps,
span, thickness, aerodynamic centre and length.
Missing: the wetted area, which is half as large (`C75_wetted_counterexample`), and one-sided wings
(`C75_thickness_counterexample`). -/
theorem C75_agree_partial (w : TrapIn) (hs : 0 < w.sref) (ha : 0 < w.ar) (ht : 0 ≤ w.taper)
    (hsym : w.symmetric = true) (hver : w.vertical = false) (hsw : w.sweep ∈ Set.Ioo (-(Real.pi / 2)) (Real.pi / 2)) :
    let o := wingPlanform w
    let p := segPlanform (twoStations w)
    p.area = w.sref ∧ p.ar = w.ar ∧ p.mac = o.mac ∧ p.mgc = o.mgc ∧ p.tip = o.tip ∧ p.taper = w.taper ∧ p.tc = w.tc ∧
    p.sweep = w.sweep ∧ p.leSweep = o.leSweep ∧ p.spanTotal = o.spanTotal ∧ p.length = o.length ∧ p.ac = o.ac := by
  intro o p
  have hsp : 0 < o.span := Real.sqrt_pos.2 (by positivity)
  have hsp2 : o.span ^ 2 = w.ar * w.sref := Real.sq_sqrt (by positivity)
  have hroot : o.root = 2 * w.sref / o.span / (1 + w.taper) := rfl
  have htip : o.tip = w.taper * o.root := rfl
  have h1t : 0 < 1 + w.taper := by linarith
  have hrpos : 0 < o.root := by rw [hroot]; positivity
  have hss : (twoStations w).sides = 2 := by simp [SegIn.sides, twoStations, hsym]
  have hsemi : (twoStations w).semispan = o.span / 2 := by rw [SegIn.semispan, hss]; rfl
  set st0 : Station := ⟨0, 1, w.tc, w.sweep, w.dihedral⟩ with hst0
  set st1 : Station := ⟨1, w.taper, w.tc, w.sweep, w.dihedral⟩ with hst1
  have hps : panels (twoStations w).stations = [(st0, st1)] := rfl
  have hrc : (twoStations w).rc = o.root := rfl
  have harea1 : (twoStations w).area (st0, st1) = w.sref / 2 := by
    simp only [SegIn.area, hsemi, hrc, hst0, hst1]
    rw [hroot]; field_simp; ring
  have hA : p.area = w.sref := by
    have : p.area = ([(st0, st1)].map (twoStations w).area).sum * (twoStations w).sides := rfl
    rw [this, hss]; simp [harea1]
  have hsq : (twoStations w).sqChord (st0, st1) = o.root ^ 2 * (1 + w.taper + w.taper ^ 2) / 3 := by
    simp only [SegIn.sqChord, hrc, hst0, hst1]
    split_ifs with hB
    · have : w.taper = 1 := by
        have h : o.root * 1 - o.root * w.taper = 0 := by
          rw [div_eq_zero_iff] at hB
          rcases hB with hB | hB
          · exact hB
          · norm_num at hB
        have : o.root * (1 - w.taper) = 0 := by linarith
        rcases mul_eq_zero.1 this with h | h <;> linarith
      rw [this]; ring
    · have hB' : o.root * 1 - o.root * w.taper ≠ 0 := fun h => hB (by rw [h, zero_div])
      have h1 : (1 : ℝ) - w.taper ≠ 0 := fun h => hB' (by rw [← mul_sub, h, mul_zero])
      field_simp
      ring
  have hmac : p.mac = o.mac := by
    have e : p.mac = (twoStations w).semispan * (twoStations w).sides / p.area * ([(st0, st1)].map (twoStations w).sqChord).sum := rfl
    have hm : o.mac = 2 / 3 * (o.root + o.tip - o.root * o.tip / (o.root + o.tip)) := rfl
    have hS : w.sref = o.span * (o.root * (1 + w.taper)) / 2 := by rw [hroot]; field_simp
    rw [e, hA, hsemi, hss, hm, htip, hS]
    simp only [List.map_cons, List.map_nil, List.sum_cons, List.sum_nil, add_zero, hsq]
    have : o.root + w.taper * o.root = o.root * (1 + w.taper) := by ring
    rw [this]
    field_simp; ring
  have hle1 : Real.tan ((twoStations w).le (st0, st1)) = Real.tan o.leSweep := by
    have hle : Real.tan o.leSweep = Real.tan w.sweep - (4 / w.ar) * (0 - 1 / 4) * (1 - w.taper) / (1 + w.taper) := Real.tan_arctan _
    have har : w.ar = o.span ^ 2 / w.sref := by rw [hsp2]; field_simp
    rw [hle]
    simp only [SegIn.le]
    rw [Real.tan_arctan, hsemi, hrc, hst0, hst1]
    dsimp only
    rw [har, hroot]
    field_simp; ring
  have hleS : p.leSweep = o.leSweep := by
    have e : p.leSweep = Real.arctan ([(st0, st1)].map fun p => (p.2.loc - p.1.loc) * Real.tan ((twoStations w).le p)).sum := rfl
    rw [e]
    simp only [List.map_cons, List.map_nil, List.sum_cons, List.sum_nil, add_zero, hle1]
    rw [hst0, hst1]
    have : Real.arctan ((1 - 0) * Real.tan o.leSweep) = Real.arctan (Real.tan o.leSweep) := by norm_num
    rw [this]
    exact Real.arctan_tan (Real.neg_pi_div_two_lt_arctan _) (Real.arctan_lt_pi_div_two _)
  have hmean : ∀ x : ℝ, x * (twoStations w).area (st0, st1) / (p.area / (twoStations w).sides) = x := by
    intro x; rw [harea1, hA, hss]; field_simp
  have hcen : (twoStations w).centroids (0, 0, 0) [(st0, st1)] = [((st0, st1), centroid ((twoStations w).le (st0, st1)) (o.span / 2) 0 0 0
      (w.taper) w.dihedral o.root o.tip)] := by
    simp only [SegIn.centroids, hsemi, hrc, hst0, hst1, htip]
    norm_num [mul_comm]
  refine ⟨hA, ?_, hmac, ?_, ?_, ?_, ?_, ?_, hleS, ?_, ?_, ?_⟩
  · have e : p.ar = o.span ^ 2 / p.area := rfl
    rw [e, hA, hsp2]; field_simp
  · have e : p.mgc = p.area / o.span := rfl
    have hm : o.mgc = (o.root + o.tip) / 2 := rfl
    rw [e, hA, hm, htip, hroot]; field_simp
  · have e : p.tip = o.root * w.taper := rfl
    rw [e, htip]; ring
  · have e : p.taper = w.taper / 1 := rfl
    rw [e]; ring
  · have e : p.tc = ([(st0, st1)].map fun p => (twoStations w).area p * p.1.tc).sum / (p.area / 2) := rfl
    rw [e, hA]
    simp only [List.map_cons, List.map_nil, List.sum_cons, List.sum_nil, add_zero, harea1]
    rw [hst0]; field_simp
  · have e : p.sweep = Real.arctan ([(st0, st1)].map fun p => (p.2.loc - p.1.loc) * Real.tan p.1.sweep).sum := rfl
    rw [e, hst0, hst1]
    simp only [List.map_cons, List.map_nil, List.sum_cons, List.sum_nil, add_zero, sub_zero, one_mul]
    exact Real.arctan_tan hsw.1 hsw.2
  · have e : p.spanTotal = ([(st0, st1)].map fun p => (p.2.loc - p.1.loc) * (twoStations w).semispan / Real.cos p.1.dihedral).sum * (twoStations w).sides := rfl
    have e2 : o.spanTotal = o.span / Real.cos w.dihedral := rfl
    rw [e, e2, hss, hsemi, hst0, hst1]
    simp only [List.map_cons, List.map_nil, List.sum_cons, List.sum_nil, add_zero, sub_zero, one_mul]
    ring
  · have e : p.length = Real.tan p.leSweep * (twoStations w).semispan + w.taper * o.root := rfl
    have e2 : o.length = Real.tan o.leSweep * o.span / 2 + o.tip := rfl
    rw [e, e2, hleS, hsemi, htip]; ring
  · have hx : p.ac.1 = (((twoStations w).centroids (0, 0, 0) [(st0, st1)]).map fun r => r.2.1 * (twoStations w).area r.1).sum /
        (p.area / (twoStations w).sides) - p.mac * (1 / 4) := rfl
    have hz : p.ac.2.2 = (((twoStations w).centroids (0, 0, 0) [(st0, st1)]).map fun r => r.2.2.2 * (twoStations w).area r.1).sum /
        (p.area / (twoStations w).sides) := rfl
    have hm : o.mac = 2 / 3 * (o.root + o.tip - o.root * o.tip / (o.root + o.tip)) := rfl
    have hsum : o.root + w.taper * o.root ≠ 0 := by positivity
    ext
    · rw [hx, hcen, hmac]
      simp only [List.map_cons, List.map_nil, List.sum_cons, List.sum_nil, add_zero, hmean, centroid, hle1]
      have e2 : o.ac.1 = o.mac * (1 / 4) + o.span / 6 * ((1 + 2 * w.taper) / (1 + w.taper)) * Real.tan o.leSweep := rfl
      rw [e2, hm, htip]
      have h2 : w.taper * o.root + o.root ≠ 0 := by rw [add_comm]; exact hsum
      field_simp; ring
    · have e1 : p.ac.2.1 = if w.symmetric then 0 else (((twoStations w).centroids (0, 0, 0) [(st0, st1)]).map fun r => r.2.2.1 * (twoStations w).area r.1).sum /
        (p.area / (twoStations w).sides) := rfl
      rw [e1, hsym]; simp [o, wingPlanform, hsym]
    · rw [hz, hcen]
      simp only [List.map_cons, List.map_nil, List.sum_cons, List.sum_nil, add_zero, hmean, centroid]
      have e2 : o.ac.2.2 = o.span / 6 * ((1 + 2 * w.taper) / (1 + w.taper)) * Real.tan w.dihedral := by
        simp [o, wingPlanform, hver]
      rw [e2]; ring

/-- C75 fails for the wetted area of every symmetric wing: the segmented description counts one
side only. -/
theorem C75_wetted_counterexample (w : TrapIn) (hs : 0 < w.sref) (ha : 0 < w.ar) (ht : 0 ≤ w.taper) (hsym : w.symmetric = true)
    (htc : 0 ≤ w.tc) :
    (segPlanform (twoStations w)).wetted = (wingPlanform w).wetted / 2 ∧ (segPlanform (twoStations w)).wetted ≠ (wingPlanform w).wetted := by
  set o := wingPlanform w with ho
  have hsp : 0 < o.span := Real.sqrt_pos.2 (by positivity)
  have h1t : 0 < 1 + w.taper := by linarith
  have hroot : o.root = 2 * w.sref / o.span / (1 + w.taper) := rfl
  have hrpos : 0 < o.root := by rw [hroot]; positivity
  have hss : (twoStations w).sides = 2 := by simp [SegIn.sides, twoStations, hsym]
  have hsemi : (twoStations w).semispan = o.span / 2 := by rw [SegIn.semispan, hss]; rfl
  have e : (segPlanform (twoStations w)).wetted = 2 * (1 + 1 / 5 * w.tc) * (o.span / 2 * (o.root * (1 + w.taper)) / 2) := by
    have : (segPlanform (twoStations w)).wetted = ([((⟨0, 1, w.tc, w.sweep, w.dihedral⟩ : Station), (⟨1, w.taper, w.tc, w.sweep, w.dihedral⟩ : Station))].map
      fun p => 2 * (1 + 1 / 5 * p.1.tc) * (twoStations w).area p).sum := rfl
    rw [this]
    simp only [List.map_cons, List.map_nil, List.sum_cons, List.sum_nil, add_zero, SegIn.area, hsemi]
    have hrc : (twoStations w).rc = o.root := rfl
    rw [hrc]; ring
  have e2 : o.wetted = 2 * o.span / 2 * (o.root + w.taper * o.root) * (1 + 1 / 5 * w.tc) := rfl
  have hpos : 0 < o.wetted := by rw [e2]; positivity
  have h : (segPlanform (twoStations w)).wetted = o.wetted / 2 := by rw [e, e2]; ring
  exact ⟨h, by rw [h]; linarith⟩

/-- C75 fails for the thickness of every one-sided wing of constant thickness: it is doubled. -/
theorem C75_thickness_counterexample (w : SegIn) (hsym : w.symmetric = false) (tc : ℝ) (htc : ∀ p ∈ panels w.stations, p.1.tc = tc)
    (hA : 0 < (segPlanform w).area) : (segPlanform w).tc = 2 * tc := by
  have hss : w.sides = 1 := by simp [SegIn.sides, hsym]
  have e : (segPlanform w).tc = ((panels w.stations).map fun p => w.area p * p.1.tc).sum / ((segPlanform w).area / 2) := rfl
  have e2 : (segPlanform w).area = ((panels w.stations).map w.area).sum := by
    have : (segPlanform w).area = ((panels w.stations).map w.area).sum * w.sides := rfl
    rw [this, hss, mul_one]
  have e3 : ((panels w.stations).map fun p => w.area p * p.1.tc).sum = ((panels w.stations).map w.area).sum * tc := by
    rw [list_sum_mul, List.map_map]; congr 1
    exact List.map_congr_left fun p hp => by simp only [Function.comp]; rw [htc p hp]
  rw [e, e3, ← e2]; field_simp

/-! ### C76 -/

/-- **C76.** The reference areas stored on the segments add up to the reference area of the wing. -/
theorem C76_reference_sum (w : SegIn) (offset tcw : ℝ) : ((segPropsAll w offset tcw).map SegProps.sref).sum = (segPlanform w).area := by
  have key : ∀ first p, (segProps w.symmetric first w.span w.rc offset tcw p).sref = w.area p * w.sides := by
    intro first p
    simp only [segProps, SegIn.area, SegIn.semispan, SegIn.sides]
    cases w.symmetric <;> simp <;> ring
  have e2 : (segPlanform w).area = ((panels w.stations).map w.area).sum * w.sides := rfl
  rw [e2, list_sum_mul, List.map_map]
  unfold segPropsAll
  cases panels w.stations with
  | nil => rfl
  | cons p ps =>
    simp only [List.map_cons, List.map_map, List.sum_cons, key, Function.comp_def]

/-- The exposed area of the first segment is the chord integral from the body side outwards, its
mean aerodynamic chord the quotient of the integrals of squared chord and chord over the same
part; the other segments likewise from their own root. -/
theorem C76_exposed (sym first : Bool) (span rc offset tcw : ℝ) (p : Station × Station) (hrc : 0 < rc) (hspan : 0 < span)
    (h : p.1.loc < p.2.loc) (h1 : 0 < p.1.chord) (h2 : 0 < p.2.chord)
    (hoff : 0 ≤ offset) :
    let k : ℝ := if sym then 2 else 1
    let len := span / k * (p.2.loc - p.1.loc)
    let c := lerp 0 len (rc * p.1.chord) (rc * p.2.chord)
    let y0 := if first then offset else 0
    let o := segProps sym first span rc offset tcw p
    offset < len →
    o.exposed = k * ∫ y in y0..len, c y ∧ o.mac = (∫ y in y0..len, c y ^ 2) / ∫ y in y0..len, c y := by
  intro k len c y0 o hlen
  have hk : 0 < k := by simp only [k]; split_ifs <;> norm_num
  have hlen0 : 0 < len := by simp only [len]; have : 0 < p.2.loc - p.1.loc := by linarith
                             positivity
  have hl : span * (1 / 2) * (2 - if sym then 1 else 0) * (p.2.loc - p.1.loc) = len := by
    simp only [len, k]; cases sym <;> norm_num <;> left <;> ring
  set root := rc * p.1.chord with hroot
  set tip := rc * p.2.chord with htip
  have hr : 0 < root := by positivity
  have ht : 0 < tip := by positivity
  set K := (tip - root) / len with hK
  have hc : ∀ y, c y = root + K * y + 0 * y ^ 2 := fun y => by
    show lerp 0 len root tip y = _
    simp only [lerp, sub_zero]; rw [hK]; field_simp; ring
  have hc2 : ∀ y, c y ^ 2 = root ^ 2 + 2 * root * K * y + K ^ 2 * y ^ 2 := fun y => by rw [hc]; ring
  have hy0 : 0 ≤ y0 ∧ y0 < len := by simp only [y0]; split_ifs <;> constructor <;> linarith
  set r := root + y0 * K with hrr
  have hrpos : 0 < r := by
    have : r = ((len - y0) * root + y0 * tip) / len := by rw [hrr, hK]; field_simp; ring
    rw [this]
    refine div_pos ?_ hlen0
    have : 0 < (len - y0) * root := mul_pos (by linarith) hr
    have : 0 ≤ y0 * tip := mul_nonneg hy0.1 ht.le
    linarith
  have htipr : tip = r + K * (len - y0) := by rw [hrr, hK]; field_simp; ring
  have hI1 : ∫ y in y0..len, c y = (len - y0) * (r + tip) / 2 := by
    simp only [hc]; rw [int_poly, htipr, hrr]; ring
  have hI2 : ∫ y in y0..len, c y ^ 2 = (len - y0) * (r ^ 2 + r * tip + tip ^ 2) / 3 := by
    simp only [hc2]; rw [int_poly, htipr, hrr]; ring
  have hd : len - y0 ≠ 0 := by have := hy0.2; linarith
  have hex : o.exposed = (len - y0) * (r + tip) * (1 / 2) * k := by
    simp only [o, segProps, hl, ← hroot, ← htip]
    simp only [r, y0, K]
    cases first <;> simp [k]
  have hwr : (if first then root + offset * ((tip - root) / len) else root) = r := by
    simp only [r, y0, K]; cases first <;> simp
  have hmac : o.mac = r * 2 / 3 * ((1 + tip / r + (tip / r) ^ 2) / (1 + tip / r)) := by
    simp only [o, segProps, hl, ← hroot, ← htip, hwr]
  refine ⟨by rw [hex, hI1]; ring, ?_⟩
  rw [hmac, hI1, hI2]
  have : r + tip ≠ 0 := by positivity
  field_simp

/-- The stored segments are those of the panels, in order, and only the first one is cut at the side
of the body. -/
theorem C76_segments (w : SegIn) (offset tcw : ℝ) (i : ℕ) (p : Station × Station) (h : (panels w.stations)[i]? = some p) :
    (segPropsAll w offset tcw)[i]? = some (segProps w.symmetric (i == 0) w.span w.rc offset tcw p) ∧
    (segPropsAll w offset tcw).length = (panels w.stations).length := by
  unfold segPropsAll
  rcases hp : panels w.stations with _ | ⟨q, qs⟩
  · rw [hp] at h; simp at h
  · rw [hp] at h
    refine ⟨?_, by simp⟩
    cases i with
    | zero => simp at h; simp [h]
    | succ i => simp at h; simp [h]

end Verif.Geometry
