import Verif.Aero.Parasite
import Verif.Aero.FrictionProps
import Verif.Num.BlendProps
import Mathlib.Topology.Order.LeftRightNhds

/-!
C130 form factors and wetted areas.
-/

namespace Verif.Aero
open Real Verif.Num

/-! ## C130 -/

theorem wingK0_ge (C tc cosS M : ℝ) (hC : 0 ≤ C) (ht : 0 ≤ tc) (hc : |cosS| ≤ 1) (hM : 0 ≤ M) (k : ℝ)
    (h : wingK0 C tc cosS M = some k) : 1 ≤ k := by
  unfold wingK0 at h
  dsimp only at h
  split_ifs at h with h1 h2
  · have hk := Option.some.inj h
    have hcc : cosS * cosS ≤ 1 := by
      have := mul_self_le_mul_self (abs_nonneg cosS) hc
      rw [abs_mul_abs_self] at this; linarith
    have hcc0 : 0 ≤ cosS * cosS := mul_self_nonneg _
    have hMM : M * M ≤ 1 := by nlinarith
    have hnn : 0 ≤ 1 - M * M * (cosS * cosS) := by nlinarith [mul_nonneg hM hM]
    have e : 1 - (M * cosS) ^ 2 = 1 - M * M * (cosS * cosS) := by ring
    rw [e] at hk
    have a : 0 ≤ 2 * C * (tc * (cosS * cosS)) / √(1 - M * M * (cosS * cosS)) := by positivity
    have b : 0 ≤ C * C * (cosS * cosS) * tc * tc * (1 + 5 * (cosS * cosS)) / (2 * (1 - M * M * (cosS * cosS))) :=
      div_nonneg (by positivity) (by linarith)
    linarith
  · exact (Option.some.inj h).le

/-- The form factor of a wing is at least one, and one from Mach 1 on. -/
theorem C130_wing (C tc cosS M : ℝ) (hC : 0 ≤ C) (ht : 0 ≤ tc) (hc : |cosS| ≤ 1) (hM : 0 ≤ M) (k : ℝ)
    (h : wingK C tc cosS M = some k) : 1 ≤ k ∧ (1 ≤ M → k = 1) := by
  unfold wingK at h
  obtain ⟨k0, h0, rfl⟩ := Option.map_eq_some_iff.1 h
  have hr := C29_range (show (0.95 : ℝ) < 1 by norm_num) M
  have g := wingK0_ge C tc cosS M hC ht hc hM k0 h0
  constructor
  · nlinarith
  · intro h1
    rw [(C29_outside (show (0.95 : ℝ) < 1 by norm_num)).2 h1]; ring

/-- It is defined for any swept wing, and for an unswept one at any Mach number but one. -/
theorem C130_wing_defined (C tc cosS M : ℝ) (hc : |cosS| ≤ 1) (hM : 0 ≤ M) :
    (wingK C tc cosS M).isSome ↔ ¬ (M = 1 ∧ |cosS| = 1) := by
  have hcc : cosS * cosS = |cosS| * |cosS| := (abs_mul_abs_self cosS).symm
  have h0 := abs_nonneg cosS
  unfold wingK wingK0
  rw [Option.isSome_map]
  dsimp only
  rw [hcc]
  split_ifs with h1 h2
  · simp only [Option.isSome_none, Bool.false_eq_true, false_iff, not_not]
    have h3 : M * |cosS| = 1 := by
      have : (M * |cosS|) ^ 2 = 1 := by nlinarith
      have hnn : 0 ≤ M * |cosS| := by positivity
      nlinarith
    have h4 : M = 1 := by nlinarith
    refine ⟨h4, ?_⟩
    rw [h4, one_mul] at h3; exact h3
  · simp only [Option.isSome_some, true_iff]
    rintro ⟨rfl, h3⟩
    apply h2; rw [h3]; ring
  · simp only [Option.isSome_some, true_iff]
    rintro ⟨rfl, -⟩
    exact h1 le_rfl

/-- An unswept wing at Mach 1 gives no number, although the blending should leave the factor one. -/
theorem C130_wing_counterexample :
    ¬ ∀ C tc cosS M : ℝ, 0 ≤ C → 0 ≤ tc → |cosS| ≤ 1 → 1 ≤ M → wingK C tc cosS M = some 1 := by
  intro H
  have h := H 1.1 0.1 1 1 (by norm_num) (by norm_num) (by norm_num) le_rfl
  have := (C130_wing_defined 1.1 0.1 1 1 (by norm_num) (by norm_num)).1 (by rw [h]; rfl)
  exact this ⟨rfl, by norm_num⟩

/-- At low speed on an unswept wing it is the classical `1 + 2 C t/c + 3 C² (t/c)²`. -/
theorem C130_wing_rest (C tc : ℝ) : wingK C tc 1 0 = some (1 + 2 * C * tc + 3 * C ^ 2 * tc ^ 2) := by
  unfold wingK wingK0
  rw [(C29_outside (show (0.95 : ℝ) < 1 by norm_num)).1 (by norm_num)]
  norm_num
  ring

/-- The mean of two equal surfaces: drag is form factor times friction times wetted over reference area. -/
theorem C130_wing_drag (C tc cosS xt Re M T Sref Swet : ℝ) (cd k : ℝ) (f : Friction)
    (h : wingDrag C tc cosS xt xt Re M T Sref Swet = some (cd, k)) (hf : mixedPlate Re M T xt = some f) :
    cd = k * f.cf * (Swet / Sref) := by
  unfold wingDrag at h
  rw [hf] at h
  cases hk : wingK C tc cosS M with
  | none => rw [hk] at h; simp at h
  | some k' =>
    rw [hk] at h
    simp only [Option.pure_def, Option.bind_eq_bind, Option.bind_some, Option.some.injEq, Prod.mk.injEq] at h
    obtain ⟨h1, rfl⟩ := h
    rw [← h1]; ring

/-- Upper and lower side have their own transition and each half of the wetted area. -/
theorem C130_wing_sides (C tc cosS xtu xtl Re M T Sref Swet : ℝ) (cd k : ℝ) (u l : Friction)
    (h : wingDrag C tc cosS xtu xtl Re M T Sref Swet = some (cd, k)) (hu : mixedPlate Re M T xtu = some u)
    (hl : mixedPlate Re M T xtl = some l) :
    cd = k * ((u.cf + l.cf) / 2) * (Swet / Sref) ∧ wingK C tc cosS M = some k := by
  unfold wingDrag at h
  rw [hu, hl] at h
  cases hk : wingK C tc cosS M with
  | none => rw [hk] at h; simp at h
  | some k' =>
    rw [hk] at h
    simp only [Option.pure_def, Option.bind_eq_bind, Option.bind_some, Option.some.injEq, Prod.mk.injEq] at h
    obtain ⟨h1, rfl⟩ := h
    refine ⟨?_, rfl⟩
    rw [← h1]; ring

/-- Segments with the same coefficients that make up the area have these coefficients together. -/
theorem C130_segments (segs : List Seg) (Sref cd k : ℝ) (hS : Sref ≠ 0) (ha : (segs.map Seg.area).sum = Sref)
    (h : ∀ s ∈ segs, s.cd = cd ∧ s.k = k) : segmented segs Sref = (cd, k) := by
  have e1 : (segs.map fun s => s.cd * s.area) = segs.map fun s => cd * s.area :=
    List.map_congr_left fun s hs => by rw [(h s hs).1]
  have e2 : (segs.map fun s => s.k * s.area) = segs.map fun s => k * s.area :=
    List.map_congr_left fun s hs => by rw [(h s hs).2]
  have e3 : ∀ c : ℝ, (segs.map fun s => c * s.area).sum = c * Sref := by
    intro c
    rw [← ha]
    exact List.sum_map_mul_left segs Seg.area c
  unfold segmented
  rw [e1, e2, e3, e3]
  field_simp

example : segmented [⟨0.01, 1.2, 30⟩, ⟨0.01, 1.2, 70⟩] 100 = (0.01, 1.2) := by
  norm_num [segmented]

/-- The area of a trapezoidal wing from a distance `y` off the centre line outwards. -/
noncomputable def outer (p : Panel) (y : ℝ) : ℝ :=
  let half := if p.symmetric then p.span / 2 else p.span
  let chord := p.root + y * ((p.tip - p.root) / half)
  (if p.symmetric then 2 else 1) * ((chord + p.tip) / 2 * (half - y))

/-- The area outside the fuselage is right for a wing that is not symmetric, such as a fin. -/
theorem C130_exposed_partial (p : Panel) (hs : p.symmetric = false) (hb : p.span ≠ 0)
    (ha : p.area = (p.root + p.tip) / 2 * p.span) : exposed p = outer p p.offset := by
  unfold exposed outer
  simp only [hs, Bool.false_eq_true, if_false]
  rw [ha]; field_simp; ring

/-- With a rectangular wing it is right too. -/
theorem C130_exposed_rectangle (p : Panel) (hr : p.tip = p.root) (hb : p.span ≠ 0) (ha : p.area = p.root * p.span) :
    exposed p = outer p p.offset := by
  unfold exposed outer
  cases hs : p.symmetric
  · simp only [Bool.false_eq_true, if_false]
    rw [ha, hr]; field_simp; ring
  · simp only [if_true]
    rw [ha, hr]; field_simp; ring

/-- For a tapered symmetric wing the chord is taken at half the distance: a wing wholly inside has area left (or less
than nothing). -/
theorem C130_exposed_counterexample :
    ¬ ∀ p : Panel, 0 < p.span → p.area = (p.root + p.tip) / 2 * p.span → exposed p = outer p p.offset := by
  intro H
  have h := H ⟨3, 1, 10, 20, 5, true, 0.1⟩ (by norm_num) (by norm_num)
  norm_num [exposed, outer] at h

/-- The wetted area is about twice the exposed area, between 2.003 and 2.081 times for wings up to 20 per cent thick. -/
theorem C130_wetted (p : Panel) (ht : p.tc ≤ 0.2) (h : 0 ≤ exposed p) :
    2.003 * exposed p ≤ wetted p ∧ wetted p ≤ 2.081 * exposed p := by
  unfold wetted
  split_ifs with h1
  · constructor <;> nlinarith
  · constructor <;> nlinarith

/-! ### Bodies -/

theorem artanh_bounds {x : ℝ} (h0 : 0 < x) (h1 : x < 1) :
    0 < artanh x - x ∧ (1 - x ^ 2) * (artanh x - x) < x ^ 3 := by
  have e : artanh x = 1 / 2 * log ((1 + x) / (1 - x)) := artanh_eq_half_log ⟨by linarith, h1.le⟩
  have l := sum_range_le_log_div h0.le h1 2
  have u := log_div_le_sum_range_add h0.le h1 2
  simp only [Finset.sum_range_succ, Finset.sum_range_zero] at l u
  norm_num at l u
  have hx3 : 0 < x ^ 3 := by positivity
  have hx2 : 0 < 1 - x ^ 2 := by nlinarith
  rw [e]
  norm_num
  constructor
  · linarith
  · have h5 : x ^ 5 / (1 - x ^ 2) * (1 - x ^ 2) = x ^ 5 := by field_simp
    have : (1 - x ^ 2) * (1 / 2 * log ((1 + x) / (1 - x)) - x) ≤ (1 - x ^ 2) * (x ^ 3 / 3) + x ^ 5 := by
      have := mul_le_mul_of_nonneg_left u hx2.le
      nlinarith
    have h6 : x ^ 5 < x ^ 3 := by nlinarith
    nlinarith

theorem bodyA_bounds {b2 d : ℝ} (hb : 0 < b2) (hb1 : b2 ≤ 1) (hd : 0 < d) (hd1 : d < 1) :
    0 < bodyA b2 d ∧ bodyA b2 d < 2 := by
  obtain ⟨D, hD⟩ : ∃ D, D = √(1 - b2 * d ^ 2) := ⟨_, rfl⟩
  have hd2 : d ^ 2 < 1 := by nlinarith
  have hp : 0 < b2 * d ^ 2 := by positivity
  have hlt : b2 * d ^ 2 < 1 := by nlinarith [sq_nonneg d]
  have hDsq : D ^ 2 = 1 - b2 * d ^ 2 := by rw [hD, sq_sqrt (by linarith)]
  have hD0 : 0 < D := by rw [hD]; exact sqrt_pos.2 (by linarith)
  have hD1 : D < 1 := by nlinarith
  have ⟨a1, a2⟩ := artanh_bounds hD0 hD1
  have e : bodyA b2 d = 2 * ((1 - D ^ 2) * (artanh D - D)) / D ^ 3 := by
    unfold bodyA
    rw [← hD, hDsq]; ring
  have hD3 : 0 < D ^ 3 := by positivity
  have hw : 0 < 1 - D ^ 2 := by rw [hDsq]; linarith
  rw [e]
  constructor
  · positivity
  · rw [div_lt_iff₀ hD3]; linarith

theorem duLow_pos {d M : ℝ} (hd : 0 < d) (hd1 : d < 1) (hM0 : 0 ≤ M) (hM : M < 1) : 0 < duLow d M := by
  have hb : 0 < 1 - M ^ 2 := by nlinarith
  obtain ⟨a, b⟩ := bodyA_bounds hb (by nlinarith [sq_nonneg M]) hd hd1
  unfold duLow
  exact div_pos a (mul_pos (by linarith) (sqrt_pos.2 hb))

theorem duHigh_pos {d : ℝ} (hd : 0 < d) (hd1 : d < 1) : 0 < duHigh d := by
  obtain ⟨a, b⟩ := bodyA_bounds one_pos le_rfl hd hd1
  exact div_pos a (by linarith)

/-- The form factor of a body longer than wide is above one at every Mach number. -/
theorem C130_body (ff d M : ℝ) (hf : 0 < ff) (hd : 0 < d) (hd1 : d < 1) (hM : 0 ≤ M) : 1 < bodyK ff d M := by
  have key : ∀ x : ℝ, 0 < x → 1 < (1 + ff * x) ^ 2 := fun x hx => by nlinarith [mul_pos hf hx]
  unfold bodyK
  split_ifs with h
  · exact key _ (duLow_pos hd hd1 hM (by linarith))
  · exact key _ (duHigh_pos hd hd1)

/-- In the supersonic analysis: above one, the subsonic formula below the blending and the incompressible one above. -/
theorem C130_body_super (ff d lo hi M : ℝ) (hf : 0 < ff) (hd : 0 < d) (hd1 : d < 1) (hM : 0 ≤ M) (h : lo < hi) (hh : hi ≤ 1) :
    1 < bodyKSuper ff d lo hi M
      ∧ (M ≤ lo → bodyKSuper ff d lo hi M = (1 + ff * duLow d M) ^ 2)
      ∧ (hi ≤ M → bodyKSuper ff d lo hi M = (1 + ff * duHigh d) ^ 2) := by
  have hr := C29_range h M
  have o := C29_outside (x := M) h
  refine ⟨?_, ?_, ?_⟩
  · have key : ∀ x : ℝ, 0 < x → 1 < (1 + ff * x) ^ 2 := fun x hx => by nlinarith [mul_pos hf hx]
    apply key
    by_cases h1 : M < hi
    · by_cases h2 : lo < M
      · rw [if_pos h1, if_pos h2]
        have p := duLow_pos hd hd1 hM (by linarith : M < 1)
        have q := duHigh_pos hd hd1
        by_cases hz : blend lo hi M = 0
        · rw [hz]; linarith
        · have : 0 < blend lo hi M := lt_of_le_of_ne hr.1 (Ne.symm hz)
          have := mul_pos p this
          have := mul_nonneg q.le (by linarith [hr.2] : 0 ≤ 1 - blend lo hi M)
          linarith
      · rw [if_pos h1, if_neg h2, o.1 (not_lt.1 h2)]
        have p := duLow_pos hd hd1 hM (by linarith : M < 1)
        linarith
    · have h2 : lo < M := by linarith
      rw [if_neg h1, if_pos h2, o.2 (not_lt.1 h1)]
      have q := duHigh_pos hd hd1
      linarith
  · intro h1
    unfold bodyKSuper
    rw [o.1 h1, if_pos (by linarith), if_neg (not_lt.2 h1)]
    ring
  · intro h1
    unfold bodyKSuper
    rw [o.2 h1, if_neg (not_lt.2 h1), if_pos (by linarith)]
    ring

theorem artanh_continuousAt {x : ℝ} (h0 : 0 < x) (h1 : x < 1) : ContinuousAt artanh x := by
  have hp : 0 < (1 + x) / (1 - x) := div_pos (by linarith) (by linarith)
  have c : ContinuousAt (fun y : ℝ => (1 + y) / (1 - y)) x :=
    ContinuousAt.div (by fun_prop) (by fun_prop) (by linarith)
  exact ContinuousAt.log c.sqrt (sqrt_pos.2 hp).ne'

theorem duLow_continuousAt {d M : ℝ} (hd : 0 < d) (hd1 : d < 1) (hM0 : 0 ≤ M) (hM : M < 1) :
    ContinuousAt (duLow d) M := by
  have hb : 0 < 1 - M ^ 2 := by nlinarith
  have hb1 : 1 - M ^ 2 ≤ 1 := by nlinarith [sq_nonneg M]
  have hd2 : d ^ 2 < 1 := by nlinarith
  have hp : 0 < (1 - M ^ 2) * d ^ 2 := by positivity
  have hlt : (1 - M ^ 2) * d ^ 2 < 1 := by nlinarith [sq_nonneg d]
  have cD : ContinuousAt (fun M : ℝ => √(1 - (1 - M ^ 2) * d ^ 2)) M := by fun_prop
  have hD0 : 0 < √(1 - (1 - M ^ 2) * d ^ 2) := sqrt_pos.2 (by linarith)
  have hD1 : √(1 - (1 - M ^ 2) * d ^ 2) < 1 := by
    rw [sqrt_lt' one_pos]; linarith
  have cA : ContinuousAt (fun M : ℝ => bodyA (1 - M ^ 2) d) M := by
    unfold bodyA
    have ca : ContinuousAt (fun M : ℝ => artanh √(1 - (1 - M ^ 2) * d ^ 2)) M :=
      ContinuousAt.comp (f := fun M : ℝ => √(1 - (1 - M ^ 2) * d ^ 2)) (artanh_continuousAt hD0 hD1) cD
    exact ContinuousAt.div ((by fun_prop : ContinuousAt (fun M : ℝ => 2 * (1 - M ^ 2) * d ^ 2) M).mul (ca.sub cD))
      (cD.pow 3) (pow_pos hD0 3).ne'
  have hA := (bodyA_bounds hb hb1 hd hd1).2
  unfold duLow
  exact cA.div ((continuousAt_const.sub cA).mul (by fun_prop))
    (mul_pos (by linarith) (sqrt_pos.2 hb)).ne'

/-- There the form factor has no jump. -/
theorem C130_body_super_continuous (ff d lo hi M : ℝ) (hd : 0 < d) (hd1 : d < 1) (hM : 0 ≤ M) (h : lo < hi) (hh : hi < 1) :
    ContinuousAt (bodyKSuper ff d lo hi) M := by
  have e : ∀ x : ℝ, bodyKSuper ff d lo hi x
      = (1 + ff * (duLow d x * blend lo hi x + duHigh d * (1 - blend lo hi x))) ^ 2 := by
    intro x
    have o := C29_outside (x := x) h
    unfold bodyKSuper
    by_cases h1 : x < hi
    · by_cases h2 : lo < x
      · rw [if_pos h1, if_pos h2]
      · rw [if_pos h1, if_neg h2, o.1 (not_lt.1 h2)]; ring
    · rw [if_neg h1, if_pos (by linarith), o.2 (not_lt.1 h1)]; ring
  have cb := (C29_continuous h).continuousAt (x := M)
  by_cases hM1 : M < 1
  · have cd := duLow_continuousAt hd hd1 hM hM1
    have : bodyKSuper ff d lo hi = fun x =>
        (1 + ff * (duLow d x * blend lo hi x + duHigh d * (1 - blend lo hi x))) ^ 2 := funext e
    rw [this]
    exact (continuousAt_const.add (continuousAt_const.mul ((cd.mul cb).add
      (continuousAt_const.mul (continuousAt_const.sub cb))))).pow 2
  · have ev : ∀ᶠ x in nhds M, bodyKSuper ff d lo hi x = (1 + ff * duHigh d) ^ 2 := by
      filter_upwards [lt_mem_nhds (show hi < M by linarith)] with x hx
      rw [e, (C29_outside (x := x) h).2 hx.le]; ring
    exact (continuousAt_const (y := (1 + ff * duHigh d) ^ 2)).congr (Filter.EventuallyEq.symm ev)

theorem high_08 : 0.37 ≤ duHigh 0.8 := by
  have hs : √(1 - 1 * (0.8 : ℝ) ^ 2) = 0.6 := by
    rw [show (1 - 1 * (0.8 : ℝ) ^ 2) = 0.6 ^ 2 by norm_num]; exact sqrt_sq (by norm_num)
  have ha : artanh (0.6 : ℝ) = log 2 := by
    rw [artanh_eq_half_log ⟨by norm_num, by norm_num⟩, show ((1 : ℝ) + 0.6) / (1 - 0.6) = 2 ^ 2 by norm_num, log_pow]
    push_cast; ring
  have l := log_two_gt_d9
  have e : bodyA 1 0.8 = 1.28 * (log 2 - 0.6) / 0.216 := by
    unfold bodyA
    rw [hs]; dsimp only; rw [ha]; norm_num
  have h1 : 0.55 ≤ bodyA 1 0.8 := by
    rw [e, le_div_iff₀ (by norm_num)]; linarith
  have h2 := (bodyA_bounds (d := 0.8) one_pos le_rfl (by norm_num) (by norm_num)).2
  unfold duHigh
  rw [le_div_iff₀ (by linarith)]
  linarith

theorem low_08 {M : ℝ} (h1 : 0.949 ≤ M) (h2 : M ≤ 0.95) : duLow 0.8 M ≤ 0.35 := by
  obtain ⟨b, hb⟩ : ∃ b, b = 1 - M ^ 2 := ⟨_, rfl⟩
  have hb0 : 0.0975 ≤ b := by rw [hb]; nlinarith
  have hb1 : b ≤ 0.0994 := by rw [hb]; nlinarith
  obtain ⟨D, hD⟩ : ∃ D, D = √(1 - b * 0.8 ^ 2) := ⟨_, rfl⟩
  have hDsq : D ^ 2 = 1 - b * 0.8 ^ 2 := by rw [hD, sq_sqrt (by nlinarith)]
  have hDn : 0 ≤ D := by rw [hD]; exact sqrt_nonneg _
  have hD0 : 0.9676 ≤ D := by nlinarith
  have hD1 : D ≤ 0.9684 := by nlinarith
  have ha : artanh D ≤ 2.25 := by
    rw [artanh_eq_half_log ⟨by linarith, by linarith⟩]
    have hle : (1 + D) / (1 - D) ≤ 63 := by
      rw [div_le_iff₀ (by linarith)]; linarith
    have hp : 0 < (1 + D) / (1 - D) := div_pos (by linarith) (by linarith)
    have l1 : log ((1 + D) / (1 - D)) ≤ log 63 := log_le_log hp hle
    have l2 : log (63 : ℝ) ≤ log ((2 : ℝ) ^ (6 : ℕ)) := log_le_log (by norm_num) (by norm_num)
    rw [log_pow] at l2
    have l3 := log_two_lt_d9
    push_cast at l2
    linarith
  have hD3 : 0.9 ≤ D ^ 3 := by
    calc (0.9 : ℝ) ≤ 0.9676 ^ 3 := by norm_num
      _ ≤ D ^ 3 := by gcongr
  have hA : bodyA b 0.8 ≤ 0.19 := by
    unfold bodyA
    rw [← hD]
    dsimp only
    rw [div_le_iff₀ (by linarith)]
    have hx : artanh D - D ≤ 1.2824 := by linarith
    have : 2 * b * 0.8 ^ 2 * (artanh D - D) ≤ 2 * 0.0994 * 0.8 ^ 2 * 1.2824 := by
      calc 2 * b * 0.8 ^ 2 * (artanh D - D) ≤ 2 * b * 0.8 ^ 2 * 1.2824 := by gcongr
        _ ≤ _ := by gcongr
    norm_num at this ⊢
    linarith
  have hs : 0.31 ≤ √b := by
    rw [show (0.31 : ℝ) = √(0.31 ^ 2) from (sqrt_sq (by norm_num)).symm]
    exact sqrt_le_sqrt (by norm_num at *; linarith)
  unfold duLow
  rw [← hb, div_le_iff₀ (mul_pos (by linarith) (by linarith))]
  nlinarith

/-- In the subsonic analysis it jumps at Mach 0.95. -/
theorem C130_body_counterexample : ¬ ∀ d M : ℝ, 0 < d → d < 1 → 0 ≤ M → ContinuousAt (bodyK 2.3 d) M := by
  intro H
  have c := H 0.8 0.95 (by norm_num) (by norm_num) (by norm_num)
  have v : bodyK 2.3 0.8 0.95 = (1 + 2.3 * duHigh 0.8) ^ 2 := by
    unfold bodyK; rw [if_neg (by norm_num)]
  have hv : 3.42 ≤ bodyK 2.3 0.8 0.95 := by
    rw [v]; nlinarith [high_08]
  have ev := c.eventually (lt_mem_nhds (show (3.4 : ℝ) < bodyK 2.3 0.8 0.95 by linarith))
  obtain ⟨ε, hε, hball⟩ := Metric.eventually_nhds_iff.1 ev
  obtain ⟨δ, hδ⟩ : ∃ δ, δ = min (ε / 2) 0.001 := ⟨_, rfl⟩
  have d1 : 0 < δ := by rw [hδ]; exact lt_min (by linarith) (by norm_num)
  have d2 : δ ≤ ε / 2 := by rw [hδ]; exact min_le_left _ _
  have d3 : δ ≤ 0.001 := by rw [hδ]; exact min_le_right _ _
  have := hball (y := 0.95 - δ) (by
    rw [Real.dist_eq, abs_lt]; constructor <;> linarith)
  have w : bodyK 2.3 0.8 (0.95 - δ) = (1 + 2.3 * duLow 0.8 (0.95 - δ)) ^ 2 := by
    unfold bodyK; rw [if_pos (by linarith)]
  have lo := low_08 (M := 0.95 - δ) (by norm_num at *; linarith) (by linarith)
  have lp := duLow_pos (d := 0.8) (M := 0.95 - δ) (by norm_num) (by norm_num) (by norm_num at *; linarith)
    (by norm_num at *; linarith)
  rw [w] at this
  nlinarith

/-- Nacelles: above one, and in the supersonic analysis between one and that. -/
theorem C130_nacelle (l d lo hi M : ℝ) (hl : 0 < l) (hd : 0 < d) (h : lo < hi) :
    1 < nacelleK l d ∧ 1 ≤ nacelleKSuper l d lo hi M ∧ nacelleKSuper l d lo hi M ≤ nacelleK l d
      ∧ (M ≤ lo → nacelleKSuper l d lo hi M = nacelleK l d) ∧ (hi ≤ M → nacelleKSuper l d lo hi M = 1) := by
  have p : 0 < 0.35 / (l / d) := by positivity
  have k : 1 < nacelleK l d := by unfold nacelleK; linarith
  have r := C29_range h M
  have o := C29_outside (x := M) h
  refine ⟨k, ?_, ?_, ?_, ?_⟩
  · unfold nacelleKSuper; nlinarith
  · unfold nacelleKSuper; nlinarith
  · intro h1; unfold nacelleKSuper; rw [o.1 h1]; ring
  · intro h1; unfold nacelleKSuper; rw [o.2 h1]; ring

end Verif.Aero
