import Verif.Stability.Static
import Verif.Stability.PlanformProps
import Mathlib.Algebra.BigOperators.Group.List.Basic
import Mathlib.Algebra.Order.BigOperators.Group.List
import Mathlib.Topology.Order.OrderClosed
import Mathlib.Topology.Algebra.Order.Field
import Mathlib.Tactic.GCongr

/-!
C171–C174: lift-curve slope, pitch stability, yaw stability, neutral point.
-/

namespace Verif.Stability
open Real

/-! ### C171: lift-curve slope -/

theorem beta_pos {M : ℝ} (h0 : 0 ≤ M) : 0 < datcomBeta M := by
  unfold datcomBeta
  split_ifs with h1 h2
  · apply Real.sqrt_pos.2; nlinarith
  · apply Real.sqrt_pos.2; nlinarith
  · norm_num

theorem section_pos {M : ℝ} (h0 : 0 ≤ M) : 0 < datcomSection M := by
  have := beta_pos h0
  unfold datcomSection
  split_ifs
  · positivity
  · positivity
  · norm_num

/-- The formula with the compressibility factor eliminated. -/
theorem datcom_eq (w : SweepWing) {M : ℝ} (h0 : 0 ≤ M) :
    datcom w M = 2 * π * w.arUsed / (2 + sqrt ((2 * π * w.arUsed / (datcomSection M * datcomBeta M)) ^ 2 *
      (datcomBeta M ^ 2 + tan (convertSweep w 0.25 0.5) ^ 2) + 4)) := by
  have hb := (beta_pos h0).ne'
  have hs := (section_pos h0).ne'
  have hp := Real.pi_pos.ne'
  unfold datcom
  dsimp only
  congr 3
  generalize tan (convertSweep w 0.25 0.5) = t
  field_simp

/-- The slope is positive and at most that of a slender wing. -/
theorem C171_bounds (w : SweepWing) (M : ℝ) (h0 : 0 ≤ M) (ha : 0 < w.arUsed) :
    0 < datcom w M ∧ datcom w M ≤ π * w.arUsed / 2 := by
  rw [datcom_eq w h0]
  have hp := Real.pi_pos
  obtain ⟨r, hr⟩ : ∃ r, r = (2 * π * w.arUsed / (datcomSection M * datcomBeta M)) ^ 2 *
      (datcomBeta M ^ 2 + tan (convertSweep w 0.25 0.5) ^ 2) := ⟨_, rfl⟩
  rw [← hr]
  have hr0 : 0 ≤ r := by rw [hr]; positivity
  have h2 : 2 ≤ sqrt (r + 4) := by
    rw [show (2:ℝ) = sqrt 4 by rw [show (4:ℝ) = 2 ^ 2 by norm_num, Real.sqrt_sq (by norm_num)]]
    apply Real.sqrt_le_sqrt; norm_num; exact hr0
  constructor
  · positivity
  · rw [div_le_div_iff₀ (by positivity) (by norm_num)]
    have : 0 < π * w.arUsed := by positivity
    nlinarith

/-- A finite wing never lifts better than its section. -/
theorem C171_below_section (w : SweepWing) (M : ℝ) (h0 : 0 ≤ M) (ha : 0 < w.arUsed) : datcom w M < datcomSection M := by
  have hp := Real.pi_pos
  have hb := beta_pos h0
  have hs := section_pos h0
  rw [datcom_eq w h0]
  have h1 : 2 * π * w.arUsed / datcomSection M ≤ sqrt ((2 * π * w.arUsed / (datcomSection M * datcomBeta M)) ^ 2 *
      (datcomBeta M ^ 2 + tan (convertSweep w 0.25 0.5) ^ 2) + 4) := by
    apply Real.le_sqrt_of_sq_le
    have e : (2 * π * w.arUsed / datcomSection M) ^ 2 =
        (2 * π * w.arUsed / (datcomSection M * datcomBeta M)) ^ 2 * datcomBeta M ^ 2 := by field_simp
    rw [e]
    nlinarith [mul_nonneg (sq_nonneg (2 * π * w.arUsed / (datcomSection M * datcomBeta M)))
      (sq_nonneg (tan (convertSweep w 0.25 0.5)))]
  have h2 : (0:ℝ) < 2 * π * w.arUsed / datcomSection M := by positivity
  rw [div_lt_iff₀ (by linarith)]
  have e : 2 * π * w.arUsed = datcomSection M * (2 * π * w.arUsed / datcomSection M) := by field_simp
  nlinarith

theorem datcom_sub (w : SweepWing) {M : ℝ} (h0 : 0 ≤ M) (h1 : M < 1) :
    datcom w M = 2 * π * w.arUsed / (2 + sqrt ((2 * π * w.arUsed / 6.13) ^ 2 *
      (1 - M ^ 2 + tan (convertSweep w 0.25 0.5) ^ 2) + 4)) := by
  have hb := (beta_pos h0).ne'
  rw [datcom_eq w h0]
  have e1 : datcomSection M * datcomBeta M = 6.13 := by
    simp only [datcomSection, if_pos h1]; field_simp
  have e2 : datcomBeta M ^ 2 = 1 - M ^ 2 := by
    simp only [datcomBeta, if_pos h1]; exact Real.sq_sqrt (by nlinarith)
  rw [e1, e2]

theorem datcom_super (w : SweepWing) {M : ℝ} (h1 : 1 < M) :
    datcom w M = 2 * π * w.arUsed / (2 + sqrt ((2 * π * w.arUsed / 4) ^ 2 *
      (M ^ 2 - 1 + tan (convertSweep w 0.25 0.5) ^ 2) + 4)) := by
  have h0 : 0 ≤ M := by linarith
  have hb := (beta_pos h0).ne'
  rw [datcom_eq w h0]
  have e1 : datcomSection M * datcomBeta M = 4 := by
    simp only [datcomSection, if_neg h1.not_gt, if_pos h1]; field_simp
  have e2 : datcomBeta M ^ 2 = M ^ 2 - 1 := by
    simp only [datcomBeta, if_neg h1.not_gt, if_pos h1]; exact Real.sq_sqrt (by nlinarith)
  rw [e1, e2]

/-- Below the speed of sound the slope rises with the Mach number. -/
theorem C171_rises (w : SweepWing) (M N : ℝ) (h0 : 0 ≤ M) (hMN : M < N) (h1 : N < 1) (ha : 0 < w.arUsed) :
    datcom w M < datcom w N := by
  have hp := Real.pi_pos
  rw [datcom_sub w h0 (hMN.trans h1), datcom_sub w (h0.trans hMN.le) h1]
  have hc : 0 < (2 * π * w.arUsed / 6.13) ^ 2 := by positivity
  apply div_lt_div_of_pos_left (by positivity) (by positivity)
  have hn : 0 ≤ (2 * π * w.arUsed / 6.13) ^ 2 * (1 - N ^ 2 + tan (convertSweep w 0.25 0.5) ^ 2) + 4 := by
    have : 0 ≤ 1 - N ^ 2 := by nlinarith
    positivity
  have := Real.sqrt_lt_sqrt hn (y := (2 * π * w.arUsed / 6.13) ^ 2 * (1 - M ^ 2 + tan (convertSweep w 0.25 0.5) ^ 2) + 4)
    (by have : M ^ 2 < N ^ 2 := by nlinarith
        gcongr)
  linarith

/-- Above it the slope falls. -/
theorem C171_falls (w : SweepWing) (M N : ℝ) (h1 : 1 < M) (hMN : M < N) (ha : 0 < w.arUsed) :
    datcom w N < datcom w M := by
  have hp := Real.pi_pos
  rw [datcom_super w h1, datcom_super w (h1.trans hMN)]
  have hc : 0 < (2 * π * w.arUsed / 4) ^ 2 := by positivity
  apply div_lt_div_of_pos_left (by positivity) (by positivity)
  have hn : 0 ≤ (2 * π * w.arUsed / 4) ^ 2 * (M ^ 2 - 1 + tan (convertSweep w 0.25 0.5) ^ 2) + 4 := by
    have : 0 ≤ M ^ 2 - 1 := by nlinarith
    positivity
  have := Real.sqrt_lt_sqrt hn (y := (2 * π * w.arUsed / 4) ^ 2 * (N ^ 2 - 1 + tan (convertSweep w 0.25 0.5) ^ 2) + 4)
    (by have : M ^ 2 < N ^ 2 := by nlinarith
        gcongr)
  linarith

/-- At Mach one exactly the section slope of the code is 1, so the wing's is below 1. -/
theorem C171_sonic (w : SweepWing) (ha : 0 < w.arUsed) : datcom w 1 < 1 := by
  have := C171_below_section w 1 zero_le_one ha
  simpa [datcomSection] using this

/-- So the rise does not reach Mach one: an unswept wing of aspect ratio 8 has a smaller slope there than at rest. -/
theorem C171_sonic_counterexample : ∃ w : SweepWing, 0 < w.arUsed ∧ datcom w 1 < datcom w 0 := by
  have ha : 0 < (⟨0, 0, 1, 8, none, none⟩ : SweepWing).arUsed := by norm_num [SweepWing.arUsed]
  refine ⟨⟨0, 0, 1, 8, none, none⟩, ha, (C171_sonic _ ha).trans ?_⟩
  rw [datcom_sub _ le_rfl zero_lt_one]
  have ht : tan (convertSweep ⟨0, 0, 1, 8, none, none⟩ 0.25 0.5) = 0 := by
    norm_num [convertSweep, Real.tan_arctan]
  rw [ht]
  simp only [SweepWing.arUsed]
  have hp := Real.pi_gt_three
  have hp4 := Real.pi_lt_four
  rw [lt_div_iff₀ (by positivity), one_mul]
  have : sqrt ((2 * π * 8 / 6.13) ^ 2 * (1 - 0 ^ 2 + 0 ^ 2) + 4) ≤ 12 := by
    apply Real.sqrt_le_iff.2
    refine ⟨by norm_num, ?_⟩
    have : 2 * π * 8 / 6.13 ≤ 8.25 := by
      rw [div_le_iff₀ (by norm_num)]; have := Real.pi_lt_d2; norm_num at this ⊢; linarith
    have h0 : 0 ≤ 2 * π * 8 / 6.13 := by positivity
    nlinarith
  nlinarith

example : (0:ℝ) ≤ 0.3 ∧ (0.3:ℝ) < 0.8 ∧ (0.8:ℝ) < 1 ∧ 0 < (⟨0.3, 0.35, 0.3, 9, none, none⟩ : SweepWing).arUsed := by
  norm_num [SweepWing.arUsed]

/-! ### C172: pitch -/

/-- Lift-curve slope of the whole aircraft, referred to the reference area: what each horizontal surface adds. -/
noncomputable def liftSlope (Sref : ℝ) (surfs : List Lifting) : ℝ :=
  ((surfs.filter (fun s => !s.vertical)).map (fun s => s.area / Sref * (s.eta * ((1 - s.epAlpha) * s.CLalpha)))).sum

theorem cmSurf_shift (g : MainWing) (x d : ℝ) (s : Lifting) :
    cmSurf g (x + d) s = cmSurf g x s + d / g.mac * (if s.vertical then 0 else s.area / g.Sref * (s.eta * ((1 - s.epAlpha) * s.CLalpha))) := by
  unfold cmSurf num
  cases s.vertical
  · simp only [Bool.false_eq_true, if_false]
    rw [div_mul_eq_div_div]; ring
  · simp

theorem liftSlope_cons (S : ℝ) (s : Lifting) (l : List Lifting) :
    liftSlope S (s :: l) = (if s.vertical then 0 else s.area / S * (s.eta * ((1 - s.epAlpha) * s.CLalpha))) + liftSlope S l := by
  unfold liftSlope
  cases h : s.vertical <;> simp [h]

/-- Moving the centre of gravity back by one mean chord adds the whole lift-curve slope to the moment slope. -/
theorem C172_cg_shift (g : MainWing) (fus : Option Tube) (surfs : List Lifting) (x d α : ℝ) :
    (tawCmalpha g fus surfs (x + d) α).slope = (tawCmalpha g fus surfs x α).slope + d / g.mac * liftSlope g.Sref surfs := by
  have : (surfs.map (cmSurf g (x + d))).sum = (surfs.map (cmSurf g x)).sum + d / g.mac * liftSlope g.Sref surfs := by
    induction surfs with
    | nil => simp [liftSlope]
    | cons s l ih => rw [List.map_cons, List.sum_cons, List.map_cons, List.sum_cons, ih, liftSlope_cons, cmSurf_shift]; ring
  simp only [tawCmalpha, this]; ring

/-- A more rearward centre of gravity is less stable. -/
theorem C172_aft_unstable (g : MainWing) (fus : Option Tube) (surfs : List Lifting) (x y α : ℝ) (hxy : x < y)
    (hm : 0 < g.mac) (hL : 0 < liftSlope g.Sref surfs) :
    (tawCmalpha g fus surfs x α).slope < (tawCmalpha g fus surfs y α).slope := by
  have := C172_cg_shift g fus surfs x (y - x) α
  rw [add_sub_cancel] at this
  rw [this]
  have : 0 < (y - x) / g.mac * liftSlope g.Sref surfs := by
    have : 0 < y - x := by linarith
    positivity
  linarith

/-- There is exactly one neutral centre of gravity. -/
theorem C172_neutral_unique (g : MainWing) (fus : Option Tube) (surfs : List Lifting) (α : ℝ)
    (hm : 0 < g.mac) (hL : 0 < liftSlope g.Sref surfs) : ∃! x, (tawCmalpha g fus surfs x α).slope = 0 := by
  refine ⟨-(tawCmalpha g fus surfs 0 α).slope * g.mac / liftSlope g.Sref surfs, ?_, ?_⟩
  · dsimp only
    rw [show -(tawCmalpha g fus surfs 0 α).slope * g.mac / liftSlope g.Sref surfs =
      0 + -(tawCmalpha g fus surfs 0 α).slope * g.mac / liftSlope g.Sref surfs by ring, C172_cg_shift]
    generalize (tawCmalpha g fus surfs 0 α).slope = m
    generalize liftSlope g.Sref surfs = L at *
    have := hm.ne'; have := hL.ne'
    field_simp; ring
  · intro y hy
    have := C172_cg_shift g fus surfs 0 y α
    rw [zero_add, hy] at this
    rw [eq_div_iff hL.ne']
    have h1 : (tawCmalpha g fus surfs 0 α).slope = -(y / g.mac * liftSlope g.Sref surfs) := by linarith
    rw [h1]
    have := hm.ne'
    field_simp

/-- Fins do not enter the slope, wherever they stand in the list. -/
theorem C172_fins (g : MainWing) (fus : Option Tube) (a b : List Lifting) (v : Lifting) (hv : v.vertical = true) (x α : ℝ) :
    (tawCmalpha g fus (a ++ v :: b) x α).slope = (tawCmalpha g fus (a ++ b) x α).slope := by
  have : cmSurf g x v = 0 := by simp [cmSurf, hv, num]
  simp [tawCmalpha, this]

/-- The order of the surfaces does not matter. -/
theorem C172_order (g : MainWing) (fus : Option Tube) (a b : List Lifting) (h : a.Perm b) (x α : ℝ) :
    tawCmalpha g fus a x α = tawCmalpha g fus b x α := by
  have h1 := (h.map (cmSurf g x)).sum_eq
  have h2 := (h.map (cm0Surf g x)).sum_eq
  simp only [tawCmalpha, h1, h2]

/-- A lifting surface behind the centre of gravity makes the aircraft more stable, one ahead of it less. -/
theorem C172_tail (g : MainWing) (fus : Option Tube) (l : List Lifting) (s : Lifting) (x α : ℝ) (hv : s.vertical = false)
    (hm : 0 < g.mac) (hS : 0 < g.Sref) (ha : 0 < s.area) (hC : 0 < s.CLalpha * s.eta * (1 - s.epAlpha)) :
    ((tawCmalpha g fus (s :: l) x α).slope < (tawCmalpha g fus l x α).slope ↔ x < s.origin + s.ac) := by
  have e : (tawCmalpha g fus (s :: l) x α).slope = (tawCmalpha g fus l x α).slope + cmSurf g x s := by
    simp [tawCmalpha]; ring
  rw [e]
  have : cmSurf g x s = -((s.origin + s.ac - x) * (s.area / (g.mac * g.Sref) * (s.CLalpha * s.eta * (1 - s.epAlpha)))) := by
    simp only [cmSurf, hv, num, Bool.false_eq_true, if_false]; ring
  rw [this]
  have hk : 0 < s.area / (g.mac * g.Sref) * (s.CLalpha * s.eta * (1 - s.epAlpha)) := by positivity
  constructor
  · intro h
    by_contra hx
    have : (s.origin + s.ac - x) * (s.area / (g.mac * g.Sref) * (s.CLalpha * s.eta * (1 - s.epAlpha))) ≤ 0 :=
      mul_nonpos_of_nonpos_of_nonneg (by linarith) hk.le
    linarith
  · intro h
    have : 0 < (s.origin + s.ac - x) * (s.area / (g.mac * g.Sref) * (s.CLalpha * s.eta * (1 - s.epAlpha))) :=
      mul_pos (by linarith) hk
    linarith

/-- The slope is the slope: the moment changes by it per unit of angle of attack, the zero-angle moment being the moment at
zero angle. -/
theorem C172_linear (g : MainWing) (fus : Option Tube) (l : List Lifting) (x α β : ℝ) :
    (tawCmalpha g fus l x α).total - (tawCmalpha g fus l x β).total = (tawCmalpha g fus l x 0).slope * (α - β) ∧
    (tawCmalpha g fus l x 0).total = (tawCmalpha g fus l x α).zero := by
  simp only [tawCmalpha]; constructor <;> ring

/-- Raising the incidence of a tail behind the centre of gravity pushes the nose down — in the code it goes up. -/
theorem C172_incidence_counterexample :
    ∃ (g : MainWing) (s t : Lifting) (x : ℝ), 0 < g.mac ∧ 0 < g.Sref ∧ x < s.origin + s.ac ∧ s.vertical = false ∧ 0 < s.CLalpha ∧
      t = { s with twistRoot := s.twistRoot + 1, twistTip := s.twistTip + 1 } ∧
      (tawCmalpha g none [s] x 0).total < (tawCmalpha g none [t] x 0).total := by
  refine ⟨⟨10, 1, 1, 1, 10, 0, 0⟩, ⟨1, 10, 0, 1, 0, 4, false, 0, 0, 1, 0, 0⟩, _, 0, by norm_num, by norm_num, by norm_num, rfl,
    by norm_num, rfl, ?_⟩
  norm_num [tawCmalpha, cm0Surf, cmSurf, cmBody, num]

/-- In the code the effect of incidence has the sign opposite to that of angle of attack, always. -/
theorem C172_incidence_sign (g : MainWing) (s : Lifting) (x d : ℝ) (hd : s.taper = 1) :
    (tawCmalpha g none [{ s with twistRoot := s.twistRoot + d, twistTip := s.twistTip + d }] x 0).total -
      (tawCmalpha g none [s] x 0).total = -((tawCmalpha g none [s] x 0).slope * d) := by
  simp only [tawCmalpha, List.map_cons, List.map_nil, List.sum_cons, List.sum_nil, cm0Surf, cmSurf, cmBody, hd]
  rw [div_mul_eq_mul_div, div_mul_eq_mul_div]
  ring

/-- The section moment of a surface enters whole, whatever its area: a surface of no area changes the moment. -/
theorem C172_section_moment_counterexample :
    ∃ (g : MainWing) (s : Lifting), s.area = 0 ∧ 0 < g.mac ∧ 0 < g.Sref ∧
      (tawCmalpha g none [s] 0 0).total ≠ (tawCmalpha g none [] 0 0).total := by
  refine ⟨⟨10, 1, 1, 1, 10, 0, 0⟩, ⟨0, 10, 0, 1, 0, 4, false, 0, 0, 1, 0, -0.1⟩, rfl, by norm_num, by norm_num, ?_⟩
  norm_num [tawCmalpha, cm0Surf, cmSurf, cmBody, num]

example : 0 < liftSlope 100 [⟨100, 10, 2, 1, 0, 5, false, 0, 0, 1, 0, 0⟩, ⟨20, 30, 1, 0.9, 0.4, 4, false, 0, 0, 1, 0, 0⟩,
    ⟨15, 29, 1, 1, 0, 3, true, 0, 0, 1, 0, 0⟩] := by
  norm_num [liftSlope]

/-! ### C173: yaw -/

/-- The fin factor lies between 0.76 and 1. -/
theorem C173_factor_bounds (x : ℝ) : 0.76 ≤ finFactor x ∧ finFactor x ≤ 1 := by
  unfold finFactor
  split_ifs with h1 h2
  · norm_num
  · have : 0 ≤ x - 2 := by linarith [not_lt.1 h1]
    constructor
    · have : 0 ≤ 0.24 * (x - 2) / 1.5 := by positivity
      linarith
    · have : 0.24 * (x - 2) / 1.5 ≤ 0.24 := by rw [div_le_iff₀ (by norm_num)]; norm_num at *; linarith
      linarith
  · norm_num

/-- It never falls as the fin grows taller. -/
theorem C173_factor_mono (x y : ℝ) (h : x ≤ y) : finFactor x ≤ finFactor y := by
  by_cases hx : x < 2
  · rw [show finFactor x = 0.76 by simp [finFactor, hx]]; exact (C173_factor_bounds y).1
  by_cases hy : y < 3.5
  · have hx' : x < 3.5 := h.trans_lt hy
    have hy2 : ¬ y < 2 := fun h' => hx (h.trans_lt h')
    simp only [finFactor, if_neg hx, if_neg hy2, if_pos hx', if_pos hy]
    gcongr
  · rw [show finFactor y = 1 by
      have : ¬ y < 2 := fun h' => hy (h'.trans (by norm_num))
      simp only [finFactor, if_neg this, if_neg hy]]
    exact (C173_factor_bounds x).2

/-- It has no jumps. -/
theorem C173_factor_continuous : Continuous finFactor := by
  have e : finFactor = fun x => min 1 (max 0.76 (0.76 + 0.24 * (x - 2) / 1.5)) := by
    funext x
    unfold finFactor
    split_ifs with h1 h2
    · rw [max_eq_left, min_eq_right] <;> norm_num
      apply div_nonpos_of_nonpos_of_nonneg <;> linarith
    · have h1 := not_lt.1 h1
      have h0 : 0 ≤ 0.24 * (x - 2) / 1.5 := by
        have : 0 ≤ x - 2 := by linarith
        positivity
      rw [max_eq_right (by linarith), min_eq_right]
      have : 0.24 * (x - 2) / 1.5 ≤ 0.24 := by rw [div_le_iff₀ (by norm_num)]; norm_num at *; linarith
      linarith
    · have h2 := not_lt.1 h2
      rw [max_eq_right, min_eq_left]
      · have : 0.24 ≤ 0.24 * (x - 2) / 1.5 := by rw [le_div_iff₀ (by norm_num)]; norm_num at *; linarith
        linarith
      · have : 0.24 ≤ 0.24 * (x - 2) / 1.5 := by rw [le_div_iff₀ (by norm_num)]; norm_num at *; linarith
        linarith
  rw [e]; fun_prop

/-- Fin contribution to the yaw stability for a given last fuselage. -/
noncomputable def sidewash (r : SideRef) (S hMax : ℝ) : ℝ :=
  0.724 + 3.06 * (S / r.S / (1 + cos r.sweep)) + 0.4 * r.zw / hMax + 0.009 * r.AR

/-- Moving the fin back makes the aircraft more stable in yaw. -/
theorem C173_fin_arm (r : SideRef) (v : Fin) (fus : List SideBody) (last : SideBody) (hl : fus.getLast? = some last) (d : ℝ)
    (hd : 0 < d) (hS : 0 < r.S) (hb : 0 < r.b) (hv : 0 < v.S) (hC : 0 < v.CLa) (hs : 0 < sidewash r v.S last.hMax) :
    ∃ n m, tawCnbeta r v fus = some n ∧ tawCnbeta r { v with x := v.x + d } fus = some m ∧ n < m := by
  refine ⟨_, _, by simp only [tawCnbeta, hl]; rfl, by simp only [tawCnbeta, hl]; rfl, ?_⟩
  rw [zero_add, zero_add]
  have hk := (C173_factor_bounds (v.b / last.hWing)).1
  have hk : 0 < finFactor (v.b / last.hWing) := by linarith
  unfold sidewash at hs
  generalize finFactor (v.b / last.hWing) = k at *
  generalize (0.724 + 3.06 * (v.S / r.S / (1 + cos r.sweep)) + 0.4 * r.zw / last.hMax + 0.009 * r.AR) = q at *
  have hq : 0 < k * v.CLa * q * (v.S / r.S) := by positivity
  have e1 : ∀ l, -(-k * v.CLa * q * (v.S / r.S)) * l / r.b = k * v.CLa * q * (v.S / r.S) * l / r.b := by intro l; ring
  rw [e1, e1]
  gcongr
  linarith

/-- A fin behind the centre of gravity stabilises: the result exceeds the body term alone. -/
theorem C173_fin_sign (r : SideRef) (v : Fin) (fus : List SideBody) (last : SideBody) (hl : fus.getLast? = some last)
    (hS : 0 < r.S) (hb : 0 < r.b) (hv : 0 < v.S) (hC : 0 < v.CLa) (hs : 0 < sidewash r v.S last.hMax)
    (hx : r.xcg < v.x + v.ac) :
    ∃ n, tawCnbeta r v fus = some n ∧ (fus.map (cnBody r)).sum < n := by
  refine ⟨_, by simp only [tawCnbeta, hl]; rfl, ?_⟩
  have hf : ∀ (l : List SideBody) (a : ℝ), l.foldl (fun acc f => acc + cnBody r f) a = a + (l.map (cnBody r)).sum := by
    intro l
    induction l with
    | nil => simp
    | cons f l ih => intro a; rw [List.foldl_cons, ih]; simp; ring
  rw [hf]
  have hk : 0 < finFactor (v.b / last.hWing) := by linarith [(C173_factor_bounds (v.b / last.hWing)).1]
  unfold sidewash at hs
  generalize finFactor (v.b / last.hWing) = k at *
  generalize (0.724 + 3.06 * (v.S / r.S / (1 + cos r.sweep)) + 0.4 * r.zw / last.hMax + 0.009 * r.AR) = q at *
  have hl : 0 < v.x + v.ac - r.xcg := by linarith
  have : 0 < k * v.CLa * q * (v.S / r.S) * (v.x + v.ac - r.xcg) / r.b := by positivity
  have e : -(-k * v.CLa * q * (v.S / r.S)) * (v.x + v.ac - r.xcg) / r.b =
    k * v.CLa * q * (v.S / r.S) * (v.x + v.ac - r.xcg) / r.b := by ring
  rw [e]; linarith

/-- Without a fuselage there is no answer. -/
theorem C173_no_fuselage (r : SideRef) (v : Fin) : tawCnbeta r v [] = none := rfl

/-- When all fuselages are alike in height the order does not matter. -/
theorem C173_order_partial (r : SideRef) (v : Fin) (a b : List SideBody) (h : a.Perm b) (hw hm : ℝ)
    (ha : ∀ f ∈ a, f.hWing = hw ∧ f.hMax = hm) : tawCnbeta r v a = tawCnbeta r v b := by
  have hf : ∀ (l : List SideBody) (c : ℝ), l.foldl (fun acc f => acc + cnBody r f) c = c + (l.map (cnBody r)).sum := by
    intro l
    induction l with
    | nil => simp
    | cons f l ih => intro c; rw [List.foldl_cons, ih]; simp; ring
  have hsum := (h.map (cnBody r)).sum_eq
  rcases ea : a.getLast? with _ | x
  · rw [List.getLast?_eq_none_iff] at ea
    subst ea
    rw [List.nil_perm] at h
    subst h
    rfl
  · rcases eb : b.getLast? with _ | y
    · rw [List.getLast?_eq_none_iff] at eb
      subst eb
      rw [List.perm_nil] at h
      subst h
      simp at ea
    · have hx := ha x (List.mem_of_getLast? ea)
      have hy := ha y (h.mem_iff.2 (List.mem_of_getLast? eb))
      simp only [tawCnbeta, ea, eb, hf, hsum, hx.1, hx.2, hy.1, hy.2]

/-- In general it does: two fuselages of different height, entered in either order. -/
theorem C173_order_counterexample :
    ∃ (r : SideRef) (v : Fin) (a b : List SideBody), a.Perm b ∧ tawCnbeta r v a ≠ tawCnbeta r v b := by
  refine ⟨⟨100, 10, 8, 0, 0, 10, 100, 1, 1⟩, ⟨10, 20, 4, 1, 3⟩,
    [⟨20, 20, 2, 2, 2, 2, 1⟩, ⟨20, 20, 2, 2, 2, 2, 2⟩], [⟨20, 20, 2, 2, 2, 2, 2⟩, ⟨20, 20, 2, 2, 2, 2, 1⟩], List.Perm.swap _ _ _, ?_⟩
  simp only [tawCnbeta, List.getLast?_cons_cons, List.getLast?_singleton, List.foldl_cons, List.foldl_nil]
  intro h
  have h := Option.some.inj h
  have e : cnBody ⟨100, 10, 8, 0, 0, 10, 100, 1, 1⟩ ⟨20, 20, 2, 2, 2, 2, 1⟩ =
      cnBody ⟨100, 10, 8, 0, 0, 10, 100, 1, 1⟩ ⟨20, 20, 2, 2, 2, 2, 2⟩ := rfl
  rw [e] at h
  have h := add_right_cancel h
  have f1 : finFactor (4 / 2) = 0.76 := by norm_num [finFactor]
  have f2 : finFactor (4 / 1) = 1 := by norm_num [finFactor]
  simp only [f1, f2, Real.cos_zero] at h
  norm_num at h

example : 0 < sidewash ⟨100, 30, 9, 0, 0.4, 15, 200, 1e-5, 1⟩ 20 3 := by
  unfold sidewash
  have : 0 ≤ cos 0.4 := Real.cos_nonneg_of_neg_pi_div_two_le_of_le (by linarith [Real.pi_pos]) (by linarith [Real.pi_gt_three])
  have : 0 ≤ 3.06 * ((20:ℝ) / 100 / (1 + cos 0.4)) := by positivity
  norm_num at this ⊢
  linarith

/-! ### C174: neutral point of the zero-fidelity analysis -/

/-- The margin is positive exactly when the aircraft is stable. -/
theorem C174_margin_sign (g : MainWing) (fus : Option Tube) (main : SweepWing) (surfs : List BareSurf) (M cg x α : ℝ)
    (h0 : 0 ≤ M) (ha : 0 < main.arUsed) :
    0 < (fidelityZeroStatic g fus main surfs M cg x α).margin ↔ (fidelityZeroStatic g fus main surfs M cg x α).CmAlpha < 0 := by
  have := (C171_bounds main M h0 ha).1
  simp only [fidelityZeroStatic]
  rw [div_pos_iff_of_pos_right this]
  constructor <;> intro h <;> linarith

/-- The neutral point lies behind the centre of gravity exactly when the aircraft is stable, and at it when neutral. -/
theorem C174_neutral_partial (g : MainWing) (fus : Option Tube) (main : SweepWing) (surfs : List BareSurf) (M cg α : ℝ)
    (h0 : 0 ≤ M) (ha : 0 < main.arUsed) (hm : 0 < g.mac) :
    (cg < (fidelityZeroStatic g fus main surfs M cg cg α).neutral ↔ (fidelityZeroStatic g fus main surfs M cg cg α).CmAlpha < 0) ∧
    ((fidelityZeroStatic g fus main surfs M cg cg α).CmAlpha = 0 → (fidelityZeroStatic g fus main surfs M cg cg α).neutral = cg) := by
  constructor
  · rw [← C174_margin_sign g fus main surfs M cg cg α h0 ha]
    simp only [fidelityZeroStatic]
    constructor
    · intro h
      by_contra h'
      have := mul_nonpos_of_nonneg_of_nonpos hm.le (not_lt.1 h')
      linarith
    · intro h
      have := mul_pos hm h
      linarith
  · intro h
    simp only [fidelityZeroStatic] at h ⊢
    rw [h]; simp

/-- It need not be the neutral point, even of a lone wing: the wing's own downwash is taken off its lift in the moment but not
in the slope the margin is divided by. With the centre of gravity one metre ahead of the aerodynamic centre the neutral point
should be the aerodynamic centre; it comes out ahead of it. -/
theorem C174_lone_wing_counterexample :
    ∃ (g : MainWing) (s : BareSurf) (M cg : ℝ), 0 < s.w.arUsed ∧ s.base.area = g.Sref ∧ s.base.eta = 1 ∧ 0 < g.mac ∧ 0 < g.Sref ∧
      s.base.vertical = false ∧
      (tawCmalpha g none [s.filled M] (s.base.origin + s.base.ac) 0).slope = 0 ∧
      (fidelityZeroStatic g none s.w [s] M cg cg 0).neutral ≠ s.base.origin + s.base.ac := by
  let w : SweepWing := ⟨0, 0, 1, 8, none, none⟩
  have ha : 0 < w.arUsed := by norm_num [w, SweepWing.arUsed]
  refine ⟨⟨8, 1, 1, 1, 8, 0, 0⟩, ⟨w, ⟨8, 1, 0, 1, 0, 0, false, 0, 0, 1, 0, 0⟩⟩, 0, 0, ha, rfl, rfl, by norm_num, by norm_num, rfl, ?_, ?_⟩
  · norm_num [tawCmalpha, cmSurf, cmBody, BareSurf.filled, num]
  · have hb := (C171_bounds w 0 le_rfl ha).1
    have hp := Real.pi_pos
    simp only [fidelityZeroStatic, tawCmalpha, List.map_cons, List.map_nil, List.sum_cons, List.sum_nil, cmSurf, cmBody,
      BareSurf.filled, epAlpha, num]
    generalize datcom w 0 = L at *
    have hw : w.ar = 8 := rfl
    rw [hw]
    have e : sqrt (8 * 8) ^ 2 = (64:ℝ) := by rw [Real.sq_sqrt (by norm_num)]; norm_num
    rw [e]
    norm_num
    intro h
    field_simp at h
    have : L = 0 := by linarith
    exact hb.ne' this

/-- The neutral point reported moves with the centre of gravity, by the share of the moment slope not matched by the slope of the
main wing. -/
theorem C174_neutral_moves (g : MainWing) (fus : Option Tube) (main : SweepWing) (surfs : List BareSurf) (M cg d α : ℝ) (hm : g.mac ≠ 0) :
    (fidelityZeroStatic g fus main surfs M (cg + d) (cg + d) α).neutral - (fidelityZeroStatic g fus main surfs M cg cg α).neutral =
      d * (1 - liftSlope g.Sref (surfs.map (BareSurf.filled M)) / datcom main M) := by
  simp only [fidelityZeroStatic, C172_cg_shift]
  field_simp; ring

end Verif.Stability
