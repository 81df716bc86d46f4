import Verif.Weights.Raymer
import Verif.Weights.FlopsProps

/-!
# Raymer's fuselage, horizontal tail, landing gear and nacelles: property C415

The specification is a set of power laws: how each weight changes when one quantity is multiplied.
-/

namespace Verif.Weights
open Real

/-- A fuselage that can be weighed: longer than 1.7 diameters, wing swept backwards. -/
structure RaymerFuse.Ok (f : RaymerFuse) : Prop where
  klg : 0 < f.klg
  tow : 0 < f.tow
  nult : 0 < f.nult
  width : 0 < f.width
  height : 0 < f.height
  slender : 1.7 * ((f.width + f.height) / 2) < f.length
  taper : 0 ≤ f.taper
  span : 0 < f.span
  sweep : 0 ≤ tan f.sweep

theorem RaymerFuse.Ok.facts {f : RaymerFuse} (h : f.Ok) :
    0 < f.D ∧ 0 < f.length / ft ∧ 0 < f.tow / lb * f.nult ∧ 0 < f.Sf ∧ 0 < 1 + f.Kws ∧ 0 < f.length / ft / f.D := by
  have h1 := lb_pos
  have h2 := ft_pos
  obtain ⟨_, a, b, c, d, e, t, s, w⟩ := h
  have hD : 0 < f.D := by unfold RaymerFuse.D; positivity
  have hL : 0 < f.length := by linarith
  have hK : 0 ≤ f.Kws := by unfold RaymerFuse.Kws; positivity
  refine ⟨hD, by positivity, by positivity, ?_, by linarith, by positivity⟩
  unfold RaymerFuse.Sf
  have : 1.7 < f.length / ft / f.D := by
    rw [lt_div_iff₀ hD, lt_div_iff₀ h2]
    have : f.D * ft = (f.width + f.height) / 2 := by unfold RaymerFuse.D; field_simp
    linarith
  have := sub_pos.2 this
  have := Real.pi_pos
  positivity

/-- **C415, fuselage.** A fuselage longer than 1.7 diameters under a wing swept backwards has a positive weight. -/
theorem C415_fuselage_partial (f : RaymerFuse) (h : f.Ok) : ∃ w, fuselageRaymer f = some w ∧ 0 < w := by
  obtain ⟨a, b, c, d, e, g⟩ := h.facts
  have h1 := lb_pos
  have h2 := h.klg
  simp only [fuselageRaymer]
  rw [if_neg (by push Not; exact ⟨a.ne', b.ne', b.le, c.le, d.le, e.le, g.le⟩)]
  exact ⟨_, rfl, by positivity⟩

/-- **C415, load of the fuselage.** Gross weight and load factor count by their product: `k` times the one or the
other is `√k` times the fuselage. -/
theorem C415_fuselage_load (f : RaymerFuse) (h : f.Ok) (k w : ℝ) (hk : 0 < k) (hw : fuselageRaymer f = some w) :
    fuselageRaymer { f with tow := k * f.tow } = some (√k * w) ∧
    fuselageRaymer { f with nult := k * f.nult } = some (√k * w) := by
  obtain ⟨a, b, c, d, e, g⟩ := h.facts
  have h1 := lb_pos
  have hn : ¬(f.D = 0 ∨ f.length / ft = 0 ∨ f.length / ft < 0 ∨ f.tow / lb * f.nult < 0 ∨ f.Sf < 0 ∨ 1 + f.Kws < 0 ∨
      f.length / ft / f.D < 0) := by
    push Not; exact ⟨a.ne', b.ne', b.le, c.le, d.le, e.le, g.le⟩
  have hn' : ¬(f.D = 0 ∨ f.length / ft = 0 ∨ f.length / ft < 0 ∨ k * (f.tow / lb * f.nult) < 0 ∨ f.Sf < 0 ∨ 1 + f.Kws < 0 ∨
      f.length / ft / f.D < 0) := by
    push Not; exact ⟨a.ne', b.ne', b.le, by positivity, d.le, e.le, g.le⟩
  simp only [fuselageRaymer] at hw
  rw [if_neg hn] at hw
  have hw' := (Option.some.inj hw).symm
  have e1 : k * f.tow / lb * f.nult = k * (f.tow / lb * f.nult) := by ring
  have e2 : f.tow / lb * (k * f.nult) = k * (f.tow / lb * f.nult) := by ring
  have hs : (k * (f.tow / lb * f.nult)) ^ (0.5 : ℝ) = √k * (f.tow / lb * f.nult) ^ (0.5 : ℝ) := by
    rw [Real.mul_rpow hk.le c.le, Real.sqrt_eq_rpow]; norm_num
  constructor
  · have hD : RaymerFuse.D { f with tow := k * f.tow } = f.D := rfl
    have hS : RaymerFuse.Sf { f with tow := k * f.tow } = f.Sf := rfl
    have hK : RaymerFuse.Kws { f with tow := k * f.tow } = f.Kws := rfl
    simp only [fuselageRaymer, hD, hS, hK, e1]
    rw [if_neg hn', hs, hw']
    congr 1; ring
  · have hD : RaymerFuse.D { f with nult := k * f.nult } = f.D := rfl
    have hS : RaymerFuse.Sf { f with nult := k * f.nult } = f.Sf := rfl
    have hK : RaymerFuse.Kws { f with nult := k * f.nult } = f.Kws := rfl
    simp only [fuselageRaymer, hD, hS, hK, e2]
    rw [if_neg hn', hs, hw']
    congr 1; ring

/-- A fuselage for the examples. -/
def exFuseR : RaymerFuse := ⟨1.12, 79000, 3.75, 38, 4, 4, 0.1, 34, 0.4⟩

theorem exFuseR_ok : exFuseR.Ok := by
  refine ⟨?_, ?_, ?_, ?_, ?_, ?_, ?_, ?_, ?_⟩ <;> norm_num [exFuseR]
  exact (Real.tan_pos_of_pos_of_lt_pi_div_two (by norm_num) (by linarith [Real.pi_gt_three])).le

example : exFuseR.Ok ∧ ∃ w, fuselageRaymer exFuseR = some w ∧ 0 < w :=
  ⟨exFuseR_ok, C415_fuselage_partial _ exFuseR_ok⟩

/-- C415 is false of short fuselages: below 1.7 diameters the weight is no number. -/
theorem C415_short_counterexample (f : RaymerFuse) (hw : 0 < f.width) (hh : 0 < f.height)
    (hl : f.length < 1.7 * ((f.width + f.height) / 2)) : fuselageRaymer f = none := by
  have h2 := ft_pos
  have hD : 0 < f.D := by unfold RaymerFuse.D; positivity
  have : f.Sf < 0 := by
    unfold RaymerFuse.Sf
    have : f.length / ft / f.D < 1.7 := by
      rw [div_lt_iff₀ hD, div_lt_iff₀ h2]
      have : f.D * ft = (f.width + f.height) / 2 := by unfold RaymerFuse.D; field_simp
      linarith
    have h3 : π * (f.length / ft / f.D - 1.7) < 0 := mul_neg_of_pos_of_neg Real.pi_pos (by linarith)
    exact mul_neg_of_neg_of_pos h3 (by positivity)
  simp only [fuselageRaymer]
  rw [if_pos (by tauto)]

/-- **C415, horizontal tail.** A tail behind the wing has a positive weight; `k` times the gross weight is `k^0.639` times the
tail, `k` times the arm `k^0.704 / k` times: a longer arm, a lighter tail. -/
theorem C415_tail_partial (width span tow S arm sweep AR nult elevator k : ℝ) (hw : 0 ≤ width) (hs : 0 < span) (ht : 0 < tow)
    (hS : 0 < S) (ha : 0 < arm) (hc : 0 < cos sweep) (hA : 0 < AR) (hn : 0 < nult) (he : 0 ≤ elevator) (hk : 0 < k) :
    ∃ w, tailHorizontalRaymer width span tow S arm sweep AR nult elevator = some w ∧ 0 < w ∧
      tailHorizontalRaymer width span (k * tow) S arm sweep AR nult elevator = some (k ^ (0.639 : ℝ) * w) ∧
      tailHorizontalRaymer width span tow S (k * arm) sweep AR nult elevator = some (k ^ (0.704 : ℝ) / k * w) := by
  have h1 := lb_pos
  have h2 := ft_pos
  have p1 : 0 < 1 + width / ft / (span / ft) := by positivity
  have p2 : 0 < 1 + elevator * (S / ft ^ 2) / (S / ft ^ 2) := by positivity
  have p3 : 0 < span / ft := by positivity
  have p4 : 0 < S / ft ^ 2 := by positivity
  have p5 : 0 < arm / ft := by positivity
  have p6 : 0 < tow / lb := by positivity
  have e1 : k * tow / lb = k * (tow / lb) := by ring
  have e2 : k * arm / ft = k * (arm / ft) := by ring
  simp only [tailHorizontalRaymer, e1, e2]
  generalize 1 + width / ft / (span / ft) = a at *
  generalize 1 + elevator * (S / ft ^ 2) / (S / ft ^ 2) = b at *
  generalize span / ft = c at *
  generalize S / ft ^ 2 = d at *
  generalize arm / ft = r at *
  generalize tow / lb = g at *
  have q1 : 0 < k * g := by positivity
  have q2 : 0 < k * r := by positivity
  rw [if_neg (by push Not; exact ⟨p3.ne', p4, p5, hc.ne', p1, p6.le, hn.le, hA.le, p2.le⟩),
    if_neg (by push Not; exact ⟨p3.ne', p4, p5, hc.ne', p1, q1.le, hn.le, hA.le, p2.le⟩),
    if_neg (by push Not; exact ⟨p3.ne', p4, q2, hc.ne', p1, p6.le, hn.le, hA.le, p2.le⟩)]
  refine ⟨_, rfl, by positivity, ?_, ?_⟩
  · rw [Real.mul_rpow hk.le p6.le]; congr 1; ring
  · rw [show 0.3 * (k * r) = k * (0.3 * r) by ring, Real.mul_rpow hk.le (by positivity), mul_inv]; congr 1
    ring

example : (0 : ℝ) ≤ 4 ∧ (0 : ℝ) < 14 ∧ (0 : ℝ) < cos 0 := by norm_num

/-- A tail at or ahead of the wing has no weight: what comes out is no number. -/
theorem C415_canard_counterexample (width span tow S arm sweep AR nult elevator : ℝ) (ha : arm ≤ 0) :
    tailHorizontalRaymer width span tow S arm sweep AR nult elevator = none := by
  have : arm / ft ≤ 0 := div_nonpos_of_nonpos_of_nonneg ha ft_pos.le
  simp only [tailHorizontalRaymer]
  rw [if_pos (by tauto)]

/-- **C415, landing gear.** Within the range at which the landing weight vanishes the gear has a positive weight;
`k` times the gross weight is `k^0.888` times the main gear and `k^0.646` times the nose gear. -/
theorem C415_gear_partial (ac : String) (tow range ms ns mw nw k : ℝ) (ht : 0 < tow) (hr : rfact ac * (range / nmi) < 1)
    (hm : 0 < ms) (hn : 0 < ns) (hmw : 0 < mw) (hnw : 0 < nw) (hk : 0 < k) :
    ∃ m n, gearRaymer ac tow range ms ns mw nw = some (m, n) ∧ 0 < m ∧ 0 < n ∧
      gearRaymer ac (k * tow) range ms ns mw nw = some (k ^ (0.888 : ℝ) * m, k ^ (0.646 : ℝ) * n) := by
  have h1 := lb_pos
  have hW : 0 < landingWeight ac tow range := by
    unfold landingWeight
    have := sub_pos.2 hr
    positivity
  have hi : 0 < inch := by norm_num [inch]
  have hv : 0 < vstallRaymer := by norm_num [vstallRaymer]
  have eW : landingWeight ac (k * tow) range = k * landingWeight ac tow range := by unfold landingWeight; ring
  have p1 : 0 < ms / inch := by positivity
  have p2 : 0 < ns / inch := by positivity
  have p3 : 0 < mw * 2 := by positivity
  have q : 0 < k * landingWeight ac tow range := by positivity
  simp only [gearRaymer, eW]
  generalize landingWeight ac tow range = W at *
  generalize ms / inch = a at *
  generalize ns / inch = b at *
  generalize mw * 2 = c at *
  rw [if_neg (by push Not; exact ⟨hW.le, p1.le, p2.le, p3.le, hnw.le⟩),
    if_neg (by push Not; exact ⟨q.le, p1.le, p2.le, p3.le, hnw.le⟩)]
  refine ⟨_, _, rfl, by positivity, by positivity, ?_⟩
  rw [Real.mul_rpow hk.le hW.le, Real.mul_rpow hk.le hW.le]
  congr 2 <;> ring

example : (0 : ℝ) < 79000 ∧ rfact "medium-range" * (3000 * nmi / nmi) < 1 := by
  have h : ¬"medium-range" = "sst" := by decide
  norm_num [rfact, nmi, h]

/-- C415 is false of very long ranges: the gear of an aircraft for more than 25000 nautical miles (11112 if
supersonic) is no number, and up to there a longer range makes it lighter. -/
theorem C415_range_counterexample (ac : String) (tow range ms ns mw nw : ℝ) (ht : 0 < tow) (hr : 1 < rfact ac * (range / nmi)) :
    gearRaymer ac tow range ms ns mw nw = none := by
  have h1 := lb_pos
  have hW : landingWeight ac tow range < 0 := by
    unfold landingWeight
    exact mul_neg_of_pos_of_neg (by positivity) (by linarith)
  simp only [gearRaymer]
  rw [if_pos (Or.inl hW)]

/-- **C415, nacelles.** The weight is that of one nacelle times their number, and grows with the load factor and the engines. -/
theorem C415_nacelle (n length diameter nult nult' weng weng' : ℝ) (hn : 0 < n) (hl : 0 < length) (hd : 0 < diameter) (hu : 0 < nult)
    (hu' : nult < nult') (hw : 0 < weng) (hw' : weng < weng') :
    nacelleRaymer n length diameter nult weng = n * nacelleRaymer 1 length diameter nult weng ∧
    0 < nacelleRaymer n length diameter nult weng ∧
    nacelleRaymer n length diameter nult weng < nacelleRaymer n length diameter nult' weng ∧
    nacelleRaymer n length diameter nult weng < nacelleRaymer n length diameter nult weng' := by
  have h1 := lb_pos
  have h2 := ft_pos
  have hp := Real.pi_pos
  simp only [nacelleRaymer]
  refine ⟨by ring, by positivity, by gcongr, by gcongr⟩

example : (0 : ℝ) < 2 ∧ (2.5 : ℝ) < 3.75 := by norm_num

/-- The engine of the correlation is in pounds and it is given kilograms, so the nacelles are too light. -/
theorem C415_nacelle_counterexample (n length diameter nult weng : ℝ) (hn : 0 < n) (hl : 0 < length) (hd : 0 < diameter) (hu : 0 < nult)
    (hw : 0 < weng) : nacelleRaymer n length diameter nult weng < nacelleRaymer n length diameter nult (weng / lb) := by
  refine (C415_nacelle n length diameter nult (nult + 1) weng (weng / lb) hn hl hd hu (by linarith) hw ?_).2.2.2
  rw [lt_div_iff₀ lb_pos]
  have : lb < 1 := by norm_num [lb]
  nlinarith


/-- **C415, stall.** The gear is made for a stall at 51 knots: 51 nautical miles in an hour. -/
theorem C415_stall : vstallRaymer * 3600 = 51 * 1852 ∧ 26 < vstallRaymer ∧ vstallRaymer < 27 := by
  unfold vstallRaymer
  norm_num

end Verif.Weights
