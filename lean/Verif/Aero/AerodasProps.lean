import Verif.Aero.Aerodas
import Mathlib.Analysis.Convex.SpecificFunctions.Basic
import Mathlib.Analysis.SpecialFunctions.Trigonometric.Bounds
import Mathlib.Analysis.Real.Pi.Bounds
import Mathlib.Analysis.SpecialFunctions.Log.Deriv

/-!
C137 lift and drag before and after stall.
-/

namespace Verif.Aero.Aerodas
open Real

/-! ## C137 -/

/-- `(r+C)·t − r·t^(1+C/r)` does not exceed `C`, and is `C` at one. -/
theorem hump {r C t : ℝ} (hr : 0 < r) (hC : 0 ≤ C) (ht : 0 ≤ t) : (r + C) * t - r * t ^ (1 + C / r) ≤ C := by
  have h := one_add_mul_self_le_rpow_one_add (s := t - 1) (p := 1 + C / r) (by linarith)
    (by have : 0 ≤ C / r := by positivity
        linarith)
  rw [add_sub_cancel] at h
  have h2 := mul_le_mul_of_nonneg_left h hr.le
  have e : r * (1 + (1 + C / r) * (t - 1)) = r + (r + C) * (t - 1) := by field_simp
  rw [e] at h2
  linarith

/-- Before stall: no lift at the zero lift angle; the maximum lift coefficient is reached at the angle meant for it and not
exceeded at any angle above zero lift — where the straight line passes above it. -/
theorem C137_pre_partial (A0 acl clMax slope : ℝ) (ha : A0 < acl) (hc : 0 ≤ clMax) (hr : clMax < slope * (acl - A0)) :
    preLift A0 acl clMax slope A0 = 0 ∧ preLift A0 acl clMax slope acl = clMax
      ∧ ∀ a, A0 ≤ a → preLift A0 acl clMax slope a ≤ clMax := by
  have hd : 0 < acl - A0 := by linarith
  have e : rcl A0 acl clMax slope = slope * (acl - A0) - clMax := by
    unfold rcl; rw [if_neg (by linarith)]
  refine ⟨?_, ?_, ?_⟩
  · unfold preLift; simp
  · unfold preLift
    dsimp only
    rw [if_pos ha, div_self hd.ne', one_rpow, e]; ring
  · intro a haa
    rcases haa.lt_or_eq with h | h
    · unfold preLift
      dsimp only
      rw [if_pos h, e]
      have hm := hump (r := slope * (acl - A0) - clMax) (C := clMax) (t := (a - A0) / (acl - A0)) (by linarith) hc
        (div_nonneg (by linarith) hd.le)
      have es : slope * (a - A0) = (slope * (acl - A0) - clMax + clMax) * ((a - A0) / (acl - A0)) := by
        field_simp; ring
      rw [es]; exact hm
    · rw [← h]; unfold preLift; simp [hc]

example : preLift 0 0.3 1.2 5.5 0.3 = 1.2 := (C137_pre_partial 0 0.3 1.2 5.5 (by norm_num) (by norm_num) (by norm_num)).2.1

/-- Where the straight line passes below the maximum, lift follows it up to the angle of maximum lift. -/
theorem C137_pre_line (A0 acl clMax slope a : ℝ) (hc : 0 ≤ clMax) (hr : slope * (acl - A0) ≤ clMax) (h0 : A0 ≤ a)
    (h1 : a ≤ acl) : preLift A0 acl clMax slope a ≤ slope * (a - A0)
      ∧ slope * (a - A0) - 1e-16 ≤ preLift A0 acl clMax slope a := by
  have e : rcl A0 acl clMax slope = 1e-16 := by unfold rcl; rw [if_pos (by linarith)]
  rcases h0.lt_or_eq with h | h
  · have hd : 0 < acl - A0 := by linarith
    have hN : 0 ≤ 1 + clMax / 1e-16 := by positivity
    have hp0 : 0 ≤ (a - A0) / (acl - A0) := div_nonneg (by linarith) hd.le
    have hp1 : (a - A0) / (acl - A0) ≤ 1 := (div_le_one hd).2 (by linarith)
    have hq0 := rpow_nonneg hp0 (1 + clMax / 1e-16)
    have hq1 := rpow_le_one hp0 hp1 hN
    unfold preLift
    dsimp only
    rw [if_pos h, e]
    constructor <;> nlinarith
  · rw [← h]; unfold preLift; simp; norm_num

example : preLift 0 0.3 1.2 3 0.2 ≤ 0.6 := by
  have := (C137_pre_line 0 0.3 1.2 3 0.2 (by norm_num) (by norm_num) (by norm_num) (by norm_num)).1
  norm_num at this ⊢; exact this

/-- Lift before stall is odd about the zero lift angle. -/
theorem C137_pre_odd (A0 acl clMax slope a : ℝ) :
    preLift A0 acl clMax slope (2 * A0 - a) = -preLift A0 acl clMax slope a := by
  unfold preLift
  dsimp only
  rcases lt_trichotomy a A0 with h | h | h
  · rw [if_pos (by linarith), if_neg (by linarith), if_neg h.ne]
    rw [show 2 * A0 - a - A0 = A0 - a by ring]; ring
  · subst h
    simp [show 2 * a - a = a by ring]
  · rw [if_neg (by linarith), if_neg (by linarith), if_pos h, show A0 - (2 * A0 - a) = a - A0 by ring]
    ring

/-- The section's angle and the wing's slope and maximum, as the analysis combines them, for any aspect ratio: the line
passes below the maximum. -/
theorem line_below (AR S1p A0 : ℝ) (hAR : 0 < AR) (hS : 0 < S1p) (acdp cdp : ℝ) :
    (finite AR sectionMax acdp cdp S1p).slope * (sectionAngle A0 S1p - A0) < (finite AR sectionMax acdp cdp S1p).clMax := by
  have hdeg : 0 < deg := by unfold deg; have := pi_pos; positivity
  have hsq : AR ≤ √(4 + AR ^ 2) := by
    rw [le_sqrt' hAR]; linarith
  have e1 : (finite AR sectionMax acdp cdp S1p).slope * (sectionAngle A0 S1p - A0) = 1.5 * (AR / (2 + √(4 + AR ^ 2))) := by
    have : 0 < 2 + √(4 + AR ^ 2) := by positivity
    unfold finite sectionAngle sectionMax
    dsimp only
    field_simp
    ring
  have e2 : (finite AR sectionMax acdp cdp S1p).clMax = 1.5 * (0.67 + 0.33 * exp (-(4.0 / AR) ^ (2 : ℝ))) := rfl
  rw [e1, e2]
  have h1 : AR / (2 + √(4 + AR ^ 2)) ≤ AR / (2 + AR) := by gcongr
  have h2 : AR / (2 + AR) < 0.67 + 0.33 * exp (-(4.0 / AR) ^ (2 : ℝ)) := by
    have hx := add_one_le_exp (-(4.0 / AR) ^ (2 : ℝ))
    have hp : 0 < exp (-(4.0 / AR) ^ (2 : ℝ)) := exp_pos _
    have hc : (4.0 / AR) ^ (2 : ℝ) = (4.0 / AR) ^ 2 := by exact_mod_cast rpow_natCast (4.0 / AR) 2
    rw [hc] at hx hp ⊢
    rw [div_lt_iff₀ (by linarith)]
    by_cases h4 : AR < 4
    · nlinarith
    · have h4' : 4 ≤ AR := not_lt.1 h4
      have hu : (4.0 / AR) ^ 2 * AR ^ 2 = 16 := by field_simp; norm_num
      obtain ⟨u, hu'⟩ : ∃ u, u = (4.0 / AR) ^ 2 := ⟨_, rfl⟩
      rw [← hu'] at hu hx hp ⊢
      have hu0 : 0 ≤ u := by rw [hu']; positivity
      have hk : u * (2 + AR) ≤ 6 := by
        by_contra hcon
        have := not_le.1 hcon
        have h16 : 6 * AR ^ 2 < u * (2 + AR) * AR ^ 2 := by gcongr
        have : u * (2 + AR) * AR ^ 2 = 16 * (2 + AR) := by rw [← hu]; ring
        nlinarith
      nlinarith
  linarith

/-- So the maximum lift coefficient computed for a wing is never what the wing reaches at its stall angle. -/
theorem C137_pre_counterexample (AR S1p A0 acdp cdp : ℝ) (hAR : 0 < AR) (hS : 0 < S1p) :
    preLift A0 (sectionAngle A0 S1p) (finite AR sectionMax acdp cdp S1p).clMax
        (finite AR sectionMax acdp cdp S1p).slope (sectionAngle A0 S1p) < (finite AR sectionMax acdp cdp S1p).clMax := by
  have h := line_below AR S1p A0 hAR hS acdp cdp
  have ha : A0 < sectionAngle A0 S1p := by
    have : 0 < sectionMax / S1p := by unfold sectionMax; positivity
    unfold sectionAngle; linarith
  have hd : 0 < sectionAngle A0 S1p - A0 := by linarith
  unfold preLift
  dsimp only
  rw [if_pos ha, div_self hd.ne', one_rpow]
  unfold rcl
  rw [if_pos (by linarith)]
  norm_num
  linarith

/-- The drag before stall: minimum at its angle, the given maximum at the upper end, nothing outside. -/
theorem C137_pre_drag (A0 acd cdMin cdMax aMin a : ℝ) (h : cdMin ≤ cdMax) (ha : aMin < acd)
    (hm : 2 * A0 - acd ≤ aMin) :
    preDrag A0 acd cdMin cdMax aMin aMin = cdMin ∧ preDrag A0 acd cdMin cdMax aMin acd = cdMax
      ∧ (2 * A0 - acd ≤ a → a ≤ acd → cdMin ≤ preDrag A0 acd cdMin cdMax aMin a)
      ∧ (acd < a → preDrag A0 acd cdMin cdMax aMin a = 0) := by
  have hd : acd - aMin ≠ 0 := by linarith
  refine ⟨?_, ?_, ?_, ?_⟩
  · unfold preDrag; rw [if_pos ⟨hm, ha.le⟩]; simp
  · unfold preDrag; rw [if_pos ⟨by linarith, le_rfl⟩, div_self hd]; ring
  · intro h1 h2
    unfold preDrag; rw [if_pos ⟨h1, h2⟩]
    have := mul_nonneg (sub_nonneg.2 h) (sq_nonneg ((a - aMin) / (acd - aMin)))
    linarith
  · intro h1
    unfold preDrag; rw [if_neg (by intro hh; linarith [hh.2])]

example : preDrag 0 0.3 0.01 0.1 0 0.3 = 0.1 :=
  (C137_pre_drag 0 0.3 0.01 0.1 0 0 (by norm_num) (by norm_num) (by norm_num)).2.1

/-! ### After stall -/

theorem deg_pos : 0 < deg := by unfold deg; have := pi_pos; positivity

/-- The post-stall maximum is between 0 and 1.19. -/
theorem postMax_bounds {tc AR : ℝ} (h0 : 0 ≤ tc) (h1 : tc < 1) (hAR : 0 < AR) : 0 < postMax tc AR ∧ postMax tc AR ≤ 1.19 := by
  have hp : 0 < exp (-(9 / AR) ^ (2.3 : ℝ)) := exp_pos _
  have hl : exp (-(9 / AR) ^ (2.3 : ℝ)) ≤ 1 := by
    rw [exp_le_one_iff]
    have : 0 ≤ (9 / AR) ^ (2.3 : ℝ) := by positivity
    linarith
  have ht : 0 < 1 - tc * tc := by nlinarith
  have ht1 : 1 - tc * tc ≤ 1 := by nlinarith
  unfold postMax
  generalize exp (-(9 / AR) ^ (2.3 : ℝ)) = u at *
  generalize 1 - tc * tc = v at *
  constructor
  · positivity
  · have : v * (0.65 + 0.35 * u) ≤ 1 * 1 := mul_le_mul ht1 (by linarith) (by positivity) (by norm_num)
    nlinarith

theorem postBranch_low {m a : ℝ} (h : a < 92 * deg) :
    postBranch m a = (1.632 - m + m) * ((92 * deg - a) / (51 * deg))
      - (1.632 - m) * ((92 * deg - a) / (51 * deg)) ^ (1 + m / (1.632 - m)) := by
  have hd := deg_pos
  unfold postBranch
  dsimp only
  rw [if_neg (not_le.2 h)]
  congr 1
  field_simp
  ring

/-- After stall: the maximum is reached at 41 degrees and not exceeded up to 92, where the lift vanishes; beyond it is
negative first. -/
theorem C137_post (A0 acl tc AR : ℝ) (h0 : 0 ≤ tc) (h1 : tc < 1) (hAR : 0 < AR) (hA : A0 ≤ 0) (hacl : 0 < acl)
    (h41 : acl ≤ 41 * deg) :
    postLift A0 acl (postMax tc AR) (41 * deg) = postMax tc AR
      ∧ (∀ a, acl ≤ a → a ≤ 92 * deg → postLift A0 acl (postMax tc AR) a ≤ postMax tc AR)
      ∧ postLift A0 acl (postMax tc AR) (92 * deg) = 0
      ∧ (∀ a, 0 < a → a < acl → postLift A0 acl (postMax tc AR) a = 0) := by
  have hd := deg_pos
  obtain ⟨m0, m1⟩ := postMax_bounds h0 h1 hAR
  generalize postMax tc AR = m at *
  have hr : 0 < 1.632 - m := by norm_num at *; linarith
  have first : ∀ a, acl ≤ a → postLift A0 acl m a = postBranch m a := by
    intro a ha
    unfold postLift
    dsimp only
    rw [if_neg (by linarith), if_neg (by linarith), if_pos ha]
  have h92 : postBranch m (92 * deg) = 0 := by
    unfold postBranch
    dsimp only
    rw [if_pos le_rfl, sub_self, zero_div, zero_rpow (by
      have : 0 < m / (1.632 - m) := by positivity
      linarith), mul_div_assoc, div_self hd.ne']
    ring
  refine ⟨?_, ?_, ?_, ?_⟩
  · rw [first _ h41, postBranch_low (by nlinarith)]
    rw [show (92 * deg - 41 * deg) / (51 * deg) = 1 by field_simp; ring, one_rpow]
    ring
  · intro a ha hb
    rw [first _ ha]
    rcases hb.lt_or_eq with h | h
    · rw [postBranch_low h]
      exact hump hr m0.le (div_nonneg (by linarith) (by positivity))
    · rw [h, h92]; exact m0.le
  · rw [first _ (by nlinarith), h92]
  · intro a ha hb
    unfold postLift
    dsimp only
    rw [if_neg (by linarith), if_neg (by linarith), if_neg (not_le.2 hb)]

example : postLift 0 0.25 (postMax 0.12 8) (41 * deg) = postMax 0.12 8 := by
  have : (0.25 : ℝ) ≤ 41 * deg := by unfold deg; have := pi_gt_three; linarith
  exact (C137_post 0 0.25 0.12 8 (by norm_num) (by norm_num) (by norm_num) le_rfl (by norm_num) this).1

/-- Lift after stall is odd about the zero lift angle. -/
theorem C137_post_odd (A0 acl m a : ℝ) (hA : A0 ≤ 0) (hacl : 0 < acl) :
    postLift A0 acl m (2 * A0 - a) = -postLift A0 acl m a := by
  unfold postLift
  dsimp only
  rw [show -(2 * A0 - a) + 2 * A0 = a by ring, show -a + 2 * A0 = 2 * A0 - a by ring]
  by_cases h1 : acl ≤ a
  · rw [if_pos h1, if_neg (by linarith : ¬ acl ≤ 2 * A0 - a), if_neg (by linarith : ¬ 0 < 2 * A0 - a), if_pos h1]
  · rw [if_neg h1]
    by_cases h2 : 0 < a
    · rw [if_pos h2, if_neg (by linarith : ¬ acl ≤ 2 * A0 - a), if_neg (by linarith : ¬ 0 < 2 * A0 - a), if_neg h1]; ring
    · rw [if_neg h2]
      by_cases h3 : acl ≤ 2 * A0 - a
      · rw [if_pos h3, if_pos h3]; ring
      · rw [if_neg h3, if_neg h3]; simp [h1]

/-- The drag after stall grows from the pre-stall maximum towards the post-stall maximum between its start and 90 degrees. -/
theorem C137_drag_partial (A0 acl acd cd1 cd2 a b : ℝ) (hA : A0 ≤ 0) (hc : 0 < acl) (hca : acl ≤ acd) (hd : acd < π / 2) (hcd : cd1 < cd2) (ha : acd < a)
    (hab : a < b) (hb : b ≤ π / 2) :
    cd1 < postDrag A0 acl acd cd1 cd2 a ∧ postDrag A0 acl acd cd1 cd2 a < postDrag A0 acl acd cd1 cd2 b
      ∧ postDrag A0 acl acd cd1 cd2 b < cd2 := by
  have hp := pi_gt_three
  have hpos : 0 < π / 2 - acd := by linarith
  have first : ∀ a, acd < a → postDrag A0 acl acd cd1 cd2 a = dragBranch acd cd1 cd2 a := by
    intro a ha
    unfold postDrag
    dsimp only
    rw [if_neg (by linarith), if_neg (by intro h; linarith [h.1]), if_pos ha]
  rw [first a ha, first b (by linarith)]
  have ta : 0 < (a - acd) / (π / 2 - acd) := div_pos (by linarith) hpos
  have tab : (a - acd) / (π / 2 - acd) < (b - acd) / (π / 2 - acd) := by gcongr
  have tb : (b - acd) / (π / 2 - acd) ≤ 1 := by rw [div_le_one hpos]; linarith
  have s0 : 0 < sin ((a - acd) / (π / 2 - acd)) := sin_pos_of_pos_of_lt_pi ta (by linarith)
  have s1 : sin ((a - acd) / (π / 2 - acd)) < sin ((b - acd) / (π / 2 - acd)) :=
    sin_lt_sin_of_lt_of_le_pi_div_two (by linarith) (by linarith) tab
  have s2 : sin ((b - acd) / (π / 2 - acd)) < 1 := by
    rw [← sin_pi_div_two]
    exact sin_lt_sin_of_lt_of_le_pi_div_two (by linarith) le_rfl (by linarith)
  unfold dragBranch
  generalize sin ((a - acd) / (π / 2 - acd)) = u at *
  generalize sin ((b - acd) / (π / 2 - acd)) = v at *
  refine ⟨by nlinarith, by nlinarith, by nlinarith⟩

example : (0.1 : ℝ) < postDrag 0 0.2 0.3 0.1 2 0.5 :=
  (C137_drag_partial 0 0.2 0.3 0.1 2 0.5 1 le_rfl (by norm_num) (by norm_num) (by linarith [pi_gt_three]) (by norm_num)
    (by norm_num) (by norm_num) (by linarith [pi_gt_three])).1

/-- At 90 degrees it is not the post-stall maximum. -/
theorem C137_drag_counterexample : ¬ ∀ A0 acl acd cd1 cd2 : ℝ, A0 ≤ 0 → 0 < acl → acl ≤ acd → acd < π / 2 → cd1 < cd2 →
    postDrag A0 acl acd cd1 cd2 (π / 2) = cd2 := by
  intro H
  have hp := pi_gt_three
  have h := H 0 0.2 0.3 0.1 2 le_rfl (by norm_num) (by norm_num) (by linarith) (by norm_num)
  have := (C137_drag_partial 0 0.2 0.3 0.1 2 1 (π / 2) le_rfl (by norm_num) (by norm_num) (by linarith) (by norm_num) (by norm_num) (by linarith)
    le_rfl).2.2
  linarith

/-! ### Totals -/

/-- Over the vehicle: vertical surfaces add drag and no lift; the wings add up; the increment is added once. -/
theorem C137_total (A0 a S incr : ℝ) (ws : List Wing) (w : Wing) :
    (total A0 a S incr (w :: ws)).2 = (total A0 a S incr ws).2 + max w.cd1 w.cd2 * w.area / S
      ∧ (total A0 a S incr []).2 = incr
      ∧ (w.vertical = true → (total A0 a S incr (w :: ws)).1 = (total A0 a S incr ws).1)
      ∧ (w.vertical = false → A0 < a → 0 ≤ w.area / S →
          w.cl1 * (w.area / S) ≤ (total A0 a S incr (w :: ws)).1 - (total A0 a S incr ws).1
            ∧ w.cl2 * (w.area / S) ≤ (total A0 a S incr (w :: ws)).1 - (total A0 a S incr ws).1) := by
  unfold total
  refine ⟨?_, by simp, ?_, ?_⟩
  · simp only [List.map_cons, List.sum_cons]; ring
  · intro h; simp [h]
  · intro h ha hs
    simp only [List.map_cons, List.sum_cons, h, Bool.false_eq_true, if_false, add_sub_cancel_right]
    unfold wingLift
    rw [if_neg (not_le.2 ha), mul_div_assoc]
    exact ⟨mul_le_mul_of_nonneg_right (le_max_left _ _) hs, mul_le_mul_of_nonneg_right (le_max_right _ _) hs⟩

/-- Mirrored about the zero lift angle the wing lifts the other way. -/
theorem C137_lift_odd (A0 acl clMax slope m a : ℝ) (w : Wing) (hA : A0 ≤ 0) (hacl : 0 < acl) :
    wingLift A0 (2 * A0 - a) { w with
        cl1 := preLift A0 acl clMax slope (2 * A0 - a), cl2 := postLift A0 acl m (2 * A0 - a) }
      = -wingLift A0 a { w with cl1 := preLift A0 acl clMax slope a, cl2 := postLift A0 acl m a } := by
  unfold wingLift
  dsimp only
  rw [C137_pre_odd, C137_post_odd A0 acl m a hA hacl]
  rcases lt_trichotomy a A0 with h | h | h
  · rw [if_neg (by linarith), if_pos h.le, max_neg_neg]
  · subst h
    have e1 : preLift a acl clMax slope a = 0 := by unfold preLift; simp
    have e2 : postLift a acl m a = 0 := by
      unfold postLift
      dsimp only
      rw [show -a + 2 * a = a by ring, if_neg (by linarith), if_neg (by linarith), if_neg (by linarith)]
    simp [e1, e2]
  · rw [if_pos (by linarith), if_neg (not_le.2 h), min_neg_neg]

/-! ### Section -/

/-- The section's drag falls with the Reynolds number and grows with thickness; its form factor is at least one. -/
theorem C137_section (tc tc' Re Re' : ℝ) (h0 : 0 ≤ tc) (ht : tc < tc') (hR : 0 < Re) (hRR : Re < Re') :
    1 ≤ sectionK tc ∧ sectionCd0 tc Re' < sectionCd0 tc Re ∧ sectionCd0 tc Re < sectionCd0 tc' Re := by
  have k1 : 1 ≤ sectionK tc := by
    unfold sectionK
    have : 0 ≤ 1.1 * 1.1 * ((1 : ℝ) + 5) ^ tc * tc / 2 := by positivity
    linarith
  have k2 : sectionK tc < sectionK tc' := by
    unfold sectionK
    have : ((1 : ℝ) + 5) ^ tc ≤ (1 + 5) ^ tc' := rpow_le_rpow_of_exponent_le (by norm_num) ht.le
    have ht' : 0 ≤ tc' := h0.trans ht.le
    have : 1.1 * 1.1 * ((1 : ℝ) + 5) ^ tc * tc / 2 ≤ 1.1 * 1.1 * (1 + 5) ^ tc' * tc' / 2 := by gcongr
    linarith
  have r : Re' ^ (-0.2 : ℝ) < Re ^ (-0.2 : ℝ) := rpow_lt_rpow_of_neg hR hRR (by norm_num)
  have rp : 0 < Re ^ (-0.2 : ℝ) := by positivity
  have rp' : 0 < Re' ^ (-0.2 : ℝ) := rpow_pos_of_pos (hR.trans hRR) _
  refine ⟨k1, ?_, ?_⟩
  · unfold sectionCd0
    gcongr
  · unfold sectionCd0
    gcongr

/-- **C137, both sides.** Without thickness the section has the turbulent friction of a plate on both sides. -/
theorem C137_plate (Re : ℝ) : sectionK 0 = 1 ∧ sectionCd0 0 Re = 0.0576 * Re ^ (-0.2 : ℝ) + 0.0576 * Re ^ (-0.2 : ℝ) := by
  have h : sectionK 0 = 1 := by simp [sectionK]
  refine ⟨h, ?_⟩
  unfold sectionCd0
  rw [h]
  ring

example : sectionCd0 0.1 1e6 < sectionCd0 0.12 1e6 :=
  (C137_section 0.1 0.12 1e6 2e6 (by norm_num) (by norm_num) (by norm_num) (by norm_num)).2.2

/-- It is not the form factor of an unswept wing at low speed. -/
theorem C137_section_counterexample : ¬ ∀ tc : ℝ, 0 ≤ tc → tc ≤ 0.2 → wingK0 1.1 tc 1 0 = some (sectionK tc) := by
  intro H
  have h := H 0.1 (by norm_num) (by norm_num)
  unfold wingK0 sectionK at h
  dsimp only at h
  rw [if_pos (by norm_num), if_neg (by norm_num)] at h
  have h := Option.some.inj h
  have e : √(1 - 0 * 0 * (1 * 1) : ℝ) = 1 := by norm_num
  rw [e] at h
  have hb : (1 : ℝ) ≤ (1 + 5) ^ (0.1 : ℝ) := one_le_rpow (by norm_num) (by norm_num)
  norm_num at h
  norm_num at hb
  linarith

end Verif.Aero.Aerodas
