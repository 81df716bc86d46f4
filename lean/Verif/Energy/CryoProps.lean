import Verif.Energy.Cryo
import Mathlib.Analysis.SpecialFunctions.Integrals.Basic
import Mathlib.Tactic.Linarith
import Mathlib.Tactic.FieldSimp
import Mathlib.Tactic.Positivity
/-
Properties C242-C246: cryocoolers, boil-off, current leads, superconducting networks, dynamo supply.
-/

namespace Verif.Energy.Cryo

/-- **C242.** Where the cooler can reach the temperature, its power is load over an efficiency that grows with the target and falls
with the ambient temperature: a colder target or a warmer ambient needs more power, no load needs none, and every watt adds mass. -/
theorem C242_power (c : Cooler) (a a' t t' q : ℝ) (r r' : ℝ × ℝ) (hs : 0 < c.slope) (hm : 0 < c.perWatt) (ht : 1 ≤ t) (ht' : 1 ≤ t')
    (hr : c.run a t q = some r) (hr' : c.run a' t' q = some r') :
    (q = 0 → r.1 = 0 ∧ r.2 = c.fixed) ∧ (0 < q → t' - a' < t - a → r.1 < r'.1 ∧ r.2 < r'.2) ∧ r.1 * (c.slope * c.margin a t) = q := by
  have key : ∀ a t (r : ℝ × ℝ), c.run a t q = some r →
      0 < c.margin a t ∧ r = (q / (c.slope * c.margin a t), c.perWatt * (q / (c.slope * c.margin a t)) + c.fixed) := by
    intro a t r h
    simp only [Cooler.run] at h
    split_ifs at h with h1 h2
    have h3 : c.margin a t ≠ 0 := by
      intro h0; apply h2; simp [h0]
    exact ⟨lt_of_le_of_ne (not_lt.mp h1) (Ne.symm h3), by simpa using h.symm⟩
  obtain ⟨h1, e1⟩ := key a t r hr
  obtain ⟨h2, e2⟩ := key a' t' r' hr'
  refine ⟨?_, ?_, ?_⟩
  · intro h0
    rw [e1, h0]; simp
  · intro hq hlt
    have hmm : c.margin a' t' < c.margin a t := by
      unfold Cooler.margin target
      rw [if_neg (not_lt.mpr ht), if_neg (not_lt.mpr ht')]
      linarith
    have : q / (c.slope * c.margin a t) < q / (c.slope * c.margin a' t') := by
      apply div_lt_div_of_pos_left hq (by positivity)
      exact mul_lt_mul_of_pos_left hmm hs
    rw [e1, e2]
    refine ⟨this, ?_⟩
    simp only
    nlinarith
  · rw [e1]
    have := h1.ne'
    simp only
    field_simp

/-- **C242, impossible targets.** Targets below 1 K are taken as 5 K. -/
theorem C242_low_target (c : Cooler) (a t q : ℝ) (ht : t < 1) : c.run a t q = c.run a 5 q := by
  have e : target t = target 5 := by
    unfold target
    rw [if_pos ht, if_neg (by norm_num), max_eq_right (by linarith)]
  have m : c.margin a t = c.margin a 5 := by simp only [Cooler.margin, e]
  unfold Cooler.run
  rw [m]

example : gm.run 300 (-2) 10 = gm.run 300 5 10 := C242_low_target _ _ _ _ (by norm_num)

/-- **C242, second law.** For the four types, ambient temperatures from room temperature to 700 K and targets below, the power is at
least what a reversed Carnot cycle needs. -/
theorem C242_carnot_partial (c : Cooler) (hc : c = fps ∨ c = gm ∨ c = spt ∨ c = dpt) (a t q : ℝ) (r : ℝ × ℝ) (ha : 292.15 ≤ a)
    (ha' : a ≤ 700) (ht : 1 ≤ t) (hq : 0 ≤ q) (hr : c.run a t q = some r) : q * ((a - t) / t) ≤ r.1 := by
  have hs : 0 < c.slope ∧ c.slope ≤ 0.0014 ∧ 0 ≤ c.tmin := by
    rcases hc with h | h | h | h <;> subst h <;> norm_num [fps, gm, spt, dpt]
  simp only [Cooler.run] at hr
  split_ifs at hr with h1 h2
  have hm : 0 < c.margin a t := by
    apply lt_of_le_of_ne (not_lt.mp h1)
    intro h0; apply h2; simp [← h0]
  have hmt : c.margin a t ≤ t := by
    unfold Cooler.margin target
    rw [if_neg (not_lt.mpr ht)]
    linarith [hs.2.2]
  have : r.1 = q / (c.slope * c.margin a t) := by
    simp only [Option.some.injEq] at hr
    rw [← hr]
  rw [this, le_div_iff₀ (mul_pos hs.1 hm)]
  have ht0 : 0 < t := by linarith
  have h3 : (a - t) / t * (c.slope * c.margin a t) ≤ 1 := by
    rw [div_mul_eq_mul_div, div_le_one ht0]
    by_cases hat : a ≤ t
    · have : (a - t) * (c.slope * c.margin a t) ≤ 0 := mul_nonpos_of_nonpos_of_nonneg (by linarith) (by have := hs.1; positivity)
      linarith
    · have h4 : c.slope * c.margin a t ≤ 0.0014 * t := mul_le_mul hs.2.1 hmt hm.le (by norm_num)
      have h5 : (a - t) * (c.slope * c.margin a t) ≤ (a - t) * (0.0014 * t) := mul_le_mul_of_nonneg_left h4 (by linarith)
      nlinarith
  nlinarith [mul_le_mul_of_nonneg_left h3 hq]

example : (fps.run 300 80 10).isSome := by
  simp only [Cooler.run, Cooler.margin, target, fps]
  norm_num

/-- **C242 fails in the stratosphere.** At 216.65 K ambient temperature the lowest temperature of a Stirling cooler is below absolute
zero, and 10 K are reached with less power than a Carnot cycle needs. -/
theorem C242_carnot_counterexample (q : ℝ) (hq : 0 < q) :
    fps.tmin - (292.15 - 216.65) < 0 ∧ ∃ r, fps.run 216.65 10 q = some r ∧ r.1 < q * ((216.65 - 10) / 10) := by
  refine ⟨by norm_num [fps], ?_⟩
  have e : fps.slope * fps.margin 216.65 10 = 0.0707 := by
    norm_num [fps, Cooler.margin, target]
  have e1 : ¬ fps.margin 216.65 10 < 0 := by norm_num [fps, Cooler.margin, target]
  refine ⟨_, by simp only [Cooler.run, if_neg e1, e]; rw [if_neg (by norm_num)], ?_⟩
  simp only
  rw [div_lt_iff₀ (by norm_num)]
  nlinarith

/-- **C242 fails above ambient.** A target above the ambient temperature is announced as disabling the cooler but still draws power. -/
theorem C242_disabled_counterexample (q : ℝ) (hq : 0 < q) : ∃ r, fps.run 300 310 q = some r ∧ 0 < r.1 := by
  have e : fps.slope * fps.margin 300 310 = 0.0014 * 267.15 + 0.0014 * 0 := by
    norm_num [fps, Cooler.margin, target]
  have e1 : ¬ fps.margin 300 310 < 0 := by norm_num [fps, Cooler.margin, target]
  refine ⟨_, by simp only [Cooler.run, if_neg e1, e]; rw [if_neg (by norm_num)], ?_⟩
  simp only
  apply div_pos hq
  norm_num

/-- The heat of a cubic heat capacity is its integral. -/
theorem heat_eq_integral (k : Fin 4 → ℝ) (a b : ℝ) : heat k a b = ∫ t in a..b, cubic k t := by
  have h : ∀ t ∈ Set.uIcc a b, HasDerivAt (fun t => k 3 * t ^ 4 / 4 + k 2 * t ^ 3 / 3 + k 1 * t ^ 2 / 2 + k 0 * t) (cubic k t) t := by
    intro t _
    have h4 := ((hasDerivAt_pow 4 t).const_mul (k 3)).div_const 4
    have h3 := ((hasDerivAt_pow 3 t).const_mul (k 2)).div_const 3
    have h2 := ((hasDerivAt_pow 2 t).const_mul (k 1)).div_const 2
    have h1 := (hasDerivAt_id t).const_mul (k 0)
    have := ((h4.add h3).add h2).add h1
    refine this.congr_deriv ?_
    unfold cubic
    push_cast
    ring
  rw [intervalIntegral.integral_eq_sub_of_hasDerivAt h]
  · unfold heat; ring
  · apply Continuous.intervalIntegrable
    unfold cubic
    fun_prop

/-- Specification: enthalpy per gram above the saturated liquid of fluid that is liquid below and vapour above the boiling point. -/
noncomputable def Cryogen.enthalpy (c : Cryogen) (p t : ℝ) : ℝ :=
  if t < c.boil p then -(∫ s in t..c.boil p, cubic c.l s) else cubic c.h p + ∫ s in c.boil p..t, cubic c.g s

theorem heat_add (k : Fin 4 → ℝ) (a b c : ℝ) : heat k a b + heat k b c = heat k a c := by
  unfold heat; ring

/-- **C243.** Cryogen that is neither saturated at the inlet nor at the equipment, and leaves warmer than it enters, takes up exactly
the heat to be removed: flow times enthalpy rise is the cooling power. -/
theorem C243_balance_partial (c : Cryogen) (ti te q p m : ℝ) (hi : ti ≠ c.boil p) (ho : te ≠ c.boil p) (hle : ti ≤ te)
    (hm : c.use ti te q p = some m) : m * (1000 * (c.enthalpy p te - c.enthalpy p ti)) = q := by
  have e : c.perGram ti te p = c.enthalpy p te - c.enthalpy p ti := by
    unfold Cryogen.perGram Cryogen.enthalpy
    simp only [← heat_eq_integral]
    generalize c.boil p = tb at *
    rcases lt_or_gt_of_ne hi with h1 | h1
    · rcases lt_or_gt_of_ne ho with h2 | h2
      · have n1 : ¬ tb < te := by linarith
        simp only [gt_iff_lt, h1, h2, n1, false_and, if_true, if_false]
        rw [← heat_add c.l ti te tb]
        ring
      · have n1 : ¬ te < tb := by linarith
        simp only [gt_iff_lt, h1, h2, n1, and_self, if_true, if_false]
        ring
    · rcases lt_or_gt_of_ne ho with h2 | h2
      · linarith
      · have hn : ¬ (tb < te ∧ tb > ti) := by intro h; linarith [h.2]
        rw [if_neg (by linarith : ¬ tb > ti), if_neg hn, if_neg hn, if_pos h2, if_neg (by linarith), if_neg (by linarith)]
        have := heat_add c.g tb ti te
        linarith
  unfold Cryogen.use at hm
  simp only at hm
  split_ifs at hm with h0
  simp only [Option.some.injEq] at hm
  subst hm
  rw [← e, div_mul_cancel₀ _ h0]

/-- Such a cryogen: unit heat capacities, boiling at 20 K, heated from 10 to 30 K. -/
example : (⟨1, 20, 0, fun k => if k = 0 then 1 else 0, fun k => if k = 0 then 1 else 0, fun k => if k = 0 then 5 else 0⟩ : Cryogen).use 10 30 25 1 = some (1 / 1000) := by
  have hb : (⟨1, 20, 0, fun k => if k = 0 then 1 else 0, fun k => if k = 0 then 1 else 0, fun k => if k = 0 then 5 else 0⟩ : Cryogen).boil 1 = 20 := by
    norm_num [Cryogen.boil]
  simp only [Cryogen.use, Cryogen.perGram, hb]
  have e3 : ¬ (3 : Fin 4) = 0 := by decide
  have e2 : ¬ (2 : Fin 4) = 0 := by decide
  norm_num [heat, cubic, e2, e3]

/-- **C243, boiling point.** The boiling temperature solves Antoine's equation `log₁₀ p = A - B / (T + C)`. -/
theorem C243_antoine (c : Cryogen) (p : ℝ) (hA : c.aA ≠ Real.logb 10 p) (hB : c.aB ≠ 0) :
    Real.logb 10 p = c.aA - c.aB / (c.boil p + c.aC) := by
  have h : c.aA - Real.logb 10 p ≠ 0 := sub_ne_zero.mpr hA
  unfold Cryogen.boil
  rw [sub_add_cancel, div_div_cancel₀ hB]
  ring

example (c : Cryogen) (hA : c.aA = 4) (hB : c.aB = 265) : Real.logb 10 1 = 4 - 265 / (c.boil 1 + c.aC) := by
  have := C243_antoine c 1 (by rw [hA]; norm_num) (by rw [hB]; norm_num)
  rwa [hA, hB] at this

/-- **C243 fails for saturated liquid.** Liquid that enters at its boiling point is counted without its heat of vaporization: the flow
is that of saturated vapour. -/
theorem C243_saturated_counterexample (c : Cryogen) (te p : ℝ) (hte : c.boil p < te) :
    c.perGram (c.boil p) te p = c.enthalpy p te - cubic c.h p := by
  unfold Cryogen.perGram Cryogen.enthalpy
  rw [if_neg (by linarith : ¬ te < c.boil p)]
  simp only [← heat_eq_integral, gt_iff_lt, lt_irrefl, and_false, if_false, if_pos hte]
  ring

/-- **C243 fails for the defaults.** With the default temperatures of the heat exchanger, or with equipment colder than the boiling
point and vapour at the inlet, the flow is a division by zero. -/
theorem C243_default_counterexample (c : Cryogen) (q p : ℝ) :
    c.use 300 300 q p = none ∧ ∀ ti te, te ≤ c.boil p → c.boil p ≤ ti → c.use ti te q p = none := by
  have main : ∀ ti te, c.perGram ti te p = 0 → c.use ti te q p = none := by
    intro ti te h
    simp [Cryogen.use, h]
  constructor
  · apply main
    unfold Cryogen.perGram
    generalize c.boil p = tb
    have hn : ¬ (tb < 300 ∧ tb > 300) := by intro h; linarith [h.1, h.2]
    simp only [if_neg hn]
    have : ∀ k, heat k 300 300 = 0 := by intro k; unfold heat; ring
    simp [this]
  · intro ti te h1 h2
    apply main
    unfold Cryogen.perGram
    have n1 : ¬ c.boil p < te := by linarith
    have n2 : ¬ ti < c.boil p := by linarith
    simp only [gt_iff_lt, n1, n2, false_and, if_false]
    ring

/-- **C244.** At its design current a lead dissipates the least heat `I √(2 ∫ k/σ)`, all of it at the cold end; below it the
dissipation is that of a fixed resistance and the heat never exceeds the design value. -/
theorem C244_design (m : Material) (ρ cond cold hot I length : ℝ) (l : Lead) (fuel : ℕ) (hI : 0 < I)
    (hl : initLead m ρ cond cold hot I length = some l) :
    l.minimum = I * Real.sqrt (2 * m.ratio cold hot) ∧ l.length = length ∧ l.mass = ρ * (l.area * length) ∧
      calcCurrent m l fuel I = some (l.minimum, l.minimum) ∧
      ∀ i, 0 ≤ i → i ≤ I → ∃ Q P, calcCurrent m l fuel i = some (Q, P) ∧ P * I ^ 2 = l.minimum * i ^ 2 ∧ Q ≤ l.minimum := by
  unfold initLead qMin at hl
  split_ifs at hl with h0
  · simp at hl
  simp only [Option.map_some, Option.some.injEq] at hl
  have e0 : (2 * (1 / (hot - cold) * m.ratio cold hot) * (hot - cold)) = 2 * m.ratio cold hot := by
    field_simp
  have hmin : l.minimum = I * Real.sqrt (2 * m.ratio cold hot) := by rw [← hl]; simp only [e0]
  have hopt : l.optimum = I := by rw [← hl]
  have hunp : l.unpowered = 0 := by rw [← hl]
  have hnn : 0 ≤ l.minimum := by rw [hmin]; positivity
  refine ⟨hmin, by rw [← hl], by rw [← hl]; ring, ?_, ?_⟩
  · unfold calcCurrent
    rw [if_pos (by rw [hopt]), hopt, hunp]
    congr 1
    ext
    · simp only; field_simp; ring
    · simp only; field_simp
  · intro i hi hiI
    refine ⟨_, _, by unfold calcCurrent; rw [if_pos (by rw [hopt]; exact hiI)], ?_, ?_⟩
    · rw [hopt]; field_simp
    · rw [hopt, hunp]
      have : i / I ≤ 1 := by rw [div_le_one hI]; exact hiI
      nlinarith

/-- **C244 fails without current.** The heat conducted into the cold end with no current flowing is computed but stored where it is
not read: the lead reports none. -/
theorem C244_unpowered_counterexample (m : Material) (ρ cond cold hot I length : ℝ) (l : Lead) (fuel : ℕ) (hI : 0 < I)
    (hl : initLead m ρ cond cold hot I length = some l) (hc : 0 < cond) (hL : 0 < length) (ha : 0 < l.area) :
    (calcCurrent m l fuel 0).map Prod.fst = some 0 ∧ 0 < l.stored := by
  unfold initLead at hl
  obtain ⟨q, -, rfl⟩ := Option.map_eq_some_iff.mp hl
  constructor
  · unfold calcCurrent
    simp only [if_pos hI.le]
    simp
  · simp only at ha ⊢
    positivity

/-- **C244, above the design current.** When the search ends, it ends at a hottest temperature whose two parts add up to the length
of the lead within one percent. -/
theorem C244_overload_partial (m : Material) (l : Lead) (fuel : ℕ) (i : ℝ) (r : ℝ × ℝ) (hi : l.optimum < i)
    (hr : calcCurrent m l fuel i = some r) :
    ∃ T len, guess m l i T = some (len, r) ∧ |(len - l.length) / l.length| ≤ 0.01 := by
  have main : ∀ fuel T over diff, bisect m l i fuel T over diff = some r →
      ∃ T len, guess m l i T = some (len, r) ∧ |(len - l.length) / l.length| ≤ 0.01 := by
    intro fuel
    induction fuel with
    | zero => intro T over diff h; simp [bisect] at h
    | succ fuel ih =>
      intro T over diff h
      simp only [bisect] at h
      obtain ⟨g, hg, h⟩ := Option.bind_eq_some_iff.mp h
      split_ifs at h with h1 h2 h3
      · exact ih _ _ _ h
      · exact ih _ _ _ h
      · exact ih _ _ _ h
      · simp only [Option.some.injEq] at h
        refine ⟨T, g.1, ?_, not_lt.mp h1⟩
        rw [hg, ← h]
  unfold calcCurrent at hr
  rw [if_neg (not_le.mpr hi)] at hr
  exact main _ _ _ _ hr

/-- A material of constant conductivities `k` and `σ`. -/
noncomputable def plain (k σ : ℝ) : Material := ⟨fun _ => σ, fun a b => k / σ * (b - a), fun _ _ => 0⟩

/-- Lengths of the parts for constant conductivities grow with the hottest temperature. -/
theorem guess_plain (k σ i T : ℝ) (l : Lead) (hσ : 0 < σ) (hi : 0 < i) (h1 : l.hot < T) (h2 : l.cold < T) :
    ∃ r, guess (plain k σ) l i T = some (l.area * (σ / i) * (Real.sqrt (2 * (k / σ * (T - l.hot))) + Real.sqrt (2 * (k / σ * (T - l.cold)))), r) := by
  have e1 : T - l.hot ≠ 0 := by linarith
  have e2 : T - l.cold ≠ 0 := by linarith
  have e3 : ∀ c, T - c ≠ 0 → 2 * (1 / (T - c) * (k / σ * (T - c))) * (T - c) = 2 * (k / σ * (T - c)) := by
    intro c hc
    field_simp
  unfold guess qMin
  rw [if_neg e1, if_neg e2]
  simp only [Option.bind_some, Option.map_some, plain, laRatio, e3 _ e1, e3 _ e2, Option.some.injEq, Prod.mk.injEq]
  refine ⟨(_, _), ?_, rfl⟩
  field_simp
  ring

/-- **C244 fails above the design current.** For constant conductivities the search goes the wrong way.  If the first guess, twice the
warm temperature, gives too long a lead, every further guess is hotter and longer: no number of turns ends it.  If it gives too short
a lead, the second guess is the warm temperature itself, where the division by the temperature difference fails. -/
theorem C244_overload_counterexample (k σ i : ℝ) (l : Lead) (len : ℝ) (r : ℝ × ℝ) (hk : 0 < k) (hσ : 0 < σ) (hi : 0 < i) (ho : l.optimum < i)
    (hc : 0 ≤ l.cold) (hch : l.cold < l.hot) (hL : 0 < l.length) (ha : 0 < l.area) (hg : guess (plain k σ) l i (2 * l.hot) = some (len, r))
    (hmiss : 0.01 * l.length < |len - l.length|) (fuel : ℕ) : calcCurrent (plain k σ) l fuel i = none := by
  have hh : 0 < l.hot := by linarith
  unfold calcCurrent
  rw [if_neg (not_le.mpr ho)]
  have herr : ∀ x, 0.01 * l.length < |x - l.length| → |(x - l.length) / l.length| > 0.01 := by
    intro x hx
    rw [abs_div, abs_of_pos hL, gt_iff_lt, lt_div_iff₀ hL]
    exact hx
  by_cases hbig : l.length < len
  · -- too long: guesses keep growing
    have hlen : 1.01 * l.length < len := by
      rw [abs_of_pos (by linarith)] at hmiss; linarith
    have main : ∀ fuel T diff, 2 * l.hot ≤ T → bisect (plain k σ) l i fuel T false diff = none := by
      intro fuel
      induction fuel with
      | zero => intros; rfl
      | succ fuel ih =>
        intro T diff hT
        obtain ⟨r', hr'⟩ := guess_plain k σ i T l hσ hi (by linarith) (by linarith)
        obtain ⟨r0, hr0⟩ := guess_plain k σ i (2 * l.hot) l hσ hi (by linarith) (by linarith)
        rw [hg] at hr0
        have hlen0 := (Prod.mk.inj (Option.some.inj hr0)).1
        set f := l.area * (σ / i) * (Real.sqrt (2 * (k / σ * (T - l.hot))) + Real.sqrt (2 * (k / σ * (T - l.cold)))) with hf
        have hmono : len ≤ f := by
          rw [hlen0, hf]
          apply mul_le_mul_of_nonneg_left _ (by positivity)
          have hkσ : 0 < k / σ := by positivity
          apply add_le_add <;> apply Real.sqrt_le_sqrt <;> nlinarith
        simp only [bisect, hr', Option.bind_some]
        rw [if_pos (herr f (by rw [abs_of_pos (by linarith)]; linarith)), if_pos (by linarith), if_pos trivial]
        exact ih _ _ (by linarith)
    exact main fuel _ _ (le_refl _)
  · -- too short: the second guess is the warm temperature
    cases fuel with
    | zero => rfl
    | succ fuel =>
      simp only [bisect, hg, Option.bind_some]
      rw [if_pos (herr len hmiss), if_neg hbig]
      cases fuel with
      | zero => rfl
      | succ fuel =>
        have : guess (plain k σ) l i (2 * l.hot - l.hot) = none := by
          unfold guess qMin
          rw [if_pos (by ring)]
          rfl
        simp only [bisect, this, Option.bind_none]

/-- A lead for 1 A at 2 A that meets these hypotheses. -/
example : ∃ r, guess (plain 2 1) ⟨0, 1, 2, 1, 1, 1, 2, 0, 0⟩ 2 (2 * 1) = some (1 / 2 * (Real.sqrt 4 + Real.sqrt 8), r) := by
  obtain ⟨r, hr⟩ := guess_plain 2 1 2 (2 * 1) ⟨0, 1, 2, 1, 1, 1, 2, 0, 0⟩ (by norm_num) (by norm_num) (by norm_num) (by norm_num)
  refine ⟨r, ?_⟩
  rw [hr]
  norm_num

/-- **C245.** With one engine the network draws what its motor, rotor, leads and cooler need through their efficiencies; the rotor
dissipates its coil power and the heat through its insulation; supplies and fuel follow from the power. -/
theorem C245_power_partial (c : Parts) (cooler se eff n P p sp R area rv cryo I skin : ℝ) (hse : se ≠ 0) (heff : eff ≠ 0) (hn : n ≠ 0)
    (hsp : sp ≠ 0) (hp : p ≠ 0) (hrv : rv ≠ 0) :
    c.power 1 cooler = c.shaft / c.motorEff / c.escEff + (c.leadPower * c.leads + c.rotorPower) / c.ccsEff + cooler ∧
      supplyFuel se eff n P * se * eff = P ∧ supplyMass sp P p * sp * (p / 101325) = P ∧
      (rotor R area rv cryo I skin).2.2 = (rotor R area rv cryo I skin).1 + area * (skin - cryo) / rv ∧
      (rotor R area rv cryo I skin).1 = (rotor R area rv cryo I skin).2.1 * I := by
  refine ⟨?_, ?_, ?_, ?_, ?_⟩
  · unfold Parts.power; ring
  · unfold supplyFuel; field_simp
  · unfold supplyMass; field_simp
  · unfold rotor; simp only; field_simp
  · unfold rotor; simp only; ring

/-- **C245 fails with several engines.** The loss of the rotor supply is counted for all rotors in each engine: `n` engines draw
`n (n - 1)` times the loss of one rotor supply too much. -/
theorem C245_engines_counterexample (c : Parts) (n cooler : ℝ) (hn : 1 < n) (hr : 0 < c.rotorPower) (he : 0 < c.ccsEff) (he1 : c.ccsEff < 1) :
    c.power n cooler = c.shaft / c.motorEff / c.escEff + n * ((c.leadPower * c.leads + c.rotorPower) / c.ccsEff) + cooler +
        n * (n - 1) * (c.rotorPower / c.ccsEff - c.rotorPower) ∧
      0 < n * (n - 1) * (c.rotorPower / c.ccsEff - c.rotorPower) := by
  constructor
  · unfold Parts.power; ring
  · have : c.rotorPower < c.rotorPower / c.ccsEff := by
      rw [lt_div_iff₀ he]; nlinarith
    have h2 : 0 < n - 1 := by linarith
    have h3 : 0 < c.rotorPower / c.ccsEff - c.rotorPower := by linarith
    positivity

/-- **C245 fails against the sizing.** Even with one engine the power drawn at the design point lacks the loss of the gearbox that
the sizing provides for. -/
theorem C245_sizing_counterexample (shaft ηm ηg ηe rp lp ηc cooler : ℝ) (rc lc : ℝ) (hs : 0 < shaft) (hm : 0 < ηm) (hg : 0 < ηg) (hg1 : ηg < 1)
    (he : 0 < ηe) :
    (⟨shaft, ηm, ηe, rp, rc, lp, lc, 2, ηc⟩ : Parts).power 1 cooler < sizedPower shaft ηm ηg ηe rp lp ηc cooler 1 := by
  have h1 : (⟨shaft, ηm, ηe, rp, rc, lp, lc, 2, ηc⟩ : Parts).power 1 cooler = shaft / ηm / ηe + (lp * 2 + rp) / ηc + cooler := by
    unfold Parts.power; simp only; ring
  have h2 : shaft / ηm < shaft / (ηm * ηg) := by
    apply div_lt_div_of_pos_left hs (by positivity)
    nlinarith
  have h3 := div_lt_div_of_pos_right h2 he
  rw [h1]
  unfold sizedPower
  simp only
  rw [show lp * 2 + rp = 2 * lp + rp by ring]
  linarith

/-- **C245, cooling.** The heat to be removed is that of one rotor and its leads, for every engine. -/
theorem C245_cooling (c : Parts) (n : ℝ) : c.load n = n * (c.rotorCryo + c.leads * c.leadCryo) := by unfold Parts.load; ring

/-- **C245, mass.** Cryogen that is vented is taken off the vehicle besides the fuel; cryogen that is burned is not counted twice. -/
theorem C245_mass_partial (fuel cryogen : ℝ) : (massRates fuel cryogen 0).1 = fuel + cryogen ∧ (massRates fuel cryogen 1).1 = fuel := by
  unfold massRates; constructor <;> simp

/-- **C245 fails when cooling needs more than the engines burn.** Cryogen beyond the fuel flow leaves the vehicle but not its mass. -/
theorem C245_excess_counterexample (fuel cryogen : ℝ) (h : fuel < cryogen) : (massRates fuel cryogen 1).1 < (massRates fuel cryogen 1).2.1 := by
  unfold massRates; simpa using h

/-- **C246.** Inside its range of currents a dynamo is most efficient at its rated current and never below 36 % of that; shaft power
is output over efficiency and all the difference is heat. -/
theorem C246_dynamo (η I0 I P : ℝ) (hη : 0 < η) (hI0 : 0 < I0) (h1 : I0 * 0.2 ≤ I) (h2 : I ≤ I0 * 1.8) :
    curve η I0 I0 = η ∧ 0.36 * η ≤ curve η I0 I ∧ curve η I0 I ≤ η ∧ (curve η I0 I = η → I = I0) ∧
      ∃ S H, dynamo η I0 I P = some (S, H) ∧ S * curve η I0 I = P ∧ H = S - P := by
  have hc : curve η I0 I = η * (1 - ((I - I0) / I0) ^ 2) := by
    unfold curve
    rw [if_neg (by push Not; exact ⟨h2, h1⟩)]
    field_simp
    ring
  have hx : ((I - I0) / I0) ^ 2 ≤ 0.64 := by
    have e1 : (I - I0) / I0 ≤ 0.8 := by rw [div_le_iff₀ hI0]; linarith
    have e2 : -0.8 ≤ (I - I0) / I0 := by rw [le_div_iff₀ hI0]; linarith
    nlinarith
  have hpos : 0 < curve η I0 I := by rw [hc]; nlinarith
  refine ⟨?_, ?_, ?_, ?_, ?_⟩
  · unfold curve
    rw [if_neg (by push Not; constructor <;> nlinarith)]
    simp
  · rw [hc]; nlinarith
  · rw [hc]; nlinarith [sq_nonneg ((I - I0) / I0)]
  · intro h
    rw [hc] at h
    have : ((I - I0) / I0) ^ 2 = 0 := by
      have h3 : η * ((I - I0) / I0) ^ 2 = 0 := by linarith
      rcases mul_eq_zero.mp h3 with h4 | h4
      · linarith
      · exact h4
    have h5 := pow_eq_zero_iff (two_ne_zero) |>.mp this
    rcases div_eq_zero_iff.mp h5 with h6 | h6 <;> linarith
  · unfold dynamo
    split_ifs with h3 h4
    · exact ⟨0, 0, rfl, by rw [h3]; simp, by rw [h3]; simp⟩
    · exact absurd h4 hpos.ne'
    · exact ⟨_, _, rfl, by field_simp, rfl⟩

example : (10 : ℝ) * 0.2 ≤ 4 ∧ (4 : ℝ) ≤ 10 * 1.8 := by norm_num

/-- **C246 fails for the supply.** The supply of the dynamo takes the efficiency curve of the dynamo, whatever its own efficiency:
two supplies of different efficiency draw the same, and at rated current the loss of the dynamo is charged twice. -/
theorem C246_supply_counterexample (own own' η I0 P : ℝ) (hη : 0 < η) (hI0 : 0 < I0) :
    dynamoSupply own η I0 I0 P = dynamoSupply own' η I0 I0 P ∧ dynamoSupply own η I0 I0 P = some (P / η) := by
  have h1 : curve η I0 I0 = η := by
    unfold curve
    rw [if_neg (by push Not; constructor <;> nlinarith)]
    simp
  refine ⟨rfl, ?_⟩
  unfold dynamoSupply
  rw [h1, if_neg hη.ne']

/-- **C246 fails in the network.** The power of the rotor is counted three times on its way: at the rotor, at the shaft of the dynamo
and at its supply, each of which already contains the one before. -/
theorem C246_network_counterexample (shaft ηm ηe rp own η I0 n cooler : ℝ) (hη : 0 < η) (hI0 : 0 < I0) (hrp : 0 < rp) (hn : 0 < n) :
    ∃ P, dynamoPower shaft ηm ηe rp own η I0 I0 n cooler = some P ∧
      P = shaft / ηm / ηe + n * (rp / η / η) + cooler + (n * rp + n * (rp / η)) ∧ 0 < n * rp + n * (rp / η) := by
  have h1 : curve η I0 I0 = η := by
    unfold curve
    rw [if_neg (by push Not; constructor <;> nlinarith)]
    simp
  have hd : dynamo η I0 I0 rp = some (rp / η, rp / η - rp) := by
    unfold dynamo
    rw [if_neg hrp.ne', h1, if_neg hη.ne']
  have hs : dynamoSupply own η I0 I0 (rp / η) = some (rp / η / η) := by
    unfold dynamoSupply
    rw [h1, if_neg hη.ne']
  refine ⟨_, by unfold dynamoPower; rw [hd, Option.bind_some, hs, Option.map_some], by ring, by positivity⟩

end Verif.Energy.Cryo
