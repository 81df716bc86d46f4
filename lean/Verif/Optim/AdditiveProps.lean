import Verif.Optim.Additive
import Verif.Optim.SetupsProps
import Mathlib.MeasureTheory.Integral.IntegralEqImproper
import Mathlib.MeasureTheory.Measure.Haar.NormedSpace
import Mathlib.Tactic.LinearCombination

/-!
C289 additive solver, C290 its constraints and bounds, C291 expected improvement, C292 sweeps, C293 surrogate optimization, C294 leave
one out.
-/

namespace Verif.Optim

open MeasureTheory

/-! ### C289 -/

/-- Specification: a regression model that reproduces data which are values of a function. -/
def Fit.Interpolates {X : Type} (fit : Fit X) : Prop :=
  ∀ data : List (X × ℝ), (∀ x y y', (x, y) ∈ data → (x, y') ∈ data → y = y') → ∀ x y, (x, y) ∈ data → fit data x = y

/-- A regression model on two points: known values, else that of the first point. -/
noncomputable def knownFit : Fit Bool := fun data x =>
  match data.find? fun q => q.1 == x with
  | some q => q.2
  | none => (data.head?.map Prod.snd).getD 0

theorem knownFit_interpolates : knownFit.Interpolates := by
  intro data hd x y hxy
  unfold knownFit
  cases hf : data.find? fun q => q.1 == x with
  | none =>
    have := List.find?_eq_none.1 hf (x, y) hxy
    simp at this
  | some q =>
    have h1 := List.mem_of_find?_eq_some hf
    have h2 := List.find?_some hf
    simp only [beq_iff_eq] at h2
    exact hd x q.2 y (by rw [← h2]; exact h1) hxy

/-- Two designs: the low fidelity takes the second for better, the high fidelity the first. -/
noncomputable def twoDesigns : TwoLevel Bool := ⟨fun x => if x then 0 else 1, fun x => if x then 5 else 0, fun _ _ => 0, fun _ _ => 0⟩

theorem zip_values {X : Type} (a b : X → ℝ) (xs : List X) :
    xs.zip (List.zipWith (fun q p => q - p) (xs.map b) (xs.map a)) = xs.map fun x => (x, b x - a x) := by
  induction xs with
  | nil => rfl
  | cons x xs ih => simp only [List.map_cons, List.zipWith_cons_cons, List.zip_cons_cons, ih]

theorem zip_con {X : Type} (a b : X → ℕ → ℝ) (i : ℕ) (xs : List X) :
    xs.zip (List.zipWith (fun q p => q i - p i) (xs.map b) (xs.map a)) = xs.map fun x => (x, b x i - a x i) := by
  induction xs with
  | nil => rfl
  | cons x xs ih => simp only [List.map_cons, List.zipWith_cons_cons, List.zip_cons_cons, ih]

theorem sample_add {X : Type} (p : TwoLevel X) (xs : List X) (x : X) : (p.sample xs).add p x = p.sample (xs ++ [x]) := by
  simp [TwoLevel.sample, Samples.add]

/-- **C289, correction.** With regression models that reproduce their data the corrected model has the objective and the constraints of
the high fidelity at every point sampled. -/
theorem C289_correction {X : Type} (p : TwoLevel X) (fit : Fit X) (hfit : fit.Interpolates) (xs : List X) (x : X) (hx : x ∈ xs) :
    (p.sample xs).corrected p fit x = p.f2 x ∧ ∀ i, (p.sample xs).correctedCon p fit i x = p.g2 x i := by
  have key : ∀ h : X → ℝ, fit (xs.map fun x => (x, h x)) x = h x := by
    intro h
    apply hfit
    · intro a y y' h1 h2
      obtain ⟨u, _, hu⟩ := List.mem_map.1 h1
      obtain ⟨w, _, hw⟩ := List.mem_map.1 h2
      simp only [Prod.mk.injEq] at hu hw
      rw [← hu.2, ← hw.2, hu.1, hw.1]
    · exact List.mem_map.2 ⟨x, hx, rfl⟩
  constructor
  · unfold Samples.corrected TwoLevel.sample
    simp only
    rw [zip_values p.f1 p.f2, key fun x => p.f2 x - p.f1 x]; ring
  · intro i
    unfold Samples.correctedCon TwoLevel.sample
    simp only
    rw [zip_con p.g1 p.g2, key fun x => p.g2 x i - p.g1 x i]; ring

example : (twoDesigns.sample [true]).corrected twoDesigns knownFit true = 5 := by
  have := (C289_correction twoDesigns knownFit knownFit_interpolates [true] true (by simp)).1
  rw [this]; simp [twoDesigns]

/-- **C289, result.** The values recorded are those of the two levels at the points recorded; each iteration adds one point, the last of
which is returned; its value is that of the high fidelity, within the tolerance when the run ends before its last iteration. -/
theorem C289_basic {X : Type} (p : TwoLevel X) (fit : Fit X) (opt : Samples X → (X → ℝ) → Option X) (tol : ℝ) (n : ℕ) (xs : List X) (r : AddResult X)
    (h : addBasic p fit opt tol n (p.sample xs) = some r) :
    ∃ l, l ≠ [] ∧ l.length ≤ n ∧ r.data = p.sample (xs ++ l) ∧ l.getLast? = some r.x ∧ (r.converged = false → r.f = p.f2 r.x ∧ l.length = n) ∧
      (r.converged = true → |r.f - p.f2 r.x| < tol) := by
  induction n generalizing xs with
  | zero => simp [addBasic] at h
  | succ n ih =>
    rw [addBasic] at h
    cases ho : opt (p.sample xs) ((p.sample xs).corrected p fit) with
    | none => rw [ho] at h; simp at h
    | some x =>
      rw [ho, Option.bind_some, sample_add] at h
      simp only at h
      split_ifs at h with h1 h2
      · simp only [Option.some.injEq] at h
        subst h
        exact ⟨[x], by simp, by simp, rfl, rfl, fun _ => ⟨rfl, by simp [h1]⟩, by simp⟩
      · simp only [Option.some.injEq] at h
        subst h
        exact ⟨[x], by simp, by simp, rfl, rfl, by simp, fun _ => h2⟩
      · obtain ⟨l, e1, e2, e3, e4, e5, e6⟩ := ih (xs ++ [x]) h
        refine ⟨x :: l, by simp, by simp; omega, by rw [e3]; simp, ?_, fun hc => ⟨(e5 hc).1, by simp [(e5 hc).2]⟩, e6⟩
        rw [List.getLast?_cons, e4]; rfl

theorem argmin_spec {X : Type} (f : X → ℝ) (xs : List X) (s : X) (h : argminPoint xs (xs.map f) = some s) : s ∈ xs ∧ ∀ x ∈ xs, f s ≤ f x := by
  induction xs generalizing s with
  | nil => simp [argminPoint] at h
  | cons a xs ih =>
    simp only [List.map_cons, argminPoint] at h
    cases hm : argminPoint xs (xs.map f) with
    | none =>
      rw [hm] at h
      simp only [Option.some.injEq] at h
      subst h
      have : xs = [] := by
        cases xs with
        | nil => rfl
        | cons b xs =>
          simp only [List.map_cons, argminPoint] at hm
          split at hm
          · simp at hm
          · split_ifs at hm
      subst this
      simp
    | some y =>
      rw [hm] at h
      obtain ⟨h1, h2⟩ := ih y hm
      simp only at h
      split_ifs at h with hc
      · simp only [Option.some.injEq] at h
        subst h
        refine ⟨by simp, fun x hx => ?_⟩
        rcases List.mem_cons.1 hx with rfl | hx
        · exact le_rfl
        · exact hc _ (List.mem_map.2 ⟨x, hx, rfl⟩)
      · simp only [Option.some.injEq] at h
        subst h
        refine ⟨by simp [h1], fun x hx => ?_⟩
        rcases List.mem_cons.1 hx with rfl | hx
        · push Not at hc
          obtain ⟨g, hg, hlt⟩ := hc
          obtain ⟨z, hz, rfl⟩ := List.mem_map.1 hg
          exact (h2 z hz).trans hlt.le
        · exact h2 x hx

/-- **C289, expected improvement.** A run by expected improvement makes all its iterations, and returns the point where the local
optimizer ends when started at the best of all points recorded, with its value at high fidelity. -/
theorem C289_improvement {X : Type} (p : TwoLevel X) (fit : Fit X) (glob : Samples X → X) (loc : (X → ℝ) → X → X) (n : ℕ) (xs : List X) (r : AddResult X)
    (h : addMEI p fit glob loc n (p.sample xs) = some r) :
    ∃ l, l.length = n ∧ r.data = p.sample (xs ++ l) ∧ r.f = p.f2 r.x ∧
      ∃ s ∈ xs ++ l, (∀ x ∈ xs ++ l, p.f2 s ≤ p.f2 x) ∧ r.x = loc ((p.sample (xs ++ l.dropLast)).corrected p fit) s := by
  induction n generalizing xs with
  | zero => simp [addMEI] at h
  | succ n ih =>
    rw [addMEI, sample_add] at h
    split_ifs at h with h1
    · subst h1
      obtain ⟨s, hs, rfl⟩ := Option.map_eq_some_iff.1 h
      obtain ⟨e1, e2⟩ := argmin_spec p.f2 _ s hs
      exact ⟨[glob (p.sample xs)], rfl, rfl, rfl, s, e1, e2, by simp⟩
    · obtain ⟨l, e1, e2, e3, s, e4, e5, e6⟩ := ih (xs ++ [glob (p.sample xs)]) h
      have hl : l ≠ [] := by intro hl; subst hl; simp at e1; omega
      refine ⟨glob (p.sample xs) :: l, by simp [e1], by rw [e2]; simp, e3, s, by simpa using e4, by simpa using e5, ?_⟩
      rw [e6, List.dropLast_cons_of_ne_nil hl]; simp

open Classical in
/-- **C289 fails for the best design.** With a model that reproduces its data and an optimizer that finds the minimum, the design
returned can be worse than one recorded: the last is returned, not the best. -/
theorem C289_best_counterexample : ∃ opt : Samples Bool → (Bool → ℝ) → Option Bool, (∀ d c x, opt d c = some x → ∀ y, c x ≤ c y) ∧
    ∃ r, addBasic twoDesigns knownFit opt (1 / 1000000) 1 (twoDesigns.sample [false]) = some r ∧ false ∈ r.data.x ∧ twoDesigns.f2 false < r.f := by
  refine ⟨fun _ c => if c true ≤ c false then some true else some false, ?_, ?_⟩
  · intro d c x h y
    simp only at h
    split_ifs at h with hc
    · simp only [Option.some.injEq] at h; subst h; cases y <;> simp [hc]
    · simp only [Option.some.injEq] at h; subst h; cases y
      · exact le_rfl
      · exact (not_le.1 hc).le
  · have h : (twoDesigns.sample [false]).corrected twoDesigns knownFit true ≤ (twoDesigns.sample [false]).corrected twoDesigns knownFit false := by
      simp [Samples.corrected, TwoLevel.sample, twoDesigns, knownFit]
    refine ⟨⟨5, true, (twoDesigns.sample [false]).add twoDesigns true, false⟩, ?_, ?_, ?_⟩
    · rw [addBasic]
      rw [if_pos h]
      simp [twoDesigns]
    · simp [Samples.add, TwoLevel.sample]
    · simp [twoDesigns]

/-! ### C290 -/

/-- **C290, rows without scale.** A row of scale and units one is posed to the local optimizer as written. -/
theorem C290_rows_partial {K X : Type} [Field K] [LinearOrder K] [IsStrictOrderedRing K] (c : Con K X) (hs : c.scale = 1) (hu : c.units = 1) (x : X) :
    c.slsqpOk (c.seen x) ↔ c.Holds x := by
  unfold Con.slsqpOk Con.slsqp Con.seen Con.scaled Con.Holds
  rw [hs, hu]
  cases c.cmp with
  | lt => simp
  | gt => simp
  | eq => simp [sub_eq_zero]

example : (⟨.gt, 2, 1, 1, fun x => x⟩ : Con ℚ ℚ).slsqpOk 3 := by
  have := (C290_rows_partial (⟨.gt, 2, 1, 1, fun x => x⟩ : Con ℚ ℚ) rfl rfl 3).2 (by simp [Con.Holds]; norm_num)
  simpa [Con.seen, Con.scaled] using this

/-- **C290 fails for rows with a scale.** The bound is not scaled with the value: a quantity to be kept below a positive bound may exceed
it by the factor of its scale. -/
theorem C290_scale_counterexample {K X : Type} [Field K] [LinearOrder K] [IsStrictOrderedRing K] (c : Con K X) (x : X) (hc : c.cmp = .lt) (hs : 0 < c.scale)
    (hu : c.units = 1) : c.slsqpOk (c.seen x) ↔ c.value x ≤ c.bound * c.scale := by
  unfold Con.slsqpOk Con.slsqp Con.seen Con.scaled
  rw [hc, if_neg (by simp), if_pos rfl, mul_neg_one, neg_sub, sub_nonneg, div_le_iff₀ hs]

/-- **C290 fails for bounds.** The local optimizer is not told the bounds of the variables: a point that satisfies the constraints is
accepted wherever it lies. -/
theorem C290_bounds_counterexample {X : Type} (cs : List (Con ℝ X)) (hs : ∀ c ∈ cs, c.scale = 1 ∧ c.units = 1) (x : X) (h : ∀ c ∈ cs, c.Holds x) (inside : X → Prop)
    (_hout : ¬ inside x) : posedSlsqp cs x := fun c hc => (C290_rows_partial c (hs c hc).1 (hs c hc).2 x).2 (h c hc)

/-- **C290 fails for the table of the other set-ups.** Wherever these read bounds, the additive solver raises an exception; with bounds
as a pair it scales them, as the others scale the two numbers. -/
theorem C290_table_counterexample (row : List Entry) : ((setupBounds row).isSome → readBounds row = none) ∧
    (∀ t v a b s u, readBounds [t, v, .pair a b, .num s, u] = some (a / s, b / s)) ∧
    ∀ t v a b s u, setupBounds [t, v, .num a, .num b, .num s, u] = some (a / s, b / s) := by
  refine ⟨?_, ?_, ?_⟩
  · intro h
    unfold setupBounds at h
    split at h
    · rfl
    · simp at h
  · intros; rfl
  · intros; rfl

/-! ### C291 -/

theorem pdf_pos (t : ℝ) : 0 < normPdf t := by unfold normPdf; have := Real.pi_pos; positivity

theorem pdf_even (t : ℝ) : normPdf (-t) = normPdf t := by unfold normPdf; simp

theorem pdf_integrable : Integrable normPdf := (integrable_exp_neg_mul_sq (by norm_num : (0 : ℝ) < 1 / 2)).div_const _

theorem pdf_total : ∫ t, normPdf t = 1 := by
  unfold normPdf
  rw [integral_div, integral_gaussian, div_eq_one_iff_eq (by have := Real.pi_pos; positivity)]
  congr 1; ring

theorem pdf_deriv (t : ℝ) : HasDerivAt (fun t => -normPdf t) (t * normPdf t) t := by
  unfold normPdf
  have h : HasDerivAt (fun t : ℝ => -(1 / 2) * t ^ 2) (-t) t := by
    refine ((hasDerivAt_pow 2 t).const_mul (-(1 / 2))).congr_deriv ?_
    push_cast; ring
  refine ((h.exp.div_const _).neg).congr_deriv ?_
  ring

theorem mul_pdf_integrable : Integrable fun t => t * normPdf t := by
  have := (integrable_mul_exp_neg_mul_sq (by norm_num : (0 : ℝ) < 1 / 2)).div_const (Real.sqrt (2 * Real.pi))
  refine this.congr (Filter.Eventually.of_forall fun t => ?_)
  simp only [normPdf]; ring

theorem pdf_tendsto : Filter.Tendsto (fun t => -normPdf t) Filter.atBot (nhds 0) := by
  have h := tendsto_zero_of_hasDerivAt_of_integrableOn_Iic (a := 0) (f := fun t => -normPdf t) (f' := fun t => t * normPdf t)
    (fun x _ => pdf_deriv x) mul_pdf_integrable.integrableOn pdf_integrable.neg.integrableOn
  exact h

theorem mul_pdf_Iic (z : ℝ) : ∫ t in Set.Iic z, t * normPdf t = -normPdf z := by
  rw [integral_Iic_of_hasDerivAt_of_tendsto' (fun x _ => pdf_deriv x) mul_pdf_integrable.integrableOn pdf_tendsto, sub_zero]

theorem improvement_unit (z : ℝ) : ∫ t, max (z - t) 0 * normPdf t = z * normCdf z + normPdf z := by
  have e : (fun t => max (z - t) 0 * normPdf t) = (Set.Iic z).indicator fun t => (z - t) * normPdf t := by
    funext t
    by_cases h : t ≤ z
    · rw [Set.indicator_of_mem (by exact h), max_eq_left (by linarith)]
    · rw [Set.indicator_of_notMem (by exact h), max_eq_right (by linarith), zero_mul]
  rw [e, integral_indicator measurableSet_Iic]
  have e2 : ∀ t, (z - t) * normPdf t = z * normPdf t - t * normPdf t := fun t => by ring
  simp_rw [e2]
  rw [integral_sub (pdf_integrable.const_mul z).integrableOn mul_pdf_integrable.integrableOn, integral_const_mul, mul_pdf_Iic]
  unfold normCdf; ring

/-- **C291, mean.** The expected improvement is the mean of the improvement below the best value for a normally distributed objective. -/
theorem C291_mean (fstar fhat sigma : ℝ) (hs : 0 < sigma) :
    ∫ y, max (fstar - y) 0 * (normPdf ((y - fhat) / sigma) / sigma) = expectedImprovement fstar fhat sigma ∧
      ∫ y, normPdf ((y - fhat) / sigma) / sigma = 1 := by
  have hsub : ∀ g : ℝ → ℝ, ∫ y, g ((y - fhat) / sigma) = sigma * ∫ t, g t := by
    intro g
    rw [integral_sub_right_eq_self (fun y => g (y / sigma)) fhat, Measure.integral_comp_div, abs_of_pos hs, smul_eq_mul]
  constructor
  · have e : ∀ y, max (fstar - y) 0 * (normPdf ((y - fhat) / sigma) / sigma) =
        (fun t => max ((fstar - fhat) / sigma - t) 0 * normPdf t) ((y - fhat) / sigma) := by
      intro y
      simp only
      have h : (fstar - fhat) / sigma - (y - fhat) / sigma = (fstar - y) / sigma := by ring
      have h2 : max ((fstar - y) / sigma) 0 = max (fstar - y) 0 / sigma := by
        rw [← max_div_div_right hs.le, zero_div]
      rw [h, h2]
      ring
    rw [integral_congr_ae (Filter.Eventually.of_forall e), hsub fun t => max ((fstar - fhat) / sigma - t) 0 * normPdf t, improvement_unit]
    unfold expectedImprovement
    field_simp
  · rw [hsub fun t => normPdf t / sigma, integral_div, pdf_total]
    field_simp

/-- The improvement has finite mean. -/
theorem improvement_integrable (z : ℝ) : Integrable fun t => max (z - t) 0 * normPdf t := by
  have e : (fun t => max (z - t) 0 * normPdf t) = (Set.Iic z).indicator fun t => z * normPdf t - t * normPdf t := by
    funext t
    by_cases h : t ≤ z
    · rw [Set.indicator_of_mem (by exact h), max_eq_left (by linarith)]; ring
    · rw [Set.indicator_of_notMem (by exact h), max_eq_right (by linarith), zero_mul]
  rw [e]
  exact ((pdf_integrable.const_mul z).sub mul_pdf_integrable).indicator measurableSet_Iic

theorem expected_eq (fstar fhat sigma : ℝ) (hs : 0 < sigma) :
    expectedImprovement fstar fhat sigma = sigma * ∫ t, max ((fstar - fhat) / sigma - t) 0 * normPdf t := by
  rw [improvement_unit]; unfold expectedImprovement; field_simp

theorem unit_lt {a b : ℝ} (h : a < b) : ∫ t, max (a - t) 0 * normPdf t < ∫ t, max (b - t) 0 * normPdf t := by
  rw [← sub_pos, ← integral_sub (improvement_integrable b) (improvement_integrable a)]
  have hi := (improvement_integrable b).sub (improvement_integrable a)
  have hc : Continuous fun t => max (b - t) 0 * normPdf t - max (a - t) 0 * normPdf t := by
    unfold normPdf; fun_prop
  have hnn : ∀ t, 0 ≤ max (b - t) 0 * normPdf t - max (a - t) 0 * normPdf t := by
    intro t
    have : max (a - t) 0 ≤ max (b - t) 0 := max_le_max (by linarith) le_rfl
    nlinarith [pdf_pos t]
  refine integral_pos_of_integrable_nonneg_nonzero (x := a) hc hi hnn ?_
  have : 0 < max (b - a) 0 * normPdf a - max (a - a) 0 * normPdf a := by
    rw [sub_self, max_self, zero_mul, sub_zero, max_eq_left (by linarith)]
    exact mul_pos (by linarith) (pdf_pos a)
  exact this.ne'

/-- **C291, order.** A better prediction at the same deviation has the greater expected improvement; it is positive, and at least the
improvement of the prediction itself. -/
theorem C291_order (fstar sigma : ℝ) (hs : 0 < sigma) :
    (∀ a b, a < b → expectedImprovement fstar b sigma < expectedImprovement fstar a sigma) ∧ ∀ a, 0 < expectedImprovement fstar a sigma ∧
      fstar - a < expectedImprovement fstar a sigma := by
  have hlt : ∀ a b, a < b → expectedImprovement fstar b sigma < expectedImprovement fstar a sigma := by
    intro a b h
    rw [expected_eq _ _ _ hs, expected_eq _ _ _ hs]
    refine mul_lt_mul_of_pos_left (unit_lt ?_) hs
    exact div_lt_div_of_pos_right (by linarith) hs
  have hpos : ∀ a, 0 < expectedImprovement fstar a sigma := by
    intro a
    refine lt_of_le_of_lt ?_ (hlt a (a + 1) (by linarith))
    rw [expected_eq _ _ _ hs]
    exact mul_nonneg hs.le (integral_nonneg fun t => mul_nonneg (le_max_right _ _) (pdf_pos t).le)
  refine ⟨hlt, fun a => ⟨hpos a, ?_⟩⟩
  have hrefl : expectedImprovement fstar a sigma - (fstar - a) = expectedImprovement a fstar sigma := by
    have hc : ∀ z, normCdf z = 1 - normCdf (-z) := by
      intro z
      have h1 : normCdf (-z) = ∫ t in Set.Ioi z, normPdf t := by
        unfold normCdf
        rw [← integral_comp_neg_Ioi]
        simp_rw [pdf_even]
      rw [h1, ← pdf_total]
      unfold normCdf
      have h2 := setIntegral_union (Set.Iic_disjoint_Ioi (le_refl z)) measurableSet_Ioi pdf_integrable.integrableOn pdf_integrable.integrableOn
      rw [Set.Iic_union_Ioi, setIntegral_univ] at h2
      rw [h2]; ring
    unfold expectedImprovement
    have e : (a - fstar) / sigma = -((fstar - a) / sigma) := by ring
    rw [e, pdf_even, hc ((fstar - a) / sigma)]
    ring
  have := sub_pos.1 (hrefl ▸ (by
    have hp := (show 0 < expectedImprovement a fstar sigma from by
      have : expectedImprovement a fstar sigma = expectedImprovement fstar (2 * fstar - a) sigma := by
        unfold expectedImprovement
        have e : fstar - (2 * fstar - a) = a - fstar := by ring
        rw [e]
      rw [this]; exact hpos _)
    exact hp) : 0 < expectedImprovement fstar a sigma - (fstar - a))
  exact this

/-- **C291, search.** What the global optimizer minimizes orders points as the expected improvement does. -/
theorem C291_search (fstar fstar' a b s t : ℝ) (hs : 0 < s) (ht : 0 < t) :
    improvementCost fstar a s < improvementCost fstar' b t ↔ expectedImprovement fstar' b t < expectedImprovement fstar a s := by
  unfold improvementCost
  rw [neg_lt_neg_iff]
  exact Real.log_lt_log_iff (((C291_order fstar' t ht).2 b).1) (((C291_order fstar s hs).2 a).1)

example : ∫ y, max ((1 : ℝ) - y) 0 * (normPdf ((y - 3) / 2) / 2) = expectedImprovement 1 3 2 := (C291_mean 1 3 2 (by norm_num)).1

/-! ### C292 -/

theorem sweep_ends (a b : ℝ) (n : ℕ) (h : 1 < n) : sweepPoint a b n 0 = a ∧ sweepPoint a b n (n - 1) = b := by
  have h1 : (1 : ℝ) < n := by exact_mod_cast h
  have h2 : (n : ℝ) - 1 ≠ 0 := by linarith
  unfold sweepPoint
  rw [if_neg (by omega), if_neg (by omega), Nat.cast_sub (by omega)]
  constructor
  · simp
  · push_cast; field_simp; ring

/-- Specification: the inputs `v` with two of them replaced. -/
def setTwo (v : ℕ → ℝ) (k0 k1 : ℕ) (a b : ℝ) : ℕ → ℝ := fun k => if k = k1 then b else if k = k0 then a else v k

theorem update_two (v : ℕ → ℝ) (k0 k1 : ℕ) (a b : ℝ) : Function.update (Function.update v k0 a) k1 b = setTwo v k0 k1 a b := by
  funext k; simp [Function.update_apply, setTwo]

theorem carpetLoop_spec (p : SweepProblem) (n k0 k1 : ℕ) (v : ℕ → ℝ) (l : List (ℕ × ℕ)) (s : Sweep (ℕ × ℕ)) (hs : ∀ k, k ≠ k0 → k ≠ k1 → s.left k = v k) :
    let at' := fun i j => setTwo v k0 k1 (sweepPoint (p.lower k0) (p.upper k0) n i) (sweepPoint (p.lower k1) (p.upper k1) n j)
    (∀ i j, (carpetLoop p n k0 k1 l s).objective (j, i) = if (i, j) ∈ l then some (p.objective (at' i j) * p.objScale) else s.objective (j, i)) ∧
      (∀ k i j, (carpetLoop p n k0 k1 l s).constraint k (j, i) = if (i, j) ∈ l then some (p.constraint (at' i j) k) else s.constraint k (j, i)) ∧
      ∀ q, l.getLast? = some q → (carpetLoop p n k0 k1 l s).left = at' q.1 q.2 := by
  intro at'
  induction l generalizing s with
  | nil => simp [carpetLoop]
  | cons q l ih =>
    obtain ⟨i0, j0⟩ := q
    have hv : Function.update (Function.update s.left k0 (sweepPoint (p.lower k0) (p.upper k0) n i0)) k1 (sweepPoint (p.lower k1) (p.upper k1) n j0) =
        at' i0 j0 := by
      rw [update_two]
      funext k
      simp only [at', setTwo]
      split_ifs with h1 h2
      · rfl
      · rfl
      · exact hs k h2 h1
    rw [carpetLoop]
    simp only [hv]
    obtain ⟨e1, e2, e3⟩ := ih ⟨Function.update s.objective (j0, i0) (some (p.objective (at' i0 j0) * p.objScale)),
      fun k => Function.update (s.constraint k) (j0, i0) (some (p.constraint (at' i0 j0) k)), at' i0 j0⟩ (by
        intro k h0 h1; simp [at', setTwo, h0, h1])
    refine ⟨fun i j => ?_, fun k i j => ?_, fun q hq => ?_⟩
    · rw [e1]
      by_cases hm : (i, j) ∈ l
      · simp [hm]
      · by_cases hq : i = i0 ∧ j = j0
        · obtain ⟨rfl, rfl⟩ := hq; simp [hm]
        · have h1 : (i, j) ≠ (i0, j0) := by simpa using hq
          have h2 : (j, i) ≠ (j0, i0) := by simp; intro a b; exact hq ⟨b, a⟩
          simp [hm, h1, Function.update_of_ne h2]
    · rw [e2]
      by_cases hm : (i, j) ∈ l
      · simp [hm]
      · by_cases hq : i = i0 ∧ j = j0
        · obtain ⟨rfl, rfl⟩ := hq; simp [hm]
        · have h1 : (i, j) ≠ (i0, j0) := by simpa using hq
          have h2 : (j, i) ≠ (j0, i0) := by simp; intro a b; exact hq ⟨b, a⟩
          simp [hm, h1, Function.update_of_ne h2]
    · rw [List.getLast?_cons] at hq
      cases hl : l.getLast? with
      | none =>
        rw [hl] at hq
        have : l = [] := List.getLast?_eq_none_iff.1 hl
        subst this
        simp at hq
        subst hq
        rfl
      | some q' =>
        rw [hl] at hq
        simp at hq
        subst hq
        exact e3 q' hl

theorem pairs_mem (n i j : ℕ) : (i, j) ∈ ((List.range n).flatMap fun i => (List.range n).map fun j => (i, j)) ↔ i < n ∧ j < n := by
  simp

/-- **C292, objective.** The entry in row `j` and column `i` of a carpet plot is the objective in its units where the first input has its
`i`-th value, the second its `j`-th and the others are unchanged; the values run from bound to bound. -/
theorem C292_carpet (p : SweepProblem) (hs : p.objScale ≠ 0) (n k0 k1 : ℕ) (v : ℕ → ℝ) (i j : ℕ) (hi : i < n) (hj : j < n) :
    (carpet p n k0 k1 v).objective (j, i) =
      some (p.obj (setTwo v k0 k1 (sweepPoint (p.lower k0) (p.upper k0) n i) (sweepPoint (p.lower k1) (p.upper k1) n j)) / p.objUnits) ∧
      (1 < n → ∀ k, sweepPoint (p.lower k) (p.upper k) n 0 = p.lower k ∧ sweepPoint (p.lower k) (p.upper k) n (n - 1) = p.upper k) := by
  refine ⟨?_, fun h k => sweep_ends _ _ n h⟩
  unfold carpet
  rw [(carpetLoop_spec p n k0 k1 v _ _ (by simp)).1 i j, if_pos ((pairs_mem n i j).2 ⟨hi, hj⟩)]
  simp only [SweepProblem.objective, Option.some.injEq]
  by_cases hu : p.objUnits = 0
  · simp [hu]
  · field_simp

example : (carpet ⟨fun v => 6 * v 0 + v 1, 3, 2, fun _ _ => 0, fun _ => 1, fun _ => 0, fun _ => 1⟩ 3 0 1 fun _ => 7).objective (2, 0) = some (1 / 2) := by
  rw [(C292_carpet _ (by norm_num) 3 0 1 _ 0 2 (by norm_num) (by norm_num)).1]
  simp [setTwo, sweepPoint]; norm_num

/-- **C292, constraints.** The entries for a constraint are its values divided by its scale; they are its values when the scale is one. -/
theorem C292_constraints_partial (p : SweepProblem) (n k0 k1 : ℕ) (v : ℕ → ℝ) (k i j : ℕ) (hk : p.conScale k = 1) (hi : i < n) (hj : j < n) :
    (carpet p n k0 k1 v).constraint k (j, i) =
      some (p.con (setTwo v k0 k1 (sweepPoint (p.lower k0) (p.upper k0) n i) (sweepPoint (p.lower k1) (p.upper k1) n j)) k) := by
  unfold carpet
  rw [(carpetLoop_spec p n k0 k1 v _ _ (by simp)).2.1 k i j, if_pos ((pairs_mem n i j).2 ⟨hi, hj⟩)]
  simp [SweepProblem.constraint, hk]

/-- A problem with one constraint of value 5 and scale 10. -/
noncomputable def scaledProblem : SweepProblem := ⟨fun v => v 0, 1, 1, fun _ _ => 5, fun _ => 10, fun _ => 0, fun _ => 1⟩

/-- **C292 fails for constraints with a scale.** The objective is scaled back, the constraints are not. -/
theorem C292_constraints_counterexample : (carpet scaledProblem 2 0 1 fun _ => 0).constraint 0 (0, 0) = some (1 / 2) ∧ ∀ v, scaledProblem.con v 0 = 5 := by
  refine ⟨?_, fun v => rfl⟩
  unfold carpet
  rw [(carpetLoop_spec scaledProblem 2 0 1 _ _ _ (by simp; exact fun _ _ _ => rfl)).2.1 0 0 0, if_pos ((pairs_mem 2 0 0).2 ⟨by norm_num, by norm_num⟩)]
  simp [SweepProblem.constraint, scaledProblem]; norm_num

/-- **C292 fails for the problem left behind.** After a carpet plot both inputs are at their upper bounds, whatever they were. -/
theorem C292_left_counterexample (p : SweepProblem) (n k0 k1 : ℕ) (hn : 1 < n) (v : ℕ → ℝ) :
    (carpet p n k0 k1 v).left = setTwo v k0 k1 (p.upper k0) (p.upper k1) := by
  unfold carpet
  have hl : ((List.range n).flatMap fun i => (List.range n).map fun j => (i, j)).getLast? = some (n - 1, n - 1) := by
    obtain ⟨m, rfl⟩ : ∃ m, n = m + 1 := ⟨n - 1, by omega⟩
    rw [List.range_succ, List.flatMap_append]
    simp
  rw [(carpetLoop_spec p n k0 k1 v _ _ (by simp)).2.2 _ hl]
  simp only [(sweep_ends _ _ n hn).2]

theorem lineLoop_spec (p : SweepProblem) (n k0 : ℕ) (v : ℕ → ℝ) (l : List ℕ) (s : Sweep ℕ) (hs : ∀ k, k ≠ k0 → s.left k = v k) :
    let at' := fun i => Function.update v k0 (sweepPoint (p.lower k0) (p.upper k0) n i)
    (∀ i, (lineLoop p n k0 l s).objective i = if i ∈ l then some (p.objective (at' i) * p.objScale) else s.objective i) ∧
      (∀ k i, (lineLoop p n k0 l s).constraint k i = if i ∈ l then some (p.constraint (at' i) k) else s.constraint k i) := by
  intro at'
  induction l generalizing s with
  | nil => simp [lineLoop]
  | cons i0 l ih =>
    have hv : Function.update s.left k0 (sweepPoint (p.lower k0) (p.upper k0) n i0) = at' i0 := by
      funext k
      by_cases hk : k = k0
      · subst hk; simp [at']
      · simp [at', hk, hs k hk]
    rw [lineLoop]
    simp only [hv]
    obtain ⟨e1, e2⟩ := ih ⟨Function.update s.objective i0 (some (p.objective (at' i0) * p.objScale)),
      fun k => Function.update (s.constraint k) i0 (some (p.constraint (at' i0) k)), at' i0⟩ (by intro k h0; simp [at', h0])
    refine ⟨fun i => ?_, fun k i => ?_⟩
    · rw [e1]
      by_cases hm : i ∈ l
      · simp [hm]
      · by_cases hq : i = i0
        · subst hq; simp [hm]
        · simp [hm, hq]
    · rw [e2]
      by_cases hm : i ∈ l
      · simp [hm]
      · by_cases hq : i = i0
        · subst hq; simp [hm]
        · simp [hm, hq]

/-- **C292, line.** Entry `i` of a line plot is the objective in its units, and each constraint over its scale, where the input has its
`i`-th value and the others are unchanged. -/
theorem C292_line (p : SweepProblem) (hs : p.objScale ≠ 0) (n k0 : ℕ) (v : ℕ → ℝ) (i : ℕ) (hi : i < n) :
    (lineSweep p n k0 v).objective i = some (p.obj (Function.update v k0 (sweepPoint (p.lower k0) (p.upper k0) n i)) / p.objUnits) ∧
      ∀ k, (lineSweep p n k0 v).constraint k i = some (p.con (Function.update v k0 (sweepPoint (p.lower k0) (p.upper k0) n i)) k / p.conScale k) := by
  unfold lineSweep
  obtain ⟨e1, e2⟩ := lineLoop_spec p n k0 v (List.range n) ⟨fun _ => none, fun _ _ => none, v⟩ (by simp)
  refine ⟨?_, fun k => ?_⟩
  · rw [e1, if_pos (List.mem_range.2 hi)]
    simp only [SweepProblem.objective, Option.some.injEq]
    by_cases hu : p.objUnits = 0
    · simp [hu]
    · field_simp
  · rw [e2, if_pos (List.mem_range.2 hi)]; rfl

/-! ### C293 -/

theorem surrLoop_spec {X : Type} (f : X → ℝ) (opt : List (X × ℝ) → X) (close : X → X → Prop) (n j : ℕ) (s : SurrState X) :
    ∃ l : List X, l.length ≤ n ∧ (surrLoop f opt close n j s).data = s.data ++ l.map (fun x => (x, f x)) ∧
      (surrLoop f opt close n j s).last = (l.getLast?.map fun x => (x, f x)).or s.last ∧
      (∀ k x, l[k]? = some x → x = opt (s.data ++ (l.take k).map fun x => (x, f x))) ∧
      (l.length < n → 1 < j + l.length ∧ ∃ y, (surrLoop f opt close n j s).last = some y ∧ close (opt (surrLoop f opt close n j s).data) y.1) := by
  induction n generalizing j s with
  | zero => exact ⟨[], by simp, by simp [surrLoop], by simp [surrLoop], by simp, by simp⟩
  | succ n ih =>
    rw [surrLoop]
    split_ifs with h
    · exact ⟨[], by simp, by simp, by simp, by simp, fun _ => ⟨by simpa using h.1, h.2⟩⟩
    · obtain ⟨l, e1, e2, e3, e4, e5⟩ := ih (j + 1) ⟨s.data ++ [(opt s.data, f (opt s.data))], some (opt s.data, f (opt s.data))⟩
      refine ⟨opt s.data :: l, by simpa using e1, by rw [e2]; simp, ?_, ?_, ?_⟩
      · rw [e3, List.getLast?_cons]
        cases l.getLast? <;> simp
      · intro k x hx
        cases k with
        | zero => simp at hx; simp [hx]
        | succ k =>
          have := e4 k x (by simpa using hx)
          rw [this]; simp
      · intro hl
        obtain ⟨g1, g2⟩ := e5 (by simp at hl; omega)
        exact ⟨by simp; omega, g2⟩

/-- **C293, result.** Surrogate optimization evaluates the problem at the optimum of the surrogate of all data so far, at most the given
number of times, and returns the last of these points with its own objective; it ends early, after two evaluations or more, only when the
next optimum is close to that point. -/
theorem C293_result {X : Type} (f : X → ℝ) (opt : List (X × ℝ) → X) (close : X → X → Prop) (m : ℕ) (data : List (X × ℝ)) :
    ∃ l : List X, l.length ≤ m ∧ surrogateOptimum f opt close m data = l.getLast?.map (fun x => (x, f x)) ∧
      (∀ k x, l[k]? = some x → x = opt (data ++ (l.take k).map fun x => (x, f x))) ∧
      (l.length < m → 1 < l.length ∧ ∃ x, l.getLast? = some x ∧ close (opt (data ++ l.map fun x => (x, f x))) x) := by
  obtain ⟨l, e1, e2, e3, e4, e5⟩ := surrLoop_spec f opt close m 0 ⟨data, none⟩
  have e3' : surrogateOptimum f opt close m data = l.getLast?.map (fun x => (x, f x)) := by unfold surrogateOptimum; rw [e3]; simp
  refine ⟨l, e1, e3', e4, fun hl => ?_⟩
  obtain ⟨g1, y, g2, g3⟩ := e5 hl
  refine ⟨by simpa using g1, ?_⟩
  rw [e3] at g2
  rw [e2] at g3
  cases hg : l.getLast? with
  | none => rw [hg] at g2; simp at g2
  | some x =>
    rw [hg] at g2
    simp at g2
    refine ⟨x, rfl, ?_⟩
    rw [← g2] at g3
    exact g3

/-- **C293, value.** The result is a point with its own objective, unless no iteration is allowed, which is an exception. -/
theorem C293_value {X : Type} (f : X → ℝ) (opt : List (X × ℝ) → X) (close : X → X → Prop) (m : ℕ) (data : List (X × ℝ)) :
    (surrogateOptimum f opt close m data = none ↔ m = 0) ∧ ∀ r, surrogateOptimum f opt close m data = some r → r.2 = f r.1 := by
  obtain ⟨l, e1, e2, e3, e4⟩ := C293_result f opt close m data
  rw [e2]
  refine ⟨⟨fun h => ?_, fun h => ?_⟩, fun r hr => ?_⟩
  · by_contra hm
    have : l = [] := by simpa using h
    subst this
    have := (e4 (by simp; omega)).1
    simp at this
  · subst h
    have : l = [] := by simpa using e1
    simp [this]
  · obtain ⟨x, _, rfl⟩ := Option.map_eq_some_iff.1 hr
    rfl

example : surrogateOptimum (fun x : ℝ => x ^ 2) (fun d => d.length) (fun a b => |a - b| < 1 / 10) 1 [(3, 9)] = some (1, 1) := by
  norm_num [surrogateOptimum, surrLoop]

/-- A surrogate on two points: known values, else minus one. -/
noncomputable def guessFit : Fit Bool := fun data x =>
  match data.find? fun q => q.1 == x with
  | some q => q.2
  | none => -1

theorem guessFit_interpolates : guessFit.Interpolates := by
  intro data hd x y hxy
  unfold guessFit
  cases hf : data.find? fun q => q.1 == x with
  | none =>
    have := List.find?_eq_none.1 hf (x, y) hxy
    simp at this
  | some q =>
    have h1 := List.mem_of_find?_eq_some hf
    have h2 := List.find?_some hf
    simp only [beq_iff_eq] at h2
    exact hd x q.2 y (by rw [← h2]; exact h1) hxy

open Classical in
/-- **C293 fails for the best design.** A sampled design can be better than the one returned, also where the optimizer finds the minimum of
a surrogate that reproduces its data. -/
theorem C293_best_counterexample : ∃ (f : Bool → ℝ) (opt : List (Bool × ℝ) → Bool) (surr : Fit Bool),
    (∀ d y, surr d (opt d) ≤ surr d y) ∧ surr.Interpolates ∧ surrogateOptimum f opt (· = ·) 1 [(false, f false)] = some (true, f true) ∧ f false < f true := by
  refine ⟨fun b => if b then 1 else 0, fun d => if guessFit d true ≤ guessFit d false then true else false, guessFit, ?_, guessFit_interpolates, ?_, by simp⟩
  · intro d y
    simp only
    split_ifs with h
    · cases y <;> simp [h]
    · cases y
      · exact le_rfl
      · exact (not_le.1 h).le
  · have h : guessFit [(false, 0)] true ≤ guessFit [(false, 0)] false := by simp [guessFit]
    simp [surrogateOptimum, surrLoop, h]

/-! ### C294 -/

/-- **C294, last point.** With the positive index of the last point the check leaves that point out and compares the prediction there with
its value. -/
theorem C294_last_partial {X : Type} (fit : Fit X) (d : List (X × ℝ)) (hd : d ≠ []) (x : X) (y : ℝ) (hy : y ≠ 0) :
    svrAccuracy fit (d ++ [(x, y)]) d.length = some |(y - fit d x) / y| := by
  have hk : keptData (d ++ [(x, y)]) d.length = d := by
    have h0 : d.length ≠ 0 := by simpa using hd
    unfold keptData pyTake pyDrop
    rw [if_neg (by exact_mod_cast h0), if_pos (by positivity), if_pos (by positivity)]
    have : ((d.length : ℤ) + 1).toNat = d.length + 1 := by omega
    rw [this, Int.toNat_natCast, List.take_left, List.drop_of_length_le (by simp), List.append_nil]
  have hl : pyGet? (-1) (d ++ [(x, y)]) = some (x, y) := by
    unfold pyGet?
    rw [if_neg (by norm_num), if_pos (by simp)]
    have : (((d ++ [(x, y)]).length : ℤ) + -1).toNat = d.length := by simp
    rw [this]; simp
  have hr : pyGet? (d.length : ℤ) (d ++ [(x, y)]) = some (x, y) := by
    unfold pyGet?
    rw [if_pos (by positivity)]; simp
  unfold svrAccuracy
  rw [hl, hr, hk]
  simp [hy]

example : svrAccuracy (fun d _ => d.length) [(1, 4), (2, 5), (3, (8 : ℝ))] 2 = some (3 / 4) := by
  have := C294_last_partial (fun d (_ : ℝ) => (d.length : ℝ)) [(1, 4), (2, 5)] (by simp) 3 8 (by norm_num)
  norm_num at this ⊢
  exact this

/-- **C294 fails for the default.** By default nothing is left out: a model that reproduces its data has error zero, however it predicts. -/
theorem C294_default_counterexample {X : Type} (fit : Fit X) (hfit : fit.Interpolates) (d : List (X × ℝ)) (x : X) (y : ℝ) (hy : y ≠ 0)
    (hd : ∀ a b b', (a, b) ∈ d ++ [(x, y)] → (a, b') ∈ d ++ [(x, y)] → b = b') : svrAccuracy fit (d ++ [(x, y)]) (-1) = some 0 := by
  have hk : keptData (d ++ [(x, y)]) (-1) = d ++ (d ++ [(x, y)]) := by
    unfold keptData pyTake pyDrop
    rw [if_neg (by norm_num), if_neg (by norm_num), if_pos (by norm_num)]
    have : (((d ++ [(x, y)]).length : ℤ) + -1).toNat = d.length := by simp
    rw [this]; simp
  have hl : pyGet? (-1) (d ++ [(x, y)]) = some (x, y) := by
    unfold pyGet?
    rw [if_neg (by norm_num), if_pos (by simp)]
    have : (((d ++ [(x, y)]).length : ℤ) + -1).toNat = d.length := by simp
    rw [this]; simp
  have hm : ∀ q, q ∈ d ++ (d ++ [(x, y)]) → q ∈ d ++ [(x, y)] := by
    intro q hq
    rcases List.mem_append.1 hq with h | h
    · exact List.mem_append_left _ h
    · exact h
  have hf : fit (d ++ (d ++ [(x, y)])) x = y := hfit _ (fun a b b' h1 h2 => hd a b b' (hm _ h1) (hm _ h2)) x y (by simp)
  unfold svrAccuracy
  rw [hl, hk]
  simp [hy, hf]

/-- **C294 fails for the first point.** With index zero the prediction at the last point is compared with the value at the first: for a
model that reproduces its data the result is the change of the data. -/
theorem C294_first_counterexample {X : Type} (fit : Fit X) (hfit : fit.Interpolates) (d : List (X × ℝ)) (x x0 : X) (y y0 : ℝ) (hy : y0 ≠ 0)
    (hd : ∀ a b b', (a, b) ∈ d ++ [(x, y)] → (a, b') ∈ d ++ [(x, y)] → b = b') :
    svrAccuracy fit ((x0, y0) :: d ++ [(x, y)]) 0 = some |(y0 - y) / y0| := by
  have hk : keptData ((x0, y0) :: d ++ [(x, y)]) 0 = d ++ [(x, y)] := by
    unfold keptData pyDrop
    simp
  have hl : pyGet? (-1) ((x0, y0) :: d ++ [(x, y)]) = some (x, y) := by
    unfold pyGet?
    rw [if_neg (by norm_num), if_pos (by simp; positivity)]
    have : ((((x0, y0) :: d ++ [(x, y)]).length : ℤ) + -1).toNat = d.length + 1 := by simp
    rw [this]; simp
  have hr : pyGet? (0 : ℤ) ((x0, y0) :: d ++ [(x, y)]) = some (x0, y0) := by
    unfold pyGet?; simp
  unfold svrAccuracy
  rw [hl, hr, hk]
  simp [hy, hfit _ hd x y (by simp)]

end Verif.Optim
