import Verif.Energy.Piston
import Verif.Physics.AtmosphereProps
import Mathlib.Tactic.Linarith
import Mathlib.Tactic.FieldSimp
import Mathlib.Tactic.Positivity
import Mathlib.Analysis.Complex.ExponentialBounds
/-
Properties C239-C241: piston engines and their networks.
-/

namespace Verif.Energy.Piston

/-- Sea level density of the tabulated atmosphere scales inversely with absolute temperature. -/
theorem airDensity_sea (g Rad R dT : ℝ) (hR : 0 < R) (hT : 0 < 288.15 + dT) :
    0 < airDensity g Rad R 0 dT ∧ airDensity g Rad R 0 dT / airDensity g Rad R 0 0 = 288.15 / (288.15 + dT) := by
  have hok := Verif.Physics.us76_ok
  have hz0 : Verif.Physics.us76.clamp (Verif.Physics.geopotential Rad 0) = 0 := by
    have h0 : Verif.Physics.geopotential Rad 0 = 0 := by simp [Verif.Physics.geopotential]
    rw [h0]
    apply Verif.Physics.C31_inside _ hok <;> norm_num [Verif.Physics.us76]
  have ht0 : ∀ d, Verif.Physics.us76.temp 0 d = 288.15 + d := by
    intro d
    have := Verif.Physics.C31_breaks Verif.Physics.us76 hok 1 (by norm_num [Verif.Physics.us76]) d
    norm_num [Verif.Physics.us76] at this ⊢
    exact this
  have hp := Verif.Physics.press_pos Verif.Physics.us76 hok g R 0
  rw [show Verif.Physics.us76.clamp 0 = 0 by
    apply Verif.Physics.C31_inside _ hok <;> norm_num [Verif.Physics.us76]] at hp
  unfold airDensity Verif.Physics.Breaks.compute
  simp only [hz0, ht0]
  generalize Verif.Physics.us76.press g R 0 = p at hp ⊢
  constructor
  · positivity
  · have : (288.15 + 0 : ℝ) ≠ 0 := by norm_num
    field_simp
    ring

/-- **C239.** Up to the flat rating altitude the engine gives its rated power times throttle; on a standard day the power joins the
falling branch there without a jump; where the density is not above sea level density no more than the rated power is given; fuel is
specific consumption times power, and torque times speed is power. -/
theorem C239_power_partial (e : Engine) (dens : ℝ → ℝ → ℝ) (h dT t ω : ℝ) (hr : 0 ≤ e.rated) (ht : 0 ≤ t) (hω : ω ≠ 0)
    (hs : 0 ≤ e.sfc) (hd0 : 0 < dens 0 0) :
    (h < e.flat → (e.power dens h dT t ω).power = e.rated * t) ∧
      (e.power dens e.flat 0 t ω).power = e.rated * t ∧
      (dens (h - e.flat) dT ≤ dens 0 0 → (e.power dens h dT t ω).power ≤ e.rated * t) ∧
      0 ≤ (e.power dens h dT t ω).power ∧
      (e.power dens h dT t ω).fuel = e.sfc * (e.power dens h dT t ω).power ∧
      (e.power dens h dT t ω).torque * ω = (e.power dens h dT t ω).power := by
  have hrt : 0 ≤ e.rated * t := mul_nonneg hr ht
  have hnn : ∀ h' d', 0 ≤ (e.power dens h' d' t ω).power := by
    intro h' d'
    simp only [Engine.power]
    split_ifs with hc
    · exact le_refl _
    · exact not_lt.mp hc
  refine ⟨?_, ?_, ?_, hnn _ _, ?_, ?_⟩
  · intro hh
    simp only [Engine.power, Engine.available, gt_iff_lt, if_pos hh]
    rw [if_neg (not_lt.mpr hrt)]
  · have hav : e.available dens e.flat 0 = e.rated := by
      simp only [Engine.available, Engine.sigma, gt_iff_lt, lt_irrefl, if_false, sub_self, div_self hd0.ne']
      norm_num
    simp only [Engine.power, hav]
    rw [if_neg (not_lt.mpr hrt)]
  · intro hd
    have hav : e.available dens h dT ≤ e.rated := by
      unfold Engine.available
      split_ifs with hf
      · exact le_refl _
      · have hv : ¬ h - e.flat < 0 := by
          have := not_lt.mp hf
          linarith
        simp only [Engine.sigma, if_neg hv]
        have : dens (h - e.flat) dT / dens 0 0 ≤ 1 := by
          rw [div_le_one hd0]; exact hd
        rw [div_le_iff₀ (by norm_num)]
        nlinarith
    simp only [Engine.power]
    have := mul_le_mul_of_nonneg_right hav ht
    split_ifs <;> linarith
  · have h0 := hnn h dT
    simp only [Engine.power] at h0 ⊢
    rw [max_eq_left (mul_nonneg h0 hs)]
    ring
  · simp only [Engine.power]
    field_simp

/-- An engine of 100 kW flat rated to 1000 m in an atmosphere of falling density. -/
example : ∃ (e : Engine) (dens : ℝ → ℝ → ℝ), 0 ≤ e.rated ∧ 0 ≤ e.sfc ∧ 0 < dens 0 0 ∧ dens (3000 - e.flat) 0 ≤ dens 0 0 :=
  ⟨⟨100000, 1000, 0⟩, fun h _ => 1 - h / 10000, by norm_num, le_refl _, by norm_num, by norm_num⟩

/-- **C239 fails on a hot day.** Just below the flat rating altitude the rated power is given, at that altitude less: in the 1976
atmosphere with any temperature above standard the power drops by a fixed amount. -/
theorem C239_hot_day_counterexample (e : Engine) (g Rad R dT t ω : ℝ) (hr : 0 < e.rated) (ht : 0 < t) (hR : 0 < R) (hT : 0 < dT) :
    (∀ h < e.flat, (e.power (airDensity g Rad R) h dT t ω).power = e.rated * t) ∧
      (e.power (airDensity g Rad R) e.flat dT t ω).power < e.rated * t := by
  have hrt : 0 < e.rated * t := mul_pos hr ht
  constructor
  · intro h hh
    simp only [Engine.power, Engine.available, gt_iff_lt, if_pos hh]
    rw [if_neg (not_lt.mpr hrt.le)]
  · have hσ := (airDensity_sea g Rad R dT hR (by linarith)).2
    have hav : e.available (airDensity g Rad R) e.flat dT < e.rated := by
      simp only [Engine.available, Engine.sigma, gt_iff_lt, lt_irrefl, if_false, sub_self, hσ]
      rw [div_lt_iff₀ (by norm_num)]
      have : 288.15 / (288.15 + dT) < 1 := by
        rw [div_lt_one (by linarith)]
        linarith
      nlinarith
    have := mul_lt_mul_of_pos_right hav ht
    simp only [Engine.power]
    split_ifs <;> linarith

/-- **C240.** Where power is available, the throttle found for the power of a throttle setting is that setting, and both directions
burn the same fuel. -/
theorem C240_inverse (e : Engine) (dens : ℝ → ℝ → ℝ) (h dT t ω : ℝ) (ha : 0 < e.available dens h dT) (ht : 0 ≤ t) :
    (e.calculateThrottle dens h dT (e.power dens h dT t ω).power).throttle = t ∧
      (e.calculateThrottle dens h dT (e.power dens h dT t ω).power).fuel = (e.power dens h dT t ω).fuel := by
  have h0 : 0 ≤ e.available dens h dT * t := mul_nonneg ha.le ht
  have hp : (e.power dens h dT t ω).power = e.available dens h dT * t := by
    simp only [Engine.power, if_neg (not_lt.mpr h0)]
  constructor
  · rw [hp]
    simp only [Engine.calculateThrottle]
    field_simp
  · rw [hp]
    simp only [Engine.calculateThrottle, Engine.power, if_neg (not_lt.mpr h0)]

/-- **C240, the other way.** A demand that the available power covers gets a throttle between zero and one that delivers it. -/
theorem C240_demand_partial (e : Engine) (dens : ℝ → ℝ → ℝ) (h dT d ω : ℝ) (ha : 0 < e.available dens h dT) (hd : 0 ≤ d)
    (hda : d ≤ e.available dens h dT) :
    let t := (e.calculateThrottle dens h dT d).throttle
    0 ≤ t ∧ t ≤ 1 ∧ (e.power dens h dT t ω).power = d := by
  have e1 : e.available dens h dT * (d / e.available dens h dT) = d := by field_simp
  have e2 : (e.calculateThrottle dens h dT d).throttle = d / e.available dens h dT := rfl
  simp only [e2]
  refine ⟨by positivity, ?_, ?_⟩
  · rw [div_le_one ha]; exact hda
  · simp only [Engine.power, e1, if_neg (not_lt.mpr hd)]

example : (0 : ℝ) < (⟨100, 0, 1⟩ : Engine).available (fun _ _ => 1) 0 0 := by
  norm_num [Engine.available, Engine.sigma]

/-- **C240 fails without power available.** Above the altitude where the available power vanishes a positive demand gets a negative
throttle, its fuel is still charged, and that throttle run forward gives the demand. -/
theorem C240_ceiling_counterexample (e : Engine) (dens : ℝ → ℝ → ℝ) (h dT d ω : ℝ) (hr : 0 < e.rated) (hs : 0 < e.sfc) (hf : e.flat ≤ h)
    (hσ : e.sigma dens h dT < 0.117) (hd : 0 < d) :
    (e.calculateThrottle dens h dT d).throttle < 0 ∧ (e.calculateThrottle dens h dT d).fuel = e.sfc * d ∧
      (e.power dens h dT (e.calculateThrottle dens h dT d).throttle ω).power = d ∧
      ∀ t, 0 ≤ t → (e.power dens h dT t ω).power = 0 := by
  have ha : e.available dens h dT < 0 := by
    unfold Engine.available
    rw [if_neg (by simpa using hf)]
    rw [div_lt_iff₀ (by norm_num)]
    nlinarith
  have e1 : e.available dens h dT * (d / e.available dens h dT) = d := by
    have := ha.ne
    field_simp
  refine ⟨?_, ?_, ?_, ?_⟩
  · exact div_neg_of_pos_of_neg hd ha
  · simp only [Engine.calculateThrottle, if_neg (not_lt.mpr hd.le)]
    rw [max_eq_left (by positivity)]
    ring
  · simp only [Engine.calculateThrottle, Engine.power, e1, if_neg (not_lt.mpr hd.le)]
  · intro t ht
    simp only [Engine.power]
    split_ifs with hc
    · rfl
    · have : e.available dens h dT * t ≤ 0 := by nlinarith
      linarith [not_lt.mp hc]

example : (⟨100, 0, 1⟩ : Engine).sigma (fun h _ => Real.exp (-h)) 3 0 < 0.117 := by
  simp only [Engine.sigma]
  norm_num
  have h1 : Real.exp (-3) = 1 / Real.exp 3 := by rw [Real.exp_neg]; simp
  rw [h1]
  have h2 : (2.7 : ℝ) < Real.exp 1 := by linarith [Real.exp_one_gt_d9]
  have h3 : Real.exp 3 = Real.exp 1 ^ 3 := by rw [← Real.exp_nat_mul]; norm_num
  rw [h3, div_lt_iff₀ (by positivity)]
  have h4 : (2.7 : ℝ) ^ 3 < Real.exp 1 ^ 3 := pow_lt_pow_left₀ h2 (by norm_num) (by norm_num)
  norm_num at h4 ⊢
  linarith

/-- Sums of a fold of the variable speed loop. -/
theorem fold_variable (dens : ℝ → ℝ → ℝ) (ru h dT t rpm factor : ℝ) (us : List Unit) (s : Total) :
    let r := us.foldl (stepVariable dens ru h dT t rpm factor) s
    (∀ k, r.thrust k = s.thrust k + factor * (us.map fun u => overThrottle t ((u.spin (rpm * ru)).thrust k)).sum) ∧
      r.power = s.power + factor * (us.map fun u => overThrottle t (u.spin (rpm * ru)).power).sum ∧
      r.fuel = s.fuel + factor * (us.map fun u => (u.engine.power dens h dT t (rpm * ru)).fuel).sum ∧
      r.engineTorque = s.engineTorque ++ us.map (fun u => (u.engine.power dens h dT t (rpm * ru)).torque) ∧
      r.propTorque = s.propTorque ++ us.map (fun u => (u.spin (rpm * ru)).torque) := by
  induction us generalizing s with
  | nil => simp
  | cons u us ih =>
    obtain ⟨h1, h2, h3, h4, h5⟩ := ih (stepVariable dens ru h dT t rpm factor s u)
    simp only [List.foldl_cons, List.map_cons, List.sum_cons]
    refine ⟨fun k => ?_, ?_, ?_, ?_, ?_⟩
    · rw [h1]; simp only [stepVariable]; ring
    · rw [h2]; simp only [stepVariable]; ring
    · rw [h3]; simp only [stepVariable]; ring
    · rw [h4]; simp [stepVariable]
    · rw [h5]; simp [stepVariable]

/-- Specification: the engines that are flying: `n` copies of the first, or the first `n`. -/
def flying (identical : Bool) (n : ℕ) (us : List Unit) : List Unit :=
  if identical then (us.head?.map (List.replicate n)).getD [] else us.take n

theorem sum_flying (identical : Bool) (n : ℕ) (us : List Unit) (q : List Unit × ℝ) (hq : evaluated identical n us = some q) (f : Unit → ℝ) :
    q.2 * (q.1.map f).sum = ((flying identical n us).map f).sum := by
  unfold evaluated at hq
  unfold flying
  cases identical with
  | true =>
    simp only [if_true] at hq ⊢
    cases us with
    | nil => simp at hq
    | cons u us =>
      simp only [Option.some.injEq] at hq
      subst hq
      simp
  | false =>
    simp only [Bool.false_eq_true, if_false] at hq ⊢
    split_ifs at hq with hl
    simp only [Option.some.injEq] at hq
    subst hq
    simp

/-- **C241, variable speed.** Thrust, power and fuel of the variable speed network are the sums over the engines that fly, each
scaled above full throttle; once the torques balance, every propeller absorbs what its engine gives. -/
theorem C241_variable (dens : ℝ → ℝ → ℝ) (ru h dT t rpm : ℝ) (identical : Bool) (n : ℕ) (us : List Unit) (r : Total)
    (hr : variableSpeed dens ru h dT t rpm identical n us = some r) :
    (∀ k, r.thrust k = ((flying identical n us).map fun u => overThrottle t ((u.spin (rpm * ru)).thrust k)).sum) ∧
      r.power = ((flying identical n us).map fun u => overThrottle t (u.spin (rpm * ru)).power).sum ∧
      r.fuel = ((flying identical n us).map fun u => (u.engine.power dens h dT t (rpm * ru)).fuel).sum ∧
      (r.residual = r.engineTorque.map (fun _ => 0) → r.engineTorque = r.propTorque) := by
  unfold variableSpeed at hr
  obtain ⟨q, hq, rfl⟩ := Option.map_eq_some_iff.mp hr
  obtain ⟨h1, h2, h3, h4, h5⟩ := fold_variable dens ru h dT t rpm q.2 q.1 ⟨fun _ => 0, 0, 0, [], []⟩
  refine ⟨fun k => ?_, ?_, ?_, ?_⟩
  · rw [h1, ← sum_flying identical n us q hq]; simp
  · rw [h2, ← sum_flying identical n us q hq]; simp
  · rw [h3, ← sum_flying identical n us q hq]; simp
  · rw [Total.residual, h4, h5]
    simp only [List.nil_append]
    intro hz
    rw [List.zipWith_map, List.zipWith_self, List.map_map] at hz
    apply List.map_congr_left
    intro u hu
    have := List.map_inj_left.mp hz u hu
    simp only [Function.comp] at this
    linarith

/-- **C241, consumption.** With identical engines at most at full throttle, balanced torque and a propeller whose power is torque
times speed, the network burns specific consumption times the power it reports. -/
theorem C241_consumption (dens : ℝ → ℝ → ℝ) (ru h dT t rpm : ℝ) (n : ℕ) (u : Unit) (us : List Unit) (r : Total)
    (hr : variableSpeed dens ru h dT t rpm true n (u :: us) = some r) (ht : t ≤ 1) (hω : rpm * ru ≠ 0) (hsfc : 0 ≤ u.engine.sfc)
    (hprop : (u.spin (rpm * ru)).power = (u.spin (rpm * ru)).torque * (rpm * ru))
    (hbal : (u.engine.power dens h dT t (rpm * ru)).torque = (u.spin (rpm * ru)).torque) :
    r.fuel = u.engine.sfc * r.power := by
  obtain ⟨-, h2, h3, -⟩ := C241_variable dens ru h dT t rpm true n (u :: us) r hr
  rw [h2, h3]
  simp only [flying, if_true, List.head?_cons, Option.map_some, Option.getD_some, List.map_replicate, List.sum_replicate, nsmul_eq_mul]
  have e1 : (u.engine.power dens h dT t (rpm * ru)).power = (u.spin (rpm * ru)).power := by
    rw [hprop, ← hbal]
    simp only [Engine.power]
    rw [div_mul_cancel₀ _ hω]
  have e2 : overThrottle t (u.spin (rpm * ru)).power = (u.spin (rpm * ru)).power := by
    unfold overThrottle; rw [if_neg (by linarith)]
  have e3 : (u.engine.power dens h dT t (rpm * ru)).fuel = u.engine.sfc * (u.engine.power dens h dT t (rpm * ru)).power := by
    have h0 : 0 ≤ (u.engine.power dens h dT t (rpm * ru)).power := by
      simp only [Engine.power]
      split_ifs with hc
      · exact le_refl _
      · exact not_lt.mp hc
    have : (u.engine.power dens h dT t (rpm * ru)).fuel = max ((u.engine.power dens h dT t (rpm * ru)).power * u.engine.sfc) 0 := rfl
    rw [this, max_eq_left (mul_nonneg h0 hsfc)]
    ring
  rw [e2, e3, e1]
  ring

/-- Two identical engines in balance. -/
example : ∃ r, variableSpeed (fun _ _ => 1) 1 0 0 1 2 true 2 [⟨⟨10, 1, 3⟩, 1, fun w => ⟨fun _ => 1, 5, 5 * w⟩⟩] = some r ∧ r.fuel = 3 * r.power ∧
    r.power = 20 := by
  refine ⟨_, rfl, ?_, ?_⟩ <;> norm_num [stepVariable, overThrottle, Engine.power, Engine.available]

/-- **C241 fails with different engines.** The variable speed network adds one unknown speed but a residual for each propeller. -/
theorem C241_unknowns_counterexample (n : ℕ) (hn : 2 ≤ n) :
    (unknownsAdded false n).1 < (unknownsAdded false n).2 ∧ (unknownsAdded true n).1 = (unknownsAdded true n).2 := by
  simp only [unknownsAdded, Bool.false_eq_true, if_false, if_true]
  exact ⟨by omega, trivial⟩

/-- **C241 fails with mismatched counts.** Two engines and propellers flown as three, or two propellers on one engine, raise no
warning; the warning only appears when neighbouring counts both differ. -/
theorem C241_warning_counterexample :
    warns 2 2 3 = false ∧ warns 2 1 1 = false ∧ ∀ a b c, warns a b c = true → a ≠ b ∧ b ≠ c := by
  refine ⟨rfl, rfl, ?_⟩
  intro a b c h
  simpa [warns] using h

theorem fold_constant (dens : ℝ → ℝ → ℝ) (ru h dT a rpm factor : ℝ) (us : List Unit) (s : Total2) :
    let r := us.foldl (stepConstant dens ru h dT a rpm factor) s
    r.last = ((us.getLast?.map fun u => (u.spin rpm).thrust).getD s.last) ∧
      r.power = s.power + factor * (us.map fun u => (u.spin rpm).power).sum ∧
      r.fuel = s.fuel + factor * (us.map fun u => (u.engine.calculateThrottle dens h dT (u.spin rpm).power).fuel).sum := by
  induction us generalizing s with
  | nil => simp
  | cons u us ih =>
    obtain ⟨h1, h2, h3⟩ := ih (stepConstant dens ru h dT a rpm factor s u)
    simp only [List.foldl_cons, List.map_cons, List.sum_cons]
    refine ⟨?_, ?_, ?_⟩
    · rw [h1]
      cases us with
      | nil => simp [stepConstant]
      | cons v vs =>
        rw [List.getLast?_cons_cons]
        obtain ⟨w, hw⟩ : ∃ w, (v :: vs).getLast? = some w := ⟨_, List.getLast?_eq_some_getLast (by simp)⟩
        simp [hw]
    · rw [h2]; simp only [stepConstant]; ring
    · rw [h3]; simp only [stepConstant]; ring

/-- **C241, constant speed, power and fuel.** The constant speed network reports the power and fuel of all engines that fly; with a
single engine its thrust is that of the engine. -/
theorem C241_constant_partial (dens : ℝ → ℝ → ℝ) (ru h dT a rpm : ℝ) (identical : Bool) (n : ℕ) (us : List Unit) (r : Out2)
    (hr : constantSpeed dens ru h dT a rpm identical n us = some r) :
    r.power = ((flying identical n us).map fun u => (u.spin rpm).power).sum ∧
      r.fuel = ((flying identical n us).map fun u => (u.engine.calculateThrottle dens h dT (u.spin rpm).power).fuel).sum ∧
      (n = 1 → ∀ k, r.thrust k = ((flying identical n us).map fun u => (u.spin rpm).thrust k).sum) := by
  unfold constantSpeed at hr
  split at hr
  · simp at hr
  rename_i q hq
  split_ifs at hr with hne
  simp only [Option.some.injEq] at hr
  subst hr
  obtain ⟨h1, h2, h3⟩ := fold_constant dens ru h dT a rpm q.2 q.1 ⟨fun _ => 0, fun _ => 0, 0, 0, [], none⟩
  refine ⟨?_, ?_, ?_⟩
  · simp only
    rw [h2, ← sum_flying identical n us q hq]; simp
  · simp only
    rw [h3, ← sum_flying identical n us q hq]; simp
  · intro hn k
    subst hn
    simp only
    rw [h1, ← sum_flying identical 1 us q hq]
    unfold evaluated at hq
    cases us with
    | nil => cases identical <;> simp at hq
    | cons u us =>
      cases identical <;> simp at hq <;> subst hq <;> simp

/-- **C241 fails at constant speed.** With two or more identical engines the constant speed network returns the thrust of one engine
while it charges the power and fuel of all; the tip Mach number it stores is that of a speed multiplied once more by the unit of
revolutions per minute. -/
theorem C241_constant_counterexample (dens : ℝ → ℝ → ℝ) (ru h dT a rpm : ℝ) (n : ℕ) (u : Unit) (us : List Unit)
    (hP : (u.spin rpm).power ≠ 0) :
    ∃ r, constantSpeed dens ru h dT a rpm true n (u :: us) = some r ∧ r.thrust = (u.spin rpm).thrust ∧
      r.power = n * (u.spin rpm).power ∧ r.tipMach = [ru * (u.radius * rpm / a)] ∧ (n ≠ 1 → r.power ≠ (u.spin rpm).power) := by
  refine ⟨_, rfl, ?_, ?_, ?_, ?_⟩
  · simp [stepConstant]
  · simp [stepConstant]; ring
  · simp [stepConstant]; ring
  · intro hn hc
    apply hn
    simp [stepConstant] at hc
    have h1 : ((n : ℝ) - 1) * (u.spin rpm).power = 0 := by linarith
    rcases mul_eq_zero.mp h1 with h2 | h2
    · have : (n : ℝ) = 1 := by linarith
      exact_mod_cast this
    · exact absurd h2 hP

end Verif.Energy.Piston
