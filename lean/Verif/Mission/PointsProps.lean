import Verif.Mission.Points
import Verif.Mission.ProfileProps2
import Mathlib.Analysis.Convex.SpecificFunctions.Pow
import Mathlib.Data.List.OfFn
/-
Properties C251-C257 (and more on C67) of the model in `Points.lean`.
-/

namespace Verif.Mission

open Verif.Num Polynomial

variable {n : Nat}

/-! ### C251 -/

theorem get_expand (n : Nat) (ov : Bool) (k : String) : ∀ fs : Fields,
    (fs.expand n ov).get? k = (fs.get? k).map (Val.expand n ov)
  | .nil => rfl
  | .cons k' v rest => by
    simp only [Fields.expand, Fields.get?]
    split_ifs
    · rfl
    · exact get_expand n ov k rest

theorem at_expand (n : Nat) (ov : Bool) : ∀ (p : List String) (v : Val),
    (v.expand n ov).at? p = (v.at? p).map (Val.expand n ov)
  | [], v => by simp [Val.at?]
  | k :: p, v => by
    cases v with
    | arr c rows => simp only [Val.expand]; split_ifs <;> rfl
    | short adj x => rfl
    | other t => rfl
    | cond fs =>
      simp only [Val.expand, Val.at?, get_expand]
      cases fs.get? k with
      | none => rfl
      | some w => exact at_expand n ov p w

theorem length_resizeRows (v : List (List ℝ)) (c n : Nat) : (resizeRows v c n).length = n := by simp [resizeRows]

theorem mem_resizeRows_one (r x : List ℝ) (c n : Nat) (h : x ∈ resizeRows [r] c n) : x = r := by
  simp only [resizeRows, List.mem_map, List.mem_range] at h
  obtain ⟨i, -, h⟩ := h
  simpa [Nat.mod_one] using h.symm

theorem resizeRows_one (r : List ℝ) (c n : Nat) : resizeRows [r] c n = List.replicate n r :=
  List.eq_replicate_iff.2 ⟨length_resizeRows _ _ _, fun x h => mem_resizeRows_one r x c n h⟩

/-- C251: expanding conditions to `n` control points keeps every path; a column of one row becomes
`n` equal rows, a short column one or two rows less, an array that already has several rows and
everything that is not an array stays. -/
theorem C251_leaf_partial (n : Nat) (v : Val) (p : List String) :
    ((v.expand n false).at? p = none ↔ v.at? p = none) ∧
    (∀ c r, v.at? p = some (.arr c [r]) → (v.expand n false).at? p = some (.arr c (List.replicate n r))) ∧
    (∀ adj x, v.at? p = some (.short adj x) → (v.expand n false).at? p = some (.arr 1 (List.replicate (n - adj) [x]))) ∧
    (∀ c rows, v.at? p = some (.arr c rows) → 2 ≤ rows.length → (v.expand n false).at? p = some (.arr c rows)) ∧
    (∀ t, v.at? p = some (.other t) → (v.expand n false).at? p = some (.other t)) := by
  rw [at_expand]
  refine ⟨by simp, fun c r h => ?_, fun adj x h => ?_, fun c rows h h2 => ?_, fun t h => ?_⟩
  · rw [h]; simp [Val.expand, resizeRows_one]
  · rw [h]; simp [Val.expand, resizeRows_one]
  · rw [h]; simp [Val.expand]; omega
  · rw [h]; simp [Val.expand]

example : (Val.cond (.cons "throttle" (.arr 1 [[1 / 2]]) .nil)).at? ["throttle"] = some (.arr 1 [[1 / 2]]) := by
  simp [Val.at?, Fields.get?]

theorem stateExpand_get (n : Nat) (ov : Bool) (k : String) (hk : k ≠ "initials" ∧ k ≠ "numerics") : ∀ (fs : Fields) (g : Fields),
    fs.get? k = some (.cond g) → (stateExpand n ov fs).get? k = some (.cond (g.expand n ov))
  | .nil, g, h => by simp [Fields.get?] at h
  | .cons k' v rest, g, h => by
    simp only [Fields.get?] at h
    simp only [stateExpand, Fields.get?]
    split_ifs at h ⊢ with h1 h2
    · subst h1; simp only [Option.some.injEq] at h; rcases h2 with h2 | h2 <;> simp_all
    · simp only [Option.some.injEq] at h; subst h; rfl
    · exact stateExpand_get n ov k hk rest g h

theorem stateExpand_kept (n : Nat) (ov : Bool) (k : String) (hk : k = "initials" ∨ k = "numerics") : ∀ fs : Fields,
    (stateExpand n ov fs).get? k = fs.get? k
  | .nil => rfl
  | .cons k' v rest => by
    simp only [stateExpand, Fields.get?]
    by_cases h1 : k' = k
    · subst h1; simp [hk]
    · simp only [h1, if_false]; exact stateExpand_kept n ov k hk rest

/-- C251 for the state of a segment: unknowns, residuals and conditions are expanded as in
`C251_leaf_partial`, initial values and numerics are not touched. -/
theorem C251_state (n : Nat) (ov : Bool) (fs : Fields) (k : String) :
    ((k = "initials" ∨ k = "numerics") → (stateExpand n ov fs).get? k = fs.get? k) ∧
    (k ≠ "initials" → k ≠ "numerics" → ∀ g, fs.get? k = some (.cond g) → ∀ p,
      ((stateExpand n ov fs).get? k).bind (fun w => w.at? p) = ((Val.cond g).expand n ov).at? p) := by
  refine ⟨fun h => stateExpand_kept n ov k h fs, fun h1 h2 g h p => ?_⟩
  rw [stateExpand_get n ov k ⟨h1, h2⟩ fs g h]
  rfl

/-- Expanding twice is expanding once, as long as every short column keeps at least two rows. -/
theorem C251_again_partial (n : Nat) (v : Val) (p : List String) (x : Val) (hx : v.at? p = some x)
    (hn : ∀ fs, x ≠ .cond fs) (hs : ∀ adj y, x = .short adj y → adj + 2 ≤ n) :
    ((v.expand n false).expand n false).at? p = (v.expand n false).at? p := by
  rw [at_expand, at_expand, hx]
  simp only [Option.map_some, Option.some.injEq]
  cases x with
  | arr c rows =>
    by_cases h : rows.length ≤ 1
    · by_cases hn1 : n ≤ 1
      · simp only [Val.expand, h, length_resizeRows, hn1, true_or, if_true]
        congr 1
        rcases (show n = 0 ∨ n = 1 by omega) with rfl | rfl
        · rfl
        · rcases rows with _ | ⟨r, _ | ⟨r', l⟩⟩
          · simp [resizeRows]
          · simp [resizeRows]
          · simp at h
      · simp [Val.expand, h, length_resizeRows, hn1]
    · simp [Val.expand, h]
  | short adj y =>
    have := hs adj y rfl
    simp only [Val.expand, length_resizeRows]
    rw [if_neg]
    simp; omega
  | other t => rfl
  | cond fs => exact absurd rfl (hn fs)

/-- With two control points an array that should have one row has two after a second expansion. -/
theorem C251_again_counterexample (x : ℝ) :
    ((Val.short 1 x).expand 2 false) = .arr 1 [[x]] ∧
    (((Val.short 1 x).expand 2 false).expand 2 false) = .arr 1 [[x], [x]] := by
  constructor <;> simp [Val.expand, resizeRows, List.range_succ]

/-- Expanding to another number of control points with `override` (as the noise climb and descent
do) changes plain columns, and short columns that were expanded before get the full number of rows. -/
theorem C251_override_counterexample (m n adj : Nat) (x : ℝ) (h : 0 < adj) (ha : adj < n) (hm : adj < m) :
    ((Val.short adj x).expand n true).expand m true = .arr 1 (List.replicate m [x]) ∧
    (List.replicate m [x]).length ≠ m - adj ∧
    ((Val.short adj x).expand m true) = .arr 1 (List.replicate (m - adj) [x]) := by
  refine ⟨?_, by simp; omega, by simp [Val.expand, resizeRows_one]⟩
  simp only [Val.expand, resizeRows_one, or_true, if_true]
  congr 1
  have hk : 0 < n - adj := by omega
  refine List.eq_replicate_iff.2 ⟨length_resizeRows _ _ _, fun y hy => ?_⟩
  simp only [resizeRows, List.mem_map, List.mem_range, List.length_replicate] at hy
  obtain ⟨i, -, hy⟩ := hy
  rw [List.getElem?_replicate, if_pos (Nat.mod_lt _ hk)] at hy
  simpa using hy.symm

example : (0 : Nat) < 1 ∧ 1 < 4 ∧ 1 < 9 := by norm_num

/-! ### C252 -/

theorem mulVec_neg_add (I : Matrix (Fin (n + 2)) (Fin (n + 2)) ℝ) (f e : Col n) (i : Fin (n + 2)) :
    I.mulVec (fun j => -(f j + e j)) i = I.mulVec (fun j => -f j) i + I.mulVec (fun j => -e j) i := by
  have : (fun j => -(f j + e j)) = (fun j => -f j) + fun j => -e j := by ext j; simp only [Pi.add_apply]; ring
  rw [this, Matrix.mulVec_add, Pi.add_apply]

/-- C252: where the two fuel flows add to the mass rate, the mass of the vehicle changes by what both
fuels change, at every control point; the first row of every column is kept, and the weight is the
mass reported there times gravity. -/
theorem C252_two_fuels {I : Matrix (Fin (n + 2)) (Fin (n + 2)) ℝ} (hI : specI n (chebNode n) = some I) (T : ℝ)
    (g total fuel extra : Col n) (m : Masses n) (hr : ∀ i, total i = fuel i + extra i) (i : Fin (n + 2)) :
    let r := updateTwoFuels (T • I) g total fuel extra m
    r.1.total i - m.total 0 = (r.1.fuel i - m.fuel 0) + (r.1.extra i - m.extra 0) ∧
    (r.1.total 0 = m.total 0 ∧ r.1.fuel 0 = m.fuel 0 ∧ r.1.extra 0 = m.extra 0) ∧
    r.2 i = r.1.total i * g i := by
  have hz := zeroStart_spec hI T
  have e : total = fun j => fuel j + extra j := funext hr
  refine ⟨?_, ⟨by simp [updateTwoFuels, keepFirst], by simp [updateTwoFuels, keepFirst], by simp [updateTwoFuels, keepFirst]⟩, ?_⟩
  · by_cases hi : i = 0
    · subst hi; simp [updateTwoFuels, keepFirst]
    · simp only [updateTwoFuels, keepFirst, hi, if_false, e, mulVec_neg_add]; ring
  · by_cases hi : i = 0
    · subst hi; simp [updateTwoFuels, keepFirst, hz _]
    · simp [updateTwoFuels, keepFirst, hi]

/-- C252 for constant flows: at the end of a segment of duration `T` each fuel has gone down by its flow
times the duration. -/
theorem C252_constant {I : Matrix (Fin (n + 2)) (Fin (n + 2)) ℝ} (hI : specI n (chebNode n) = some I) (T : ℝ)
    (g : Col n) (f e : ℝ) (m : Masses n) :
    let r := updateTwoFuels (T • I) g (fun _ => f + e) (fun _ => f) (fun _ => e) m
    fin r.1.fuel = m.fuel 0 - f * T ∧ fin r.1.extra = m.extra 0 - e * T ∧ fin r.1.total = m.total 0 - (f + e) * T := by
  have hl : (Fin.last (n + 1) : Fin (n + 2)) ≠ 0 := Fin.last_pos.ne'
  have key : ∀ c : ℝ, (T • I).mulVec (fun _ => -c) (Fin.last (n + 1)) = -(c * T) := by
    intro c
    rw [Matrix.smul_mulVec, Pi.smul_apply, integrate_const hI, cheb_last, smul_eq_mul]; ring
  refine ⟨?_, ?_, ?_⟩ <;> simp only [updateTwoFuels, keepFirst, fin, hl, if_false, key] <;> ring

example : ∀ i : Fin 4, (fun _ => (3 : ℝ)) i = (fun _ => (1 : ℝ)) i + (fun _ => (2 : ℝ)) i := by intro; norm_num

/-! ### C253 -/

/-- C253: charging one pack from the state of the segment before lasts as long as its charging power
takes for the missing energy and a quarter more; the time column runs over that duration. -/
theorem C253_charge_partial (e eMax : ℝ) (s : ChargeSeg) (p : Pack) (hs : s.packs = [p]) (hd : s.discharge = false)
    (hp : 0 < p.current * p.voltage * p.parallel * p.series) (he : e ≤ eMax) :
    ∃ d, (chargeDuration (some (e, eMax)) s).2 = some d ∧ 0 ≤ d ∧
      d * (p.current * p.voltage * p.parallel * p.series) = 5 / 4 * (eMax - e) ∧
      ∀ t0, chargeTime (chebNode n) t0 d 0 = t0 ∧ fin (chargeTime (chebNode n) t0 d) = t0 + d := by
  have e1 : (p.current * p.parallel) * (p.voltage * p.series) = p.current * p.voltage * p.parallel * p.series := by ring
  refine ⟨(eMax - e) * (5 / 4) / (p.current * p.voltage * p.parallel * p.series), by simp [chargeDuration, hs, hd, e1], ?_, ?_, fun t0 => ?_⟩
  · exact div_nonneg (by linarith) hp.le
  · rw [div_mul_cancel₀ _ hp.ne']; ring
  · constructor
    · simp [chargeTime, cheb_zero]
    · simp only [chargeTime, fin, cheb_last]; ring

/-- A discharging segment lasts the time it was given, whatever went before. -/
theorem C253_discharge (ini : Option (ℝ × ℝ)) (s : ChargeSeg) (hd : s.discharge = true) :
    (chargeDuration ini s).2 = some s.time := by simp [chargeDuration, hd]

example : let p : Pack := ⟨1, 4, 10, 20⟩
    0 < p.current * p.voltage * p.parallel * p.series ∧ (2 : ℝ) ≤ 5 := by norm_num

/-- The overcharge contingency of the user is overwritten: the duration does not depend on it. -/
theorem C253_contingency_counterexample (ini : Option (ℝ × ℝ)) (s : ChargeSeg) (c : ℝ) :
    (chargeDuration ini { s with overcharge := c }) = chargeDuration ini s ∧
    (chargeDuration ini s).1.overcharge = 5 / 4 := ⟨rfl, rfl⟩

/-- With two packs only the last counts, so the slower one is not charged. -/
theorem C253_packs_counterexample (ini : ℝ × ℝ) (s : ChargeSeg) (a b : Pack) (hd : s.discharge = false) :
    (chargeDuration (some ini) { s with packs := [a, b] }).2 = (chargeDuration (some ini) { s with packs := [b] }).2 := by
  simp [chargeDuration, hd]

/-- A mission that begins with charging a battery of given energy does not charge at all, and one
without given energy fails. -/
theorem C253_first_counterexample (s : ChargeSeg) (p : Pack) (hs : s.packs = [p]) (hd : s.discharge = false) :
    (∀ b, (chargeDuration none { s with battery := some b }).2 = some 0) ∧
    (chargeDuration none { s with battery := none }).2 = none := by
  constructor
  · intro b; simp [chargeDuration, hs, hd]
  · simp [chargeDuration, hs, hd]

/-! ### C254 -/

theorem one_add_pow_concave {k r Y : ℝ} (hk0 : 0 ≤ k) (hk1 : k ≤ 1) (hr0 : 0 ≤ r) (hr1 : r ≤ 1) (hY : 0 ≤ Y) :
    r * ((Y + 1) ^ k - 1) ≤ (r * Y + 1) ^ k - 1 := by
  have hc := Real.concaveOn_rpow hk0 hk1
  have h := hc.2 (x := Y + 1) (y := 1) (by simp; linarith) (by simp) hr0 (by linarith : (0 : ℝ) ≤ 1 - r) (by ring)
  simp only [smul_eq_mul, Real.one_rpow, mul_one] at h
  have e : r * (Y + 1) + (1 - r) = r * Y + 1 := by ring
  rw [e] at h
  linarith

theorem one_lt_pow_add {k Y : ℝ} (hk : 0 < k) (hY : 0 < Y) : 0 < (Y + 1) ^ k - 1 := by
  have := Real.one_lt_rpow (by linarith : 1 < Y + 1) hk
  linarith

/-- Impact pressure is positive when the aircraft moves. -/
theorem casImpact_pos {p p0 kcas : ℝ} (hp : 0 < p) (hp0 : 0 < p0) (hc : kcas ≠ 0) :
    0 < casImpact p (casMach p p0 kcas) := by
  have h2 : 0 < kcas ^ 2 := by positivity
  have h1 : 0 < (1 + 4.575e-7 * kcas ^ 2) ^ (3.5 : ℝ) - 1 := by
    have := one_lt_pow_add (k := 3.5) (Y := 4.575e-7 * kcas ^ 2) (by norm_num) (by positivity)
    rwa [add_comm] at this
  have h3 := one_lt_pow_add (k := 0.2857) (by norm_num) (div_pos h1 (div_pos hp hp0))
  have h4 : 0 < casMach p p0 kcas := by
    unfold casMach
    exact mul_pos (by norm_num) (Real.rpow_pos_of_pos h3 _)
  have h5 := one_lt_pow_add (k := 3.5) (Y := 0.2 * casMach p p0 kcas ^ 2) (by norm_num) (by positivity)
  rw [add_comm] at h5
  exact mul_pos hp h5

theorem casEas_sq {p p0 qc cas : ℝ} (hp : 0 < p) (hp0 : 0 < p0) (hq : 0 < qc) :
    casEas p p0 qc cas ^ 2 = cas ^ 2 * ((p / p0) * (((qc / p + 1) ^ (0.286 : ℝ) - 1) / ((qc / p0 + 1) ^ (0.286 : ℝ) - 1))) := by
  have h1 := one_lt_pow_add (k := 0.286) (by norm_num) (div_pos hq hp)
  have h2 := one_lt_pow_add (k := 0.286) (by norm_num) (div_pos hq hp0)
  have sq : ∀ x : ℝ, 0 ≤ x → (x ^ (0.5 : ℝ)) ^ 2 = x := by
    intro x hx
    rw [← Real.rpow_natCast, ← Real.rpow_mul hx]; norm_num
  unfold casEas
  rw [mul_pow, mul_pow, sq _ (div_pos hp hp0).le, sq _ (div_pos h1 h2).le]; ring

/-- C254: equivalent airspeed is at most the calibrated airspeed above the level of standard pressure, at
least it below, and the same at it. -/
theorem C254_eas_partial (p p0 kcas cas : ℝ) (hp : 0 < p) (hp0 : 0 < p0) (hc : 0 < cas) (hk : kcas ≠ 0) :
    let eas := casEas p p0 (casImpact p (casMach p p0 kcas)) cas
    0 < eas ∧ (p ≤ p0 → eas ≤ cas) ∧ (p0 ≤ p → cas ≤ eas) := by
  intro eas
  have hq := casImpact_pos (p := p) (p0 := p0) hp hp0 hk
  have hsq := casEas_sq (cas := cas) hp hp0 hq
  have h1 := one_lt_pow_add (k := 0.286) (by norm_num) (div_pos hq hp)
  have h2 := one_lt_pow_add (k := 0.286) (by norm_num) (div_pos hq hp0)
  have hpos : 0 < eas := by
    simp only [eas, casEas]
    have := Real.rpow_pos_of_pos (div_pos hp hp0) (0.5 : ℝ)
    have := Real.rpow_pos_of_pos (div_pos h1 h2) (0.5 : ℝ)
    positivity
  refine ⟨hpos, fun h => ?_, fun h => ?_⟩
  · have hr : (p / p0) * ((casImpact p (casMach p p0 kcas) / p + 1) ^ (0.286 : ℝ) - 1) ≤
        (casImpact p (casMach p p0 kcas) / p0 + 1) ^ (0.286 : ℝ) - 1 := by
      have := one_add_pow_concave (k := 0.286) (r := p / p0) (Y := casImpact p (casMach p p0 kcas) / p) (by norm_num) (by norm_num)
        (div_pos hp hp0).le ((div_le_one hp0).2 h) (div_pos hq hp).le
      have e : p / p0 * (casImpact p (casMach p p0 kcas) / p) = casImpact p (casMach p p0 kcas) / p0 := by field_simp
      rwa [e] at this
    have : eas ^ 2 ≤ cas ^ 2 := by
      rw [hsq, ← mul_div_assoc]
      have := (div_le_one h2).2 hr
      nlinarith [sq_nonneg cas]
    exact abs_le_of_sq_le_sq' this hc.le |>.2
  · have hr : (casImpact p (casMach p p0 kcas) / p0 + 1) ^ (0.286 : ℝ) - 1 ≤
        (p / p0) * ((casImpact p (casMach p p0 kcas) / p + 1) ^ (0.286 : ℝ) - 1) := by
      have := one_add_pow_concave (k := 0.286) (r := p0 / p) (Y := casImpact p (casMach p p0 kcas) / p0) (by norm_num) (by norm_num)
        (div_pos hp0 hp).le ((div_le_one hp).2 h) (div_pos hq hp0).le
      have e : p0 / p * (casImpact p (casMach p p0 kcas) / p0) = casImpact p (casMach p p0 kcas) / p := by field_simp
      rw [e] at this
      have h3 := mul_le_mul_of_nonneg_left this (div_pos hp hp0).le
      have e2 : p / p0 * (p0 / p) = 1 := by field_simp
      rwa [← mul_assoc, e2, one_mul] at h3
    have : cas ^ 2 ≤ eas ^ 2 := by
      rw [hsq, ← mul_div_assoc]
      have := (one_le_div h2).2 hr
      nlinarith [sq_nonneg cas]
    exact abs_le_of_sq_le_sq' this hpos.le |>.2

theorem casTas_standard {p rho rho0 knot cas : ℝ} (hp : 0 < p) (hrho : 0 < rho) (hrho0 : 0 < rho0) (hk : knot ≠ 0) (hc : 0 < cas) :
    1 / 2 * rho * casTas p rho p rho0 knot cas ^ 2 = 1 / 2 * rho0 * cas ^ 2 := by
  have hkc : cas / knot ≠ 0 := div_ne_zero hc.ne' hk
  obtain ⟨-, h1, h2⟩ := C254_eas_partial p p (cas / knot) cas hp hp hc hkc
  have e : casEas p p (casImpact p (casMach p p (cas / knot))) cas = cas := le_antisymm (h1 le_rfl) (h2 le_rfl)
  rw [casTas, e, div_pow, Real.sq_sqrt (div_pos hrho hrho0).le]
  field_simp

/-- C254: at the level of standard pressure a climb at a calibrated airspeed has the dynamic pressure
of that speed in the standard atmosphere, whatever the temperature deviation; at sea level without
deviation the speed is the calibrated one. -/
theorem C254_climb_partial (air : CasAir) (dT knot cas rate alt0 altf : ℝ) (hp : 0 < air.p 0 0) (hrho : ∀ h d, 0 < air.rho h d)
    (hk : knot ≠ 0) (hc : 0 < cas) (i : Fin (n + 2)) (hi : air.p (ramp (chebNode n) alt0 altf i) dT = air.p 0 0) :
    let w := climbCas air dT knot (chebNode n) cas rate alt0 altf
    rate ^ 2 ≤ cas ^ 2 * (air.rho 0 0 / air.rho (w.alt i) dT) →
    1 / 2 * air.rho (w.alt i) dT * (w.vx i ^ 2 + w.vz i ^ 2) = 1 / 2 * air.rho 0 0 * cas ^ 2 ∧ w.vz i = -rate := by
  intro w hr
  have h := casTas_standard (p := air.p 0 0) (knot := knot) (cas := cas) hp (hrho (ramp (chebNode n) alt0 altf i) dT) (hrho 0 0) hk hc
  have hpos := hrho (ramp (chebNode n) alt0 altf i) dT
  simp only [w, climbCas, rateProfile] at hr ⊢
  rw [hi] 
  have e : casTas (air.p 0 0) (air.rho (ramp (chebNode n) alt0 altf i) dT) (air.p 0 0) (air.rho 0 0) knot cas ^ 2
      = cas ^ 2 * (air.rho 0 0 / air.rho (ramp (chebNode n) alt0 altf i) dT) := by
    field_simp
    linarith
  rw [Real.sq_sqrt (by rw [e, neg_sq]; linarith), e]
  refine ⟨?_, trivial⟩
  field_simp
  ring

example : ∃ air : CasAir, (0 < air.p 0 0) ∧ (∀ h d, 0 < air.rho h d) ∧ air.p (ramp (chebNode 2) 0 1000 0) 10 = air.p 0 0 :=
  ⟨⟨fun h _ => 101325 - h, fun _ _ => 1⟩, by norm_num, fun _ _ => by norm_num, by simp [ramp, cheb_zero]⟩

/-- On a day of another temperature a descent at the same calibrated airspeed is flown at the wrong
dynamic pressure: the sea level density of that day replaces the standard one. -/
theorem C254_descent_counterexample (air : CasAir) (dT knot cas rate alt0 altf : ℝ) (hp : 0 < air.p 0 dT) (hrho : ∀ h d, 0 < air.rho h d)
    (hk : knot ≠ 0) (hc : 0 < cas) (hd : air.rho 0 dT ≠ air.rho 0 0) (h0 : altf = 0)
    (hr : rate ^ 2 ≤ cas ^ 2) :
    let w := descentCas (n := n) air dT knot (chebNode n) cas rate alt0 altf
    fin w.vx ^ 2 + fin w.vz ^ 2 = cas ^ 2 ∧
    1 / 2 * air.rho (fin w.alt) dT * (fin w.vx ^ 2 + fin w.vz ^ 2) ≠ 1 / 2 * air.rho 0 0 * cas ^ 2 := by
  intro w
  have h := casTas_standard (p := air.p 0 dT) (knot := knot) (cas := cas) hp (hrho 0 dT) (hrho 0 dT) hk hc
  have hpos := hrho 0 dT
  have hr0 : ramp (chebNode n) alt0 altf (Fin.last (n + 1)) = 0 := by simp [ramp, cheb_last, h0]
  have e : casTas (air.p 0 dT) (air.rho 0 dT) (air.p 0 dT) (air.rho 0 dT) knot cas ^ 2 = cas ^ 2 := by
    have := mul_left_cancel₀ (by positivity : (1 / 2 * air.rho 0 dT) ≠ 0) h
    exact this
  have e1 : fin w.vx ^ 2 + fin w.vz ^ 2 = cas ^ 2 := by
    simp only [w, descentCas, rateProfile, fin, hr0]
    rw [Real.sq_sqrt (by rw [e]; linarith), e]; ring
  refine ⟨e1, ?_⟩
  rw [e1]
  have e2 : fin w.alt = 0 := by simp only [w, descentCas, rateProfile, fin, hr0]
  rw [e2]
  intro h'
  apply hd
  have hc2 : cas ^ 2 ≠ 0 := by positivity
  have := mul_right_cancel₀ hc2 h'
  linarith

/-! ### C67, loiter -/

/-- The loiter at constant dynamic pressure lasts the requested time and has the requested dynamic
pressure when the state already held altitudes of the same density. -/
theorem C67_loiter_partial (rho : ℝ → ℝ) (hrho : ∀ h, 0 < rho h) (old : Col n) (q d alt t0 : ℝ) (hq : 0 ≤ q)
    (ho : ∀ i, rho (old i) = rho alt) (i : Fin (n + 2)) :
    let l := loiterDynPressure rho old (chebNode n) q d alt t0
    dynP rho (l.vx i) 0 (l.alt i) = q ∧ l.time 0 = t0 ∧ fin l.time = t0 + d ∧ l.alt i = alt ∧ l.z i = -alt := by
  intro l
  have hp := hrho alt
  have h1 : 0 ≤ q / (rho (old i) * (1 / 2)) := by rw [ho]; positivity
  refine ⟨?_, ?_, ?_, rfl, rfl⟩
  · simp only [l, dynP, loiterDynPressure]
    rw [Real.sq_sqrt h1, ho]
    field_simp; ring
  · simp [l, loiterDynPressure, rampTo, cheb_zero]
  · simp only [l, loiterDynPressure, rampTo, fin, cheb_last]; ring

/-- Otherwise it does not: the speed belongs to the density of the altitude held before. -/
theorem C67_loiter_counterexample (rho : ℝ → ℝ) (hrho : ∀ h, 0 < rho h) (q d alt t0 : ℝ) (hq : 0 < q) (hne : rho 0 ≠ rho alt)
    (i : Fin (n + 2)) :
    let l := loiterDynPressure rho (fun _ => 0) (chebNode n) q d alt t0
    dynP rho (l.vx i) 0 (l.alt i) = q * (rho alt / rho 0) ∧ dynP rho (l.vx i) 0 (l.alt i) ≠ q := by
  intro l
  have hp := hrho alt
  have hp0 := hrho 0
  have h1 : 0 ≤ q / (rho 0 * (1 / 2)) := by positivity
  have e : dynP rho (l.vx i) 0 (l.alt i) = q * (rho alt / rho 0) := by
    simp only [l, dynP, loiterDynPressure]
    rw [Real.sq_sqrt h1]
    field_simp; ring
  refine ⟨e, ?_⟩
  rw [e]
  intro h
  field_simp at h
  exact hne h.symm

example : ∃ rho : ℝ → ℝ, (∀ h, 0 < rho h) ∧ rho 0 ≠ rho 1 := ⟨fun h => h ^ 2 + 1, fun h => by positivity, by norm_num⟩

/-! ### C255 -/

/-- The unknowns belong to `points` control points. -/
structure OptFits (points : Nat) (vf : Option ℝ) (u : OptUnknowns) : Prop where
  throttle : u.throttle.length = points
  body : u.body.length = points
  gamma : u.gamma.length = points
  vel : u.vel.length + 1 + vf.toList.length = points

theorem forall₂_replicate {R : ℝ → ℝ × ℝ → Prop} (b : ℝ × ℝ) : ∀ l : List ℝ,
    List.Forall₂ R l (List.replicate l.length b) ↔ ∀ x ∈ l, R x b
  | [] => by simp
  | x :: l => by simp [List.replicate_succ, forall₂_replicate b l]

theorem forall₂_append {R : ℝ → ℝ × ℝ → Prop} : ∀ (a c : List ℝ) (b d : List (ℝ × ℝ)), a.length = b.length →
    (List.Forall₂ R (a ++ c) (b ++ d) ↔ List.Forall₂ R a b ∧ List.Forall₂ R c d)
  | [], c, [], d, _ => by simp
  | x :: a, c, y :: b, d, h => by
    simp [forall₂_append a c b d (by simpa using h), and_assoc]
  | [], c, y :: b, d, h => by simp at h
  | x :: a, c, [], d, h => by simp at h

/-- C255: there is one bound for every unknown in the order of the packed vector, and being within
them means throttle between 0 and 1, body and flight path angle between 0 and 90 degrees and speeds
between 0 and 2000 m/s; there is one speed per control point. -/
theorem C255_bounds (points : Nat) (v0 : ℝ) (vf : Option ℝ) (u : OptUnknowns) (h : OptFits points vf u) :
    u.pack.length = (makeBounds points vf).length ∧
    (List.Forall₂ (fun x b => b.1 ≤ x ∧ x ≤ b.2) u.pack (makeBounds points vf) ↔
      (∀ x ∈ u.throttle, 0 ≤ x ∧ x ≤ 1) ∧ (∀ x ∈ u.body, 0 ≤ x ∧ x ≤ Real.pi / 2) ∧
      (∀ x ∈ u.gamma, 0 ≤ x ∧ x ≤ Real.pi / 2) ∧ ∀ x ∈ u.vel, 0 ≤ x ∧ x ≤ 2000) ∧
    (optSpeeds v0 vf u.vel).length = points := by
  obtain ⟨h1, h2, h3, h4⟩ := h
  have hv : (if vf.isNone then points - 1 else points - 2) = u.vel.length := by
    cases vf <;> simp at h4 ⊢ <;> omega
  have hb : makeBounds points vf = List.replicate u.throttle.length (0, 1) ++ List.replicate u.body.length (0, Real.pi / 2) ++
      List.replicate u.gamma.length (0, Real.pi / 2) ++ List.replicate u.vel.length (0, 2000) := by
    rw [makeBounds, hv, h1, h2, h3]
  refine ⟨by rw [hb]; simp [OptUnknowns.pack, add_assoc], ?_, by simp only [optSpeeds, List.length_append, List.length_cons]; omega⟩
  rw [hb, OptUnknowns.pack, forall₂_append _ _ _ _ (by simp), forall₂_append _ _ _ _ (by simp), forall₂_append _ _ _ _ (by simp),
    forall₂_replicate, forall₂_replicate, forall₂_replicate, forall₂_replicate]
  simp only [and_assoc]

/-- The seed taken from a solved segment fits, and stands for its speeds when the given end speeds
are those of that segment. -/
theorem C255_seed (v0 : ℝ) (l : List ℝ) (vl : ℝ) :
    optSpeeds v0 none (optSeedVel none (v0 :: l)) = v0 :: l ∧
    optSpeeds v0 (some vl) (optSeedVel (some vl) (v0 :: (l ++ [vl]))) = v0 :: (l ++ [vl]) := by
  simp [optSpeeds, optSeedVel]

/-- Speed and climb rate: the velocity has the speed of the unknowns, and the aircraft does not
descend as long as the angle is within its bounds. -/
theorem C255_velocity (v gamma : ℝ) :
    (optVelocity v gamma).1 ^ 2 + (optVelocity v gamma).2 ^ 2 = v ^ 2 ∧
    (0 ≤ v → 0 ≤ gamma → gamma ≤ Real.pi / 2 → (optVelocity v gamma).2 ≤ 0 ∧ 0 ≤ (optVelocity v gamma).1) := by
  constructor
  · simp only [optVelocity]; linear_combination v ^ 2 * Real.sin_sq_add_cos_sq gamma
  · intro hv h0 h1
    have hs := Real.sin_nonneg_of_nonneg_of_le_pi h0 (by linarith [Real.pi_pos])
    have hc := Real.cos_nonneg_of_neg_pi_div_two_le_of_le (by linarith [Real.pi_pos]) h1
    simp only [optVelocity]
    exact ⟨by nlinarith, mul_nonneg hv hc⟩

/-- The climb begins and ends at the given altitudes, and lasts as long as the mean climb rate
needs. -/
theorem C255_altitudes {I : Matrix (Fin (n + 2)) (Fin (n + 2)) ℝ} (hI : specI n (chebNode n) = some I) (vz time : Col n)
    (alt0 altf : ℝ) (h : fin (I.mulVec fun j => -vz j) ≠ 0) :
    let r := optDifferentials I (chebNode n) vz time alt0 altf
    r.2.1 0 = alt0 ∧ fin r.2.1 = altf ∧ r.2.2 0 = time 0 ∧ fin r.2.2 = time 0 + r.1 ∧
    r.1 * fin (I.mulVec fun j => -vz j) = altf - alt0 := by
  intro r
  have hz := zeroStart_spec hI r.1
  have hl : (Fin.last (n + 1) : Fin (n + 2)) ≠ 0 := Fin.last_pos.ne'
  have hdt : r.1 * fin (I.mulVec fun j => -vz j) = altf - alt0 := div_mul_cancel₀ _ h
  refine ⟨?_, ?_, by simp [r, optDifferentials, keepFirst], ?_, hdt⟩
  · show (r.1 • I).mulVec (fun j => -vz j) 0 + alt0 = alt0
    rw [hz]; ring
  · show (r.1 • I).mulVec (fun j => -vz j) (Fin.last (n + 1)) + alt0 = altf
    rw [Matrix.smul_mulVec, Pi.smul_apply, smul_eq_mul]
    have : I.mulVec (fun j => -vz j) (Fin.last (n + 1)) = fin (I.mulVec fun j => -vz j) := rfl
    rw [this, hdt]; ring
  · simp [r, optDifferentials, keepFirst, fin, hl, cheb_last]

/-- For a steady climb rate the climb lasts height over rate and the altitude is that of the uniform
climb. -/
theorem C255_steady {I : Matrix (Fin (n + 2)) (Fin (n + 2)) ℝ} (hI : specI n (chebNode n) = some I) (time : Col n)
    (w alt0 altf : ℝ) (hw : w ≠ 0) (i : Fin (n + 2)) :
    let r := optDifferentials I (chebNode n) (fun _ => -w) time alt0 altf
    r.1 = (altf - alt0) / w ∧ r.2.1 i = alt0 + chebNode n i * (altf - alt0) := by
  have h1 : ∀ j, I.mulVec (fun _ => - -w) j = w * chebNode n j := fun j => by rw [neg_neg, integrate_const hI]
  have hd : (optDifferentials I (chebNode n) (fun _ => -w) time alt0 altf).1 = (altf - alt0) / w := by
    simp only [optDifferentials, fin, h1, cheb_last, mul_one]
  refine ⟨hd, ?_⟩
  show ((optDifferentials I (chebNode n) (fun _ => -w) time alt0 altf).1 • I).mulVec (fun _ => - -w) i + alt0 = _
  rw [hd, Matrix.smul_mulVec, Pi.smul_apply, smul_eq_mul, h1]
  field_simp; ring

theorem nonneg_of_div {a b : ℝ} (hb : 0 < b) (h : 0 ≤ a / b) : 0 ≤ a := by
  have := mul_nonneg h hb.le
  rwa [div_mul_cancel₀ _ hb.ne'] at this

/-- The inequality constraints hold exactly when time does not run back, the lift coefficient stays
between zero and its limit, the altitude is not negative and the aircraft does not slow down; both
optimizers get the same ones, as many as declared. -/
theorem C255_constraints (limit altEnd : ℝ) (s : OptState n) (resid : List ℝ) (hres : resid.length = 2 * (n + 2))
    (ht : 0 < fin s.time) (hl : 0 < limit) (ha : 0 < altEnd) :
    ((∀ c ∈ ieConstraints limit altEnd s, 0 ≤ c) ↔
      (∀ i : Fin (n + 1), s.time i.castSucc ≤ s.time i.succ) ∧ (∀ i, 0 ≤ s.cl i ∧ s.cl i ≤ limit) ∧
      (∀ i, 0 ≤ s.alt i) ∧ ∀ i, 0 ≤ s.acc i) ∧
    ((pyoptConstraints resid limit altEnd s).take (2 * (n + 2)) = resid) ∧
    ((pyoptConstraints resid limit altEnd s).drop (2 * (n + 2))).Perm (ieConstraints limit altEnd s) ∧
    (pyoptConstraints resid limit altEnd s).length = (pyoptDeclared (n + 2)).1 + (pyoptDeclared (n + 2)).2 := by
  refine ⟨?_, ?_, ?_, ?_⟩
  · simp only [ieConstraints, timeCon, clCon, altCon, List.mem_append, List.mem_ofFn, or_imp, forall_and]
    have e1 : (∀ x, (∃ i : Fin (n + 1), (s.time i.succ - s.time i.castSucc) / fin s.time = x) → 0 ≤ x) ↔
        ∀ i : Fin (n + 1), s.time i.castSucc ≤ s.time i.succ := by
      constructor
      · intro h i
        have := nonneg_of_div ht (h _ ⟨i, rfl⟩)
        linarith
      · rintro h x ⟨i, rfl⟩
        exact div_nonneg (by linarith [h i]) ht.le
    have e2 : (∀ x, (∃ i, (limit - s.cl i) / limit = x) → 0 ≤ x) ↔ ∀ i, s.cl i ≤ limit := by
      constructor
      · intro h i
        have := nonneg_of_div hl (h _ ⟨i, rfl⟩)
        linarith
      · rintro h x ⟨i, rfl⟩
        exact div_nonneg (by linarith [h i]) hl.le
    have e3 : (∀ x, (∃ i, s.alt i / altEnd = x) → 0 ≤ x) ↔ ∀ i, 0 ≤ s.alt i := by
      constructor
      · intro h i
        exact nonneg_of_div ha (h _ ⟨i, rfl⟩)
      · rintro h x ⟨i, rfl⟩
        exact div_nonneg (h i) ha.le
    have e4 : ∀ f : Col n, (∀ x, (∃ i, f i = x) → 0 ≤ x) ↔ ∀ i, 0 ≤ f i := fun f =>
      ⟨fun h i => h _ ⟨i, rfl⟩, by rintro h x ⟨i, rfl⟩; exact h i⟩
    rw [e1, e2, e3, e4, e4]
    tauto
  · simp only [pyoptConstraints, List.append_assoc]
    rw [← hres, List.take_left']
    rfl
  · have : (pyoptConstraints resid limit altEnd s).drop (2 * (n + 2)) =
        timeCon s ++ clCon limit s ++ altCon altEnd s ++ List.ofFn s.acc ++ List.ofFn s.cl := by
      simp only [pyoptConstraints, List.append_assoc]
      rw [← hres, List.drop_left']
      rfl
    rw [this]
    simp only [ieConstraints, List.append_assoc]
    refine List.Perm.append_left _ (List.Perm.append_left _ ?_)
    rw [← List.append_assoc]
    exact List.perm_append_comm
  · simp [pyoptConstraints, pyoptDeclared, timeCon, clCon, altCon, hres]; omega

example : ∃ s : OptState 1, 0 < fin s.time ∧ (∀ i : Fin 2, s.time i.castSucc ≤ s.time i.succ) :=
  ⟨⟨![0, 1, 2], fun _ => 1, fun _ => 1, fun _ => 1⟩, by simp [fin], by intro i; fin_cases i <;> simp⟩

/-- The result of SLSQP is thrown away: the state is left at the last point evaluated, which need not
be the one returned. -/
theorem C255_result_counterexample {X : Type} (start best other : X) (h : best ≠ other) :
    best ∈ [best, other] ∧ slsqpState start [best, other] best ≠ best := by
  simp [slsqpState, h.symm]

/-- With the returned point evaluated last the state is that of the optimum. -/
theorem C255_result_partial {X : Type} (start best : X) (l : List X) : slsqpState start (l ++ [best]) best = best := by
  simp [slsqpState]

/-- Constraints that are nan are not reported as a failed evaluation; an objective that is nan is. -/
theorem C255_nan_counterexample (x : ℝ) (l : List MaybeNan) :
    pyoptFail (some x) (none :: l) = false ∧ pyoptFail none l = true := ⟨rfl, rfl⟩

/-! ### C256 -/

/-- C256: residuals of a ground run vanish exactly when force is mass times acceleration at every control
point after the first and the last speed is the wanted one (a crawl for a stop). -/
theorem C256_residual (D : Matrix (Fin (n + 2)) (Fin (n + 2)) ℝ) (v F m : Col n) (vf : ℝ) (hm : ∀ i, 0 < m i) :
    ((groundResidual D v F m vf).1 = 0 ∧ (groundResidual D v F m vf).2 = 0) ↔
    (∀ i : Fin (n + 1), F i.succ = m i.succ * D.mulVec v i.succ) ∧
      ((vf ≠ 0 → fin v = vf) ∧ (vf = 0 → fin v = 1 / 100)) := by
  refine and_congr ?_ ?_
  · rw [funext_iff]
    refine forall_congr' fun i => ?_
    have := hm i.succ
    simp only [groundResidual, Pi.zero_apply, sub_eq_zero]
    rw [div_eq_iff this.ne', mul_comm]
  · simp only [groundResidual, sub_eq_zero]
    by_cases h : vf = 0
    · simp only [h, if_true]; norm_num
    · simp [h]

/-- The run starts with a positive speed, and never at the speed it is to end with. -/
theorem C256_speeds (v0 vf : ℝ) (h0 : 0 ≤ v0) (hf : 0 ≤ vf) :
    0 < (groundSpeeds v0 vf).1 ∧ 0 < (groundSpeeds v0 vf).2 ∧ (groundSpeeds v0 vf).1 ≠ (groundSpeeds v0 vf).2 ∧
    (0 < v0 → (groundSpeeds v0 vf).1 = v0) ∧ (0 < vf → v0 ≠ vf → (v0 = 0 → vf ≠ 1 / 100) → (groundSpeeds v0 vf).2 = vf) := by
  have a : ∀ x : ℝ, 0 ≤ x → 0 < (if x = 0 then (0.01 : ℝ) else x) := by
    intro x hx; split_ifs with h
    · norm_num
    · exact lt_of_le_of_ne hx (Ne.symm h)
  refine ⟨a v0 h0, ?_, ?_, fun h => by simp [groundSpeeds, h.ne'], fun h1 h2 h3 => ?_⟩
  · have := a vf hf
    simp only [groundSpeeds]
    generalize (if vf = 0 then (0.01 : ℝ) else vf) = y at *
    split_ifs <;> linarith
  · simp only [groundSpeeds]
    generalize (if vf = 0 then (0.01 : ℝ) else vf) = y at *
    generalize (if v0 = 0 then (0.01 : ℝ) else v0) = x at *
    split_ifs with h
    · rw [h]; norm_num
    · exact h
  · simp only [groundSpeeds, h1.ne', if_false]
    by_cases h : v0 = 0
    · rw [if_pos h, if_neg]
      intro h'; exact h3 h (by rw [← h']; norm_num)
    · simp [h, h2]

/-- A takeoff run begins at the takeoff mass when it is the first segment, at the mass left over
otherwise. -/
theorem C256_takeoff_partial {m : Nat} (takeoff : ℝ) (prev : Traj m) (s : Traj n) (i : Fin (n + 2)) :
    groundMass takeoff takeoff (none : Option (Traj m)) s i = takeoff ∧
    groundMass takeoff takeoff (some prev) s i = fin prev.mass := by
  constructor <;> simp [groundMass, initWeights, shift]

/-- The landing mass is never used: a landing run has the takeoff mass, or the mass left over. -/
theorem C256_landing_counterexample {m : Nat} (landing takeoff : ℝ) (h : landing ≠ takeoff) (s : Traj n) (i : Fin (n + 2)) :
    groundMass landing takeoff (none : Option (Traj m)) s i = takeoff ∧
    groundMass landing takeoff (none : Option (Traj m)) s i ≠ landing := by
  have : groundMass landing takeoff (none : Option (Traj m)) s i = takeoff := by simp [groundMass, initWeights, shift]
  exact ⟨this, by rw [this]; exact h.symm⟩

/-- The incline of the ground has no effect on the forces. -/
theorem C256_incline_counterexample (a b mu W L : ℝ) (F : ℝ × ℝ) :
    groundTotal (groundCond a mu) F W L = groundTotal (groundCond b mu) F W L := rfl

/-- On level ground, while the wheels carry load, friction is subtracted from the force along the
runway and the weight on the wheels is carried. -/
theorem C256_level_partial (mu W L : ℝ) (F : ℝ × ℝ) :
    (groundTotal (groundCond 0 mu) F W L).1 = F.1 - mu * (W + L) ∧
    (groundTotal (groundCond 0 mu) F W L).2 = F.2 - (W + L) := by
  simp only [groundTotal, groundCond, groundForces]
  constructor <;> ring

/-! ### C257 -/

/-- C257: a converged mission with variable cruise lands with the wanted mass (or charge), and conversely; where
that quantity falls strictly with distance only one distance does. -/
theorem C257_target_partial (final : ℝ → ℝ) (target : ℝ) (ht : target ≠ 0) (hf : StrictAnti final) :
    (∀ d, targetResidual (final d) target = some 0 ↔ final d = target) ∧
    (∀ d d', targetResidual (final d) target = some 0 → targetResidual (final d') target = some 0 → d = d') := by
  have h : ∀ d, targetResidual (final d) target = some 0 ↔ final d = target := by
    intro d
    simp only [targetResidual, ht, if_false, Option.some.injEq, div_eq_zero_iff, or_false, sub_eq_zero]
  exact ⟨h, fun d d' h1 h2 => hf.injective (((h d).1 h1).trans ((h d').1 h2).symm)⟩

example : (1 / 4 : ℝ) ≠ 0 ∧ StrictAnti fun d : ℝ => 1 - d / 1000 :=
  ⟨by norm_num, fun a b h => by simp only; linarith⟩

/-- The sign of the residual tells on which side of the wanted distance the mission is. -/
theorem C257_sign (final : ℝ → ℝ) (target : ℝ) (ht : 0 < target) (hf : StrictAnti final) (d d' : ℝ) (hd : final d = target) :
    ∃ r, targetResidual (final d') target = some r ∧ (0 < r ↔ d' < d) := by
  refine ⟨(final d' - target) / target, by simp [targetResidual, ht.ne'], ?_⟩
  rw [div_pos_iff_of_pos_right ht, sub_pos, ← hd]
  exact hf.lt_iff_gt

/-- A mission that is to use up the whole battery (wanted charge zero) has no residual. -/
theorem C257_zero_counterexample (final : ℝ) : targetResidual final 0 = none := by simp [targetResidual]

end Verif.Mission
