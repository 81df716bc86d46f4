import Verif.IO.Plots
import Mathlib.Tactic.Ring
import Mathlib.Tactic.FieldSimp
import Mathlib.Tactic.Linarith
import Mathlib.Tactic.NormNum
import Mathlib.Tactic.Positivity

/-! Proofs for C373 to C375. -/

namespace Verif.IO.Plots

/-! ### C373 fuel -/

/-- Spec: what a quantity summed to at the end of the segments before segment `i`. -/
def before (q : PSeg → List ℝ) (segs : List PSeg) (i : ℕ) : ℝ := ((segs.take i).map fun s => (q s).getLastD 0).sum

theorem go_three (all : List PSeg) (pre : List PSeg) (p : PSeg) (rest : List PSeg) (h : ∀ s ∈ rest, s.has = true) (c : Curve) :
    c ∈ go all (pre.length + 1) (before PSeg.fuel (pre ++ p :: rest) pre.length) (before PSeg.extra (pre ++ p :: rest) pre.length)
        (some p) rest ↔
      ∃ i s, pre.length + 1 ≤ i ∧ (pre ++ p :: rest)[i]? = some s
        ∧ c ∈ threeCurves i (before PSeg.fuel (pre ++ p :: rest) i) (before PSeg.extra (pre ++ p :: rest) i) s := by
  induction rest generalizing pre p with
  | nil =>
    simp only [go, List.not_mem_nil, false_iff, not_exists, not_and]
    intro i s hi hs
    have : (pre ++ [p])[i]? = none := List.getElem?_eq_none (by simp; omega)
    rw [this] at hs
    exact absurd hs (by simp)
  | cons r rest ih =>
    have hb : ∀ q : PSeg → List ℝ, before q (pre ++ p :: r :: rest) pre.length + last (q p)
        = before q (pre ++ p :: r :: rest) (pre.length + 1) := by
      intro q
      have h1 : (pre ++ p :: r :: rest).take (pre.length + 1) = pre ++ [p] := by
        rw [show pre ++ p :: r :: rest = (pre ++ [p]) ++ r :: rest by simp, show pre.length + 1 = (pre ++ [p]).length by simp,
          List.take_left]
      rw [before, before, List.take_left, h1]
      simp [last]
    have hr : r.has = true := h r (by simp)
    have e : pre ++ p :: r :: rest = (pre ++ [p]) ++ r :: rest := by simp
    have el : pre.length + 1 = (pre ++ [p]).length := by simp
    simp only [go, hr, if_true, hb, List.mem_append]
    have := ih (pre ++ [p]) r (fun s hs => h s (by simp [hs]))
    rw [← el, ← e] at this
    rw [this]
    have hget : (pre ++ p :: r :: rest)[pre.length + 1]? = some r := by
      rw [e, el, List.getElem?_append_right (Nat.le_refl _)]; simp
    constructor
    · rintro (hc | ⟨i, s, hi, hs, hc⟩)
      · exact ⟨pre.length + 1, r, Nat.le_refl _, hget, hc⟩
      · exact ⟨i, s, by omega, hs, hc⟩
    · rintro ⟨i, s, hi, hs, hc⟩
      rcases Nat.lt_or_ge i (pre.length + 1 + 1) with h' | h'
      · obtain rfl : i = pre.length + 1 := by omega
        rw [hget] at hs
        cases hs
        exact Or.inl hc
      · exact Or.inr ⟨i, s, h', hs, hc⟩

/-- C373 in part: when all segments use an additional fuel, the curves are what has been used since the start of the mission of the one
fuel, of the other and of both. -/
theorem C373_two_fuels_partial (segs : List PSeg) (h : ∀ s ∈ segs, s.has = true) (i : ℕ) (vs : List ℝ) :
    (⟨i, .fuel, vs⟩ ∈ fuelUse segs ↔ ∃ s, segs[i]? = some s ∧ vs = s.fuel.map fun f => -(before PSeg.fuel segs i + f))
      ∧ (⟨i, .extra, vs⟩ ∈ fuelUse segs ↔ ∃ s, segs[i]? = some s ∧ vs = s.extra.map fun e => -(before PSeg.extra segs i + e))
      ∧ (⟨i, .total, vs⟩ ∈ fuelUse segs ↔ ∃ s, segs[i]? = some s
          ∧ vs = List.zipWith (fun f e => -(before PSeg.fuel segs i + f) - (before PSeg.extra segs i + e)) s.fuel s.extra) := by
  have key : ∀ c, c ∈ fuelUse segs ↔ ∃ i s, segs[i]? = some s
      ∧ c ∈ threeCurves i (before PSeg.fuel segs i) (before PSeg.extra segs i) s := by
    intro c
    cases segs with
    | nil => simp [fuelUse, go]
    | cons p rest =>
      have hp : p.has = true := h p (by simp)
      have := go_three (p :: rest) [] p rest (fun s hs => h s (by simp [hs])) c
      have b0 : ∀ q : PSeg → List ℝ, before q (p :: rest) 0 = 0 := by intro q; simp [before]
      simp only [List.nil_append, List.length_nil, Nat.zero_add, b0] at this
      simp only [fuelUse, go, hp, if_true, List.mem_append, Nat.zero_add]
      rw [this]
      constructor
      · rintro (hc | ⟨i, s, hi, hs, hc⟩)
        · exact ⟨0, p, rfl, by rw [b0, b0]; exact hc⟩
        · exact ⟨i, s, hs, hc⟩
      · rintro ⟨i, s, hs, hc⟩
        cases i with
        | zero =>
          simp only [List.getElem?_cons_zero, Option.some.injEq] at hs
          subst hs
          rw [b0, b0] at hc
          exact Or.inl hc
        | succ i => exact Or.inr ⟨i + 1, s, by omega, hs, hc⟩
  refine ⟨?_, ?_, ?_⟩
  · rw [key]
    constructor
    · rintro ⟨j, s, hs, hc⟩
      simp only [threeCurves, List.mem_cons, Curve.mk.injEq, reduceCtorEq, false_and, and_false, or_false, List.not_mem_nil,
        true_and] at hc
      obtain ⟨rfl, rfl⟩ := hc
      exact ⟨s, hs, by simp only [add_comm]⟩
    · rintro ⟨s, hs, rfl⟩
      refine ⟨i, s, hs, ?_⟩
      simp only [threeCurves, List.mem_cons, Curve.mk.injEq, true_and]
      left
      simp only [add_comm]
  · rw [key]
    constructor
    · rintro ⟨j, s, hs, hc⟩
      simp only [threeCurves, List.mem_cons, Curve.mk.injEq, reduceCtorEq, false_and, and_false, or_false, false_or,
        List.not_mem_nil, true_and] at hc
      obtain ⟨rfl, rfl⟩ := hc
      exact ⟨s, hs, by simp only [add_comm]⟩
    · rintro ⟨s, hs, rfl⟩
      refine ⟨i, s, hs, ?_⟩
      simp only [threeCurves, List.mem_cons, Curve.mk.injEq, true_and]
      right; left
      simp only [add_comm]
  · rw [key]
    have hz : ∀ (a b : ℝ), (fun f e : ℝ => -((f + a) + (e + b))) = fun f e => -(a + f) - (b + e) := by
      intro a b; funext f e; ring
    constructor
    · rintro ⟨j, s, hs, hc⟩
      simp only [threeCurves, List.mem_cons, Curve.mk.injEq, reduceCtorEq, false_and, and_false, or_false, false_or,
        List.not_mem_nil, true_and] at hc
      obtain ⟨rfl, rfl⟩ := hc
      exact ⟨s, hs, by rw [hz]⟩
    · rintro ⟨s, hs, rfl⟩
      refine ⟨i, s, hs, ?_⟩
      simp only [threeCurves, List.mem_cons, Curve.mk.injEq, true_and]
      right; right; left
      rw [hz]

/-- Two segments burning one kilogram of fuel and two of the other each. -/
example : ∀ s ∈ [(⟨true, [0, -1], [0, -2], [20, 17]⟩ : PSeg), ⟨true, [0, -1], [0, -2], [17, 14]⟩], s.has = true := by simp

/-- C373 in part: so, with masses counted from zero in every segment, the curve has no jump between segments. -/
theorem C373_continuous_partial (segs : List PSeg) (h : ∀ s ∈ segs, s.has = true) (h0 : ∀ s ∈ segs, ∃ l, s.fuel = 0 :: l)
    (i : ℕ) (vs ws : List ℝ) (hv : ⟨i, .fuel, vs⟩ ∈ fuelUse segs) (hw : ⟨i + 1, .fuel, ws⟩ ∈ fuelUse segs) :
    ∃ v, vs.getLast? = some v ∧ ws.head? = some v := by
  obtain ⟨s, hs, rfl⟩ := ((C373_two_fuels_partial segs h i vs).1).mp hv
  obtain ⟨t, ht, rfl⟩ := ((C373_two_fuels_partial segs h (i + 1) ws).1).mp hw
  obtain ⟨l, hl⟩ := h0 s (List.mem_of_getElem? hs)
  obtain ⟨k, hk⟩ := h0 t (List.mem_of_getElem? ht)
  refine ⟨-(before PSeg.fuel segs i + s.fuel.getLastD 0), ?_, ?_⟩
  · rw [List.getLast?_map, hl, List.getLastD_eq_getLast?, List.getLast?_eq_getLast_of_ne_nil (by simp)]
    simp
  · have hb : before PSeg.fuel segs (i + 1) = before PSeg.fuel segs i + s.fuel.getLastD 0 := by
      simp [before, List.take_add_one, hs]
    rw [hk, hb]
    simp

example : ∃ segs : List PSeg, 2 ≤ segs.length ∧ (∀ s ∈ segs, s.has = true) ∧ ∀ s ∈ segs, ∃ l, s.fuel = 0 :: l :=
  ⟨[⟨true, [0, -1], [0, -2], [20, 17]⟩, ⟨true, [0, -1], [0, -2], [17, 14]⟩], by simp, by simp, by simp⟩

/-- C373 in part: when no segment has an additional fuel every curve is the mass lost since the start of the mission, and every segment
has its curve. -/
theorem C373_one_fuel_partial (s0 : PSeg) (m0 : ℝ) (ms : List ℝ) (rest : List PSeg) (hm : s0.mass = m0 :: ms)
    (h : ∀ s ∈ s0 :: rest, s.has = false) (c : Curve) :
    c ∈ fuelUse (s0 :: rest) ↔ ∃ s, (s0 :: rest)[c.seg]? = some s ∧ c.kind = .mass ∧ c.values = s.mass.map fun m => m0 - m := by
  have hmc : c ∈ massCurves (s0 :: rest)
      ↔ ∃ s, (s0 :: rest)[c.seg]? = some s ∧ c.kind = .mass ∧ c.values = s.mass.map fun m => m0 - m := by
    simp only [massCurves, hm, List.headD_cons, List.mem_iff_getElem?, List.getElem?_mapIdx, Option.map_eq_some_iff, neg_sub]
    constructor
    · rintro ⟨i, s, hs, rfl⟩
      exact ⟨s, hs, rfl, rfl⟩
    · rintro ⟨s, hs, hk, hv⟩
      refine ⟨c.seg, s, hs, ?_⟩
      cases c
      simp_all
  have all : ∀ (l : List PSeg), (∀ s ∈ l, s.has = false) → ∀ (i : ℕ) (pf pe : ℝ) (pv : Option PSeg),
      c ∈ go (s0 :: rest) i pf pe pv l ↔ l ≠ [] ∧ c ∈ massCurves (s0 :: rest) := by
    intro l
    induction l with
    | nil => intro _ i pf pe pv; simp [go]
    | cons a l ih =>
      intro hl i pf pe pv
      have ha : a.has = false := hl a (by simp)
      have ih' := ih (fun s hs => hl s (by simp [hs])) (i + 1) pf pe (some a)
      simp only [go, ha, Bool.false_eq_true, if_false, List.mem_append, ih']
      simp
  rw [fuelUse, all _ h, hmc]
  simp

example : ∃ (s0 : PSeg) (m0 : ℝ) (ms : List ℝ) (rest : List PSeg), s0.mass = m0 :: ms ∧ ∀ s ∈ s0 :: rest, s.has = false :=
  ⟨⟨false, [0, 0], [0, 0], [20, 17]⟩, 20, [17], [⟨false, [0, 0], [0, 0], [17, 14]⟩], rfl, by simp⟩

/-- C373 fails for a mission in which only some segments use an additional fuel: two kilograms are gone at the end, and of the curves
over the last segment one ends at two and another at one. -/
theorem C373_mixed_counterexample :
    let segs : List PSeg := [⟨false, [0, 0], [0, 0], [10, 9]⟩, ⟨true, [0, -1], [0, 0], [9, 8]⟩]
    (⟨1, .mass, [1, 2]⟩ : Curve) ∈ fuelUse segs ∧ (⟨1, .total, [0, 1]⟩ : Curve) ∈ fuelUse segs := by
  norm_num [fuelUse, go, massCurves, threeCurves, last, List.mapIdx, List.mapIdx.go]

/-! ### C374 tilting rotors -/

/-- Spec: `a` is the elevation of a direction pointing `fwd` ahead and `up`. -/
def Elev (a fwd up : ℝ) : Prop := ∃ r, 0 < r ∧ fwd = r * Real.cos a ∧ up = r * Real.sin a

theorem elev_thrust (tx tz : ℝ) (ht : tz ≤ 0) (h : tx ^ 2 + tz ^ 2 ≠ 0) :
    ∃ a, thrustAngle tx tz = some a ∧ Elev a tx (-tz) := by
  have hp : 0 < tx ^ 2 + tz ^ 2 := lt_of_le_of_ne (by positivity) (Ne.symm h)
  have hr : 0 < Real.sqrt (tx ^ 2 + tz ^ 2) := Real.sqrt_pos.mpr hp
  have hsq : Real.sqrt (tx ^ 2 + tz ^ 2) ^ 2 = tx ^ 2 + tz ^ 2 := Real.sq_sqrt hp.le
  refine ⟨Real.arccos (tx / Real.sqrt (tx ^ 2 + tz ^ 2)), by simp [thrustAngle, h], Real.sqrt (tx ^ 2 + tz ^ 2), hr, ?_, ?_⟩
  · have habs : |tx| ≤ Real.sqrt (tx ^ 2 + tz ^ 2) := Real.abs_le_sqrt (by nlinarith [sq_nonneg tz])
    rw [Real.cos_arccos]
    · field_simp
    · rw [le_div_iff₀ hr]; linarith [neg_abs_le tx]
    · rw [div_le_one hr]; linarith [le_abs_self tx]
  · rw [Real.sin_arccos]
    have : 1 - (tx / Real.sqrt (tx ^ 2 + tz ^ 2)) ^ 2 = (-tz / Real.sqrt (tx ^ 2 + tz ^ 2)) ^ 2 := by
      rw [div_pow, div_pow, hsq]
      field_simp
      ring
    rw [this, Real.sqrt_sq (by apply div_nonneg <;> linarith)]
    field_simp

theorem elev_velocity (vx vz : ℝ) (hv : 0 < vx) : ∃ b, velocityAngle vx vz = some b ∧ Elev b vx (-vz) := by
  refine ⟨Real.arctan (-vz / vx), by simp [velocityAngle, hv.ne'], vx / Real.cos (Real.arctan (-vz / vx)), ?_, ?_, ?_⟩
  · exact div_pos hv (Real.cos_arctan_pos _)
  · have := (Real.cos_arctan_pos (-vz / vx)).ne'
    field_simp
  · have hc := (Real.cos_arctan_pos (-vz / vx)).ne'
    have ht := Real.tan_arctan (-vz / vx)
    rw [Real.tan_eq_sin_div_cos] at ht
    calc -vz = vx * (-vz / vx) := by field_simp
      _ = vx * (Real.sin (Real.arctan (-vz / vx)) / Real.cos (Real.arctan (-vz / vx))) := by rw [ht]
      _ = _ := by ring

/-- C374 in part: for a level aircraft moving ahead whose thrust does not point down, the incidence is the elevation of the thrust less
that of the flight path. -/
theorem C374_incidence_partial (tx tz vx vz : ℝ) (ht : tz ≤ 0) (h : tx ^ 2 + tz ^ 2 ≠ 0) (hv : 0 < vx) :
    ∃ a b, incidence tx tz vx vz = some (a - b) ∧ Elev a tx (-tz) ∧ Elev b vx (-vz) := by
  obtain ⟨a, ha, ea⟩ := elev_thrust tx tz ht h
  obtain ⟨b, hb, eb⟩ := elev_velocity vx vz hv
  exact ⟨a, b, by simp [incidence, ha, hb], ea, eb⟩

example : (-3 : ℝ) ≤ 0 ∧ (4 : ℝ) ^ 2 + (-3) ^ 2 ≠ 0 ∧ (0 : ℝ) < 50 := by norm_num

/-- C374 fails for a pitched aircraft: thrust along the body and a flight path along the body, both at any elevation `θ` above the
horizon, give the incidence `-θ` and not zero. -/
theorem C374_pitch_counterexample (t v θ : ℝ) (ht : 0 < t) (hv : 0 < v) (h1 : -(Real.pi / 2) < θ) (h2 : θ < Real.pi / 2) :
    incidence t 0 (v * Real.cos θ) (-(v * Real.sin θ)) = some (-θ) := by
  have hc : 0 < Real.cos θ := Real.cos_pos_of_mem_Ioo ⟨h1, h2⟩
  have e1 : thrustAngle t 0 = some 0 := by
    have : t ^ 2 + 0 ^ 2 ≠ 0 := by positivity
    have h3 : Real.sqrt (t ^ 2 + 0 ^ 2) = t := by rw [show t ^ 2 + (0 : ℝ) ^ 2 = t ^ 2 by ring]; exact Real.sqrt_sq ht.le
    simp only [thrustAngle, this, if_false, h3]
    rw [div_self ht.ne', Real.arccos_one]
  have hne : v * Real.cos θ ≠ 0 := by positivity
  have e2 : velocityAngle (v * Real.cos θ) (-(v * Real.sin θ)) = some θ := by
    simp only [velocityAngle, hne, if_false, neg_neg]
    rw [mul_div_mul_left _ _ hv.ne', ← Real.tan_eq_sin_div_cos, Real.arctan_tan h1 h2]
  simp [incidence, e1, e2]

example : ∃ θ : ℝ, θ ≠ 0 ∧ -(Real.pi / 2) < θ ∧ θ < Real.pi / 2 :=
  ⟨1 / 2, by norm_num, by linarith [Real.pi_pos], by linarith [Real.two_le_pi]⟩

/-- C374 fails for thrust pointing down: its angle is that of the thrust pointing up. -/
theorem C374_down_counterexample (tx tz vx vz : ℝ) : incidence tx tz vx vz = incidence tx (-tz) vx vz := by
  simp [incidence, thrustAngle]

/-- C374 fails at rest: a hovering aircraft has no incidence in the plot. -/
theorem C374_hover_counterexample (tx tz : ℝ) : incidence tx tz 0 0 = none := by
  unfold incidence
  cases thrustAngle tx tz <;> simp [velocityAngle]

/-- C374 fails flying backwards: straight ahead and straight back are the same angle. -/
theorem C374_back_counterexample (tx tz v : ℝ) (hv : v ≠ 0) : incidence tx tz v 0 = incidence tx tz (-v) 0 := by
  simp [incidence, velocityAngle, hv]

example : (50 : ℝ) ≠ 0 := by norm_num

/-- C374: the advance ratio is the distance flown in one turn over the diameter. -/
theorem C374_advance (radius rpm v : ℝ) (hr : 0 < radius) (hn : 0 < rpm) :
    advance radius rpm v * (2 * radius) = v * (60 / rpm) := by
  simp only [advance]
  field_simp

example : (0 : ℝ) < 1.5 ∧ (0 : ℝ) < 2000 := by norm_num

/-! ### C375 battery -/

/-- C375 in part: the C-rate is one over the hours for which the energy left would last at the present power. -/
theorem C375_instant_partial (current energy volts hours : ℝ) (hi : 0 < current) (he : 0 < energy) (hv : 0 < volts)
    (hh : current * volts * (hours * 3600) = energy) : cInstant current energy volts = 1 / hours := by
  have hpos : 0 < hours := by
    by_contra hc
    have : current * volts * (hours * 3600) ≤ 0 := by
      have : 0 < current * volts := by positivity
      nlinarith
    linarith
  simp only [cInstant, ampHours]
  rw [← hh]
  field_simp

example : (100 : ℝ) * 400 * (0.5 * 3600) = 72000000 := by norm_num

theorem fold_max_ge (l : List ℝ) (x : ℝ) (hx : x ∈ l) : x ≤ l.foldr max 0 := by
  induction l with
  | nil => simp at hx
  | cons a l ih =>
    rcases List.mem_cons.mp hx with rfl | h
    · exact le_max_left _ _
    · exact le_trans (ih h) (le_max_right _ _)

/-- C375 in part: the nominal rate is never above the instantaneous one while the battery is discharged. -/
theorem C375_nominal_partial (current : ℝ) (points : List (ℝ × ℝ)) (hi : 0 ≤ current) (p : ℝ × ℝ) (hp : p ∈ points)
    (he : 0 < p.1) (hv : 0 < p.2) : cNominal current points ≤ cInstant current p.1 p.2 := by
  have hpos : 0 < ampHours p.1 p.2 := by simp only [ampHours]; positivity
  have := fold_max_ge (points.map fun p => ampHours p.1 p.2) (ampHours p.1 p.2) (List.mem_map.mpr ⟨p, hp, rfl⟩)
  exact div_le_div_of_nonneg_left hi hpos this

example : ((7200000, 400) : ℝ × ℝ) ∈ [((7200000, 400) : ℝ × ℝ), (3600000, 380)] := by simp

/-- C375 fails: the capacity behind the nominal rate is that of the fullest point of the segment, so one pack giving one current has
different nominal rates in two segments of one mission. -/
theorem C375_nominal_counterexample :
    cNominal 10 [(7200000, 400), (3600000, 400)] = 2 ∧ cNominal 10 [(3600000, 400), (1800000, 400)] = 4 := by
  norm_num [cNominal, ampHours]

end Verif.IO.Plots
