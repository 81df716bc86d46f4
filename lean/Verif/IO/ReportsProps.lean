import Verif.IO.Reports
import Mathlib.Analysis.Convex.SpecificFunctions.Basic
import Mathlib.Tactic.Linarith
import Mathlib.Tactic.Positivity
import Mathlib.Tactic.FieldSimp

/-! Reports: mission breakdown (C346, C347), engine data (C348) and parasite drag (C349). -/

namespace Verif.IO.Reports

/-! ### C346: mission breakdown -/

/-- Every segment starts where the one before ended, in time, position and mass. -/
def Joined : List Seg → Prop
  | [] => True
  | [_] => True
  | s :: s' :: l => s'.first = s.last ∧ Joined (s' :: l)

theorem foldl_sum {α : Type} (f : α → ℝ) (l : List α) (r : ℝ) : l.foldl (fun r s => r + f s) r = r + (l.map f).sum := by
  induction l generalizing r with
  | nil => simp
  | cons a l ih => rw [List.foldl_cons, ih, List.map_cons, List.sum_cons]; ring

theorem telescope (f : End → ℝ) (a : Seg) (l : List Seg) (h : Joined (a :: l)) :
    ((a :: l).map fun s => f s.last - f s.first).sum = f ((a :: l).getLast (List.cons_ne_nil a l)).last - f a.first := by
  induction l generalizing a with
  | nil => simp
  | cons b l ih =>
    obtain ⟨h1, h2⟩ := h
    rw [List.map_cons, List.sum_cons, ih b h2, h1, List.getLast_cons (List.cons_ne_nil b l)]
    ring

theorem sum_neg' {α : Type} (f : α → ℝ) (l : List α) : (l.map fun s => -f s).sum = -(l.map f).sum := by
  induction l with
  | nil => simp
  | cons a l ih => simp only [List.map_cons, List.sum_cons, ih]; ring

/-- For a mission without additional fuel whose segments join, the fuel, the distances and the times of the lines add up to
the totals, which are those between the start and the end of the mission.  Missing: additional fuel
(`C346_additional_counterexample`), courses that are not along x (`C346_range_counterexample`) and missions of a day or
more (`C346_day_counterexample`). -/
theorem C346_totals_partial (units : String) (p0 : ℝ) (a : Seg) (l : List Seg) (hj : Joined (a :: l)) (hh : ∀ s ∈ a :: l, s.has = false)
    (rows : List Row) (tot : Totals) (h : missionBreakdown units p0 (a :: l) = some (rows, tot)) :
    let b := (a :: l).getLast (List.cons_ne_nil a l)
    rows.length = (a :: l).length ∧ (rows.map Row.fuel).sum = tot.main ∧ tot.main = a.first.mass - b.last.mass ∧
    (rows.map Row.dist).sum = tot.range ∧ (∃ u, sys units = some u ∧ tot.range * u.dist = b.last.x - a.first.x) ∧
    (rows.map Row.time).sum * 60 = b.last.t - a.first.t ∧ (tot.hours, tot.minutes) = clock (b.last.t - a.first.t) := by
  intro b
  obtain ⟨u, hu, h⟩ := Option.bind_eq_some_iff.1 h
  have hud : u.dist ≠ 0 := by
    unfold sys at hu
    split_ifs at hu <;> (rw [Option.some_inj] at hu; rw [← hu]; norm_num)
  rw [Option.some_inj, Prod.mk.injEq] at h
  obtain ⟨h1, h2⟩ := h
  have ha : a.has = false := hh a (List.mem_cons_self)
  have hr : tot.range = ((a :: l).map fun s => (s.last.x - s.first.x) / u.dist).sum := by
    rw [← h2]
    change (a :: l).foldl (fun r s => r + (s.last.x - s.first.x) / u.dist) 0 = _
    rw [foldl_sum (fun s : Seg => (s.last.x - s.first.x) / u.dist), zero_add]
  have hm : tot.main = a.first.mass - b.last.mass := by
    rw [← h2]
    simp only [totals, ha, Bool.false_eq_true, if_false, b]
  have hdiv : ((a :: l).map fun s => (s.last.x - s.first.x) / u.dist).sum * u.dist = b.last.x - a.first.x := by
    rw [← telescope End.x a l hj]
    generalize a :: l = L
    induction L with
    | nil => simp
    | cons c L ih =>
      simp only [List.map_cons, List.sum_cons]
      rw [add_mul, ih, div_mul_cancel₀ _ hud]
  refine ⟨by rw [← h1, List.length_map], ?_, hm, ?_, ⟨u, hu, by rw [hr, hdiv]⟩, ?_, ?_⟩
  · rw [hm, ← h1, List.map_map]
    have hcong : (a :: l).map (Row.fuel ∘ row u p0) = (a :: l).map fun s => -(s.last.mass - s.first.mass) := by
      apply List.map_congr_left
      intro s hs
      simp only [Function.comp, row, hh s hs, Bool.false_eq_true, if_false]
      ring
    rw [hcong, sum_neg', telescope End.mass a l hj]
    ring
  · rw [hr, ← h1, List.map_map]
    rfl
  · rw [← telescope End.t a l hj, ← h1, List.map_map]
    generalize a :: l = L
    induction L with
    | nil => simp
    | cons c L ih =>
      simp only [List.map_cons, List.sum_cons]
      rw [add_mul, ih]
      simp only [Function.comp, row]
      ring
  · rw [← h2]
    rfl

/-- Below a day the printed hours and minutes are those of the duration. -/
theorem C346_clock_partial (t : ℝ) (h0 : 0 ≤ t) (h1 : t < 86400) :
    (clock t).2 < 60 ∧ ((clock t).1 * 60 + (clock t).2 : ℝ) * 60 ≤ t ∧ t < ((clock t).1 * 60 + (clock t).2 + 1 : ℝ) * 60 := by
  have hf : ⌊t⌋₊ < 86400 := by
    rw [Nat.floor_lt h0]
    exact_mod_cast h1
  have hle := Nat.floor_le h0
  have hlt := Nat.lt_floor_add_one t
  unfold clock
  generalize ⌊t⌋₊ = n at *
  have e : n / 3600 % 24 * 60 + n / 60 % 60 = n / 60 := by omega
  have e' : ((n / 3600 % 24 : ℕ) * 60 + (n / 60 % 60 : ℕ) : ℝ) = (n / 60 : ℕ) := by exact_mod_cast e
  refine ⟨Nat.mod_lt _ (by norm_num), ?_, ?_⟩
  · rw [e']
    have : ((n / 60 : ℕ) : ℝ) * 60 ≤ n := by exact_mod_cast Nat.div_mul_le_self n 60
    linarith
  · rw [e']
    have : n + 1 ≤ (n / 60 + 1) * 60 := by omega
    have : (n : ℝ) + 1 ≤ ((n / 60 : ℕ) + 1) * 60 := by exact_mod_cast this
    linarith

/-- A flight of 30 hours is printed as one of 6 hours. -/
theorem C346_day_counterexample : clock (30 * 3600) = (6, 0) := by
  unfold clock
  have : ⌊(30 * 3600 : ℝ)⌋₊ = 108000 := by
    rw [show (30 * 3600 : ℝ) = ((108000 : ℕ) : ℝ) by norm_num, Nat.floor_natCast]
  rw [this]

/-- With additional fuel the printed main fuel contains the additional fuel, and the total contains it twice. -/
theorem C346_additional_counterexample :
    ¬ ∀ (u : Sys) (a : Seg) (m c : ℝ), a.has = true → a.first.fuel - a.last.fuel = m → a.first.additional - a.last.additional = c →
      (totals u a a [a]).main = m ∧ (totals u a a [a]).total = some (m + c) := by
  intro h
  have := h ⟨1, 1, 1⟩ ⟨⟨0, 0, 0, 10, 5, 3, 0, 0, 0⟩, ⟨0, 0, 0, 7, 4, 1, 0, 0, 0⟩, true⟩ 1 2 rfl (by norm_num) (by norm_num)
  norm_num [totals] at this

/-- What is printed with additional fuel. -/
theorem C346_additional (u : Sys) (a b : Seg) (l : List Seg) (ha : a.has = true) :
    let m := (l.map fun s => s.first.fuel - s.last.fuel).sum
    let c := (l.map fun s => s.first.additional - s.last.additional).sum
    (totals u a b l).main = m + c ∧ (totals u a b l).additional = some c ∧ (totals u a b l).total = some (m + 2 * c) := by
  intro m c
  have h1 : l.foldl (fun r s => r + (s.first.fuel - s.last.fuel) + (s.first.additional - s.last.additional)) 0 = m + c := by
    have : (fun (r : ℝ) (s : Seg) => r + (s.first.fuel - s.last.fuel) + (s.first.additional - s.last.additional)) =
        fun r s => r + ((s.first.fuel - s.last.fuel) + (s.first.additional - s.last.additional)) := by
      funext r s
      ring
    rw [this, foldl_sum (fun s : Seg => (s.first.fuel - s.last.fuel) + (s.first.additional - s.last.additional)), zero_add]
    simp only [m, c]
    induction l with
    | nil => simp
    | cons s l ih =>
      simp only [List.map_cons, List.sum_cons]
      rw [ih]
      ring
  have h2 : l.foldl (fun r s => r + (s.first.additional - s.last.additional)) 0 = c := by
    rw [foldl_sum (fun s : Seg => s.first.additional - s.last.additional), zero_add]
  simp only [totals, ha, if_true, h1, h2, Option.some_inj, true_and]
  ring

/-- A flight across the x axis covers a range, but the report shows none. -/
theorem C346_range_counterexample :
    ¬ ∀ (u : Sys) (a : Seg), u.dist = 1000 → (totals u a a [a]).range * 1000 = a.last.range - a.first.range := by
  intro h
  have := h ⟨1, 1000, 1⟩ ⟨⟨0, 0, 0, 10, 5, 3, 0, 0, 0⟩, ⟨0, 0, 0, 7, 4, 1, 0, 0, 50000⟩, false⟩ rfl
  norm_num [totals] at this

/-- Spec: a line of the report in units of height, length and speed given in SI. -/
def Reported (height dist speed p0 : ℝ) (s : Seg) (r : Row) : Prop :=
  r.altI * height = -s.first.z ∧ r.altF * height = -s.last.z ∧ r.massI = s.first.mass ∧ r.massF = s.last.mass
    ∧ r.dist * dist = s.last.x - s.first.x ∧ r.time * 60 = s.last.t - s.first.t
    ∧ r.casI * speed = cas s.first.mach (s.first.pressure / p0) ∧ r.casF * speed = cas s.last.mach (s.last.pressure / p0)
    ∧ (s.has = true → r.fuel = s.first.fuel - s.last.fuel ∧ r.additional = some (s.first.additional - s.last.additional))
    ∧ (s.has = false → r.fuel = s.first.mass - s.last.mass ∧ r.additional = none)

theorem row_reported (u : Sys) (h1 : u.height ≠ 0) (h2 : u.dist ≠ 0) (h3 : u.speed ≠ 0) (p0 : ℝ) (s : Seg) :
    Reported u.height u.dist u.speed p0 s (row u p0 s) := by
  unfold Reported row
  refine ⟨div_mul_cancel₀ _ h1, div_mul_cancel₀ _ h1, rfl, rfl, div_mul_cancel₀ _ h2, by ring, div_mul_cancel₀ _ h3,
    div_mul_cancel₀ _ h3, fun h => ?_, fun h => ?_⟩ <;> simp [h]

/-- Every segment has its line, in feet, nautical miles and knots or in metres, kilometres and metres per second. -/
theorem C346_rows (p0 : ℝ) (segs : List Seg) (rows : List Row) (tot : Totals) :
    (missionBreakdown "imperial" p0 segs = some (rows, tot) → List.Forall₂ (Reported 0.3048 1852 (1852 / 3600) p0) segs rows)
      ∧ (missionBreakdown "si" p0 segs = some (rows, tot) → List.Forall₂ (Reported 1 1000 1 p0) segs rows) := by
  have key : ∀ (u : Sys) (l : List Seg), u.height ≠ 0 → u.dist ≠ 0 → u.speed ≠ 0 →
      List.Forall₂ (Reported u.height u.dist u.speed p0) l (l.map (row u p0)) := by
    intro u l h1 h2 h3
    induction l with
    | nil => exact .nil
    | cons a l ih => exact .cons (row_reported u h1 h2 h3 p0 a) ih
  cases segs with
  | nil => constructor <;> intro h <;> simp [missionBreakdown, sys] at h
  | cons a l =>
    constructor <;> intro h
    · simp only [missionBreakdown, sys, if_true, Option.bind_some, Option.some.injEq, Prod.mk.injEq] at h
      rw [← h.1]
      exact key ⟨0.3048, 1852, 1852 / 3600⟩ (a :: l) (by norm_num) (by norm_num) (by norm_num)
    · simp only [missionBreakdown, sys, if_true, Option.bind_some, Option.some.injEq, Prod.mk.injEq,
        if_neg (by decide : ¬ ("si" = "imperial"))] at h
      rw [← h.1]
      exact key ⟨1, 1000, 1⟩ (a :: l) (by norm_num) (by norm_num) (by norm_num)

/-- Any other system of units writes no table. -/
theorem C346_units (units : String) (p0 : ℝ) (segs : List Seg) (h1 : units ≠ "imperial") (h2 : units ≠ "si") :
    missionBreakdown units p0 segs = none := by
  simp [missionBreakdown, sys, h1, h2]

/-- Two joined segments. -/
example : ∃ rows tot, missionBreakdown "si" 101325 [⟨⟨0, 0, 0, 100, 0, 0, 0, 1, 0⟩, ⟨5, -9, 60, 90, 0, 0, 0, 1, 5⟩, false⟩,
    ⟨⟨5, -9, 60, 90, 0, 0, 0, 1, 5⟩, ⟨8, 0, 90, 85, 0, 0, 0, 1, 8⟩, false⟩] = some (rows, tot) ∧ (rows.map Row.fuel).sum = 15 := by
  refine ⟨_, _, rfl, ?_⟩
  obtain ⟨-, h1, h2, -⟩ := C346_totals_partial "si" 101325 ⟨⟨0, 0, 0, 100, 0, 0, 0, 1, 0⟩, ⟨5, -9, 60, 90, 0, 0, 0, 1, 5⟩, false⟩
    [⟨⟨5, -9, 60, 90, 0, 0, 0, 1, 5⟩, ⟨8, 0, 90, 85, 0, 0, 0, 1, 8⟩, false⟩] ⟨rfl, trivial⟩ (by simp) _ _ rfl
  rw [h1, h2]
  norm_num

/-! ### C347: calibrated airspeed -/

theorem k1_pos : 0 < k1 := by norm_num [k1]

/-- Argument of the power in the impact pressure: a multiple of the square of the Mach number. -/
theorem impact_eq (M δ : ℝ) (hδ : 0 < δ) : impact M δ = δ * ((1 + k1 * 340.294 ^ 2 * M ^ 2) ^ (3.5 : ℝ) - 1) := by
  unfold impact eas
  have h := Real.sq_sqrt hδ.le
  rw [show k1 * (M * (340.294 * Real.sqrt δ)) ^ 2 / δ = k1 * 340.294 ^ 2 * M ^ 2 * (Real.sqrt δ ^ 2 / δ) by ring, h, div_self hδ.ne', mul_one]

theorem impact_mono (M M' δ : ℝ) (hM : 0 ≤ M) (h : M ≤ M') (hδ : 0 < δ) : 0 ≤ impact M δ ∧ impact M δ ≤ impact M' δ := by
  rw [impact_eq M δ hδ, impact_eq M' δ hδ]
  have hk := k1_pos
  have h2 : M ^ 2 ≤ M' ^ 2 := pow_le_pow_left₀ hM h 2
  have h1 : (1 : ℝ) ≤ (1 + k1 * 340.294 ^ 2 * M ^ 2) ^ (3.5 : ℝ) :=
    Real.one_le_rpow (by nlinarith [mul_nonneg (mul_nonneg hk.le (sq_nonneg (340.294 : ℝ))) (sq_nonneg M)]) (by norm_num)
  have h3 : (1 + k1 * 340.294 ^ 2 * M ^ 2) ^ (3.5 : ℝ) ≤ (1 + k1 * 340.294 ^ 2 * M' ^ 2) ^ (3.5 : ℝ) := by
    apply Real.rpow_le_rpow (by positivity) _ (by norm_num)
    have : 0 ≤ k1 * 340.294 ^ 2 := by positivity
    nlinarith
  constructor
  · apply mul_nonneg hδ.le
    linarith
  · apply mul_le_mul_of_nonneg_left _ hδ.le
    linarith

/-- The calibrated airspeed is zero at rest and grows with the Mach number and with the pressure. -/
theorem C347_monotone (M M' δ δ' : ℝ) (hM : 0 ≤ M) (h : M ≤ M') (hδ : 0 < δ) (hd : δ ≤ δ') :
    cas 0 δ = 0 ∧ cas M δ ≤ cas M' δ' := by
  have hk := k1_pos
  constructor
  · unfold cas
    rw [impact_eq 0 δ hδ]
    norm_num
  · apply Real.sqrt_le_sqrt
    apply div_le_div_of_nonneg_right _ hk.le
    have h1 := impact_mono M M' δ hM h hδ
    have h2 : impact M' δ ≤ impact M' δ' := by
      have h0 := (impact_mono M' M' δ (hM.trans h) le_rfl hδ).1
      rw [impact_eq M' δ hδ] at h0 ⊢
      rw [impact_eq M' δ' (hδ.trans_le hd)]
      apply mul_le_mul_of_nonneg_right hd
      exact nonneg_of_mul_nonneg_right h0 hδ
    have h3 : (impact M δ + 1) ^ k2 ≤ (impact M' δ' + 1) ^ k2 :=
      Real.rpow_le_rpow (by linarith [h1.1]) (by linarith [h1.2]) (by norm_num [k2])
    linarith

/-- At standard sea level pressure the calibrated airspeed is the equivalent one, within a part in 10⁹ of its square, for
speeds up to twice that of sound; at lower pressure it is not below the equivalent airspeed by more than that. -/
theorem C347_equivalent (M δ : ℝ) (hM : 0 ≤ M) (h2 : M ≤ 2) (hδ : 0 < δ) (h1 : δ ≤ 1) :
    eas M δ ^ 2 * (1 - 1e-9) ≤ cas M δ ^ 2 ∧ cas M 1 ^ 2 ≤ eas M 1 ^ 2 := by
  have hk := k1_pos
  set c : ℝ := k1 * 340.294 ^ 2 with hc
  have hc1 : c < 0.21 := by rw [hc]; norm_num [k1]
  have hc0 : 0 < c := by positivity
  have he : ∀ d, 0 ≤ d → k1 * eas M d ^ 2 = c * M ^ 2 * d := by
    intro d hd
    unfold eas
    rw [mul_pow, mul_pow, Real.sq_sqrt hd, hc]
    ring
  have hM2 : M ^ 2 ≤ 4 := by nlinarith
  have hcas : ∀ d, 0 < d → k1 * cas M d ^ 2 = (impact M d + 1) ^ k2 - 1 := by
    intro d hd
    unfold cas
    have h0 := (impact_mono M M d hM le_rfl hd).1
    have h4 : (1 : ℝ) ≤ (impact M d + 1) ^ k2 := Real.one_le_rpow (by linarith) (by norm_num [k2])
    rw [Real.sq_sqrt (div_nonneg (by linarith) hk.le)]
    field_simp
  have hkk : (3.5 : ℝ) * k2 = 1 - 5e-11 := by norm_num [k2]
  constructor
  · -- lower bound
    set x : ℝ := c * M ^ 2 * δ with hx
    have hx0 : 0 ≤ x := by positivity
    have hcm : c * M ^ 2 ≤ 1 := by nlinarith
    have hx1 : x ≤ 1 := by
      have : x ≤ 1 * 1 := mul_le_mul hcm h1 hδ.le (by norm_num)
      linarith
    have hq : (1 + x) ^ (3.5 : ℝ) ≤ impact M δ + 1 := by
      rw [impact_eq M δ hδ, ← hc]
      have hconv := (convexOn_rpow (p := 3.5) (by norm_num)).2 (show (1 : ℝ) ∈ Set.Ici 0 by simp) (show 1 + c * M ^ 2 ∈ Set.Ici (0 : ℝ) by
        simp only [Set.mem_Ici]; positivity) (sub_nonneg.2 h1) hδ.le (by ring)
      simp only [smul_eq_mul, Real.one_rpow] at hconv
      have e : (1 - δ) * 1 + δ * (1 + c * M ^ 2) = 1 + x := by rw [hx]; ring
      rw [e] at hconv
      linarith
    have hp : (1 + x) ^ ((3.5 : ℝ) * k2) ≤ (impact M δ + 1) ^ k2 := by
      rw [Real.rpow_mul (by linarith)]
      exact Real.rpow_le_rpow (by positivity) hq (by norm_num [k2])
    have hb : (1 + x) ^ (5e-11 : ℝ) ≤ 1 + 5e-11 * x := rpow_one_add_le_one_add_mul_self (by linarith) (by norm_num) (by norm_num)
    have hdiv : (1 + x) ^ ((3.5 : ℝ) * k2) = (1 + x) / (1 + x) ^ (5e-11 : ℝ) := by
      rw [hkk, Real.rpow_sub (by linarith), Real.rpow_one]
    have hpos : 0 < (1 + x) ^ (5e-11 : ℝ) := Real.rpow_pos_of_pos (by linarith) _
    have hlow : x * (1 - 1e-9) ≤ (1 + x) ^ ((3.5 : ℝ) * k2) - 1 := by
      rw [hdiv]
      have : (1 + x) / (1 + 5e-11 * x) ≤ (1 + x) / (1 + x) ^ (5e-11 : ℝ) := div_le_div_of_nonneg_left (by linarith) hpos hb
      have h5 : 1 + x * (1 - 1e-9) ≤ (1 + x) / (1 + 5e-11 * x) := by
        rw [le_div_iff₀ (by positivity)]
        nlinarith
      linarith
    have : k1 * (eas M δ ^ 2 * (1 - 1e-9)) ≤ k1 * cas M δ ^ 2 := by
      rw [← mul_assoc, he δ hδ.le, hcas δ hδ]
      linarith
    exact le_of_mul_le_mul_left this hk
  · have h0 : impact M 1 + 1 = (1 + c * M ^ 2) ^ (3.5 : ℝ) := by
      rw [impact_eq M 1 one_pos, ← hc]
      ring
    have : k1 * cas M 1 ^ 2 ≤ k1 * eas M 1 ^ 2 := by
      rw [he 1 zero_le_one, hcas 1 one_pos, h0, ← Real.rpow_mul (by positivity), hkk]
      have h1x : 1 ≤ 1 + c * M ^ 2 := by nlinarith [mul_nonneg hc0.le (sq_nonneg M)]
      have : (1 + c * M ^ 2) ^ (1 - 5e-11 : ℝ) ≤ (1 + c * M ^ 2) ^ (1 : ℝ) := Real.rpow_le_rpow_of_exponent_le h1x (by norm_num)
      rw [Real.rpow_one] at this
      linarith
    exact le_of_mul_le_mul_left this hk

example : eas 0.8 0.3 ^ 2 * (1 - 1e-9) ≤ cas 0.8 0.3 ^ 2 :=
  (C347_equivalent 0.8 0.3 (by norm_num) (by norm_num) (by norm_num) (by norm_num)).1

/-! ### C348: engine data -/

open Verif.Energy.GasTurbine

/-- For a network that does not use the speed of sound of the conditions, the entries are thrust per engine and consumption
of the network at the altitude, speed and temperature of the entry.  Missing: networks that do, such as turbofans
(`C348_turbofan_counterexample`). -/
theorem C348_entry_partial (net : Amb → ℝ × ℝ) (hnet : ∀ (a : Amb) (x : ℝ), net { a with a := x } = net a) (atm : ℝ → ℝ × ℝ)
    (sound : ℝ → ℝ) (g h dT v n lbf c : ℝ) (hn : n ≠ 0) (hl : lbf ≠ 0) (hs : sound ((atm h).2 + dT) ≠ 0) :
    let T := (atm h).2 + dT
    let true_ : Amb := ⟨(atm h).1, T, v / sound T, v, sound T, g⟩
    let e := engineEntry net n lbf c (engineConditions atm sound g h dT v)
    true_.M * true_.a = v ∧ e.1 * lbf * n = (net true_).1 ∧ ((net true_).1 ≠ 0 → e.2 * (net true_).1 = c * (net true_).2) := by
  intro T true_ e
  have he : net (engineConditions atm sound g h dT v) = net true_ := hnet true_ 0
  refine ⟨div_mul_cancel₀ v hs, ?_, ?_⟩
  · simp only [e, engineEntry, he]
    rw [div_mul_cancel₀ _ hl, div_mul_cancel₀ _ hn]
  · intro h0
    simp only [e, engineEntry, he]
    exact div_mul_cancel₀ _ h0

/-- For every engine with the thrust element of the turbofan the report shows no thrust. -/
theorem C348_turbofan_counterexample (s : ThrustSet) (f : Fluid) (inp : Free → ThrustIn) (atm : ℝ → ℝ × ℝ) (sound : ℝ → ℝ)
    (g h dT v n lbf c : ℝ) :
    (engineEntry (fun a => ((thrust s (ram f a) 1 (inp (ram f a))).thrust, (thrust s (ram f a) 1 (inp (ram f a))).fuel)) n lbf c
      (engineConditions atm sound g h dT v)).1 = 0 := by
  simp [engineEntry, engineConditions, thrust, ram]

/-! ### C349: parasite drag -/

/-- The sum of the table is the sum of its lines with miscellaneous drag and increment as printed, when every nacelle is in
one place, and the numbers are those of the analysis with default settings.  Missing: settings of the user
(`C349_settings_counterexample`) and nacelles in several places (`C349_nacelle_counterexample`). -/
theorem C349_sum_partial {S : Type} (analysis : S → Breakdown) (default user : S) (inc : S → ℝ)
    (hn : ∀ n ∈ (analysis default).nacelles, n.2 = 1) :
    let t := parasiteTable analysis default user inc
    |t.2.1 - (t.1.sum + (analysis default).misc + inc user)| ≤ 1e-5 := by
  intro t
  have hp : ∀ x : ℝ, |printed5 x - x| ≤ 0.5e-5 := by
    intro x
    have := abs_sub_round (x * 100000)
    rw [abs_le] at this ⊢
    unfold printed5
    constructor <;> linarith [this.1, this.2]
  have hrows : t.1.sum = ((analysis default).wings.map Part.cd).sum + ((analysis default).bodies.map Part.cd).sum +
      ((analysis default).nacelles.map fun n => n.1.cd).sum + (analysis default).pylon.cd := by
    simp only [t, parasiteTable, List.sum_append, List.sum_singleton]
    have : (analysis default).nacelles.map (fun n => n.1.cd / (n.2 : ℝ)) = (analysis default).nacelles.map fun n => n.1.cd := by
      apply List.map_congr_left
      intro n h
      rw [hn n h]
      simp
    rw [this]
  have e : t.2.1 = ((analysis default).wings.map Part.cd).sum + ((analysis default).bodies.map Part.cd).sum +
      ((analysis default).nacelles.map fun n => n.1.cd).sum + (analysis default).pylon.cd + printed5 (analysis default).misc + printed5 (inc user) := rfl
  rw [e, hrows]
  have h1 := hp (analysis default).misc
  have h2 := hp (inc user)
  rw [abs_le] at h1 h2 ⊢
  constructor <;> linarith [h1.1, h1.2, h2.1, h2.2]

/-- The wetted area at the foot of the table counts every nacelle once for each of its places. -/
theorem C349_area {S : Type} (analysis : S → Breakdown) (default user : S) (inc : S → ℝ) :
    (parasiteTable analysis default user inc).2.2 =
      ((analysis default).wings.map Part.swet).sum + ((analysis default).bodies.map Part.swet).sum +
        ((analysis default).nacelles.flatMap fun n => List.replicate n.2 n.1.swet).sum + (analysis default).pylon.swet := by
  have : ∀ l : List (Part × ℕ), (l.flatMap fun n => List.replicate n.2 n.1.swet).sum = (l.map fun n => n.1.swet * (n.2 : ℝ)).sum := by
    intro l
    induction l with
    | nil => rfl
    | cons n l ih => simp [List.flatMap_cons, ih, mul_comm]
  rw [this]
  rfl

/-- The settings of the user do not reach the lines of the table. -/
theorem C349_settings_counterexample :
    ¬ ∀ (analysis : ℝ → Breakdown) (default user : ℝ), (parasiteTable analysis default user (fun _ => 0)).1 =
      (parasiteTable analysis user user (fun _ => 0)).1 := by
  intro h
  have := h (fun k => ⟨[⟨k, 1⟩], [], [], ⟨0, 0⟩, 0⟩) 1 2
  norm_num [parasiteTable] at this

/-- A nacelle in two places: the line "each" is half the drag of one. -/
theorem C349_nacelle_counterexample :
    ¬ ∀ (b : Breakdown) (p : Part) (n : ℕ), b.nacelles = [(p, n)] → b.wings = [] → b.bodies = [] → n ≠ 0 →
      (parasiteTable (fun _ : Unit => b) () () (fun _ => 0)).1.head? = some p.cd := by
  intro h
  have := h ⟨[], [], [(⟨1, 1⟩, 2)], ⟨0, 0⟩, 0⟩ ⟨1, 1⟩ 2 rfl rfl rfl (by norm_num)
  norm_num [parasiteTable] at this

/-- An aircraft with a wing, a fuselage, one nacelle and its pylon. -/
noncomputable def plane : Breakdown := ⟨[⟨0.01, 50⟩], [⟨0.008, 100⟩], [(⟨0.001, 20⟩, 1)], ⟨0.0002, 4⟩, 0.0012⟩

example : |(parasiteTable (fun _ : Unit => plane) () () (fun _ => 0.0003)).2.1 -
    ((parasiteTable (fun _ : Unit => plane) () () (fun _ => 0.0003)).1.sum + plane.misc + 0.0003)| ≤ 1e-5 :=
  C349_sum_partial (fun _ : Unit => plane) () () (fun _ => 0.0003) (by simp [plane])

end Verif.IO.Reports
