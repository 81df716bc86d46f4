import Verif.Costs.Industrial
import Mathlib.Analysis.SpecialFunctions.Pow.Real
import Mathlib.Tactic.GCongr

/-!
C163–C167: escalation and hourly rates, totals, unit cost, prototypes, cash flow.
-/

namespace Verif.Costs
open Real Verif.Num Verif.Weights

/-! ### C163 escalation and hourly rates -/

theorem interp_ge (l : List (ℝ × ℝ)) (h : l.Pairwise fun p q => p.1 < q.1) (b x : ℝ) (hl : l ≠ [])
    (hb : ∀ p ∈ l, b ≤ p.2) : b ≤ npInterp l x := by
  induction l with
  | nil => exact absurd rfl hl
  | cons p l ih =>
    cases l with
    | nil => simpa [npInterp] using hb p (by simp)
    | cons q l =>
      have hpq : p.1 < q.1 := (List.pairwise_cons.1 h).1 q (by simp)
      simp only [npInterp]
      split_ifs with h1 h2
      · exact hb p (by simp)
      · have hp := hb p (by simp); have hq := hb q (by simp)
        have hd : 0 < q.1 - p.1 := by linarith
        have e : p.2 + (q.2 - p.2) / (q.1 - p.1) * (x - p.1) - b
            = ((q.1 - x) * (p.2 - b) + (x - p.1) * (q.2 - b)) / (q.1 - p.1) := by field_simp; ring
        have : 0 ≤ ((q.1 - x) * (p.2 - b) + (x - p.1) * (q.2 - b)) / (q.1 - p.1) := by
          apply div_nonneg _ hd.le
          have := mul_nonneg (sub_nonneg.2 h2.le) (sub_nonneg.2 hp)
          have := mul_nonneg (sub_nonneg.2 (not_le.1 h1).le) (sub_nonneg.2 hq)
          linarith
        linarith
      · exact ih (List.pairwise_cons.1 h).2 (by simp) (fun r hr => hb r (List.mem_cons_of_mem _ hr))

theorem interp_skip (p q : ℝ × ℝ) (l : List (ℝ × ℝ)) (x : ℝ) (h : p.1 < q.1) (hx : q.1 ≤ x) :
    npInterp (p :: q :: l) x = npInterp (q :: l) x := by
  rw [npInterp, if_neg (by linarith), if_neg (by linarith)]

theorem escTable_sorted : escTable.Pairwise fun p q => p.1 < q.1 := by
  simp only [escTable, List.pairwise_cons, List.mem_cons, List.not_mem_nil, or_false, forall_eq_or_imp, forall_eq,
    List.Pairwise.nil, and_true]
  norm_num

/-- The price level of each year listed is the one given, no price level is zero or negative, and 1970 dollars are the
unit of the method. -/
theorem C163_escalation (c : Input) :
    (∀ p ∈ escTable, escalation p.1 = p.2) ∧ (∀ y, 0 < escalation y) ∧ (c.year = 1970 → c.esc = 1) := by
  have hpos : ∀ y, 0 < escalation y := by
    intro y
    have : (0.066:ℝ) ≤ npInterp escTable y := by
      apply interp_ge _ escTable_sorted
      · simp [escTable]
      · simp only [escTable, List.mem_cons, List.not_mem_nil, or_false, forall_eq_or_imp, forall_eq]
        norm_num
    exact lt_of_lt_of_le (by norm_num) this
  refine ⟨fun p hp => npInterp_node _ escTable_sorted p hp, hpos, ?_⟩
  intro h
  rw [Input.esc, h, div_self (hpos _).ne']

/-- From 1935 on prices never fall, and are those of 2100 ever after. -/
theorem C163_prices_rise (y y' : ℝ) (hy : 1935 ≤ y) (hyy : y ≤ y') :
    escalation y ≤ escalation y' ∧ (2100 ≤ y → escalation y = 2.5) := by
  have hs : ∀ x, 1935 ≤ x → escalation x = npInterp (escTable.drop 4) x := by
    intro x hx
    unfold escalation escTable
    rw [interp_skip _ _ _ _ (by norm_num) (by norm_num; linarith), interp_skip _ _ _ _ (by norm_num) (by norm_num; linarith),
      interp_skip _ _ _ _ (by norm_num) (by norm_num; linarith), interp_skip _ _ _ _ (by norm_num) (by norm_num; linarith)]
    rfl
  have hr : Rising (escTable.drop 4) := by
    simp only [Rising, escTable, List.drop_succ_cons, List.drop_zero, List.pairwise_cons, List.mem_cons, List.not_mem_nil, or_false,
      forall_eq_or_imp, forall_eq, List.Pairwise.nil, and_true]
    norm_num
  refine ⟨?_, ?_⟩
  · rw [hs y hy, hs y' (hy.trans hyy)]; exact npInterp_mono _ hr hyy
  · intro h
    apply le_antisymm
    · rw [hs y hy]
      apply npInterp_le_last _ hr
      · simp only [escTable, List.drop_succ_cons, List.drop_zero, List.mem_cons, List.not_mem_nil, or_false, forall_eq_or_imp, forall_eq]
        norm_num
      · simp [escTable]
    · have h1 : npInterp (escTable.drop 4) 2100 ≤ npInterp (escTable.drop 4) y := npInterp_mono _ hr h
      rw [← hs 2100 (by norm_num), ← hs y hy] at h1
      have h2 := (C163_escalation ⟨0, 0, none, 0, 0, 0, 0, 0, none, 0, 0, 0, 0, 0, 0, 0, 0, 0⟩).1 (2100, 2.5) (by simp [escTable])
      simp only at h2
      linarith

/-- Dollars of another year: in a listed year the factor turns 1970 prices into prices of that year, and from 1935 on it never falls. -/
theorem C163_unit (c c' : Input) (h : 1935 ≤ c.year) (h' : c.year ≤ c'.year) :
    c.esc ≤ c'.esc ∧ ∀ p ∈ escTable, c.year = p.1 → c.esc * 0.235 = p.2 := by
  have hb : escalation 1970 = 0.235 := (C163_escalation c).1 (1970, 0.235) (by simp [escTable])
  have hp := (C163_escalation c).2.1 1970
  constructor
  · unfold Input.esc
    exact div_le_div_of_nonneg_right (C163_prices_rise _ _ h h').1 hp.le
  · intro p hm e
    rw [Input.esc, e, (C163_escalation c).1 p hm, hb]
    field_simp

example : escalation 1995 ≤ escalation 2003 := (C163_prices_rise 1995 2003 (by norm_num) (by norm_num)).1

/-- Between 1920 and 1935 they do. -/
theorem C163_prices_counterexample : ¬ Monotone escalation := by
  intro h
  have h1 := h (show (1920:ℝ) ≤ 1935 by norm_num)
  have h2 := (C163_escalation ⟨0, 0, none, 0, 0, 0, 0, 0, none, 0, 0, 0, 0, 0, 0, 0, 0, 0⟩).1
  have h3 := h2 (1920, 0.116) (by simp [escTable])
  have h4 := h2 (1935, 0.083) (by simp [escTable])
  simp only at h3 h4
  rw [h3, h4] at h1
  norm_num at h1

/-- All hourly rates positive. -/
def Rates.Pos (r : Rates) : Prop := 0 < r.engineering ∧ 0 < r.tooling ∧ 0 < r.manufacturing ∧ 0 < r.quality

/-- Hours cost money from 1967 on, and more every year. -/
theorem C163_rates_partial (y y' : ℝ) (hy : 1967 ≤ y) (hyy : y < y') :
    (hourlyRates y).Pos ∧ (hourlyRates y).engineering < (hourlyRates y').engineering ∧
    (hourlyRates y).tooling < (hourlyRates y').tooling ∧ (hourlyRates y).manufacturing < (hourlyRates y').manufacturing ∧
    (hourlyRates y).quality < (hourlyRates y').quality := by
  unfold Rates.Pos hourlyRates
  dsimp only
  refine ⟨⟨?_, ?_, ?_, ?_⟩, ?_, ?_, ?_, ?_⟩ <;> linarith

example : (hourlyRates 2004).Pos := (C163_rates_partial 2004 2005 (by norm_num) (by norm_num)).1

/-- In earlier years, for which there are price levels, hours cost less than nothing. -/
theorem C163_rates_counterexample : ¬ ∀ y, 1915 ≤ y → (hourlyRates y).Pos := by
  intro h
  have := (h 1960 (by norm_num)).1
  norm_num [hourlyRates] at this

/-! ### Specification of an aircraft programme -/

/-- A programme that makes sense, in dollars of 1967 or later. -/
structure Input.Ok (c : Input) : Prop where
  year : 1967 ≤ c.year
  production : 0 < c.production
  prototypes : 0 ≤ c.prototypes
  avionics : 0 ≤ c.avionics
  test : 0 ≤ c.testFacilities
  manuf : 0 ≤ c.manufacturingFacilities
  difficulty : 0 ≤ c.difficulty
  cad : 0 ≤ c.cad
  stealth : 0 ≤ c.stealth
  material : 0 ≤ c.material
  empty : 0 ≤ c.empty
  engines : 0 ≤ c.engines
  thrust : 0 ≤ c.thrust
  passengers : 0 ≤ c.passengers
  mach : 0 ≤ c.mach

theorem Input.Ok.rates {c : Input} (h : c.Ok) : c.rates.Pos := (C163_rates_partial c.year (c.year + 1) h.year (by linarith)).1
theorem esc_pos (c : Input) : 0 < c.esc := div_pos ((C163_escalation c).2.1 _) ((C163_escalation c).2.1 _)
theorem Input.Ok.weight {c : Input} (h : c.Ok) : 0 ≤ c.weight := by
  have := h.empty; unfold Input.weight lb; positivity
theorem Input.Ok.speed {c : Input} (h : c.Ok) : 0 ≤ c.speed := by
  have := h.mach; unfold Input.speed; positivity
theorem Input.Ok.engineUnit {c : Input} (h : c.Ok) : 0 ≤ c.engineUnit := by
  have := h.thrust; have := esc_pos c; unfold Input.engineUnit lbf lb; positivity

theorem hours_mono {c : Input} (h : c.Ok) {n n' : ℝ} (hn : 0 ≤ n) (hnn : n ≤ n') :
    (0 ≤ c.engHours n ∧ c.engHours n ≤ c.engHours n') ∧ (0 ≤ c.laborHours n ∧ c.laborHours n ≤ c.laborHours n') ∧
    (0 ≤ c.materialCost n ∧ c.materialCost n ≤ c.materialCost n') ∧ (0 ≤ c.toolHours n ∧ c.toolHours n ≤ c.toolHours n') := by
  have hw := h.weight; have hs := h.speed; have hd := h.difficulty; have hc := h.cad; have hm := h.material
  have he := (esc_pos c).le
  unfold Input.engHours Input.laborHours Input.materialCost Input.toolHours
  refine ⟨⟨by positivity, by gcongr⟩, ⟨by positivity, by gcongr⟩, ⟨by positivity, by gcongr⟩, ⟨by positivity, by gcongr⟩⟩

/-! ### C164 totals -/

/-- The totals are those of the parts, and each aircraft bears its share of the recurring costs and, of the others, the
share of one of the aircraft over which they are spread. -/
theorem C164_totals (c : Input) (o : Output) (h : industrialCosts c = some o) :
    o.nonRecurring.total = o.nonRecurring.engineering + o.nonRecurring.support + o.nonRecurring.flightTest
      + o.nonRecurring.engines + o.nonRecurring.avionics + o.nonRecurring.toolingDevelopment + o.nonRecurring.toolingProduction
      + o.nonRecurring.labor + o.nonRecurring.material + o.nonRecurring.quality + o.nonRecurring.testFacilities
      + o.nonRecurring.manufacturingFacilities ∧
    o.recurring.total = o.recurring.engineering + o.recurring.interior + o.recurring.labor + o.recurring.material
      + o.recurring.quality + o.recurring.engines + o.recurring.avionics ∧
    (c.amortize = none ∨ c.amortize = some 0 ∨ c.amortize = some c.production →
      o.unitCost * c.production = o.recurring.total + o.nonRecurring.total) ∧
    (∀ a, c.amortize = some a → a ≠ 0 → o.unitCost = o.recurring.total / c.production + o.nonRecurring.total / a) := by
  unfold industrialCosts at h
  cases hk : c.kind with
  | none => rw [hk] at h; simp at h
  | some k =>
    rw [hk] at h
    dsimp only at h
    cases hi : interiorIndex (lower k) with
    | none => rw [hi] at h; simp at h
    | some i =>
      rw [hi] at h
      dsimp only at h
      split_ifs at h with hp
      simp only [Option.some.injEq] at h
      subst h
      refine ⟨rfl, rfl, ?_, ?_⟩
      · intro ha
        have : amortizeUnits c = c.production := by
          unfold amortizeUnits
          rcases ha with ha | ha | ha <;> simp [ha]
        dsimp only
        rw [this]; field_simp
      · intro a ha h0
        simp [amortizeUnits, ha, h0]

theorem costs_ok (c : Input) (k : String) (i : ℝ) (hk : c.kind = some k) (hi : interiorIndex (lower k) = some i) (hp : c.production ≠ 0) :
    industrialCosts c = some ⟨(recurring c i).total / c.production + (nonRecurring c).total / amortizeUnits c, nonRecurring c, recurring c i⟩ := by
  unfold industrialCosts
  rw [hk]; dsimp only; rw [hi]; simp [hp]

/-- The kinds of aircraft are told apart whatever the case of the letters; for the others there is an exception. -/
theorem C164_kinds (c : Input) (hp : c.production ≠ 0) :
    (∃ o, industrialCosts c = some o) ↔ ∃ k, c.kind = some k ∧
      lower k ∈ ["military", "general aviation", "regional", "commercial", "business"] := by
  have key : ∀ s : String, (∃ i, interiorIndex s = some i) ↔ s ∈ ["military", "general aviation", "regional", "commercial", "business"] := by
    intro s
    simp only [interiorIndex, List.mem_cons, List.not_mem_nil, or_false]
    split_ifs with h1 h2 h3 h4 h5 <;> simp_all
  constructor
  · rintro ⟨o, h⟩
    unfold industrialCosts at h
    cases hk : c.kind with
    | none => rw [hk] at h; simp at h
    | some k =>
      rw [hk] at h
      dsimp only at h
      refine ⟨k, rfl, (key _).1 ?_⟩
      cases hi : interiorIndex (lower k) with
      | none => rw [hi] at h; simp at h
      | some i => exact ⟨i, rfl⟩
  · rintro ⟨k, hk, hm⟩
    obtain ⟨i, hi⟩ := (key _).2 hm
    exact ⟨_, costs_ok c k i hk hi hp⟩

/-- The kinds of aircraft, in the order of what their interiors cost. -/
def kindOrder : List String := ["military", "general aviation", "regional", "commercial", "business"]

/-- The interior of an aircraft costs the more the further its kind stands in the list, and costs of programmes that differ in kind
only differ by their interiors. -/
theorem C164_interior (c : Input) (k k' : String) (o o' : Output) (a b : Fin 5) (hab : a < b) (ha : lower k = kindOrder[a])
    (hb : lower k' = kindOrder[b]) (hp : 0 < c.production) (hpa : 0 < c.passengers)
    (ho : industrialCosts { c with kind := some k } = some o) (ho' : industrialCosts { c with kind := some k' } = some o') :
    o.recurring.interior < o'.recurring.interior ∧ o.nonRecurring = o'.nonRecurring ∧
      o'.recurring.total - o.recurring.total = o'.recurring.interior - o.recurring.interior := by
  have he := esc_pos c
  have hix : ∃ i j : ℝ, interiorIndex (lower k) = some i ∧ interiorIndex (lower k') = some j ∧ i < j := by
    rw [ha, hb]
    fin_cases a <;> fin_cases b <;> first
      | (exfalso; revert hab; decide)
      | (refine ⟨_, _, by simp [interiorIndex, kindOrder]; rfl, by simp [interiorIndex, kindOrder]; rfl, by norm_num⟩)
  obtain ⟨i, j, hi, hj, hij⟩ := hix
  rw [costs_ok { c with kind := some k } k i rfl hi hp.ne', Option.some.injEq] at ho
  rw [costs_ok { c with kind := some k' } k' j rfl hj hp.ne', Option.some.injEq] at ho'
  subst ho ho'
  refine ⟨?_, rfl, ?_⟩
  · show i * c.passengers * c.production * c.esc * 0.296 < j * c.passengers * c.production * c.esc * 0.296
    gcongr
  · simp only [recurring, Input.engHours, Input.laborHours, Input.materialCost, Input.engineUnit, Input.rates, Input.weight, Input.speed, Input.esc]
    ring

/-- Two such kinds. -/
example : lower "Regional" = kindOrder[(2 : Fin 5)] ∧ lower "Commercial" = kindOrder[(3 : Fin 5)] := by decide

theorem interiorIndex_nonneg {s : String} {i : ℝ} (h : interiorIndex s = some i) : 0 ≤ i := by
  unfold interiorIndex at h
  split_ifs at h <;> simp only [Option.some.injEq] at h <;> subst h <;> norm_num

/-- No part of the costs is negative when at least as many aircraft are produced as prototypes are built. -/
theorem C164_nonneg_partial (c : Input) (h : c.Ok) (hn : c.prototypes ≤ c.production) (o : Output) (ho : industrialCosts c = some o) :
    (0 ≤ o.nonRecurring.engineering ∧ 0 ≤ o.nonRecurring.support ∧ 0 ≤ o.nonRecurring.flightTest ∧ 0 ≤ o.nonRecurring.engines ∧
      0 ≤ o.nonRecurring.toolingDevelopment ∧ 0 ≤ o.nonRecurring.toolingProduction ∧ 0 ≤ o.nonRecurring.labor ∧
      0 ≤ o.nonRecurring.material ∧ 0 ≤ o.nonRecurring.quality) ∧
    (0 ≤ o.recurring.engineering ∧ 0 ≤ o.recurring.interior ∧ 0 ≤ o.recurring.labor ∧ 0 ≤ o.recurring.material ∧
      0 ≤ o.recurring.quality ∧ 0 ≤ o.recurring.engines ∧ 0 ≤ o.recurring.avionics) := by
  have hrp := h.rates
  obtain ⟨r1, r2, r3, r4⟩ := hrp
  have hw := h.weight; have hs := h.speed; have hd := h.difficulty; have hst := h.stealth
  have he := esc_pos c; have hu := h.engineUnit; have hpr := h.prototypes; have hen := h.engines; have hpa := h.passengers
  have hav := h.avionics; have hN := h.production
  have m1 := hours_mono h hpr hn
  have m2 := hours_mono h hpr (show c.prototypes ≤ c.prototypes + c.production by linarith)
  have hk : ∃ i, 0 ≤ i ∧ o.nonRecurring = nonRecurring c ∧ o.recurring = recurring c i := by
    unfold industrialCosts at ho
    cases hk : c.kind with
    | none => rw [hk] at ho; simp at ho
    | some k =>
      rw [hk] at ho; dsimp only at ho
      cases hi : interiorIndex (lower k) with
      | none => rw [hi] at ho; simp at ho
      | some i =>
        rw [hi] at ho; dsimp only at ho
        rw [if_neg hN.ne', Option.some.injEq] at ho
        subst ho
        exact ⟨i, interiorIndex_nonneg hi, rfl, rfl⟩
  obtain ⟨i, hi, e1, e2⟩ := hk
  rw [e1, e2]
  simp only [nonRecurring, recurring]
  obtain ⟨⟨a1, a2⟩, ⟨b1, b2⟩, ⟨c1, c2⟩, ⟨d1, d2⟩⟩ := m1
  obtain ⟨⟨a3, a4⟩, -⟩ := m2
  refine ⟨⟨by positivity, by positivity, by positivity, by positivity, by positivity, ?_, by positivity, c1, by positivity⟩,
    ?_, by positivity, ?_, by linarith, ?_, by positivity, by positivity⟩
  · nlinarith [mul_le_mul_of_nonneg_right d2 r2.le]
  · nlinarith [mul_le_mul_of_nonneg_right a4 r1.le, mul_nonneg (a3.trans a4) r1.le]
  · nlinarith [mul_le_mul_of_nonneg_right b2 r3.le, mul_nonneg (b1.trans b2) r3.le]
  · have := b1.trans b2; positivity

/-- A programme in the dollars of 1970, and nearly free of everything. -/
noncomputable def costEx : Input :=
  { year := 1970, production := 100, amortize := none, prototypes := 4, avionics := 1000, testFacilities := 5, manufacturingFacilities := 6,
    years := 0, kind := some "Commercial", difficulty := 1, cad := 1, stealth := 0, material := 1, empty := lb / 0.62, engines := 2,
    thrust := lbf, passengers := 100, mach := 1 / 321.32 }

theorem costEx_ok : costEx.Ok := by
  constructor <;> norm_num [costEx, lb, lbf]

theorem costEx_index : interiorIndex (lower "Commercial") = some 2000 := by
  have : lower "Commercial" = "commercial" := by decide
  rw [this]; simp [interiorIndex]

example : ∃ o, industrialCosts costEx = some o ∧ 0 ≤ o.recurring.labor :=
  ⟨_, costs_ok costEx _ _ rfl costEx_index (by norm_num [costEx]),
    (C164_nonneg_partial costEx costEx_ok (by norm_num [costEx]) _ (costs_ok costEx _ _ rfl costEx_index (by norm_num [costEx]))).2.2.2.1⟩

/-- When fewer aircraft are produced than prototypes, producing them can cost less than nothing. -/
theorem C164_nonneg_counterexample :
    ¬ ∀ (c : Input) (o : Output), c.Ok → industrialCosts c = some o → 0 ≤ o.recurring.material := by
  intro hall
  have hok : Input.Ok { costEx with production := 1, prototypes := 4 } := by
    constructor <;> norm_num [costEx, lb, lbf]
  have := hall _ _ hok (costs_ok _ "Commercial" 2000 rfl costEx_index (by norm_num [costEx]))
  simp only [recurring, Input.materialCost, Input.esc] at this
  have he : escalation 1970 / escalation 1970 = 1 := div_self ((C163_escalation costEx).2.1 1970).ne'
  have hw : Input.weight { costEx with production := 1, prototypes := 4 } = 1 := by
    simp only [Input.weight, costEx, lb]; norm_num
  have hs : Input.speed { costEx with production := 1, prototypes := 4 } = 1 := by
    simp only [Input.speed, costEx]; norm_num
  rw [hw, hs] at this
  simp only [costEx, he, one_rpow] at this
  have h4 : (1:ℝ) < (4:ℝ) ^ (0.792 : ℝ) := Real.one_lt_rpow (by norm_num) (by norm_num)
  norm_num at this h4
  linarith

/-! ### C165 unit cost -/

theorem rpow_div_anti {a x y : ℝ} (ha : a ≤ 1) (hx : 0 < x) (hxy : x ≤ y) : y ^ a / y ≤ x ^ a / x := by
  have hy := hx.trans_le hxy
  rw [← Real.rpow_sub_one hy.ne', ← Real.rpow_sub_one hx.ne']
  exact Real.rpow_le_rpow_of_nonpos hx hxy (by linarith)

/-- The more aircraft are produced, the less each of them costs, if all of them share the development. -/
theorem C165_learning (c : Input) (h : c.Ok) (hp : 0 < c.prototypes) (ha : c.amortize = none) (N : ℝ) (hN : c.production ≤ N) (o o' : Output)
    (ho : industrialCosts c = some o) (ho' : industrialCosts { c with production := N } = some o') :
    o'.unitCost ≤ o.unitCost := by
  obtain ⟨r1, r2, r3, r4⟩ := h.rates
  have hw := h.weight; have hs := h.speed; have hd := h.difficulty; have hst := h.stealth; have hcd := h.cad; have hmt := h.material
  have he := esc_pos c; have hu := h.engineUnit; have hen := h.engines; have hpa := h.passengers
  have hav := h.avionics; have hn := h.production; have ht := h.test; have hm := h.manuf
  have hNp := hn.trans_le hN
  obtain ⟨k, hk⟩ : ∃ k, c.kind = some k := by
    cases hk : c.kind with
    | none => simp [industrialCosts, hk] at ho
    | some k => exact ⟨k, rfl⟩
  obtain ⟨i, hi⟩ : ∃ i, interiorIndex (lower k) = some i := by
    cases hi : interiorIndex (lower k) with
    | none => simp [industrialCosts, hk, hi] at ho
    | some i => exact ⟨i, rfl⟩
  rw [costs_ok c k i hk hi hn.ne', Option.some.injEq] at ho
  rw [costs_ok _ k i (by exact hk) hi hNp.ne', Option.some.injEq] at ho'
  subst ho ho'
  have hau : amortizeUnits c = c.production := by simp [amortizeUnits, ha]
  have hau' : amortizeUnits { c with production := N } = N := by simp [amortizeUnits, ha]
  dsimp only
  rw [hau, hau', ← add_div, ← add_div]
  -- the whole cost of a programme with `n` aircraft
  have hP := h.prototypes
  obtain ⟨K, hK0, hK⟩ : ∃ K, 0 ≤ K ∧ K = 0.008325 * c.weight ^ (0.873 : ℝ) * c.speed ^ (1.89 : ℝ) * c.prototypes ^ (0.346 : ℝ) * c.difficulty * c.esc
      + 0.001244 * c.weight ^ (1.16 : ℝ) * c.speed ^ (1.371 : ℝ) * c.prototypes ^ (1.281 : ℝ) * c.difficulty * (1 + 3 * c.stealth) * c.esc
      + c.engineUnit * c.prototypes * c.engines * 1.10 + c.avionics * c.prototypes
      + 0.130 * c.laborHours c.prototypes * c.rates.quality + c.testFacilities + c.manufacturingFacilities := by
    refine ⟨_, ?_, rfl⟩
    have := (hours_mono h hP (le_refl c.prototypes)).2.1.1
    positivity
  obtain ⟨U, hU⟩ : ∃ U, U = c.engineUnit * c.engines + c.avionics + i * c.passengers * c.esc * 0.296 := ⟨_, rfl⟩
  have tot : ∀ n, (recurring { c with production := n } i).total + (nonRecurring { c with production := n }).total
      = K + U * n + 2 * c.engHours (c.prototypes + n) * c.rates.engineering + 1.3 * c.laborHours n * c.rates.manufacturing
        + c.materialCost n + 0.130 * 1.3 * c.laborHours n * c.rates.quality + c.toolHours n * c.rates.tooling := by
    intro n
    rw [hK, hU]
    simp only [recurring, nonRecurring]
    have e1 : ({ c with production := n } : Input).weight = c.weight := rfl
    have e2 : ({ c with production := n } : Input).speed = c.speed := rfl
    have e3 : ({ c with production := n } : Input).esc = c.esc := rfl
    have e4 : ({ c with production := n } : Input).rates = c.rates := rfl
    have e5 : ({ c with production := n } : Input).engHours = c.engHours := rfl
    have e6 : ({ c with production := n } : Input).laborHours = c.laborHours := rfl
    have e7 : ({ c with production := n } : Input).materialCost = c.materialCost := rfl
    have e8 : ({ c with production := n } : Input).toolHours = c.toolHours := rfl
    have e9 : ({ c with production := n } : Input).engineUnit = c.engineUnit := rfl
    rw [e1, e2, e3, e4, e5, e6, e7, e8, e9]
    generalize c.engHours (c.prototypes + n) = A
    generalize c.laborHours n = B
    generalize c.toolHours n = D
    generalize 0.008325 * c.weight ^ (0.873 : ℝ) * c.speed ^ (1.89 : ℝ) * c.prototypes ^ (0.346 : ℝ) * c.difficulty * c.esc = X
    generalize 0.001244 * c.weight ^ (1.16 : ℝ) * c.speed ^ (1.371 : ℝ) * c.prototypes ^ (1.281 : ℝ) * c.difficulty
      * (1 + 3 * c.stealth) * c.esc = Y
    ring
  have t1 := tot c.production
  have t2 := tot N
  rw [show ({ c with production := c.production } : Input) = c from rfl] at t1
  rw [t1, t2]
  have k1 : K / N ≤ K / c.production := by gcongr
  have k2 : U * N / N = U * c.production / c.production := by field_simp
  have k3 : c.engHours (c.prototypes + N) / N ≤ c.engHours (c.prototypes + c.production) / c.production := by
    have e1 : (c.prototypes + N) ^ (0.183:ℝ) / N ≤ (c.prototypes + c.production) ^ (0.183:ℝ) / c.production := by
      have h1 := rpow_div_anti (a := 0.183) (by norm_num) (by linarith : 0 < c.prototypes + c.production)
        (show c.prototypes + c.production ≤ c.prototypes + N by linarith)
      have h2 : (c.prototypes + N) / N ≤ (c.prototypes + c.production) / c.production := by
        rw [add_div, add_div, div_self hNp.ne', div_self hn.ne']
        have : c.prototypes / N ≤ c.prototypes / c.production := by gcongr
        linarith
      have h3 := mul_le_mul h1 h2 (by positivity) (by positivity)
      rwa [div_mul_div_cancel₀ (by positivity), div_mul_div_cancel₀ (by positivity)] at h3
    have := mul_le_mul_of_nonneg_left e1 (show 0 ≤ 0.0396 * c.weight ^ (0.791 : ℝ) * c.speed ^ (1.526 : ℝ) * c.difficulty * c.cad by positivity)
    unfold Input.engHours
    calc _ = 0.0396 * c.weight ^ (0.791 : ℝ) * c.speed ^ (1.526 : ℝ) * c.difficulty * c.cad * ((c.prototypes + N) ^ (0.183:ℝ) / N) := by ring
      _ ≤ _ := this
      _ = _ := by ring
  have k4 : c.laborHours N / N ≤ c.laborHours c.production / c.production := by
    have := mul_le_mul_of_nonneg_left (rpow_div_anti (a := 0.524) (by norm_num) hn hN)
      (show 0 ≤ 28.984 * c.weight ^ (0.74 : ℝ) * c.speed ^ (0.543 : ℝ) * c.difficulty by positivity)
    unfold Input.laborHours
    calc _ = 28.984 * c.weight ^ (0.74 : ℝ) * c.speed ^ (0.543 : ℝ) * c.difficulty * (N ^ (0.524:ℝ) / N) := by ring
      _ ≤ _ := this
      _ = _ := by ring
  have k5 : c.materialCost N / N ≤ c.materialCost c.production / c.production := by
    have := mul_le_mul_of_nonneg_left (rpow_div_anti (a := 0.792) (by norm_num) hn hN)
      (show 0 ≤ 2 * 37.632 * c.material * c.weight ^ (0.689 : ℝ) * c.speed ^ (0.624 : ℝ) * c.esc by positivity)
    unfold Input.materialCost
    calc _ = 2 * 37.632 * c.material * c.weight ^ (0.689 : ℝ) * c.speed ^ (0.624 : ℝ) * c.esc * (N ^ (0.792:ℝ) / N) := by ring
      _ ≤ _ := this
      _ = _ := by ring
  have k6 : c.toolHours N / N ≤ c.toolHours c.production / c.production := by
    have := mul_le_mul_of_nonneg_left (rpow_div_anti (a := 0.178) (by norm_num) hn hN)
      (show 0 ≤ 4.0127 * c.weight ^ (0.764 : ℝ) * c.speed ^ (0.899 : ℝ) * (0.33 : ℝ) ^ (0.066 : ℝ) * c.difficulty by positivity)
    unfold Input.toolHours
    calc _ = 4.0127 * c.weight ^ (0.764 : ℝ) * c.speed ^ (0.899 : ℝ) * (0.33 : ℝ) ^ (0.066 : ℝ) * c.difficulty * (N ^ (0.178:ℝ) / N) := by ring
      _ ≤ _ := this
      _ = _ := by ring
  generalize c.engHours (c.prototypes + N) = E' at *
  generalize c.engHours (c.prototypes + c.production) = E at *
  generalize c.laborHours N = L' at *
  generalize c.laborHours c.production = L at *
  generalize c.materialCost N = M' at *
  generalize c.materialCost c.production = M at *
  generalize c.toolHours N = T' at *
  generalize c.toolHours c.production = T at *
  calc _ = K / N + U * N / N + 2 * (E' / N) * c.rates.engineering + 1.3 * (L' / N) * c.rates.manufacturing + M' / N
        + 0.130 * 1.3 * (L' / N) * c.rates.quality + T' / N * c.rates.tooling := by ring
    _ ≤ K / c.production + U * c.production / c.production + 2 * (E / c.production) * c.rates.engineering
        + 1.3 * (L / c.production) * c.rates.manufacturing + M / c.production
        + 0.130 * 1.3 * (L / c.production) * c.rates.quality + T / c.production * c.rates.tooling := by
      rw [k2]; gcongr
    _ = _ := by ring

example (o o' : Output) (ho : industrialCosts costEx = some o) (ho' : industrialCosts { costEx with production := 200 } = some o') :
    o'.unitCost ≤ o.unitCost :=
  C165_learning costEx costEx_ok (by norm_num [costEx]) rfl 200 (by norm_num [costEx]) o o' ho ho'

/-! ### C166 prototypes are paid once -/

/-- Engineering, labour, material and tooling of the whole programme are those of its hours and material: what the
prototypes cost is taken off the production. -/
theorem C166_once_partial (c : Input) (i : ℝ) :
    (nonRecurring c).engineering + (recurring c i).engineering = 2 * c.engHours (c.prototypes + c.production) * c.rates.engineering ∧
    (nonRecurring c).labor + (recurring c i).labor = 1.3 * c.laborHours c.production * c.rates.manufacturing ∧
    (nonRecurring c).material + (recurring c i).material = c.materialCost c.production ∧
    (nonRecurring c).toolingDevelopment + (nonRecurring c).toolingProduction = c.toolHours c.production * c.rates.tooling := by
  simp only [nonRecurring, recurring]
  refine ⟨by ring, by ring, by ring, by ring⟩

/-- Quality control of the prototypes is paid twice. -/
theorem C166_quality_counterexample :
    ¬ ∀ (c : Input) (i : ℝ), c.Ok → (nonRecurring c).quality + (recurring c i).quality
      = 0.130 * (1.3 * c.laborHours c.production) * c.rates.quality := by
  intro hall
  have := hall costEx 0 costEx_ok
  simp only [nonRecurring, recurring, add_eq_right] at this
  have hw : costEx.weight = 1 := by simp only [Input.weight, costEx, lb]; norm_num
  have hs : costEx.speed = 1 := by simp only [Input.speed, costEx]; norm_num
  have hq := costEx_ok.rates.2.2.2
  have : 0 < 0.130 * costEx.laborHours costEx.prototypes * costEx.rates.quality := by
    unfold Input.laborHours
    rw [hw, hs]
    have : 0 < costEx.prototypes := by norm_num [costEx]
    have : 0 < costEx.difficulty := by norm_num [costEx]
    positivity
  linarith

/-! ### C167 cash flow -/

theorem yearLoop_sum (tab : List (ℝ × ℝ)) (n : ℕ) (k : ℕ) (done : List ℝ) :
    (yearLoop tab n k done).length = done.length + k ∧
    (0 < k → (yearLoop tab n k done).sum = spent tab (1 / n * ((done.length : ℝ) + k))) := by
  induction k generalizing done with
  | zero => simp [yearLoop]
  | succ k ih =>
    rw [yearLoop]
    obtain ⟨h1, h2⟩ := ih (done ++ [spent tab (1 / n * ((done.length : ℝ) + 1)) - done.sum])
    refine ⟨by rw [h1]; simp; omega, fun _ => ?_⟩
    rcases Nat.eq_zero_or_pos k with rfl | hk
    · simp [yearLoop]
    · rw [h2 hk]; simp only [List.length_append, List.length_cons, List.length_nil]
      push_cast; congr 2; ring

theorem shares_sum (tab : List (ℝ × ℝ)) (h : ∀ p ∈ tab, p.1 ≤ 1) (n : ℕ) (hn : 0 < n) :
    (shares tab n).length = n ∧ (shares tab n).sum = (tab.map Prod.snd).sum := by
  obtain ⟨h1, h2⟩ := yearLoop_sum tab n n []
  refine ⟨by rw [shares, h1]; simp, ?_⟩
  rw [shares, h2 hn]
  have hn' : (n:ℝ) ≠ 0 := by positivity
  have : 1 / (n:ℝ) * (((([] : List ℝ).length : ℕ) : ℝ) + n) = 1 := by simp [hn']
  rw [this, spent, List.filter_eq_self.2]
  intro p hp; simpa using h p hp

theorem spent_mono (tab : List (ℝ × ℝ)) (h : ∀ p ∈ tab, 0 ≤ p.2) {s t : ℝ} (hst : s ≤ t) : spent tab s ≤ spent tab t := by
  induction tab with
  | nil => simp [spent]
  | cons p l ih =>
    have := ih fun q hq => h q (List.mem_cons_of_mem _ hq)
    have hp := h p (by simp)
    unfold spent at *
    by_cases h1 : p.1 ≤ s
    · have h2 := h1.trans hst
      simpa [List.filter_cons, h1, h2] using this
    · by_cases h2 : p.1 ≤ t
      · simp only [List.filter_cons, h1, h2, decide_true, decide_false, if_true, Bool.false_eq_true, if_false, List.map_cons, List.sum_cons]
        linarith
      · simpa [List.filter_cons, h1, h2] using this

theorem shares_nonneg (tab : List (ℝ × ℝ)) (h : ∀ p ∈ tab, 0 ≤ p.2) (n : ℕ) : ∀ x ∈ shares tab n, 0 ≤ x := by
  have key : ∀ k done, (∀ x ∈ done, 0 ≤ x) → (done = [] ∨ done.sum = spent tab (1 / n * (done.length : ℝ))) →
      ∀ x ∈ yearLoop tab n k done, 0 ≤ x := by
    intro k
    induction k with
    | zero => intro done h0 _; simpa [yearLoop] using h0
    | succ k ih =>
      intro done h0 hs
      rw [yearLoop]
      apply ih
      · intro x hx
        rcases List.mem_append.1 hx with hx | hx
        · exact h0 x hx
        · simp only [List.mem_singleton] at hx
          subst hx
          rcases hs with rfl | hs
          · have : 0 ≤ spent tab (1 / n * (((([] : List ℝ).length : ℕ) : ℝ) + 1)) := by
              unfold spent
              apply List.sum_nonneg
              intro x hx
              simp only [List.mem_map, List.mem_filter] at hx
              obtain ⟨p, ⟨hp, -⟩, rfl⟩ := hx
              exact h p hp
            simpa using this
          · rw [hs, sub_nonneg]
            apply spent_mono tab h
            gcongr
            linarith
      · right; simp
  exact key n [] (by simp) (Or.inl rfl)

theorem addLists_sum (a b : List ℝ) (h : a.length = b.length) : (addLists a b).sum = a.sum + b.sum ∧ (addLists a b).length = a.length := by
  induction a generalizing b with
  | nil => cases b with
    | nil => simp [addLists]
    | cons => simp at h
  | cons x a ih =>
    cases b with
    | nil => simp at h
    | cons y b =>
      have := ih b (by simpa using h)
      unfold addLists at *
      refine ⟨?_, by simpa using this.2⟩
      simp only [List.zipWith_cons_cons, List.sum_cons, this.1]; ring

theorem sum_map_mul (l : List ℝ) (k : ℝ) : (l.map (· * k)).sum = l.sum * k := by
  induction l with
  | nil => simp
  | cons a l ih => simp only [List.map_cons, List.sum_cons, ih]; ring

theorem sum_mul_map (l : List ℝ) (k : ℝ) : (l.map (k * ·)).sum = k * l.sum := by
  induction l with
  | nil => simp
  | cons a l ih => simp only [List.map_cons, List.sum_cons, ih]; ring

theorem tables (tab : List (ℝ × ℝ))
    (h : tab ∈ [tabEngineering, tabManufacturing, tabToolDesign, tabToolProduction, tabSupport]) :
    (∀ p ∈ tab, p.1 ≤ 1 ∧ 0 ≤ p.2) ∧ |(tab.map Prod.snd).sum - 1| ≤ 2e-6 := by
  simp only [List.mem_cons, List.not_mem_nil, or_false] at h
  rcases h with rfl | rfl | rfl | rfl | rfl
  all_goals
    refine ⟨?_, ?_⟩
    · simp only [tabEngineering, tabManufacturing, tabToolDesign, tabToolProduction, tabSupport, List.mem_cons, List.not_mem_nil, or_false,
        forall_eq_or_imp, forall_eq]
      norm_num
    · simp only [tabEngineering, tabManufacturing, tabToolDesign, tabToolProduction, tabSupport, List.map_cons, List.map_nil, List.sum_cons, List.sum_nil]
      norm_num [abs_le]

/-- The years of the programme: five if not told, else the full ones. -/
theorem C167_years (n : NonRecurring) (years : ℝ) :
    (cashFlow n years).total.length = (if years = 0 then 5 else ⌊years⌋₊) := by
  have hd : duration years = (if years = 0 then 5 else ⌊years⌋₊) := by
    unfold duration; split_ifs
    · norm_num
    · rfl
  have hl : ∀ tab, (shares tab (duration years)).length = duration years := by
    intro tab; rw [shares, (yearLoop_sum _ _ _ _).1]; simp
  rw [← hd]
  simp only [cashFlow, addLists, List.length_zipWith, List.length_map, hl, min_self]

/-- For a programme of a year or more the payments of every kind but facilities add up, to two in a million, to what was
to be distributed, and those of all kinds to the non-recurring total when there are no facilities. -/
theorem C167_distributed_partial (n : NonRecurring) (years : ℝ) (hy : years = 0 ∨ 1 ≤ years)
    (ht : n.total = n.engineering + n.support + n.flightTest + n.engines + n.avionics + n.toolingDevelopment + n.toolingProduction
      + n.labor + n.material + n.quality + n.testFacilities + n.manufacturingFacilities)
    (h0 : 0 ≤ n.engineering ∧ 0 ≤ n.support ∧ 0 ≤ n.flightTest ∧ 0 ≤ n.engines ∧ 0 ≤ n.avionics ∧ 0 ≤ n.toolingDevelopment ∧
      0 ≤ n.toolingProduction ∧ 0 ≤ n.labor ∧ 0 ≤ n.material ∧ 0 ≤ n.quality)
    (hf : n.testFacilities = 0) (hf' : n.manufacturingFacilities = 0) :
    |(cashFlow n years).engineering.sum - (n.engineering + n.flightTest + n.engines + n.avionics)|
      ≤ 2e-6 * (n.engineering + n.flightTest + n.engines + n.avionics) ∧
    |(cashFlow n years).manufacturing.sum - (n.labor + n.material)| ≤ 2e-6 * (n.labor + n.material) ∧
    |(cashFlow n years).toolDesign.sum - n.toolingDevelopment| ≤ 2e-6 * n.toolingDevelopment ∧
    |(cashFlow n years).toolProduction.sum - n.toolingProduction| ≤ 2e-6 * n.toolingProduction ∧
    |(cashFlow n years).support.sum - (n.support + n.quality)| ≤ 2e-6 * (n.support + n.quality) ∧
    |(cashFlow n years).total.sum - n.total| ≤ 2e-6 * n.total := by
  obtain ⟨p1, p2, p3, p4, p5, p6, p7, p8, p9, p10⟩ := h0
  have hd : 0 < duration years := by
    unfold duration
    rcases hy with rfl | hy
    · norm_num
    · split_ifs
      · norm_num
      · exact Nat.floor_pos.2 hy
  have key : ∀ tab ∈ [tabEngineering, tabManufacturing, tabToolDesign, tabToolProduction, tabSupport], ∀ k, 0 ≤ k →
      |((shares tab (duration years)).map (· * k)).sum - k| ≤ 2e-6 * k ∧ (shares tab (duration years)).length = duration years := by
    intro tab htab k hk
    obtain ⟨t1, t2⟩ := tables tab htab
    obtain ⟨s1, s2⟩ := shares_sum tab (fun p hp => (t1 p hp).1) _ hd
    refine ⟨?_, s1⟩
    rw [sum_map_mul, s2, show (tab.map Prod.snd).sum * k - k = ((tab.map Prod.snd).sum - 1) * k by ring, abs_mul, abs_of_nonneg hk]
    exact mul_le_mul_of_nonneg_right t2 hk
  have k1 := key tabEngineering (by simp) (n.engineering + n.flightTest + n.engines + n.avionics) (by positivity)
  have k2 := key tabManufacturing (by simp) (n.labor + n.material) (by positivity)
  have k3 := key tabToolDesign (by simp) (n.toolingDevelopment * 1) (by positivity)
  have k4 := key tabToolProduction (by simp) (n.toolingProduction * 1) (by positivity)
  have k5 := key tabSupport (by simp) (n.support + n.quality) (by positivity)
  have hfac : (cashFlow n years).facilities.sum = 0 := by
    show ((_ : List ℝ).map ((n.testFacilities + n.manufacturingFacilities) * ·)).sum = 0
    rw [sum_mul_map, hf, hf']; ring
  have htot : (cashFlow n years).total.sum = (cashFlow n years).engineering.sum + (cashFlow n years).manufacturing.sum
      + (cashFlow n years).toolDesign.sum + (cashFlow n years).toolProduction.sum + (cashFlow n years).support.sum
      + (cashFlow n years).facilities.sum := by
    simp only [cashFlow]
    have l1 := k1.2; have l2 := k2.2; have l3 := k3.2; have l4 := k4.2; have l5 := k5.2
    rw [(addLists_sum _ _ _).1, (addLists_sum _ _ _).1, (addLists_sum _ _ _).1, (addLists_sum _ _ _).1, (addLists_sum _ _ _).1]
    all_goals simp only [addLists, List.length_zipWith, List.length_map, l1, l2, l3, l4, l5, min_self]
  refine ⟨k1.1, k2.1, ?_, ?_, k5.1, ?_⟩
  · simpa [cashFlow] using k3.1
  · simpa [cashFlow] using k4.1
  · rw [htot, hfac, ht, hf, hf']
    have a1 := k1.1; have a2 := k2.1; have a3 := k3.1; have a4 := k4.1; have a5 := k5.1
    simp only [cashFlow, mul_one] at *
    rw [abs_le] at *
    constructor <;> linarith [a1.1, a1.2, a2.1, a2.2, a3.1, a3.2, a4.1, a4.2, a5.1, a5.2]

/-- No payment is negative. -/
theorem C167_nonneg (n : NonRecurring) (years : ℝ)
    (h0 : 0 ≤ n.engineering ∧ 0 ≤ n.support ∧ 0 ≤ n.flightTest ∧ 0 ≤ n.engines ∧ 0 ≤ n.avionics ∧ 0 ≤ n.toolingDevelopment ∧
      0 ≤ n.toolingProduction ∧ 0 ≤ n.labor ∧ 0 ≤ n.material ∧ 0 ≤ n.quality) :
    (∀ x ∈ (cashFlow n years).engineering, 0 ≤ x) ∧ (∀ x ∈ (cashFlow n years).manufacturing, 0 ≤ x) ∧
    (∀ x ∈ (cashFlow n years).toolDesign, 0 ≤ x) ∧ (∀ x ∈ (cashFlow n years).toolProduction, 0 ≤ x) ∧
    (∀ x ∈ (cashFlow n years).support, 0 ≤ x) := by
  obtain ⟨p1, p2, p3, p4, p5, p6, p7, p8, p9, p10⟩ := h0
  have key : ∀ tab ∈ [tabEngineering, tabManufacturing, tabToolDesign, tabToolProduction, tabSupport], ∀ k, 0 ≤ k →
      ∀ x ∈ (shares tab (duration years)).map (· * k), 0 ≤ x := by
    intro tab htab k hk x hx
    obtain ⟨y, hy, rfl⟩ := List.mem_map.1 hx
    exact mul_nonneg (shares_nonneg tab (fun p hp => ((tables tab htab).1 p hp).2) _ y hy) hk
  exact ⟨key _ (by simp) _ (by positivity), key _ (by simp) _ (by positivity), key _ (by simp) _ (by positivity),
    key _ (by simp) _ (by positivity), key _ (by simp) _ (by positivity)⟩

/-- Costs of the examples, in millions. -/
noncomputable def nrecEx : NonRecurring := ⟨10, 2, 3, 1, 1, 4, 5, 6, 2, 1, 0, 0, 35⟩

example : |(cashFlow nrecEx 7.5).total.sum - 35| ≤ 2e-6 * 35 :=
  (C167_distributed_partial nrecEx 7.5 (by norm_num) (by norm_num [nrecEx]) (by norm_num [nrecEx]) rfl rfl).2.2.2.2.2

/-- Payments for facilities are multiplied by the cost of developing the tools: with tools for ten million, facilities
for three million are paid with thirty million million. -/
theorem C167_facilities_counterexample :
    ¬ ∀ (n : NonRecurring) (years : ℝ), 1 ≤ years → 0 ≤ n.testFacilities → 0 ≤ n.manufacturingFacilities → 0 ≤ n.toolingDevelopment →
      |(cashFlow n years).facilities.sum - (n.testFacilities + n.manufacturingFacilities)| ≤ 1 := by
  intro hall
  have := hall ⟨0, 0, 0, 0, 0, 10000000, 0, 0, 0, 0, 1000000, 2000000, 0⟩ 1 le_rfl (by norm_num) (by norm_num) (by norm_num)
  simp only [cashFlow, sum_mul_map, sum_map_mul] at this
  have hd : duration 1 = 1 := by unfold duration; norm_num
  rw [hd] at this
  obtain ⟨t1, t2⟩ := tables tabToolDesign (by simp)
  rw [(shares_sum tabToolDesign (fun p hp => (t1 p hp).1) 1 one_pos).2] at this
  rw [abs_le] at this t2
  linarith [this.2, t2.1]

/-- A development of less than a year is never paid. -/
theorem C167_short_counterexample :
    ¬ ∀ (n : NonRecurring) (years : ℝ), 0 < years → 0 < n.engineering → 0 ≤ n.flightTest → 0 ≤ n.engines → 0 ≤ n.avionics →
      0 < (cashFlow n years).engineering.sum := by
  intro hall
  have := hall nrecEx 0.5 (by norm_num) (by norm_num [nrecEx]) (by norm_num [nrecEx]) (by norm_num [nrecEx]) (by norm_num [nrecEx])
  have hd : duration 0.5 = 0 := by unfold duration; norm_num
  simp only [cashFlow, hd, shares, yearLoop] at this
  norm_num at this

end Verif.Costs
