import Verif.Energy.DuctedFan
import Verif.Energy.GasTurbineProps
import Verif.Energy.CryoProps

/-! Ducted fans, turbojets and their sizing (C339 – C343). -/

namespace Verif.Energy.GasTurbine

/-! ### C339: ducted fan -/

/-- A sized ducted fan delivers the design thrust at the design point, with the mass flow of the sizing. -/
theorem C339_design (e : Duct) (c : Amb) (d : ℝ) (hn : e.engines ≠ 0) (ha : c.a ≠ 0) (hα : 1 + e.α ≠ 0)
    (hF : (thrust e.thr (e.pass c).free 1 (e.sizingIn c)).fsp ≠ 0) (hT : 0 < e.thr.Tref / (e.pass c).fanN.out.Tt)
    (hP : (e.pass c).fanN.out.Pt / e.thr.Pref ≠ 0) :
    ∃ r, ((e.size c d).1.evaluate c 1) = some r ∧ r.force = d ∧ r.coreFlow = (e.size c d).2 := by
  have h := size_thrust e.thr (e.pass c).free 1 (e.sizingIn c) d hn ha hα hF hT hP
  refine ⟨_, rfl, ?_, ?_⟩
  · exact h.1
  · exact h.2

/-- Thrust is proportional to the throttle, and no fuel is burnt. -/
theorem C339_throttle (e : Duct) (c : Amb) (t k : ℝ) (r : DuctOut) (h : e.evaluate c t = some r) :
    ∃ r', e.evaluate c (k * t) = some r' ∧ r'.force = k * r.force ∧ r.mdot = 0 ∧ r'.mdot = 0 := by
  unfold Duct.evaluate at *
  cases hh : e.held with
  | none => rw [hh] at h; simp at h
  | some x =>
    rw [hh, Option.map_some, Option.some_inj] at h
    refine ⟨_, rfl, ?_, ?_, ?_⟩
    · rw [← h]
      exact (C92_linear e.thr (e.pass c).free t k _).1
    · rw [← h]
      simp [thrust]
    · simp [thrust]

/-- Specification: the mass flow of one engine at other conditions, when the corrected mass flow stays that of the design:
proportional to the stagnation pressure and inversely to the root of the stagnation temperature at the reference station. -/
noncomputable def corrected (flow : ℝ) (design now : Stag) : ℝ := flow * Real.sqrt (design.Tt / now.Tt) * (now.Pt / design.Pt)

/-- The mass flow of a sized ducted fan is that of the design point at every flight condition. -/
theorem C339_flow (e : Duct) (c c' : Amb) (d t : ℝ) (hT : 0 < e.thr.Tref / (e.pass c).fanN.out.Tt)
    (hP : (e.pass c).fanN.out.Pt / e.thr.Pref ≠ 0) :
    ∃ r, (e.size c d).1.evaluate c' t = some r ∧ r.coreFlow = (e.size c d).2 := by
  refine ⟨_, rfl, ?_⟩
  have hq := Real.sqrt_pos.2 hT
  change (e.size c d).2 / (Real.sqrt (e.thr.Tref / (e.pass c).fanN.out.Tt) * ((e.pass c).fanN.out.Pt / e.thr.Pref)) *
    Real.sqrt (e.thr.Tref / (e.pass c).fanN.out.Tt) * ((e.pass c).fanN.out.Pt / e.thr.Pref) = _
  rw [mul_assoc, div_mul_cancel₀]
  exact mul_ne_zero hq.ne' hP

/-- A fan for the examples: a pressure ratio of four, a perfect inlet and a nozzle without losses. -/
noncomputable def duct : Duct where
  fluid := ⟨fun _ _ => 2, fun _ _ => 1, 1 / 2⟩
  inlet := ⟨1, 1, 1, false⟩
  fan := ⟨4, 1⟩
  fanN := ⟨1, 1⟩
  thr := ⟨3 / 2, 9 / 4, 0, 0⟩
  α := 0
  engines := 2
  held := none

theorem four_half : (4 : ℝ) ^ ((2 - 1) / (2 * 1) : ℝ) = 2 := by
  rw [show ((2 - 1) / (2 * 1) : ℝ) = 1 / 2 by norm_num, ← Real.sqrt_eq_rpow, show (4 : ℝ) = 2 ^ 2 by norm_num,
    Real.sqrt_sq (by norm_num)]

/-- State in front of the nozzle of the example. -/
theorem duct_fan (p M u a g : ℝ) (hp : 0 < p) :
    (duct.pass ⟨p, 1, M, u, a, g⟩).fan.out = ⟨2 * (1 + 1 / 2 * M * M), 4 * (p * (1 + 1 / 2 * M * M) ^ 2)⟩ := by
  have h1 : 1 ≤ (1 + 1 / 2 * M * M) ^ 2 := by nlinarith [sq_nonneg M, mul_self_nonneg M]
  have h2 : ¬ p * (1 + 1 / 2 * M * M) ^ 2 < p := by
    rw [not_lt]
    nlinarith
  simp only [Duct.pass, duct, fan, inlet, ram, Real.one_rpow, mul_one]
  rw [show ((2 : ℝ) / (2 - 1)) = (2 : ℕ) by norm_num, Real.rpow_natCast, show ((2 - 1) / 2 : ℝ) = 1 / 2 by norm_num]
  simp only [Bool.false_eq_true, if_false, if_neg h2, Stag.mk.injEq]
  constructor
  · have := four_half
    rw [mul_one, show ((2 - 1) / 2 : ℝ) = 1 / 2 by norm_num] at this
    rw [this]
    ring
  · ring

/-- State behind the nozzle of the example. -/
theorem duct_out (p M u a g : ℝ) (hp : 0 < p) :
    (duct.pass ⟨p, 1, M, u, a, g⟩).fanN.out = ⟨2 * (1 + 1 / 2 * M * M), 4 * (p * (1 + 1 / 2 * M * M) ^ 2)⟩ := by
  have h1 : 1 ≤ (1 + 1 / 2 * M * M) ^ 2 := by nlinarith [sq_nonneg M, mul_self_nonneg M]
  have h2 : ¬ 4 * (p * (1 + 1 / 2 * M * M) ^ 2) < p := by
    rw [not_lt]
    nlinarith
  have e : (duct.pass ⟨p, 1, M, u, a, g⟩).fanN = nozzle ⟨1, 1⟩ (ram duct.fluid ⟨p, 1, M, u, a, g⟩) (duct.pass ⟨p, 1, M, u, a, g⟩).fan.out := rfl
  rw [e, duct_fan p M u a g hp]
  simp only [nozzle, Real.one_rpow, mul_one]
  rw [show (ram duct.fluid ⟨p, 1, M, u, a, g⟩).p = p from rfl, if_neg h2]

/-- The example produces thrust. -/
theorem duct_fsp : 0 < (thrust duct.thr (duct.pass ⟨1, 1, 1, 1, 1, 1⟩).free 1 (duct.sizingIn ⟨1, 1, 1, 1, 1, 1⟩)).fsp := by
  have e : (duct.pass ⟨1, 1, 1, 1, 1, 1⟩).fanN = nozzle ⟨1, 1⟩ (ram duct.fluid ⟨1, 1, 1, 1, 1, 1⟩) ⟨3, 9⟩ := by
    have : (duct.pass ⟨1, 1, 1, 1, 1, 1⟩).fan.out = ⟨3, 9⟩ := by
      rw [duct_fan 1 1 1 1 1 (by norm_num)]
      norm_num
    rw [← this]
    rfl
  have hr : ram duct.fluid ⟨1, 1, 1, 1, 1, 1⟩ = ⟨1, 1, 1, 1, 1, 1, 2, 1, 1 / 2, 3 / 2, 9 / 4⟩ := ram_tapped
  have hm : machOf 2 9 = 2 := by
    rw [show (9 : ℝ) = 3 ^ 2 by norm_num, machOf_two (by norm_num), show ((3 : ℝ) - 1) * 2 = 2 ^ 2 by norm_num, Real.sqrt_sq (by norm_num)]
  have hn : nozzle ⟨1, 1⟩ (ram duct.fluid ⟨1, 1, 1, 1, 1, 1⟩) ⟨3, 9⟩ =
      ⟨⟨3, 9⟩, 3, 1, 2, 4, 2, Real.sqrt 2, 4, fm 1 2 / fm 1 2 * (1 / (9 / (9 / 4))) * Real.sqrt (3 / (3 / 2))⟩ := by
    rw [hr]
    simp only [nozzle, Real.one_rpow, mul_one]
    rw [if_neg (by norm_num), div_one, hm]
    norm_num
  have hf : 0 < fm 1 2 := by
    unfold fm
    norm_num
  simp only [thrust, Duct.sizingIn, e, hn]
  have hfree : (duct.pass ⟨1, 1, 1, 1, 1, 1⟩).free = ram duct.fluid ⟨1, 1, 1, 1, 1, 1⟩ := rfl
  rw [hfree, hr]
  have h2 : 1 < Real.sqrt 2 := by
    rw [show (1 : ℝ) = Real.sqrt 1 by simp]
    exact Real.sqrt_lt_sqrt (by norm_num) (by norm_num)
  have ha : 0 < fm 1 2 / fm 1 2 * (1 / (9 / (9 / 4))) * Real.sqrt (3 / (3 / 2)) := by positivity
  generalize fm 1 2 / fm 1 2 * (1 / (9 / (9 / 4))) * Real.sqrt (3 / (3 / 2)) = A at *
  norm_num
  linarith

/-- The example meets the hypotheses of the theorems on design thrust and flow. -/
theorem duct_ready : 0 < duct.thr.Tref / (duct.pass ⟨1, 1, 1, 1, 1, 1⟩).fanN.out.Tt ∧
    (duct.pass ⟨1, 1, 1, 1, 1, 1⟩).fanN.out.Pt / duct.thr.Pref ≠ 0 := by
  rw [duct_out _ _ _ _ _ (by norm_num)]
  norm_num [duct]

example : ∃ r, (duct.size ⟨1, 1, 1, 1, 1, 1⟩ 5).1.evaluate ⟨1, 1, 1, 1, 1, 1⟩ 1 = some r ∧ r.force = 5 ∧
    r.coreFlow = (duct.size ⟨1, 1, 1, 1, 1, 1⟩ 5).2 :=
  C339_design duct _ 5 (by norm_num [duct]) (by norm_num) (by norm_num [duct]) duct_fsp.ne' duct_ready.1 duct_ready.2

/-- At half the pressure the corrected mass flow is not kept: the fan swallows the mass flow of the design point. -/
theorem C339_flow_counterexample :
    ¬ ∀ (e : Duct) (c c' : Amb) (d : ℝ) (r : DuctOut), 0 < e.thr.Tref / (e.pass c).fanN.out.Tt → (e.pass c).fanN.out.Pt / e.thr.Pref ≠ 0 →
      (e.size c d).1.evaluate c' 1 = some r → r.coreFlow = corrected (e.size c d).2 (e.pass c).fanN.out (e.pass c').fanN.out := by
  intro h
  obtain ⟨r, h1, h2⟩ := C339_flow duct ⟨1, 1, 1, 1, 1, 1⟩ ⟨1 / 2, 1, 1, 1, 1, 1⟩ 5 1 duct_ready.1 duct_ready.2
  have h3 := h duct _ _ 5 r duct_ready.1 duct_ready.2 h1
  rw [h2, duct_out _ _ _ _ _ (by norm_num), duct_out _ _ _ _ _ (by norm_num)] at h3
  have hpos : 0 < (duct.size ⟨1, 1, 1, 1, 1, 1⟩ 5).2 := by
    have hf := duct_fsp
    have e : (duct.size ⟨1, 1, 1, 1, 1, 1⟩ 5).2 =
      5 / ((thrust duct.thr (duct.pass ⟨1, 1, 1, 1, 1, 1⟩).free 1 (duct.sizingIn ⟨1, 1, 1, 1, 1, 1⟩)).fsp * 1 * (1 + 0) * 2 * 1) := rfl
    rw [e]
    positivity
  generalize (duct.size ⟨1, 1, 1, 1, 1, 1⟩ 5).2 = m at *
  norm_num [corrected] at h3
  linarith

/-- Engines added or removed after the sizing do not change the thrust. -/
theorem C339_engines_counterexample :
    ¬ ∀ (e : Duct) (c : Amb) (t n : ℝ) (r r' : DuctOut), e.evaluate c t = some r → { e with engines := n }.evaluate c t = some r' →
      r'.force * e.engines = r.force * n := by
  intro h
  obtain ⟨r, h1, h2, -⟩ := C339_design duct ⟨1, 1, 1, 1, 1, 1⟩ 5 (by norm_num [duct]) (by norm_num) (by norm_num [duct]) duct_fsp.ne'
    duct_ready.1 duct_ready.2
  have := h (duct.size ⟨1, 1, 1, 1, 1, 1⟩ 5).1 ⟨1, 1, 1, 1, 1, 1⟩ 1 4 r r h1 h1
  rw [h2, show (duct.size ⟨1, 1, 1, 1, 1, 1⟩ 5).1.engines = 2 from rfl] at this
  norm_num at this

/-- A fan that has not been sized cannot be evaluated. -/
theorem C339_unsized_counterexample : ¬ ∀ (e : Duct) (c : Amb) (t : ℝ), (e.evaluate c t).isSome := by
  intro h
  have := h duct ⟨1, 1, 1, 1, 1, 1⟩ 1
  simp [Duct.evaluate, duct] at this

/-! ### C340: power of a ducted fan -/

/-- With a nozzle that expands to the ambient pressure, thrust is the momentum gained, the reported power is the kinetic
energy gained, and what the thrust element calls power is smaller by the energy left in the wake. -/
theorem C340_jet_partial (e : Duct) (i : ThrustIn) (c : Amb) (t : ℝ) (r : DuctOut) (hh : e.held = some i) (hc : i.core = 0)
    (hb : i.bypass = 1) (hP : (e.pass c).fanN.P = c.p) (hp : c.p ≠ 0) (hu : c.u = c.M * c.a) (hM : c.M ≠ 0) (ha : c.a ≠ 0)
    (hγ : e.fluid.γ c.T c.p ≠ 0) (h8 : c.u + (e.pass c).fanN.u ≠ 0) (h : e.evaluate c t = some r) :
    let m := (1 + e.α) * r.coreFlow * i.engines * t
    r.force = m * ((e.pass c).fanN.u - c.u) ∧ r.power = m * ((e.pass c).fanN.u ^ 2 - c.u ^ 2) / 2 ∧
      r.power - r.thrustPower = m * ((e.pass c).fanN.u - c.u) ^ 2 / 2 := by
  intro m
  have hu0 : c.u ≠ 0 := by rw [hu]; exact mul_ne_zero hM ha
  unfold Duct.evaluate at h
  rw [hh, Option.map_some, Option.some_inj] at h
  have hF : r.force = m * ((e.pass c).fanN.u - c.u) := by
    have e1 : r.force = 1 / (e.fluid.γ c.T c.p * c.M) * (i.core * (e.fluid.γ c.T c.p * c.M * c.M * (i.coreN.u / c.u - 1) + i.coreN.area * (i.coreN.P / c.p - 1))
        + i.bypass * (e.fluid.γ c.T c.p * c.M * c.M * ((e.pass c).fanN.u / c.u - 1) + (e.pass c).fanN.area * ((e.pass c).fanN.P / c.p - 1)))
        * c.a * (1 + e.α) * r.coreFlow * i.engines * t := by
      rw [← h]
      rfl
    rw [e1, hc, hb, hP, div_self hp]
    generalize (e.pass c).fanN.u = v at *
    generalize e.fluid.γ c.T c.p = γ at *
    simp only [m]
    rw [sub_self, mul_zero, add_zero, zero_mul, zero_add, one_mul]
    have : c.a = c.u / c.M := by rw [hu]; field_simp
    rw [this]
    field_simp
  have hT : r.thrustPower = r.force * c.u := by
    rw [← h]
    rfl
  have hW : r.power = r.thrustPower / (2 / (1 + (e.pass c).fanN.u / c.u)) := by
    rw [← h]
  have hpow : r.power = m * ((e.pass c).fanN.u ^ 2 - c.u ^ 2) / 2 := by
    rw [hW, hT, hF]
    generalize (e.pass c).fanN.u = v at *
    have : 1 + v / c.u ≠ 0 := by
      intro h0
      apply h8
      field_simp at h0
      linarith
    field_simp
    ring
  refine ⟨hF, hpow, ?_⟩
  rw [hpow, hT, hF]
  ring

/-- The fan with a pressure ratio of 16/9, which at half the speed of sound expands to the ambient pressure. -/
noncomputable def fitted : Duct := { duct with fan := ⟨16 / 9, 1⟩ }

theorem fitted_nozzle : (fitted.pass ⟨1, 1, 1 / 2, 1 / 2, 1, 1⟩).fanN.P = 1 ∧ (fitted.pass ⟨1, 1, 1 / 2, 1 / 2, 1, 1⟩).fanN.u = 1 := by
  have h43 : (16 / 9 : ℝ) ^ (1 / 2 : ℝ) = 4 / 3 := by
    rw [← Real.sqrt_eq_rpow, show (16 / 9 : ℝ) = (4 / 3) ^ 2 by norm_num, Real.sqrt_sq (by norm_num)]
  have hf : (fitted.pass ⟨1, 1, 1 / 2, 1 / 2, 1, 1⟩).fan.out = ⟨3 / 2, 9 / 4⟩ := by
    simp only [Duct.pass, fitted, duct, fan, inlet, ram, Real.one_rpow, mul_one]
    rw [show ((2 : ℝ) / (2 - 1)) = (2 : ℕ) by norm_num, Real.rpow_natCast, show ((2 - 1) / 2 : ℝ) = 1 / 2 by norm_num, h43]
    norm_num
  have hm : machOf 2 (9 / 4) = 1 := by
    rw [show (9 / 4 : ℝ) = (3 / 2) ^ 2 by norm_num, machOf_two (by norm_num)]
    norm_num
  have e : (fitted.pass ⟨1, 1, 1 / 2, 1 / 2, 1, 1⟩).fanN =
      nozzle ⟨1, 1⟩ (ram fitted.fluid ⟨1, 1, 1 / 2, 1 / 2, 1, 1⟩) (fitted.pass ⟨1, 1, 1 / 2, 1 / 2, 1, 1⟩).fan.out := rfl
  have h9 : ¬ (9 / 4 : ℝ) < 1 := by norm_num
  rw [e, hf]
  simp only [nozzle, ram, fitted, duct, Real.one_rpow, mul_one]
  simp only [if_neg h9, div_one, hm, lt_irrefl, if_false]
  norm_num

/-- The hypotheses hold for this fan: a jet twice as fast as the flight. -/
example : ∃ r, (Duct.evaluate { fitted with thr := ⟨3 / 2, 9 / 4, 8, 0⟩, held := some ⟨0, ⟨3 / 2, 9 / 4⟩, 1, 0, 0, 1, noNozzle, noNozzle⟩ }
    ⟨1, 1, 1 / 2, 1 / 2, 1, 1⟩ 1) = some r ∧ r.power - r.thrustPower = (1 + 0) * r.coreFlow * 1 * 1 * (1 - 1 / 2) ^ 2 / 2 := by
  obtain ⟨hP, hu⟩ := fitted_nozzle
  refine ⟨_, rfl, ?_⟩
  have := (C340_jet_partial { fitted with thr := ⟨3 / 2, 9 / 4, 8, 0⟩, held := some ⟨0, ⟨3 / 2, 9 / 4⟩, 1, 0, 0, 1, noNozzle, noNozzle⟩ } _
    ⟨1, 1, 1 / 2, 1 / 2, 1, 1⟩ 1 _ rfl rfl rfl hP (by norm_num) (by norm_num) (by norm_num) (by norm_num) (by norm_num [fitted, duct])
    (by
      change (1 / 2 : ℝ) + (fitted.pass ⟨1, 1, 1 / 2, 1 / 2, 1, 1⟩).fanN.u ≠ 0
      rw [hu]
      norm_num) rfl).2.2
  rw [this]
  change (1 + 0) * _ * 1 * 1 * ((fitted.pass ⟨1, 1, 1 / 2, 1 / 2, 1, 1⟩).fanN.u - 1 / 2) ^ 2 / 2 = _
  rw [hu]

/-- The superconducting networks take the thrust times the speed for the shaft power of the motors (line 126 of the dynamo
network, `ducted_fan.thrust.outputs.power`): it vanishes with the speed, whatever the thrust. -/
theorem C340_static_counterexample :
    ¬ ∀ (s : ThrustSet) (c : Free) (t : ℝ) (i : ThrustIn), 0 < (thrust s c t i).thrust → 0 < (thrust s c t i).power := by
  intro h
  have := h ⟨1, 1, 1, 0⟩ ⟨1, 1, 1, 0, 1, 1, 2, 1, 1, 1, 1⟩ 1 ⟨0, ⟨1, 1⟩, 1, 0, 0, 1, noNozzle, ⟨⟨1, 1⟩, 0, 0, 0, 0, 0, 1, 4, 1⟩⟩
  norm_num [thrust, coreFlow, noNozzle] at this

/-! ### C341: the sizing functions -/

/-- With a Mach number and an altitude the engine is sized in the standard atmosphere, and the sea level static thrust is
that of one engine at full throttle. -/
theorem C341_point_partial (atm : ℝ → ℝ → Amb) (e : Duct) (j : Jet) (d M h : ℝ) (k : Call) (hc : k.conditions = none)
    (hM : k.mach = some M) (hh : k.altitude = some h) (hn : e.engines ≠ 0) (hj : j.engines ≠ 0) :
    (∃ s slst r, ductedFanSizing atm e d k = some (s, slst) ∧ s = (e.size (atm M h) d).1 ∧ s.evaluate (atm 0.01 0) 1 = some r ∧
      slst * s.engines = r.force) ∧
    ∃ s slst, turbojetSizing atm j d k = some (s, slst) ∧ s = j.size (atm M h) d ∧ slst * s.engines = (s.evaluate (atm 0.01 0) 1).1 := by
  have hd : designPoint atm k = some (atm M h, true) := by
    unfold designPoint
    rw [hc, hM, hh]
  constructor
  · refine ⟨_, _, _, by simp only [ductedFanSizing, hd]; rfl, rfl, rfl, ?_⟩
    exact div_mul_cancel₀ _ hn
  · refine ⟨_, _, by simp only [turbojetSizing, hd]; rfl, rfl, ?_⟩
    exact div_mul_cancel₀ _ hj

/-- Without conditions, Mach number or altitude the sizing refuses. -/
theorem C341_missing (atm : ℝ → ℝ → Amb) (e : Duct) (j : Jet) (d : ℝ) (k : Call) (hc : k.conditions = none)
    (h : k.mach = none ∨ k.altitude = none) : ductedFanSizing atm e d k = none ∧ turbojetSizing atm j d k = none := by
  have hd : designPoint atm k = none := by
    unfold designPoint
    rw [hc]
    rcases h with h | h
    · rw [h]
    · rw [h]
      cases k.mach <;> rfl
  simp only [ductedFanSizing, turbojetSizing, hd, and_self]

/-- Conditions handed to a sizing function make it fail. -/
theorem C341_conditions_counterexample (atm : ℝ → ℝ → Amb) (e : Duct) (j : Jet) (d : ℝ) (c : Amb) (M h : Option ℝ) :
    ductedFanSizing atm e d ⟨some c, M, h⟩ = none ∧ turbojetSizing atm j d ⟨some c, M, h⟩ = none := by
  simp [ductedFanSizing, turbojetSizing, designPoint]

/-! ### C342: turbojets and ramjets -/

/-- A sized turbojet without afterburner delivers the design thrust at the design point. -/
theorem C342_design_partial (e : Jet) (c : Amb) (d : ℝ) (hab : e.core.after = none) (hn : e.engines ≠ 0) (ha : c.a ≠ 0)
    (hF : (thrust e.thr (e.core.pass c).free 1 (e.tin c)).fsp ≠ 0) (hT : 0 < e.thr.Tref / (e.lpc c).out.Tt)
    (hP : (e.lpc c).out.Pt / e.thr.Pref ≠ 0) : ((e.size c d).evaluate c 1).1 = d := by
  have hcore : ({ e.core with after := none } : Turbojet) = e.core := by
    rw [← hab]
  have hs : e.size c d = { e with thr := (sizeThrust e.thr (e.core.pass c).free 1 (e.tin c) d).1 } := by
    simp only [Jet.size, hcore]
  rw [hs]
  exact (size_thrust e.thr (e.core.pass c).free 1 (e.tin c) d hn ha (by norm_num [Jet.tin]) hF hT hP).1

/-- With one engine out the others run at full throttle, and the throttle is put back. -/
theorem C342_engine_out (e : Jet) (c : Amb) (t : ℝ) (hn : 1 ≤ e.engines) :
    (e.engineOut c t).1.1 = (({ e with engines := e.engines - 1 } : Jet).evaluate c 1).1 ∧
    (e.engineOut c t).1.2 = (({ e with engines := e.engines - 1 } : Jet).evaluate c 1).2 ∧ (e.engineOut c t).2 = t := by
  have hn0 : e.engines ≠ 0 := by linarith
  refine ⟨?_, ?_, rfl⟩
  · have h1 : (thrust e.thr (e.core.pass c).free 1 { e.tin c with engines := e.engines * 1 }).thrust =
        e.engines * (thrust e.thr (e.core.pass c).free 1 { e.tin c with engines := 1 }).thrust :=
      (C92_linear e.thr (e.core.pass c).free 1 e.engines { e.tin c with engines := 1 }).2.1
    have h2 : (thrust e.thr (e.core.pass c).free 1 { e.tin c with engines := (e.engines - 1) * 1 }).thrust =
        (e.engines - 1) * (thrust e.thr (e.core.pass c).free 1 { e.tin c with engines := 1 }).thrust :=
      (C92_linear e.thr (e.core.pass c).free 1 (e.engines - 1) { e.tin c with engines := 1 }).2.1
    rw [mul_one] at h1 h2
    change (thrust e.thr (e.core.pass c).free 1 { e.tin c with engines := e.engines }).thrust / e.engines * (e.engines - 1) =
      (thrust e.thr (e.core.pass c).free 1 { e.tin c with engines := e.engines - 1 }).thrust
    rw [h1, h2]
    field_simp
  · have h1 := fuel_engines e.thr (e.core.pass c).free 1 e.engines (e.tin c) (by linarith)
    have h2 := fuel_engines e.thr (e.core.pass c).free 1 (e.engines - 1) (e.tin c) (by linarith)
    change (thrust e.thr (e.core.pass c).free 1 { e.tin c with engines := e.engines }).fuel / e.engines * (e.engines - 1) =
      (thrust e.thr (e.core.pass c).free 1 { e.tin c with engines := e.engines - 1 }).fuel
    rw [h1, h2]
    field_simp

/-- A turbojet without compression, burning to a stagnation temperature of six and with its afterburner to 24. -/
noncomputable def jet : Jet where
  core := { fluid := ⟨fun _ _ => 2, fun _ _ => 1, 1 / 2⟩, inlet := ⟨1, 1, 1, false⟩, lpc := ⟨1, 1⟩, hpc := ⟨1, 1⟩
            burner := ⟨6, 1, 1, 100⟩, hpt := ⟨1, 1⟩, lpt := ⟨1, 1⟩, after := some ⟨24, 1, 1, 100⟩, coreN := ⟨1, 1⟩ }
  thr := ⟨3 / 2, 9 / 4, 0, 0⟩
  engines := 1

theorem jet_nozzle (T : ℝ) :
    (nozzle ⟨1, 1⟩ ⟨1, 1, 1, 1, 1, 1, 2, 1, 1 / 2, 3 / 2, 9 / 4⟩ ⟨T, 9 / 4⟩).u = Real.sqrt (2 * (T - T * (2 / 3))) ∧
    (nozzle ⟨1, 1⟩ ⟨1, 1, 1, 1, 1, 1, 2, 1, 1 / 2, 3 / 2, 9 / 4⟩ ⟨T, 9 / 4⟩).P = 1 := by
  have hm : machOf 2 (9 / 4) = 1 := by
    rw [show (9 / 4 : ℝ) = (3 / 2) ^ 2 by norm_num, machOf_two (by norm_num)]
    norm_num
  have hT : T / (3 / 2) = T * (2 / 3) := by ring
  simp only [nozzle, Real.one_rpow, mul_one]
  have h9 : ¬ (9 / 4 : ℝ) < 1 := by norm_num
  simp only [if_neg h9, div_one, hm, lt_irrefl, if_false]
  norm_num
  rw [hT]

theorem jet_lpc : (jet.lpc ⟨1, 1, 1, 1, 1, 1⟩).out = ⟨3 / 2, 9 / 4⟩ := by
  have hr : ram jet.core.fluid ⟨1, 1, 1, 1, 1, 1⟩ = ⟨1, 1, 1, 1, 1, 1, 2, 1, 1 / 2, 3 / 2, 9 / 4⟩ := ram_tapped
  simp only [Jet.lpc, hr]
  simp only [jet, compressor, inlet, Real.one_rpow, mul_one]
  norm_num

theorem jet_fsp (ab : Option Burner) (T : ℝ) (h : (ab = none ∧ T = 6) ∨ (∃ b, ab = some b ∧ b.Tt4 = T ∧ b.pib = 1)) :
    let e : Jet := { jet with core := { jet.core with after := ab } }
    (thrust jet.thr (e.core.pass ⟨1, 1, 1, 1, 1, 1⟩).free 1 (e.tin ⟨1, 1, 1, 1, 1, 1⟩)).fsp = Real.sqrt (2 * (T - T * (2 / 3))) - 1 := by
  intro e
  have hr : ram jet.core.fluid ⟨1, 1, 1, 1, 1, 1⟩ = ⟨1, 1, 1, 1, 1, 1, 2, 1, 1 / 2, 3 / 2, 9 / 4⟩ := ram_tapped
  obtain ⟨hA, hB⟩ := jet_nozzle T
  have hc : (e.core.pass ⟨1, 1, 1, 1, 1, 1⟩).coreN = nozzle ⟨1, 1⟩ ⟨1, 1, 1, 1, 1, 1, 2, 1, 1 / 2, 3 / 2, 9 / 4⟩ ⟨T, 9 / 4⟩ := by
    rcases h with ⟨rfl, rfl⟩ | ⟨b, rfl, rfl, hb⟩
    · simp only [e, Turbojet.pass, hr, Option.map_none]
      simp only [jet, compressor, inlet, combustor, turbine, Real.one_rpow, mul_one]
      norm_num
    · simp only [e, Turbojet.pass, hr, Option.map_some]
      simp only [jet, compressor, inlet, combustor, turbine, Real.one_rpow, mul_one, hb]
      norm_num
  have hf : (e.core.pass ⟨1, 1, 1, 1, 1, 1⟩).free = ⟨1, 1, 1, 1, 1, 1, 2, 1, 1 / 2, 3 / 2, 9 / 4⟩ := hr
  simp only [thrust, Jet.tin, hc, hA, hB, hf]
  norm_num
  ring

/-- With the afterburner on, an engine sized for a thrust of one delivers three at the design point. -/
theorem C342_afterburner_counterexample :
    ((jet.size ⟨1, 1, 1, 1, 1, 1⟩ 1).evaluate ⟨1, 1, 1, 1, 1, 1⟩ 1).1 = 3 := by
  have h6 : Real.sqrt (2 * (6 - 6 * (2 / 3))) = 2 := by
    rw [show (2 * (6 - 6 * (2 / 3)) : ℝ) = 2 ^ 2 by norm_num, Real.sqrt_sq (by norm_num)]
  have h24 : Real.sqrt (2 * (24 - 24 * (2 / 3))) = 4 := by
    rw [show (2 * (24 - 24 * (2 / 3)) : ℝ) = 4 ^ 2 by norm_num, Real.sqrt_sq (by norm_num)]
  have hd := jet_fsp none 6 (Or.inl ⟨rfl, rfl⟩)
  have ha := jet_fsp (some ⟨24, 1, 1, 100⟩) 24 (Or.inr ⟨_, rfl, rfl, rfl⟩)
  rw [h6] at hd
  rw [h24] at ha
  have hl := jet_lpc
  set dry : Jet := { jet with core := { jet.core with after := none } } with hdry
  have hmd : (sizeThrust jet.thr (dry.core.pass ⟨1, 1, 1, 1, 1, 1⟩).free 1 (dry.tin ⟨1, 1, 1, 1, 1, 1⟩) 1).1.mdhc = 1 := by
    have hl2 : (dry.tin ⟨1, 1, 1, 1, 1, 1⟩).ref = ⟨3 / 2, 9 / 4⟩ := hl
    have hf : (dry.core.pass ⟨1, 1, 1, 1, 1, 1⟩).free.a = 1 := rfl
    simp only [sizeThrust, hd, hl2, hf]
    norm_num [jet, Jet.tin, hdry]
  have e : ((jet.size ⟨1, 1, 1, 1, 1, 1⟩ 1).evaluate ⟨1, 1, 1, 1, 1, 1⟩ 1).1 =
      (thrust jet.thr (jet.core.pass ⟨1, 1, 1, 1, 1, 1⟩).free 1 (jet.tin ⟨1, 1, 1, 1, 1, 1⟩)).fsp * 1 * (1 + 0) *
        coreFlow (sizeThrust jet.thr (dry.core.pass ⟨1, 1, 1, 1, 1, 1⟩).free 1 (dry.tin ⟨1, 1, 1, 1, 1, 1⟩) 1).1.mdhc (3 / 2) (9 / 4)
          (jet.lpc ⟨1, 1, 1, 1, 1, 1⟩).out * 1 * 1 := rfl
  have ha' : (thrust jet.thr (jet.core.pass ⟨1, 1, 1, 1, 1, 1⟩).free 1 (jet.tin ⟨1, 1, 1, 1, 1, 1⟩)).fsp = 4 - 1 := ha
  rw [e, ha', hmd, hl]
  norm_num [coreFlow]

/-- Without its afterburner the same engine delivers what it was sized for. -/
example : ((Jet.size { jet with core := { jet.core with after := none } } ⟨1, 1, 1, 1, 1, 1⟩ 9).evaluate ⟨1, 1, 1, 1, 1, 1⟩ 1).1 = 9 := by
  have hl : (Jet.lpc { jet with core := { jet.core with after := none } } ⟨1, 1, 1, 1, 1, 1⟩).out = ⟨3 / 2, 9 / 4⟩ := jet_lpc
  have h6 : Real.sqrt (2 * (6 - 6 * (2 / 3))) = 2 := by
    rw [show (2 * (6 - 6 * (2 / 3)) : ℝ) = 2 ^ 2 by norm_num, Real.sqrt_sq (by norm_num)]
  have hd := jet_fsp none 6 (Or.inl ⟨rfl, rfl⟩)
  rw [h6] at hd
  refine C342_design_partial _ _ 9 rfl (by norm_num [jet]) (by norm_num) (fun h => ?_) (by rw [hl]; norm_num [jet]) (by rw [hl]; norm_num [jet])
  have := hd.symm.trans h
  norm_num at this

example (atm : ℝ → ℝ → Amb) : ∃ s slst, turbojetSizing atm jet 5 ⟨none, some 0.8, some 10000⟩ = some (s, slst) ∧
    slst * s.engines = (s.evaluate (atm 0.01 0) 1).1 := by
  obtain ⟨s, x, h1, -, h2⟩ := (C341_point_partial atm duct jet 5 0.8 10000 ⟨none, some 0.8, some 10000⟩ rfl rfl rfl (by norm_num [duct])
    (by norm_num [jet])).2
  exact ⟨s, x, h1, h2⟩

/-- A sized ramjet delivers the design thrust at the design point; before sizing it cannot be evaluated. -/
theorem C342_ramjet (e : Ram) (c : Amb) (d : ℝ) (hn : e.engines ≠ 0) (ha : (e.chain c).1.a ≠ 0)
    (hF : (thrust e.thr (e.chain c).1 1 (e.tin (noNozzle, 0) c)).fsp ≠ 0) (hT : 0 < e.thr.Tref / (e.chain c).2.1.out.Tt)
    (hP : (e.chain c).2.1.out.Pt / e.thr.Pref ≠ 0) : ∃ r, (e.size c d).evaluate c 1 = some r ∧ r.1 = d :=
  ⟨_, rfl, (size_thrust e.thr (e.chain c).1 1 (e.tin (noNozzle, 0) c) d hn ha (by norm_num [Ram.tin]) hF hT hP).1⟩

/-- A ramjet that meets the hypotheses of the theorem. -/
example : ∃ r, (Ram.size ⟨fun _ => (⟨1, 1, 1, 1, 1, 1, 2, 1, 1, 1, 1⟩, ⟨⟨1, 1⟩, 0, 0, 0, 0, 0, 2, 1, 1⟩, 0), ⟨1, 1, 0, 0⟩, 2, none⟩ ⟨1, 1, 1, 1, 1, 1⟩ 7).evaluate
    ⟨1, 1, 1, 1, 1, 1⟩ 1 = some r ∧ r.1 = 7 :=
  C342_ramjet ⟨fun _ => (⟨1, 1, 1, 1, 1, 1, 2, 1, 1, 1, 1⟩, ⟨⟨1, 1⟩, 0, 0, 0, 0, 0, 2, 1, 1⟩, 0), ⟨1, 1, 0, 0⟩, 2, none⟩ ⟨1, 1, 1, 1, 1, 1⟩ 7
    (by norm_num) (by norm_num) (by norm_num [thrust, Ram.tin, noNozzle]) (by norm_num) (by norm_num)

/-! ### C343: ratings of a superconducting drive with dynamos -/

/-- The supplies together can feed the shafts of all fans and the rotors of all motors: components do not create power. -/
theorem C343_enough_partial (d : Drive) (work flow : ℝ) (hs : 0 ≤ work * flow) (hm : 0 < d.motorEff) (hm1 : d.motorEff ≤ 1)
    (hg : 0 < d.gearEff) (hg1 : d.gearEff ≤ 1) (he : ∀ x, 0 ≤ x → x ≤ d.esc x) (hr : 0 ≤ d.rotorPower) (hd : ∀ x, 0 ≤ x → x ≤ d.dynamo x)
    (hde : ∀ x, 0 ≤ x → x ≤ d.dynamoEsc x) (hc : ∀ x, 0 ≤ d.cooler x) (hn : 0 ≤ d.engines) (hN : d.supplies ≠ 0) :
    let r := d.size work flow
    d.engines * (work * flow + d.rotorPower) ≤ r.supply * d.supplies ∧ r.shaft = d.engines * r.motor ∧ r.motor ≤ r.esc ∧
      d.rotorPower ≤ r.dynamo ∧ r.dynamo ≤ r.dynamoEsc := by
  intro r
  have h1 : work * flow ≤ work * flow / (d.motorEff * d.gearEff) := by
    rw [le_div_iff₀ (by positivity)]
    have : d.motorEff * d.gearEff ≤ 1 := by nlinarith
    nlinarith
  have h2 := he _ (hs.trans h1)
  have h3 := hd _ hr
  have h4 := hde _ (hr.trans h3)
  refine ⟨?_, mul_comm _ _, h1, h3, h4⟩
  simp only [r, Drive.size]
  rw [div_mul_cancel₀ _ hN]
  split_ifs
  · have := hc (d.rotorCryo + d.dynamoHeat d.rotorPower)
    nlinarith
  · nlinarith

/-- The cooler is part of the supply exactly when not all the cooling comes from boiling cryogen. -/
theorem C343_cooler (d : Drive) (work flow : ℝ) (hN : d.supplies ≠ 0) :
    let r := d.size work flow
    (d.cryogen < 1 → r.supply * d.supplies = d.engines * (d.esc r.esc + r.dynamoEsc + r.cooler)) ∧
    (1 ≤ d.cryogen → r.supply * d.supplies = d.engines * (d.esc r.esc + r.dynamoEsc)) := by
  constructor <;> intro h <;> simp only [Drive.size]
  · rw [if_pos h, div_mul_cancel₀ _ hN]
    ring
  · rw [if_neg (not_lt.2 h), div_mul_cancel₀ _ hN]
    ring

/-- A drive with efficiencies of a half everywhere and one supply for two engines. -/
noncomputable def drive : Drive where
  motorEff := 1 / 2
  gearEff := 1
  esc := fun x => x / (1 / 2)
  rotorPower := 8
  rotorCryo := 1
  dynamo := fun x => x / (1 / 2)
  dynamoHeat := fun x => x / (1 / 2) - x
  dynamoEsc := fun x => x / (1 / 2)
  cooler := fun _ => 3
  cryogen := 1
  engines := 2
  supplies := 1

example : drive.engines * (10 * 1 + drive.rotorPower) ≤ (drive.size 10 1).supply * drive.supplies :=
  (C343_enough_partial drive 10 1 (by norm_num) (by norm_num [drive]) (by norm_num [drive]) (by norm_num [drive]) (by norm_num [drive])
    (by intro x hx; simp only [drive]; linarith) (by norm_num [drive]) (by intro x hx; simp only [drive]; linarith)
    (by intro x hx; simp only [drive]; linarith) (by intro x; norm_num [drive]) (by norm_num [drive]) (by norm_num [drive])).1

/-- The network asks more of the supplies at the design point than they were sized for: it adds the powers at the rotor and
in front of the dynamo to the power in front of the supply of the dynamo, which already contains them. -/
theorem C343_network_counterexample :
    ¬ ∀ (d : Drive) (work flow eff rated current P : ℝ), d.gearEff = 1 → (∀ x, d.dynamo x = x / Cryo.curve eff rated current) →
      (∀ x, d.dynamoEsc x = x / Cryo.curve eff rated current) → (∀ x, d.esc x = x / (1 / 2)) → 1 ≤ d.cryogen →
      Cryo.dynamoPower (work * flow * d.engines) d.motorEff (1 / 2) d.rotorPower 1 eff rated current d.engines 0 = some P →
      P ≤ (d.size work flow).supply * d.supplies := by
  intro h
  have hc : Cryo.curve (1 / 2) 1 1 = 1 / 2 := by
    unfold Cryo.curve
    norm_num
  have := h drive 10 1 (1 / 2) 1 1 (80 + 16 + 32 + 64) rfl (by intro x; rw [hc]; rfl) (by intro x; rw [hc]; rfl) (fun _ => rfl) le_rfl
    (by
      simp only [Cryo.dynamoPower, Cryo.dynamo, Cryo.dynamoSupply, hc, drive]
      norm_num)
  simp only [Drive.size, drive] at this
  norm_num at this

end Verif.Energy.GasTurbine
