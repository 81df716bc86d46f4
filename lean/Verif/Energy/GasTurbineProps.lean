import Verif.Energy.GasTurbine
import Mathlib.Tactic.Linarith
import Mathlib.Tactic.Positivity
import Mathlib.Tactic.FieldSimp
import Mathlib.Tactic.Ring
import Mathlib.Tactic.LinearCombination
import Mathlib.Tactic.NormNum

/-!
# Properties of the gas turbine model
-/

namespace Verif.Energy.GasTurbine

/-! ## Specification -/

/-- The perfect-gas relations between a flow at Mach number `M` with static values `T`, `p` and the
same flow brought to rest without losses. -/
structure Isentropic (γ M T p Tt Pt : ℝ) : Prop where
  temperature : Tt = T + T * (γ - 1) * M ^ 2 / 2
  pressure : Pt = p * (Tt / T) ^ (γ / (γ - 1))

/-- A perfect gas: `cp - cv = R` with `γ = cp/cv`. -/
def PerfectGas (γ cp R : ℝ) : Prop := cp * (γ - 1) = γ * R

/-! ## Lemmas -/

theorem stag_ge_one {γ : ℝ} (hγ : 1 < γ) (M : ℝ) : 1 ≤ 1 + (γ - 1) / 2 * M * M := by
  have : 0 ≤ (γ - 1) / 2 * (M * M) := mul_nonneg (by linarith) (mul_self_nonneg M)
  nlinarith

theorem exps_inv {γ : ℝ} (hγ : 1 < γ) : γ / (γ - 1) * ((γ - 1) / γ) = 1 := by
  have h1 : γ - 1 ≠ 0 := by linarith
  have h2 : γ ≠ 0 := by linarith
  field_simp

theorem machOf_pow {γ M : ℝ} (hγ : 1 < γ) (hM : 0 ≤ M) :
    machOf γ ((1 + (γ - 1) / 2 * M * M) ^ (γ / (γ - 1))) = M := by
  have hs := stag_ge_one hγ M
  have h1 : γ - 1 ≠ 0 := by linarith
  rw [machOf, ← Real.rpow_mul (by linarith), exps_inv hγ, Real.rpow_one]
  rw [show (1 + (γ - 1) / 2 * M * M - 1) * 2 / (γ - 1) = M * M by field_simp; ring]
  exact Real.sqrt_mul_self hM

theorem pow_exp_ge_one {γ pr : ℝ} (hγ : 1 < γ) (h : 1 ≤ pr) : 1 ≤ pr ^ ((γ - 1) / γ) :=
  Real.one_le_rpow h (div_nonneg (by linarith) (by linarith))

/-- The stagnation factor at the Mach number of a pressure ratio. -/
theorem stag_machOf {γ pr : ℝ} (hγ : 1 < γ) (h : 1 ≤ pr) :
    1 + (γ - 1) / 2 * machOf γ pr * machOf γ pr = pr ^ ((γ - 1) / γ) := by
  have h1 : γ - 1 ≠ 0 := by linarith
  have h2 := pow_exp_ge_one hγ h
  rw [mul_assoc, machOf, Real.mul_self_sqrt (div_nonneg (by nlinarith) (by linarith))]
  field_simp
  ring

theorem pow_stag_machOf {γ pr : ℝ} (hγ : 1 < γ) (h : 1 ≤ pr) :
    (1 + (γ - 1) / 2 * machOf γ pr * machOf γ pr) ^ (γ / (γ - 1)) = pr := by
  rw [stag_machOf hγ h, ← Real.rpow_mul (by linarith), mul_comm, exps_inv hγ, Real.rpow_one]

theorem machOf_pos {γ pr : ℝ} (hγ : 1 < γ) (h : 1 < pr) : 0 < machOf γ pr := by
  have : 1 < pr ^ ((γ - 1) / γ) := Real.one_lt_rpow h (div_pos (by linarith) (by linarith))
  exact Real.sqrt_pos.2 (div_pos (by nlinarith) (by linarith))

/-- Speed from the enthalpy drop, against Mach number times speed of sound. -/
theorem speed_sq {γ cp Tt M : ℝ} (hγ : 1 < γ) (hcp : 0 < cp) (hT : 0 < Tt) :
    Real.sqrt (2 * (cp * Tt - cp * (Tt / (1 + (γ - 1) / 2 * M * M)))) ^ 2
      = cp * (γ - 1) * (Tt / (1 + (γ - 1) / 2 * M * M)) * M ^ 2 := by
  have hs := stag_ge_one hγ M
  have h0 : (1 + (γ - 1) / 2 * M * M) ≠ 0 := by linarith
  have hk : (γ - 1) * M ^ 2 = 2 * ((1 + (γ - 1) / 2 * M * M) - 1) := by ring
  rw [Real.sq_sqrt]
  · rw [show cp * (γ - 1) * (Tt / (1 + (γ - 1) / 2 * M * M)) * M ^ 2
      = cp * (Tt / (1 + (γ - 1) / 2 * M * M)) * ((γ - 1) * M ^ 2) by ring, hk]
    generalize 1 + (γ - 1) / 2 * M * M = D at h0 ⊢
    field_simp
  · have : Tt / (1 + (γ - 1) / 2 * M * M) ≤ Tt := div_le_self hT.le hs
    nlinarith

theorem speed_eq {γ cp R Tt M : ℝ} (hγ : 1 < γ) (hcp : 0 < cp) (hT : 0 < Tt) (hM : 0 ≤ M)
    (hg : PerfectGas γ cp R) :
    Real.sqrt (2 * (cp * Tt - cp * (Tt / (1 + (γ - 1) / 2 * M * M))))
      = M * Real.sqrt (γ * R * (Tt / (1 + (γ - 1) / 2 * M * M))) := by
  have hs := stag_ge_one hγ M
  have hR : 0 ≤ γ * R := by rw [← hg]; nlinarith
  have hpos : 0 ≤ γ * R * (Tt / (1 + (γ - 1) / 2 * M * M)) := mul_nonneg hR (div_nonneg hT.le (by linarith))
  have h := speed_sq (M := M) hγ hcp hT
  have : Real.sqrt (2 * (cp * Tt - cp * (Tt / (1 + (γ - 1) / 2 * M * M)))) ^ 2
      = (M * Real.sqrt (γ * R * (Tt / (1 + (γ - 1) / 2 * M * M)))) ^ 2 := by
    rw [h, mul_pow, Real.sq_sqrt hpos, ← hg]; ring
  exact (pow_left_inj₀ (Real.sqrt_nonneg _) (mul_nonneg hM (Real.sqrt_nonneg _)) two_ne_zero).1 this

/-! ## C89: ram compression and inlet -/

/-- The stagnation values written by the ram are those of the freestream brought to rest without losses. -/
theorem C89_ram (w : Fluid) (c : Amb) (hT : 0 < c.T) (_hγ : 1 < w.γ c.T c.p) :
    Isentropic (w.γ c.T c.p) c.M c.T c.p (ram w c).Tt (ram w c).Pt := by
  refine ⟨by simp only [ram]; ring, ?_⟩
  simp only [ram]
  rw [mul_div_assoc, mul_comm c.T, div_mul_cancel₀ _ hT.ne']

/-- An inlet without losses returns the freestream: same Mach number, temperature and stagnation values. -/
theorem C89_ideal_inlet (w : Fluid) (c : Amb) (n : Inlet) (hp : 0 < c.p) (hM : 0 ≤ c.M)
    (hγ : 1 < w.γ c.T c.p) (hpid : n.pid = 1) (hrec : n.recovery = 1) (hc : n.compressible = true → c.M ≤ 1) :
    let o := inlet n (ram w c) ⟨(ram w c).Tt, (ram w c).Pt⟩
    o.M = c.M ∧ o.T = c.T ∧ o.out = ⟨(ram w c).Tt, (ram w c).Pt⟩ := by
  have hs := stag_ge_one hγ c.M
  have hpr : c.p * (1 + (w.γ c.T c.p - 1) / 2 * c.M * c.M) ^ (w.γ c.T c.p / (w.γ c.T c.p - 1)) / c.p
      = (1 + (w.γ c.T c.p - 1) / 2 * c.M * c.M) ^ (w.γ c.T c.p / (w.γ c.T c.p - 1)) := by
    rw [mul_comm, mul_div_assoc, div_self hp.ne', mul_one]
  have hge : c.p ≤ c.p * (1 + (w.γ c.T c.p - 1) / 2 * c.M * c.M) ^ (w.γ c.T c.p / (w.γ c.T c.p - 1)) := by
    have := Real.one_le_rpow hs (div_nonneg (by linarith : (0:ℝ) ≤ w.γ c.T c.p) (by linarith : 0 ≤ w.γ c.T c.p - 1))
    nlinarith
  have hTT : c.T * (1 + (w.γ c.T c.p - 1) / 2 * c.M * c.M) / (1 + (w.γ c.T c.p - 1) / 2 * c.M * c.M) = c.T := by
    rw [mul_div_assoc, div_self (by linarith), mul_one]
  cases hcomp : n.compressible
  · simp only [inlet, ram, hpid, hrec, hcomp, mul_one, Real.one_rpow, Bool.false_eq_true, if_false, if_neg (not_lt.2 hge),
      hpr, machOf_pow hγ hM, hTT]
    exact ⟨trivial, trivial, trivial⟩
  · simp only [inlet, ram, hpid, hrec, hcomp, mul_one, Real.one_rpow, if_true, if_pos (hc hcomp),
      hpr, machOf_pow hγ hM, hTT]
    exact ⟨trivial, trivial, trivial⟩

/-- The velocity behind an inlet agrees with its Mach number and temperature for a perfect gas. -/
theorem C89_inlet_speed (n : Inlet) (c : Free) (i : Stag) (hγ : 1 < c.γ) (hcp : 0 < c.cp) (hT : 0 < i.Tt)
    (hpid : 0 < n.pid * n.recovery) (hg : PerfectGas c.γ c.cp c.R) :
    (inlet n c i).u = (inlet n c i).M * Real.sqrt (c.γ * c.R * (inlet n c i).T) := by
  have hTt : 0 < i.Tt * (n.pid * n.recovery) ^ ((c.γ - 1) / (c.γ * n.η)) := mul_pos hT (Real.rpow_pos_of_pos hpid _)
  have hM : 0 ≤ (inlet n c i).M := by
    simp only [inlet]
    split_ifs <;> exact Real.sqrt_nonneg _
  exact speed_eq hγ hcp hTt hM hg

/-- False: with a pressure loss the inlet lowers the stagnation temperature although it takes no work
out of the flow. -/
theorem C89_temperature_counterexample (n : Inlet) (c : Free) (i : Stag) (hγ : 1 < c.γ) (hT : 0 < i.Tt) (hη : 0 < n.η)
    (h0 : 0 < n.pid * n.recovery) (h1 : n.pid * n.recovery < 1) : (inlet n c i).out.Tt < i.Tt := by
  have : (n.pid * n.recovery) ^ ((c.γ - 1) / (c.γ * n.η)) < 1 :=
    Real.rpow_lt_one h0.le h1 (div_pos (by linarith) (mul_pos (by linarith) hη))
  simp only [inlet]
  nlinarith

/-- Air at sea level and Mach 0.8 through an inlet without losses: the hypotheses are met. -/
example : let w : Fluid := ⟨fun _ _ => 1.4, fun _ _ => 1004, 287⟩
    let c : Amb := ⟨101325, 288.15, 0.8, 272, 340, 9.81⟩
    0 < c.T ∧ 0 < c.p ∧ 0 ≤ c.M ∧ 1 < w.γ c.T c.p := by
  norm_num

/-- An inlet with two percent loss: the hypotheses of the counterexample are met. -/
example : (0 : ℝ) < 0.98 * 1 ∧ (0.98 * 1 : ℝ) < 1 := by norm_num

/-! ## C90: energy -/

/-- Combustor: the enthalpy of the mixture leaving is that of the air entering plus the heat released. -/
theorem C90_combustor (b : Burner) (c : Free) (i : Stag) (h : b.η * b.htf ≠ c.cp * b.Tt4) :
    (1 + (combustor b c 1 i).f) * (combustor b c 1 i).ht = c.cp * i.Tt + (combustor b c 1 i).f * (b.η * b.htf) := by
  have h' : b.η * b.htf - c.cp * b.Tt4 ≠ 0 := sub_ne_zero.2 h
  simp only [combustor, mul_one]
  field_simp
  ring

/-- The same with any share `r` of the air going through the combustor: the heat of the fuel raises the
air that goes through it, and nothing else. -/
theorem C90_combustor_share (b : Burner) (c : Free) (r : ℝ) (i : Stag) (h : b.η * b.htf ≠ c.cp * b.Tt4 * r) :
    (1 + (combustor b c r i).f) * (r * (combustor b c r i).ht)
      = r * (c.cp * i.Tt) + (combustor b c r i).f * (b.η * b.htf) := by
  have h' : b.η * b.htf - c.cp * b.Tt4 * r ≠ 0 := sub_ne_zero.2 h
  simp only [combustor]
  field_simp
  ring

/-- More heat is released the hotter the turbine may run, and fuel is only burnt when heating. -/
theorem C90_fuel_positive (b : Burner) (c : Free) (i : Stag) (hcp : 0 < c.cp) (h : c.cp * b.Tt4 < b.η * b.htf) :
    0 < (combustor b c 1 i).f ↔ i.Tt < b.Tt4 := by
  simp only [combustor, mul_one]
  rw [div_pos_iff_of_pos_right (by linarith)]
  constructor
  · intro h1; by_contra hc; push Not at hc; nlinarith
  · intro h1; nlinarith

/-- Turbine: the enthalpy taken from the gas, times the mechanical efficiency, is the work of everything
on the shaft, per unit of core air. -/
theorem C90_turbine (t : Turb) (c : Free) (i : Stag) (α f wc wf : ℝ) (s : Option ℝ) (hf : 1 + f ≠ 0) (hm : t.ηm ≠ 0)
    (hcp : c.cp ≠ 0) :
    t.ηm * ((1 + f) * (c.cp * i.Tt - (turbine t c i α f wc wf s).ht)) = wc + s.getD 0 + α * wf := by
  simp only [turbine]
  field_simp
  ring

/-- The whole engine, with ducts and shafts without losses: what enters with the air (core and bypass)
and the heat of the fuel leaves with the two jets and the off-take. -/
theorem C90_engine (e : Turbofan) (c : Amb) (hcp : e.fluid.cp c.T c.p ≠ 0)
    (hin : e.inlet.pid * e.inlet.recovery = 1) (hm1 : e.hpt.ηm = 1) (hm2 : e.lpt.ηm = 1)
    (hc1 : e.coreN.pid = 1) (hc2 : e.fanN.pid = 1)
    (hb : e.burner.η * e.burner.htf ≠ e.fluid.cp c.T c.p * e.burner.Tt4) (hf : 1 + (e.pass c).burner.f ≠ 0) :
    (1 + (e.pass c).burner.f) * (e.pass c).coreN.ht + e.α * (e.pass c).fanN.ht
        + ((e.offTake.map fun o => offTakeWork o e.thr.mdhc (e.pass c).lpc.out).getD 0)
      = (1 + e.α) * ((e.pass c).free.cp * (e.pass c).free.Tt)
        + (e.pass c).burner.f * (e.burner.η * e.burner.htf) := by
  have hB := C90_combustor e.burner (e.pass c).free (e.pass c).hpc.out hb
  have hH := C90_turbine e.hpt (e.pass c).free (e.pass c).burner.out 0 (e.pass c).burner.f (e.pass c).hpc.work
    (e.pass c).fan.work none hf (by rw [hm1]; exact one_ne_zero) hcp
  have hL := C90_turbine e.lpt (e.pass c).free (e.pass c).hpt.out e.α (e.pass c).burner.f (e.pass c).lpc.work
    (e.pass c).fan.work (e.offTake.map fun o => offTakeWork o e.thr.mdhc (e.pass c).lpc.out) hf
    (by rw [hm2]; exact one_ne_zero) hcp
  rw [hm1, one_mul] at hH
  rw [hm2, one_mul] at hL
  have e1 : (e.pass c).coreN.ht = (e.pass c).lpt.ht := by
    simp only [Turbofan.pass, Turbofan.chain, nozzle, hc1, Real.one_rpow, mul_one, turbine]
  have e2 : (e.pass c).fanN.ht = (e.pass c).fan.ht := by
    simp only [Turbofan.pass, Turbofan.chain, nozzle, hc2, Real.one_rpow, mul_one, fan]
  have e3 : (e.pass c).fan.work = (e.pass c).fan.ht - (e.pass c).free.cp * (e.pass c).inlet.out.Tt := rfl
  have e4 : (e.pass c).lpc.work = (e.pass c).free.cp * (e.pass c).lpc.out.Tt - (e.pass c).free.cp * (e.pass c).inlet.out.Tt := rfl
  have e5 : (e.pass c).hpc.work = (e.pass c).free.cp * (e.pass c).hpc.out.Tt - (e.pass c).free.cp * (e.pass c).lpc.out.Tt := rfl
  have e6 : (e.pass c).inlet.out.Tt = (e.pass c).free.Tt := by
    simp only [Turbofan.pass, Turbofan.chain, inlet, hin, Real.one_rpow, mul_one]
  have e7 : (combustor e.burner (e.pass c).free 1 (e.pass c).hpc.out).ht = (e.pass c).free.cp * (e.pass c).burner.out.Tt := rfl
  have e8 : (turbine e.hpt (e.pass c).free (e.pass c).burner.out 0 (e.pass c).burner.f (e.pass c).hpc.work
    (e.pass c).fan.work none).ht = (e.pass c).free.cp * (e.pass c).hpt.out.Tt := rfl
  have e9 : (turbine e.lpt (e.pass c).free (e.pass c).hpt.out e.α (e.pass c).burner.f (e.pass c).lpc.work
    (e.pass c).fan.work (e.offTake.map fun o => offTakeWork o e.thr.mdhc (e.pass c).lpc.out)).ht = (e.pass c).lpt.ht := rfl
  have e10 : (combustor e.burner (e.pass c).free 1 (e.pass c).hpc.out).f = (e.pass c).burner.f := rfl
  rw [e7, e10] at hB
  rw [e8] at hH
  rw [e9] at hL
  rw [e1, e2]
  simp only [Option.getD_none] at hH
  rw [e3, e4] at hL
  rw [e5] at hH
  rw [e6] at hL
  linear_combination hB - hH - hL

/-- False for the afterburner: it heats the gas of the core and of the fuel already burnt, but the fuel
is computed for the air alone.  The balance only holds without fuel in the gas or without heating. -/
theorem C90_afterburner_counterexample (e : Turbojet) (c : Amb) (a : Burner) (ha : e.after = some a)
    (hcp : (e.pass c).free.cp ≠ 0) (hb : a.η * a.htf ≠ (e.pass c).free.cp * a.Tt4)
    (hf : (e.pass c).burner.f ≠ 0) (hT : (e.pass c).lpt.out.Tt ≠ a.Tt4) (x : Burnt) (hx : (e.pass c).after = some x) :
    (1 + (e.pass c).fTotal) * x.ht ≠
      (1 + (e.pass c).burner.f) * (e.pass c).lpt.ht + x.f * (a.η * a.htf) := by
  have hx' : x = combustor a (e.pass c).free 1 (e.pass c).lpt.out := by
    have : (e.pass c).after = some (combustor a (e.pass c).free 1 (e.pass c).lpt.out) := by
      simp only [Turbojet.pass, ha, Option.map_some]
    rw [this] at hx; exact (Option.some.inj hx).symm
  have hft : (e.pass c).fTotal = (e.pass c).burner.f + x.f := by
    rw [hx']; simp only [Turbojet.pass, ha, Option.map_some]
  have hB := C90_combustor a (e.pass c).free (e.pass c).lpt.out hb
  rw [← hx'] at hB
  have h2 : (e.pass c).lpt.ht = (e.pass c).free.cp * (e.pass c).lpt.out.Tt := rfl
  have h3 : x.ht = (e.pass c).free.cp * a.Tt4 := by rw [hx']; rfl
  rw [hft, h2]
  intro h
  have : (e.pass c).burner.f * ((e.pass c).free.cp * ((e.pass c).lpt.out.Tt - a.Tt4)) = 0 := by
    rw [← h2] at hB
    rw [h2] at hB
    rw [h3] at h hB
    linear_combination hB - h
  rcases mul_eq_zero.1 this with h1 | h1
  · exact hf h1
  · rcases mul_eq_zero.1 h1 with h4 | h4
    · exact hcp h4
    · exact hT (sub_eq_zero.1 h4)

/-- The fuel to air ratio shown by the combustor after an evaluation with afterburner is the total one. -/
theorem C90_reported_ratio_counterexample (e : Turbojet) (c : Amb) (x : Burnt) (hx : (e.pass c).after = some x) (hne : x.f ≠ 0) :
    e.reportedF c ≠ (e.pass c).burner.f := by
  have : (e.pass c).fTotal = (e.pass c).burner.f + x.f := by
    simp only [Turbojet.pass] at hx ⊢
    rw [hx]
  simp only [Turbojet.reportedF, this]
  intro h
  exact hne (by linarith)

/-- A working fluid and an engine for the cases below. -/
def air : Fluid := ⟨fun _ _ => 1.4, fun _ _ => 1004.5, 287⟩

/-- A lossless turbofan with bypass ratio five and no off-take. -/
def sample : Turbofan where
  fluid := air
  inlet := ⟨1, 1, 1, false⟩
  lpc := ⟨1, 1⟩
  hpc := ⟨1, 1⟩
  fan := ⟨1, 1⟩
  burner := ⟨1500, 1, 1, 43000000⟩
  hpt := ⟨1, 1⟩
  lpt := ⟨1, 1⟩
  coreN := ⟨1, 1⟩
  fanN := ⟨1, 1⟩
  thr := ⟨288.15, 101325, 1, 0⟩
  α := 5
  engines := 2
  offTake := none

/-- The sample engine meets the hypotheses of `C90_engine`. -/
example : let c : Amb := ⟨101325, 300, 0, 0, 340, 9.81⟩
    sample.fluid.cp c.T c.p ≠ 0 ∧ sample.inlet.pid * sample.inlet.recovery = 1 ∧ sample.hpt.ηm = 1 ∧ sample.lpt.ηm = 1 ∧
      sample.coreN.pid = 1 ∧ sample.fanN.pid = 1 ∧
      sample.burner.η * sample.burner.htf ≠ sample.fluid.cp c.T c.p * sample.burner.Tt4 ∧
      1 + (sample.pass c).burner.f ≠ 0 := by
  simp only [sample, air, Turbofan.pass, Turbofan.chain, ram, inlet, compressor, combustor, Real.one_rpow]
  norm_num

/-- A turbojet with afterburner meets the hypotheses of the counterexamples. -/
example : let e : Turbojet := ⟨air, ⟨1, 1, 1, false⟩, ⟨1, 1⟩, ⟨1, 1⟩, ⟨1500, 1, 1, 43000000⟩, ⟨1, 1⟩, ⟨1, 1⟩,
      some ⟨2000, 1, 1, 43000000⟩, ⟨1, 1⟩⟩
    let c : Amb := ⟨101325, 300, 0, 0, 340, 9.81⟩
    (e.pass c).free.cp ≠ 0 ∧ (1 : ℝ) * 43000000 ≠ (e.pass c).free.cp * 2000 ∧ (e.pass c).burner.f ≠ 0 ∧
      (e.pass c).lpt.out.Tt ≠ 2000 ∧ ∃ x, (e.pass c).after = some x ∧ x.f ≠ 0 := by
  simp only [air, Turbojet.pass, ram, inlet, compressor, combustor, turbine, Real.one_rpow, Option.map_some,
    Option.some.injEq, exists_eq_left', Option.getD_none]
  norm_num

/-! ## C91: nozzle exit -/

/-- The exit is never supersonic. -/
theorem C91_subsonic_exit (s : Stage) (c : Free) (i : Stag) : 0 < (nozzle s c i).M ∧ (nozzle s c i).M ≤ 1 := by
  simp only [nozzle]
  constructor
  · split_ifs with h1 h2 h3 h3 h3 <;> first | (norm_num; done) | (push Not at *; linarith)
  · split_ifs with h1 h2 h3 h3 h3 <;> first | (norm_num; done) | (push Not at *; linarith)

/-- The stagnation and static pressures used at the exit. -/
theorem nozzle_pt_ge (s : Stage) (c : Free) (i : Stag) : c.p ≤ (nozzle s c i).out.Pt := by
  simp only [nozzle]; split_ifs with h
  · exact le_refl _
  · exact not_lt.1 h

/-- Static pressure at the exit is never below ambient; it equals ambient unless the exit is sonic. -/
theorem C91_pressure (s : Stage) (c : Free) (i : Stag) (hγ : 1 < c.γ) (hp : 0 < c.p) :
    c.p ≤ (nozzle s c i).P ∧ ((nozzle s c i).M < 1 → (nozzle s c i).P = c.p) := by
  have hpt := nozzle_pt_ge s c i
  have hq : 1 ≤ (nozzle s c i).out.Pt / c.p := (one_le_div hp).2 hpt
  have hP : (nozzle s c i).P = if machOf c.γ ((nozzle s c i).out.Pt / c.p) < 1 then c.p
      else (nozzle s c i).out.Pt / (1 + (c.γ - 1) / 2 * 1 * 1) ^ (c.γ / (c.γ - 1)) := rfl
  have hM : (nozzle s c i).M = if (if machOf c.γ ((nozzle s c i).out.Pt / c.p) < 1 then
      machOf c.γ ((nozzle s c i).out.Pt / c.p) else 1) ≤ 0 then 0.001 else
      (if machOf c.γ ((nozzle s c i).out.Pt / c.p) < 1 then machOf c.γ ((nozzle s c i).out.Pt / c.p) else 1) := rfl
  by_cases h : machOf c.γ ((nozzle s c i).out.Pt / c.p) < 1
  · rw [hP, if_pos h]; exact ⟨le_refl _, fun _ => rfl⟩
  · rw [hP, if_neg h]
    refine ⟨?_, fun h1 => ?_⟩
    · have h2 := pow_stag_machOf hγ hq
      have h3 : (1 + (c.γ - 1) / 2 * 1 * 1) ^ (c.γ / (c.γ - 1)) ≤ (nozzle s c i).out.Pt / c.p := by
        rw [← h2]
        refine Real.rpow_le_rpow (by nlinarith) ?_ (div_nonneg (by linarith) (by linarith))
        push Not at h
        nlinarith [mul_le_mul h h zero_le_one (by linarith : (0:ℝ) ≤ machOf c.γ ((nozzle s c i).out.Pt / c.p))]
      have h4 : 0 < (1 + (c.γ - 1) / 2 * 1 * 1) ^ (c.γ / (c.γ - 1)) := Real.rpow_pos_of_pos (by nlinarith) _
      rw [le_div_iff₀ h4]
      rw [le_div_iff₀ hp] at h3
      linarith
    · rw [hM, if_neg h] at h1; norm_num at h1

/-- With pressure to expand, exit temperature, pressure and Mach number belong to one another. -/
theorem C91_isentropic (s : Stage) (c : Free) (i : Stag) (hγ : 1 < c.γ) (hp : 0 < c.p) (hT : 0 < i.Tt) (hpid : 0 < s.pid)
    (hexp : c.p < i.Pt * s.pid) :
    Isentropic c.γ (nozzle s c i).M (nozzle s c i).T (nozzle s c i).P (nozzle s c i).out.Tt (nozzle s c i).out.Pt := by
  have hTt : 0 < i.Tt * s.pid ^ ((c.γ - 1) / c.γ * s.η) := mul_pos hT (Real.rpow_pos_of_pos hpid _)
  have hq : 1 < i.Pt * s.pid / c.p := (one_lt_div hp).2 hexp
  have hmp := machOf_pos hγ hq
  have key : ∀ M : ℝ, ∀ P : ℝ, i.Pt * s.pid = P * (1 + (c.γ - 1) / 2 * M * M) ^ (c.γ / (c.γ - 1)) →
      Isentropic c.γ M (i.Tt * s.pid ^ ((c.γ - 1) / c.γ * s.η) / (1 + (c.γ - 1) / 2 * M * M)) P
        (i.Tt * s.pid ^ ((c.γ - 1) / c.γ * s.η)) (i.Pt * s.pid) := by
    intro M P hP
    have hs := stag_ge_one hγ M
    have h0 : (1 + (c.γ - 1) / 2 * M * M) ≠ 0 := by linarith
    refine ⟨?_, ?_⟩
    · rw [show i.Tt * s.pid ^ ((c.γ - 1) / c.γ * s.η) / (1 + (c.γ - 1) / 2 * M * M) +
        i.Tt * s.pid ^ ((c.γ - 1) / c.γ * s.η) / (1 + (c.γ - 1) / 2 * M * M) * (c.γ - 1) * M ^ 2 / 2
        = i.Tt * s.pid ^ ((c.γ - 1) / c.γ * s.η) / (1 + (c.γ - 1) / 2 * M * M) * (1 + (c.γ - 1) / 2 * M * M) by ring]
      rw [div_mul_cancel₀ _ h0]
    · rw [div_div_cancel₀ hTt.ne']; exact hP
  simp only [nozzle, if_neg (not_lt.2 hexp.le)]
  by_cases h : machOf c.γ (i.Pt * s.pid / c.p) < 1
  · simp only [if_pos h, if_neg (not_le.2 hmp)]
    apply key
    rw [pow_stag_machOf hγ hq.le, mul_div_cancel₀ _ hp.ne']
  · simp only [if_neg h, if_neg (not_le.2 one_pos)]
    apply key
    rw [div_mul_cancel₀]
    exact (Real.rpow_pos_of_pos (by nlinarith) _).ne'

/-- The mass flux of a flow in terms of its stagnation values. -/
theorem flux_eq {γ R M T p Tt Pt : ℝ} (hγ : 1 < γ) (hR : 0 < R) (hT : 0 < T) (h : Isentropic γ M T p Tt Pt) :
    p / (R * T) * (M * Real.sqrt (γ * R * T))
      = Pt * Real.sqrt (γ / R) / Real.sqrt Tt * (M / (1 + (γ - 1) / 2 * M * M) ^ ((γ + 1) / (2 * (γ - 1)))) := by
  have hs := stag_ge_one hγ M
  set S := 1 + (γ - 1) / 2 * M * M with hS
  have hS0 : 0 < S := by linarith
  have hTt : Tt = T * S := by rw [h.temperature, hS]; ring
  have hPt : Pt = p * S ^ (γ / (γ - 1)) := by rw [h.pressure, hTt, mul_comm T, mul_div_assoc, div_self hT.ne', mul_one]
  have he : γ / (γ - 1) = 1 / 2 + (γ + 1) / (2 * (γ - 1)) := by
    have : γ - 1 ≠ 0 := by linarith
    field_simp; ring
  rw [hPt, he, Real.rpow_add hS0, ← Real.sqrt_eq_rpow, hTt, Real.sqrt_mul hT.le, Real.sqrt_mul (by positivity : (0:ℝ) ≤ γ * R),
    Real.sqrt_mul (by linarith : (0:ℝ) ≤ γ), Real.sqrt_div (by linarith : (0:ℝ) ≤ γ)]
  have h1 : 0 < Real.sqrt T := Real.sqrt_pos.2 hT
  have h2 : 0 < Real.sqrt S := Real.sqrt_pos.2 hS0
  have h3 : 0 < Real.sqrt R := Real.sqrt_pos.2 hR
  have h4 : 0 < S ^ ((γ + 1) / (2 * (γ - 1))) := Real.rpow_pos_of_pos hS0 _
  have h5 : Real.sqrt T * Real.sqrt T = T := Real.mul_self_sqrt hT.le
  have h6 : Real.sqrt R * Real.sqrt R = R := Real.mul_self_sqrt hR.le
  rw [← h5, ← h6]
  have h7 : Real.sqrt (Real.sqrt T * Real.sqrt T) = Real.sqrt T := by rw [h5]
  have h8 : Real.sqrt (Real.sqrt R * Real.sqrt R) = Real.sqrt R := by rw [h6]
  rw [h7, h8]
  field_simp

/-- Continuity: through the exit area reported, relative to the capture area in the freestream, flows
what was captured. -/
theorem C91_continuity (s : Stage) (w : Fluid) (a : Amb) (i : Stag) (hγ : 1 < w.γ a.T a.p) (hR : 0 < w.R)
    (hcp : 0 < w.cp a.T a.p) (hg : PerfectGas (w.γ a.T a.p) (w.cp a.T a.p) w.R)
    (hp : 0 < a.p) (hTa : 0 < a.T) (hM : 0 < a.M) (hT : 0 < i.Tt) (hpid : 0 < s.pid)
    (hexp : a.p < i.Pt * s.pid) :
    let o := nozzle s (ram w a) i
    o.ρ * o.u * o.area = a.p / (w.R * a.T) * (a.M * Real.sqrt (w.γ a.T a.p * w.R * a.T)) := by
  intro o
  have hi := C91_isentropic s (ram w a) i hγ hp hT hpid hexp
  have hr := C89_ram w a hTa hγ
  have hTt : 0 < i.Tt * s.pid ^ ((w.γ a.T a.p - 1) / w.γ a.T a.p * s.η) := mul_pos hT (Real.rpow_pos_of_pos hpid _)
  have hoM := (C91_subsonic_exit s (ram w a) i).1
  have hsM := stag_ge_one hγ o.M
  have hoT : 0 < o.T := div_pos hTt (lt_of_lt_of_le one_pos hsM)
  have hu : o.u = o.M * Real.sqrt (w.γ a.T a.p * w.R * o.T) := speed_eq hγ hcp hTt hoM.le hg
  have hρ : o.ρ = o.P / (w.R * o.T) := rfl
  rw [hu, hρ, flux_eq hγ hR hoT hi, flux_eq hγ hR hTa hr]
  have ha : o.area = fm a.M (w.γ a.T a.p) / fm o.M (w.γ a.T a.p) * (1 / (o.out.Pt / (ram w a).Pt)) * Real.sqrt (o.out.Tt / (ram w a).Tt) := rfl
  have hoPt : 0 < o.out.Pt := lt_of_lt_of_le hp (nozzle_pt_ge s (ram w a) i)
  have hsA := stag_ge_one hγ a.M
  have hAPt : 0 < (ram w a).Pt := mul_pos hp (Real.rpow_pos_of_pos (by linarith) _)
  have hATt : 0 < (ram w a).Tt := mul_pos hTa (by
    have := hsA
    linarith)
  have hoTt : 0 < o.out.Tt := hTt
  change o.out.Pt * Real.sqrt (w.γ a.T a.p / w.R) / Real.sqrt o.out.Tt *
    (o.M / (1 + (w.γ a.T a.p - 1) / 2 * o.M * o.M) ^ ((w.γ a.T a.p + 1) / (2 * (w.γ a.T a.p - 1)))) * o.area = _
  rw [ha, Real.sqrt_div hoTt.le]
  simp only [fm]
  have k1 : 0 < (1 + (w.γ a.T a.p - 1) / 2 * o.M * o.M) ^ ((w.γ a.T a.p + 1) / (2 * (w.γ a.T a.p - 1))) :=
    Real.rpow_pos_of_pos (by linarith) _
  have k2 : 0 < (1 + (w.γ a.T a.p - 1) / 2 * a.M * a.M) ^ ((w.γ a.T a.p + 1) / (2 * (w.γ a.T a.p - 1))) :=
    Real.rpow_pos_of_pos (by linarith) _
  have k3 : 0 < ((w.γ a.T a.p + 1) / 2) ^ ((w.γ a.T a.p + 1) / (2 * (w.γ a.T a.p - 1))) :=
    Real.rpow_pos_of_pos (by linarith) _
  have k4 := Real.sqrt_pos.2 hoTt
  have k5 := Real.sqrt_pos.2 hATt
  have k6 : 0 < o.M := hoM
  generalize (1 + (w.γ a.T a.p - 1) / 2 * o.M * o.M) ^ ((w.γ a.T a.p + 1) / (2 * (w.γ a.T a.p - 1))) = X at k1 ⊢
  generalize (1 + (w.γ a.T a.p - 1) / 2 * a.M * a.M) ^ ((w.γ a.T a.p + 1) / (2 * (w.γ a.T a.p - 1))) = Y at k2 ⊢
  generalize ((w.γ a.T a.p + 1) / 2) ^ ((w.γ a.T a.p + 1) / (2 * (w.γ a.T a.p - 1))) = Z at k3 ⊢
  field_simp

/-- The exit speed is Mach number times speed of sound exactly when the gas properties belong together. -/
theorem C91_speed_iff (s : Stage) (c : Free) (i : Stag) (hγ : 1 < c.γ) (hcp : 0 < c.cp) (hR : 0 < c.R) (hT : 0 < i.Tt) (hpid : 0 < s.pid) :
    (nozzle s c i).u = (nozzle s c i).M * Real.sqrt (c.γ * c.R * (nozzle s c i).T) ↔ PerfectGas c.γ c.cp c.R := by
  have hTt : 0 < i.Tt * s.pid ^ ((c.γ - 1) / c.γ * s.η) := mul_pos hT (Real.rpow_pos_of_pos hpid _)
  have hM := (C91_subsonic_exit s c i).1
  have hs := stag_ge_one hγ (nozzle s c i).M
  have hT0 : 0 < (nozzle s c i).T := div_pos hTt (lt_of_lt_of_le one_pos hs)
  refine ⟨fun h => ?_, fun h => speed_eq hγ hcp hTt hM.le h⟩
  have h2 := speed_sq (M := (nozzle s c i).M) hγ hcp hTt
  change (nozzle s c i).u ^ 2 = c.cp * (c.γ - 1) * (nozzle s c i).T * (nozzle s c i).M ^ 2 at h2
  rw [h, mul_pow, Real.sq_sqrt (by positivity)] at h2
  have h3 : (nozzle s c i).M ^ 2 * (nozzle s c i).T ≠ 0 := (by positivity)
  refine mul_left_cancel₀ h3 ?_
  linear_combination -h2

/-- `Air.compute_gamma` (Air.py:144-174). -/
noncomputable def airGamma (T : ℝ) : ℝ := 1.629e-10 * T * T * T + -3.588e-7 * T * T + 0.0001418 * T + 1.386

/-- `Air.compute_cp` (Air.py:111-142). -/
noncomputable def airCp (T : ℝ) : ℝ := -7.357e-7 * T * T * T + 0.001307 * T * T + -0.5558 * T + 1074

/-- `Air` as working fluid (Air.py:52). -/
noncomputable def airFluid : Fluid := ⟨fun T _ => airGamma T, fun T _ => airCp T, 287.0528742⟩

/-- False for the gas shipped with the library: its fits do not belong together, so at 300 K the exit
speed of every nozzle differs from Mach number times speed of sound. -/
theorem C91_air_counterexample (s : Stage) (a : Amb) (i : Stag) (hT3 : a.T = 300) (hT : 0 < i.Tt) (hpid : 0 < s.pid) :
    let c := ram airFluid a
    (nozzle s c i).u ≠ (nozzle s c i).M * Real.sqrt (c.γ * c.R * (nozzle s c i).T) := by
  intro c h
  have h1 : c.γ = airGamma 300 := by simp only [c, ram, airFluid, hT3]
  have h2 : c.cp = airCp 300 := by simp only [c, ram, airFluid, hT3]
  have h3 : c.R = 287.0528742 := rfl
  have := (C91_speed_iff s c i (by rw [h1]; norm_num [airGamma]) (by rw [h2]; norm_num [airCp]) (by rw [h3]; norm_num) hT hpid).1 h
  rw [h1, h2, h3] at this
  norm_num [PerfectGas, airGamma, airCp] at this

/-- A gas with matching properties and a nozzle with pressure to expand. -/
example : PerfectGas (air.γ 300 101325) (air.cp 300 101325) air.R ∧ (101325 : ℝ) < 200000 * 0.99 := by
  norm_num [air, PerfectGas]

/-! ## C92: thrust bookkeeping -/

/-- Thrust is momentum gained plus pressure on the exit areas: with `A` the capture area of the core,
the nozzle areas are the reported ratios times the capture area of their streams. -/
theorem C92_momentum (s : ThrustSet) (c : Free) (t : ℝ) (i : ThrustIn) (ρ A : ℝ)
    (hα : 1 + i.α ≠ 0) (hcore : i.core = 1 / (1 + i.α)) (hby : i.bypass = i.α / (1 + i.α))
    (hu : c.u = c.M * c.a) (hsound : c.a ^ 2 * ρ = c.γ * c.p) (hM : c.M ≠ 0) (ha : c.a ≠ 0) (hγ : c.γ ≠ 0) (hp : c.p ≠ 0)
    (hA : (thrust s c t i).mdotCore = ρ * c.u * A) :
    (thrust s c t i).thrust = i.engines * t *
      (((thrust s c t i).mdotCore * (i.coreN.u - c.u) + i.coreN.area * A * (i.coreN.P - c.p))
        + (i.α * (thrust s c t i).mdotCore * (i.fanN.u - c.u) + i.fanN.area * (i.α * A) * (i.fanN.P - c.p))) := by
  have h1 : (thrust s c t i).thrust = 1 / (c.γ * c.M) *
      (i.core * (c.γ * c.M * c.M * (i.coreN.u / c.u - 1) + i.coreN.area * (i.coreN.P / c.p - 1)) +
        i.bypass * (c.γ * c.M * c.M * (i.fanN.u / c.u - 1) + i.fanN.area * (i.fanN.P / c.p - 1)))
      * c.a * (1 + i.α) * (thrust s c t i).mdotCore * i.engines * t := rfl
  rw [h1, hA, hcore, hby, hu]
  have hρ : ρ = c.γ * c.p / c.a ^ 2 := by rw [eq_div_iff (pow_ne_zero _ ha)]; linarith
  rw [hρ]
  field_simp

/-- Fuel is burnt in proportion to the core flow, whatever the sign of the thrust. -/
theorem C92_fuel (s : ThrustSet) (c : Free) (t : ℝ) (i : ThrustIn) (hg : c.g ≠ 0) (ha : c.a ≠ 0) (hα : 1 + i.α ≠ 0)
    (hF : (thrust s c t i).fsp ≠ 0) (hpos : 0 ≤ i.f * (thrust s c t i).mdotCore * i.engines * t * (1 - s.sfcAdj)) :
    (thrust s c t i).fuel = i.f * (thrust s c t i).mdotCore * i.engines * t * (1 - s.sfcAdj) := by
  have h1 : (thrust s c t i).fuel = max ((thrust s c t i).fsp * c.a * (1 + i.α) * (thrust s c t i).mdotCore * i.engines * t *
      (i.f * c.g / ((thrust s c t i).fsp * c.a * (1 + i.α)) * (1 - s.sfcAdj) * hour) / c.g) 0 * 1 / hour := rfl
  have h2 : (thrust s c t i).fsp * c.a * (1 + i.α) * (thrust s c t i).mdotCore * i.engines * t *
      (i.f * c.g / ((thrust s c t i).fsp * c.a * (1 + i.α)) * (1 - s.sfcAdj) * hour) / c.g
      = i.f * (thrust s c t i).mdotCore * i.engines * t * (1 - s.sfcAdj) * hour := by
    field_simp
  rw [h1, h2, max_eq_left (mul_nonneg hpos (by norm_num [hour])), mul_one, mul_div_assoc, div_self (by norm_num [hour]), mul_one]

/-- Fuel flow is never negative. -/
theorem C92_fuel_nonneg (s : ThrustSet) (c : Free) (t : ℝ) (i : ThrustIn) : 0 ≤ (thrust s c t i).fuel := by
  simp only [thrust, mul_one]
  exact div_nonneg (le_max_right _ _) (by norm_num [hour])

/-- Thrust and power are proportional to throttle and to the number of engines. -/
theorem C92_linear (s : ThrustSet) (c : Free) (t k : ℝ) (i : ThrustIn) :
    (thrust s c (k * t) i).thrust = k * (thrust s c t i).thrust ∧
    (thrust s c t { i with engines := k * i.engines }).thrust = k * (thrust s c t i).thrust ∧
    (thrust s c t i).power = (thrust s c t i).thrust * c.u := by
  refine ⟨?_, ?_, rfl⟩ <;> · simp only [thrust]; ring

/-- Specific impulse and specific fuel consumption describe the same fuel flow. -/
theorem C92_isp (s : ThrustSet) (c : Free) (t : ℝ) (i : ThrustIn) (hs : s.sfcAdj = 0) (hg : c.g ≠ 0) (ha : c.a ≠ 0)
    (hα : 1 + i.α ≠ 0) (hF : (thrust s c t i).fsp ≠ 0) (hf : i.f ≠ 0) :
    (thrust s c t i).isp * (thrust s c t i).tsfc = 3600 := by
  have h1 : (thrust s c t i).isp = (thrust s c t i).fsp * c.a * (1 + i.α) / (i.f * c.g) := rfl
  have h2 : (thrust s c t i).tsfc = i.f * c.g / ((thrust s c t i).fsp * c.a * (1 + i.α)) * (1 - s.sfcAdj) * hour := rfl
  rw [h1, h2, hs, hour]
  field_simp
  norm_num

/-- Numbers meeting the hypotheses of `C92_momentum`: `a² ρ = γ p` and `u = M a`. -/
example : ∃ ρ A : ℝ, (340 : ℝ) ^ 2 * ρ = 1.4 * 101325 ∧ (50 : ℝ) = ρ * (0.8 * 340) * A := by
  refine ⟨1.4 * 101325 / 340 ^ 2, 50 / (1.4 * 101325 / 340 ^ 2 * (0.8 * 340)), ?_, ?_⟩ <;> norm_num

/-! ## C93: sizing and engine out -/

/-- A sized thrust element delivers the design thrust at full throttle in the sizing conditions. -/
theorem size_thrust (s : ThrustSet) (c : Free) (t : ℝ) (i : ThrustIn) (d : ℝ) (hn : i.engines ≠ 0) (ha : c.a ≠ 0)
    (hα : 1 + i.α ≠ 0) (hF : (thrust s c t i).fsp ≠ 0) (hT : 0 < s.Tref / i.ref.Tt) (hP : i.ref.Pt / s.Pref ≠ 0) :
    (thrust (sizeThrust s c t i d).1 c 1 i).thrust = d ∧
      (thrust (sizeThrust s c t i d).1 c 1 i).mdotCore = (sizeThrust s c t i d).2 := by
  have hq := Real.sqrt_pos.2 hT
  have hfsp : (thrust (sizeThrust s c t i d).1 c 1 i).fsp = (thrust s c t i).fsp := rfl
  have hm : (thrust (sizeThrust s c t i d).1 c 1 i).mdotCore = (sizeThrust s c t i d).2 := by
    change (sizeThrust s c t i d).2 / (Real.sqrt (s.Tref / i.ref.Tt) * (i.ref.Pt / s.Pref)) * Real.sqrt (s.Tref / i.ref.Tt) *
      (i.ref.Pt / s.Pref) = _
    rw [mul_assoc, div_mul_cancel₀]
    exact mul_ne_zero hq.ne' hP
  refine ⟨?_, hm⟩
  have h1 : (thrust (sizeThrust s c t i d).1 c 1 i).thrust = (thrust (sizeThrust s c t i d).1 c 1 i).fsp * c.a * (1 + i.α) *
      (thrust (sizeThrust s c t i d).1 c 1 i).mdotCore * i.engines * 1 := rfl
  have h2 : (sizeThrust s c t i d).2 = d / ((thrust s c t i).fsp * c.a * (1 + i.α) * i.engines * 1) := rfl
  rw [h1, hm, hfsp, h2]
  field_simp

/-- The inputs of `thrust` do not depend on what sizing changes when there is no off-take. -/
theorem pass_size (e : Turbofan) (c : Amb) (t d : ℝ) (ho : e.offTake = none) :
    (e.size c t d).pass c = e.chain c fun _ => none := by
  simp only [Turbofan.size, Turbofan.pass, ho, Option.map_none]
  rfl

/-- A sized engine without off-take delivers the design thrust at the design point. -/
theorem C93_design_thrust_partial (e : Turbofan) (c : Amb) (t d : ℝ) (ho : e.offTake = none) (hn : e.engines ≠ 0) (ha : c.a ≠ 0)
    (hα : 1 + e.α ≠ 0) (hF : (thrust e.thr (e.pass c).free t (e.pass c).tin).fsp ≠ 0)
    (hT : 0 < e.thr.Tref / (e.pass c).lpc.out.Tt) (hP : (e.pass c).lpc.out.Pt / e.thr.Pref ≠ 0) :
    ((e.size c t d).evaluate c 1).force = d := by
  have hp : e.pass c = e.chain c fun _ => none := by
    simp only [Turbofan.pass, ho, Option.map_none]
  rw [hp] at hF hT hP
  have := (size_thrust e.thr (e.chain c fun _ => none).free t (e.chain c fun _ => none).tin d hn ha hα hF hT hP).1
  simp only [Turbofan.evaluate, pass_size e c t d ho]
  exact this

/-- Fuel flow is proportional to the number of engines. -/
theorem fuel_engines (s : ThrustSet) (c : Free) (t n : ℝ) (i : ThrustIn) (hn : 0 ≤ n) :
    (thrust s c t { i with engines := n }).fuel = n * (thrust s c t { i with engines := 1 }).fuel := by
  simp only [thrust, mul_one]
  rw [← mul_div_assoc, mul_max_of_nonneg _ _ hn, mul_zero]
  congr 2
  ring

/-- With one engine out the rest runs at full throttle, and the throttle setting is put back. -/
theorem C93_engine_out (e : Turbofan) (c : Amb) (t : ℝ) (hn : 1 ≤ e.engines) :
    (e.engineOut c t).1.force = ({ e with engines := e.engines - 1 }.evaluate c 1).force ∧
    (e.engineOut c t).1.mdot = ({ e with engines := e.engines - 1 }.evaluate c 1).mdot ∧
    (e.engineOut c t).2 = t := by
  have hn0 : e.engines ≠ 0 := by linarith
  refine ⟨?_, ?_, rfl⟩
  · simp only [Turbofan.engineOut, Turbofan.evaluate, thrust, Turbofan.pass, Turbofan.chain]
    field_simp
  · have h1 := fuel_engines e.thr (e.pass c).free 1 e.engines (e.pass c).tin (by linarith)
    have h2 := fuel_engines e.thr (e.pass c).free 1 (e.engines - 1) (e.pass c).tin (by linarith)
    change (thrust e.thr (e.pass c).free 1 { (e.pass c).tin with engines := e.engines }).fuel / e.engines * (e.engines - 1)
      = (thrust e.thr (e.pass c).free 1 { (e.pass c).tin with engines := e.engines - 1 }).fuel
    rw [h1, h2]
    field_simp

/-- A turbojet-like engine with bypass ratio zero and an off-take, for the counterexample. -/
noncomputable def tapped : Turbofan where
  fluid := ⟨fun _ _ => 2, fun _ _ => 1, 1 / 2⟩
  inlet := ⟨1, 1, 1, false⟩
  lpc := ⟨1, 1⟩
  hpc := ⟨1, 1⟩
  fan := ⟨1, 1⟩
  burner := ⟨6, 1, 1, 21 / 2⟩
  hpt := ⟨1, 1⟩
  lpt := ⟨1, 1⟩
  coreN := ⟨1, 1⟩
  fanN := ⟨1, 1⟩
  thr := ⟨3 / 2, 9 / 4, 0, 0⟩
  α := 0
  engines := 1
  offTake := some ⟨3, 3 / 2, 9 / 4⟩

/-- The conditions of the counterexample. -/
def tappedAmb : Amb := ⟨1, 1, 1, 1, 1, 1⟩

theorem pow_two_div (x : ℝ) : x ^ ((2 : ℝ) / (2 - 1)) = x ^ 2 := by
  rw [show (2 : ℝ) / (2 - 1) = 2 by norm_num, Real.rpow_two]

theorem pow_two_div' (x : ℝ) : x ^ ((2 : ℝ) / ((2 - 1) * 1)) = x ^ 2 := by
  rw [show (2 : ℝ) / ((2 - 1) * 1) = 2 by norm_num, Real.rpow_two]

theorem machOf_two {x : ℝ} (hx : 0 ≤ x) : machOf 2 (x ^ 2) = Real.sqrt ((x - 1) * 2) := by
  rw [machOf, show ((2 : ℝ) - 1) / 2 = 1 / 2 by norm_num, ← Real.sqrt_eq_rpow, Real.sqrt_sq hx]
  norm_num

theorem ram_tapped : ram tapped.fluid tappedAmb = ⟨1, 1, 1, 1, 1, 1, 2, 1, 1 / 2, 3 / 2, 9 / 4⟩ := by
  simp only [ram, tapped, tappedAmb, pow_two_div]
  norm_num

/-- The chain of the sample engine as a function of the off-take work. -/
theorem chain_tapped (x : ℝ) (hx : 0 < x) (hx1 : 1 < 3 / 2 * x) (hx2 : x ≤ 1) (w : Stag → Option ℝ) (hw : (w ⟨3 / 2, 9 / 4⟩).getD 0 = 12 * (1 - x)) :
    (tapped.chain tappedAmb w).free = ⟨1, 1, 1, 1, 1, 1, 2, 1, 1 / 2, 3 / 2, 9 / 4⟩ ∧
    (tapped.chain tappedAmb w).lpc.out = ⟨3 / 2, 9 / 4⟩ ∧
    (tapped.chain tappedAmb w).coreN.u = Real.sqrt (2 * (6 * x - 4)) ∧ (tapped.chain tappedAmb w).coreN.P = 1 ∧
    (tapped.chain tappedAmb w).lpt.out = ⟨6 * x, (3 / 2 * x) ^ 2⟩ := by
  have hf : (tapped.chain tappedAmb w).free = ⟨1, 1, 1, 1, 1, 1, 2, 1, 1 / 2, 3 / 2, 9 / 4⟩ := ram_tapped
  have hi : (inlet tapped.inlet ⟨1, 1, 1, 1, 1, 1, 2, 1, 1 / 2, 3 / 2, 9 / 4⟩ ⟨3 / 2, 9 / 4⟩).out = ⟨3 / 2, 9 / 4⟩ := by
    simp only [inlet, tapped, mul_one, Real.one_rpow, Bool.false_eq_true, if_false]
    norm_num
  have hl : compressor tapped.lpc ⟨1, 1, 1, 1, 1, 1, 2, 1, 1 / 2, 3 / 2, 9 / 4⟩ ⟨3 / 2, 9 / 4⟩ = ⟨⟨3 / 2, 9 / 4⟩, 3 / 2, 0⟩ := by
    simp only [tapped, compressor, Real.one_rpow]; norm_num
  have hl2 : compressor tapped.hpc ⟨1, 1, 1, 1, 1, 1, 2, 1, 1 / 2, 3 / 2, 9 / 4⟩ ⟨3 / 2, 9 / 4⟩ = ⟨⟨3 / 2, 9 / 4⟩, 3 / 2, 0⟩ := by
    simp only [tapped, compressor, Real.one_rpow]; norm_num
  have hfa : fan tapped.fan ⟨1, 1, 1, 1, 1, 1, 2, 1, 1 / 2, 3 / 2, 9 / 4⟩ ⟨3 / 2, 9 / 4⟩ = ⟨⟨3 / 2, 9 / 4⟩, 3 / 2, 0⟩ := by
    simp only [tapped, fan, Real.one_rpow]; norm_num
  have hb : combustor tapped.burner ⟨1, 1, 1, 1, 1, 1, 2, 1, 1 / 2, 3 / 2, 9 / 4⟩ 1 ⟨3 / 2, 9 / 4⟩ = ⟨⟨6, 9 / 4⟩, 6, 1⟩ := by
    simp only [tapped, combustor]; norm_num
  have hh : turbine tapped.hpt ⟨1, 1, 1, 1, 1, 1, 2, 1, 1 / 2, 3 / 2, 9 / 4⟩ ⟨6, 9 / 4⟩ 0 1 0 0 none = ⟨⟨6, 9 / 4⟩, 6⟩ := by
    simp only [tapped, turbine, pow_two_div', Option.getD_none]; norm_num
  have hlt : turbine tapped.lpt ⟨1, 1, 1, 1, 1, 1, 2, 1, 1 / 2, 3 / 2, 9 / 4⟩ ⟨6, 9 / 4⟩ tapped.α 1 0 0 (w ⟨3 / 2, 9 / 4⟩) = ⟨⟨6 * x, (3 / 2 * x) ^ 2⟩, 6 * x⟩ := by
    simp only [tapped, turbine, pow_two_div', hw]
    have : (6 : ℝ) + -1 / (1 + 1) * 1 / 1 * (0 + 12 * (1 - x) + 0 * 0) / 1 = 6 * x := by ring
    rw [this, show (9 : ℝ) / 4 * (6 * x / 6) ^ 2 = (3 / 2 * x) ^ 2 by ring, one_mul]
  have hc : (tapped.chain tappedAmb w).coreN = nozzle tapped.coreN ⟨1, 1, 1, 1, 1, 1, 2, 1, 1 / 2, 3 / 2, 9 / 4⟩ ⟨6 * x, (3 / 2 * x) ^ 2⟩ := by
    simp only [Turbofan.chain, ram_tapped, hi, hl, hl2, hfa, hb, hh, hlt]
  refine ⟨hf, by simp only [Turbofan.chain, ram_tapped, hi, hl], ?_, ?_,
    by simp only [Turbofan.chain, ram_tapped, hi, hl, hl2, hfa, hb, hh, hlt]⟩
  all_goals
    rw [hc]
    have hm : machOf 2 ((3 / 2 * x) ^ 2 / 1) = Real.sqrt ((3 / 2 * x - 1) * 2) := by rw [div_one, machOf_two (by linarith)]
    have hmpos : 0 < Real.sqrt ((3 / 2 * x - 1) * 2) := Real.sqrt_pos.2 (by linarith)
    have hsq : Real.sqrt ((3 / 2 * x - 1) * 2) * Real.sqrt ((3 / 2 * x - 1) * 2) = (3 / 2 * x - 1) * 2 :=
      Real.mul_self_sqrt (by linarith)
    have hP : ¬ ((3 / 2 * x) ^ 2 < 1) := not_lt.2 (by nlinarith)
    simp only [nozzle, tapped, mul_one, Real.one_rpow, if_neg hP, hm, one_mul]
  · by_cases h : Real.sqrt ((3 / 2 * x - 1) * 2) < 1
    · rw [if_pos h, if_neg (not_le.2 hmpos), mul_assoc, hsq]
      rw [show (1 : ℝ) + (2 - 1) / 2 * ((3 / 2 * x - 1) * 2) = 3 / 2 * x by ring,
        show 6 * x / (3 / 2 * x) = 4 by field_simp; norm_num]
    · have h1 : x = 1 := by
        by_contra hne
        have : x < 1 := lt_of_le_of_ne hx2 hne
        apply h
        rw [Real.sqrt_lt' one_pos]; linarith
      rw [if_neg h, if_neg (not_le.2 one_pos), h1]
      norm_num
  · by_cases h : Real.sqrt ((3 / 2 * x - 1) * 2) < 1
    · rw [if_pos h]
    · have h1 : x = 1 := by
        by_contra hne
        have : x < 1 := lt_of_le_of_ne hx2 hne
        apply h
        rw [Real.sqrt_lt' one_pos]; linarith
      rw [if_neg h, pow_two_div, h1]
      norm_num

/-- False with a shaft power off-take: sizing leaves it out.  This engine is sized for a thrust of one
and delivers none at its design point. -/
theorem C93_off_take_counterexample : ((tapped.size tappedAmb 1 1).evaluate tappedAmb 1).force = 0 := by
  have hs := chain_tapped 1 one_pos (by norm_num) le_rfl (fun _ => none) (by norm_num)
  have e1 : Real.sqrt (2 * (6 * 1 - 4)) = 2 := by
    rw [show (2 : ℝ) * (6 * 1 - 4) = 2 * 2 by norm_num, Real.sqrt_mul_self (by norm_num)]
  have e2 : Real.sqrt (2 * (6 * (3 / 4) - 4)) = 1 := by
    rw [show (2 : ℝ) * (6 * (3 / 4) - 4) = 1 by norm_num, Real.sqrt_one]
  have hsize : (tapped.size tappedAmb 1 1).thr.mdhc = 1 := by
    simp only [Turbofan.size, sizeThrust, thrust]
    rw [hs.1]
    have h1 : (tapped.chain tappedAmb fun _ => none).tin.coreN = (tapped.chain tappedAmb fun _ => none).coreN := rfl
    have h2 : (tapped.chain tappedAmb fun _ => none).tin.ref = (tapped.chain tappedAmb fun _ => none).lpc.out := rfl
    have h3 : (tapped.chain tappedAmb fun _ => none).tin.bypass = 0 := by
      change (0 : ℝ) / (1 + 0) = 0; norm_num
    have h4 : (tapped.chain tappedAmb fun _ => none).tin.core = 1 := by
      change (1 : ℝ) / (1 + 0) = 1; norm_num
    have h5 : (tapped.chain tappedAmb fun _ => none).tin.α = 0 := rfl
    have h6 : (tapped.chain tappedAmb fun _ => none).tin.engines = 1 := rfl
    rw [h1, h2, h3, h4, h5, h6, hs.2.1, hs.2.2.1, hs.2.2.2.1, e1]
    norm_num [tapped]
  have hw : (((tapped.size tappedAmb 1 1).offTake.map fun o =>
      offTakeWork o (tapped.size tappedAmb 1 1).thr.mdhc ⟨3 / 2, 9 / 4⟩)).getD 0 = 12 * (1 - 3 / 4) := by
    rw [hsize]
    change offTakeWork ⟨3, 3 / 2, 9 / 4⟩ 1 ⟨3 / 2, 9 / 4⟩ = _
    norm_num [offTakeWork, coreFlow]
  have hp := chain_tapped (3 / 4) (by norm_num) (by norm_num) (by norm_num)
    (fun ref => (tapped.size tappedAmb 1 1).offTake.map fun o => offTakeWork o (tapped.size tappedAmb 1 1).thr.mdhc ref) hw
  have hpass : (tapped.size tappedAmb 1 1).pass tappedAmb = tapped.chain tappedAmb
    (fun ref => (tapped.size tappedAmb 1 1).offTake.map fun o => offTakeWork o (tapped.size tappedAmb 1 1).thr.mdhc ref) := rfl
  simp only [Turbofan.evaluate, thrust, hpass]
  rw [hp.1]
  generalize hw' : (fun ref => (tapped.size tappedAmb 1 1).offTake.map fun o => offTakeWork o (tapped.size tappedAmb 1 1).thr.mdhc ref) = w at hp ⊢
  have h1 : (tapped.chain tappedAmb w).tin.coreN = (tapped.chain tappedAmb w).coreN := rfl
  have h3 : (tapped.chain tappedAmb w).tin.bypass = 0 := by
    change (0 : ℝ) / (1 + 0) = 0; norm_num
  rw [h1, h3, hp.2.2.1, hp.2.2.2.1, e2]
  norm_num

/-- The sample engine without off-take meets the hypotheses of `C93_design_thrust_partial`. -/
example : let e := { tapped with offTake := none }
    e.offTake = none ∧ e.engines ≠ 0 ∧ tappedAmb.a ≠ 0 ∧ 1 + e.α ≠ 0 ∧
      (thrust e.thr (e.pass tappedAmb).free 1 (e.pass tappedAmb).tin).fsp ≠ 0 ∧
      0 < e.thr.Tref / (e.pass tappedAmb).lpc.out.Tt ∧ (e.pass tappedAmb).lpc.out.Pt / e.thr.Pref ≠ 0 := by
  intro e
  have hs := chain_tapped 1 one_pos (by norm_num) le_rfl (fun _ => none) (by norm_num)
  have e1 : Real.sqrt (2 * (6 * 1 - 4)) = 2 := by
    rw [show (2 : ℝ) * (6 * 1 - 4) = 2 * 2 by norm_num, Real.sqrt_mul_self (by norm_num)]
  have hp : e.pass tappedAmb = tapped.chain tappedAmb fun _ => none := rfl
  rw [hp, hs.2.1]
  refine ⟨rfl, by norm_num [e, tapped], by norm_num [tappedAmb], by norm_num [e, tapped], ?_, by norm_num [e, tapped],
    by norm_num [e, tapped]⟩
  simp only [thrust]
  rw [hs.1]
  have h1 : (tapped.chain tappedAmb fun _ => none).tin.coreN = (tapped.chain tappedAmb fun _ => none).coreN := rfl
  have h3 : (tapped.chain tappedAmb fun _ => none).tin.bypass = 0 := by
    change (0 : ℝ) / (1 + 0) = 0; norm_num
  have h4 : (tapped.chain tappedAmb fun _ => none).tin.core = 1 := by
    change (1 : ℝ) / (1 + 0) = 1; norm_num
  rw [h1, h3, h4, hs.2.2.1, hs.2.2.2.1, e1]
  norm_num

/-! ## C94: polytropic efficiency -/

/-- Compressing in two stages of the same efficiency is compressing once by the product. -/
theorem C94_stages (c : Free) (i : Stag) (p q η : ℝ) (hp : 0 < p) (hq : 0 < q) :
    (compressor ⟨q, η⟩ c (compressor ⟨p, η⟩ c i).out).out = (compressor ⟨p * q, η⟩ c i).out ∧
    (compressor ⟨p, η⟩ c i).work + (compressor ⟨q, η⟩ c (compressor ⟨p, η⟩ c i).out).work = (compressor ⟨p * q, η⟩ c i).work := by
  have h : i.Tt * p ^ ((c.γ - 1) / (c.γ * η)) * q ^ ((c.γ - 1) / (c.γ * η)) = i.Tt * (p * q) ^ ((c.γ - 1) / (c.γ * η)) := by
    rw [Real.mul_rpow hp.le hq.le, mul_assoc]
  constructor
  · simp only [compressor, h, mul_assoc]
  · simp only [compressor, h]; ring

/-- A compressor or fan of lower efficiency never needs less work, and never less than the ideal one. -/
theorem C94_compressor_loss (c : Free) (i : Stag) (p η₁ η₂ : ℝ) (hγ : 1 < c.γ) (hcp : 0 < c.cp) (hT : 0 < i.Tt) (hp : 1 ≤ p)
    (h1 : 0 < η₁) (h12 : η₁ ≤ η₂) :
    (compressor ⟨p, η₂⟩ c i).work ≤ (compressor ⟨p, η₁⟩ c i).work ∧ (fan ⟨p, η₂⟩ c i).work ≤ (fan ⟨p, η₁⟩ c i).work ∧
    0 ≤ (compressor ⟨p, η₂⟩ c i).work := by
  have he : (c.γ - 1) / (c.γ * η₂) ≤ (c.γ - 1) / (c.γ * η₁) := by
    apply div_le_div_of_nonneg_left (by linarith) (by nlinarith) (by nlinarith)
  have hpow := Real.rpow_le_rpow_of_exponent_le hp he
  have h2 : 1 ≤ p ^ ((c.γ - 1) / (c.γ * η₂)) :=
    Real.one_le_rpow hp (div_nonneg (by linarith) (by nlinarith))
  have hm := mul_le_mul_of_nonneg_left (mul_le_mul_of_nonneg_left hpow hT.le) hcp.le
  have hm2 := mul_le_mul_of_nonneg_left (mul_le_mul_of_nonneg_left h2 hT.le) hcp.le
  simp only [compressor, fan]
  refine ⟨by linarith, by linarith, by rw [mul_one] at hm2; linarith⟩

/-- A turbine of lower efficiency leaves no more pressure for the same work. -/
theorem C94_turbine_loss (c : Free) (i : Stag) (α f wc wf ηm η₁ η₂ : ℝ) (s : Option ℝ) (hγ : 1 < c.γ) (hP : 0 < i.Pt) (hT : 0 < i.Tt)
    (h1 : 0 < η₁) (h12 : η₁ ≤ η₂) (hpos : 0 < (turbine ⟨ηm, η₁⟩ c i α f wc wf s).out.Tt)
    (hle : (turbine ⟨ηm, η₁⟩ c i α f wc wf s).out.Tt ≤ i.Tt) :
    (turbine ⟨ηm, η₁⟩ c i α f wc wf s).out.Pt ≤ (turbine ⟨ηm, η₂⟩ c i α f wc wf s).out.Pt ∧
    (turbine ⟨ηm, η₂⟩ c i α f wc wf s).out.Pt ≤ i.Pt := by
  simp only [turbine] at hpos hle ⊢
  generalize i.Tt + -1 / (1 + f) * 1 / ηm * (wc + s.getD 0 + α * wf) / c.cp = T at hpos hle ⊢
  have hx0 : 0 < T / i.Tt := div_pos hpos hT
  have hx1 : T / i.Tt ≤ 1 := (div_le_one hT).2 hle
  have hg : 0 < c.γ - 1 := by linarith
  have he : c.γ / ((c.γ - 1) * η₂) ≤ c.γ / ((c.γ - 1) * η₁) := by
    apply div_le_div_of_nonneg_left (by linarith) (by positivity) (by nlinarith)
  have h2 : 0 < η₂ := by linarith
  refine ⟨mul_le_mul_of_nonneg_left (Real.rpow_le_rpow_of_exponent_ge hx0 hx1 he) hP.le, ?_⟩
  have := Real.rpow_le_one hx0.le hx1 (div_nonneg (by linarith : (0:ℝ) ≤ c.γ) (by positivity : 0 ≤ (c.γ - 1) * η₂))
  nlinarith

/-- A turbine that cools the gas from 1500 to 1500 - 100/1004.5 kelvin. -/
example : let c := ram air ⟨101325, 300, 0, 0, 340, 9.81⟩
    0 < (turbine ⟨1, 0.9⟩ c ⟨1500, 1000000⟩ 0 0 100 0 none).out.Tt ∧
      (turbine ⟨1, 0.9⟩ c ⟨1500, 1000000⟩ 0 0 100 0 none).out.Tt ≤ 1500 := by
  simp only [turbine, ram, air, Option.getD_none]
  norm_num

/-! ## C95: exit conditions handed to the noise analysis -/

/-- Static pressures are passed on as they are. -/
theorem C95_static_partial (e : Turbofan) (c : Amb) (t : ℝ) :
    (e.evaluate c t).noiseCore.1 = (e.pass c).coreN.P ∧ (e.evaluate c t).noiseFan.1 = (e.pass c).fanN.P := ⟨rfl, rfl⟩

/-- False for the stagnation pressures: the static pressure is stored, which is lower in every jet. -/
theorem C95_stagnation_counterexample (e : Turbofan) (c : Amb) (t : ℝ) (hγ : 1 < e.fluid.γ c.T c.p) (hp : 0 < c.p)
    (hT : 0 < (e.pass c).lpt.out.Tt) (hpid : 0 < e.coreN.pid) (hexp : c.p < (e.pass c).lpt.out.Pt * e.coreN.pid) :
    (e.evaluate c t).noiseCore.2 < (e.pass c).coreN.out.Pt := by
  have hi := C91_isentropic e.coreN (e.pass c).free (e.pass c).lpt.out hγ hp hT hpid hexp
  have hM := (C91_subsonic_exit e.coreN (e.pass c).free (e.pass c).lpt.out).1
  have hP := (C91_pressure e.coreN (e.pass c).free (e.pass c).lpt.out hγ hp).1
  change (e.pass c).coreN.P < (e.pass c).coreN.out.Pt
  have hi' : Isentropic (e.pass c).free.γ (e.pass c).coreN.M (e.pass c).coreN.T (e.pass c).coreN.P (e.pass c).coreN.out.Tt (e.pass c).coreN.out.Pt := hi
  have hg : 1 < (e.pass c).free.γ := hγ
  have hM' : 0 < (e.pass c).coreN.M := hM
  have hP' : 0 < (e.pass c).coreN.P := lt_of_lt_of_le hp hP
  have hs := stag_ge_one hg (e.pass c).coreN.M
  have hTt : 0 < (e.pass c).coreN.out.Tt := mul_pos hT (Real.rpow_pos_of_pos hpid _)
  have hT0 : 0 < (e.pass c).coreN.T := div_pos hTt (lt_of_lt_of_le one_pos hs)
  have hlt : 1 < (e.pass c).coreN.out.Tt / (e.pass c).coreN.T := by
    rw [one_lt_div hT0, hi'.temperature]
    have : 0 < (e.pass c).coreN.T * ((e.pass c).free.γ - 1) * (e.pass c).coreN.M ^ 2 / 2 := by
      have : 0 < (e.pass c).free.γ - 1 := by linarith
      positivity
    linarith
  have := Real.one_lt_rpow hlt (div_pos (by linarith : 0 < (e.pass c).free.γ) (by linarith : 0 < (e.pass c).free.γ - 1))
  rw [hi'.pressure]
  nlinarith

/-- The sample engine without off-take: a jet at twice and a quarter the ambient pressure. -/
example : let e := { tapped with offTake := none }
    1 < e.fluid.γ tappedAmb.T tappedAmb.p ∧ 0 < tappedAmb.p ∧ 0 < (e.pass tappedAmb).lpt.out.Tt ∧ 0 < e.coreN.pid ∧
      tappedAmb.p < (e.pass tappedAmb).lpt.out.Pt * e.coreN.pid := by
  intro e
  have hs := chain_tapped 1 one_pos (by norm_num) le_rfl (fun _ => none) (by norm_num)
  have hp : e.pass tappedAmb = tapped.chain tappedAmb fun _ => none := rfl
  rw [hp, hs.2.2.2.2]
  norm_num [e, tapped, tappedAmb]

end Verif.Energy.GasTurbine
