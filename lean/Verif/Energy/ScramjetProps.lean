import Verif.Energy.Scramjet
import Verif.Energy.GasTurbineProps
import Verif.Physics.ShockProps

/-!
# Properties of the ramjet and scramjet components
-/

namespace Verif.Energy.Scramjet

open Verif.Energy.GasTurbine
open Verif.Physics.Shock (prIsentropic machAreaFun shockTrain scramInlet)

/-! ## C101: the supersonic burner and nozzle -/

/-- Energy: what air and fuel bring in, the gas carries out. -/
theorem C101_burner_energy (s : Burner) (R Tref : ℝ) (i : Gas) (hT : i.T ≠ 0) (hcp : i.cp ≠ 0) (hf : 1 + s.φ * s.fst ≠ 0) :
    let o := burn s R Tref i
    (1 + o.f) * (o.cp * o.T + o.u ^ 2 / 2)
      = o.cp * i.T + i.u ^ 2 / 2 + o.f * (s.ηb * s.htf + s.hf + o.cp * Tref + (s.vf * i.u) ^ 2 / 2) := by
  intro o
  have hcpb : i.cp * (145 / 100) ≠ 0 := by positivity
  have e1 : o.f = s.φ * s.fst := rfl
  have e2 : o.cp = i.cp * (145 / 100) := rfl
  have e3 : o.T = ((i.T / (1 + s.φ * s.fst)) * (1 + (1 / (i.cp * (145 / 100) * i.T)) *
    (s.ηb * (s.φ * s.fst) * s.htf + s.φ * s.fst * s.hf + s.φ * s.fst * (i.cp * (145 / 100)) * Tref +
      (1 + s.φ * s.fst * s.vf * s.vf) * i.u * i.u / 2))) - o.u * o.u / (2 * (i.cp * (145 / 100))) := rfl
  rw [e3, e1, e2]
  generalize o.u = V
  generalize i.cp * (145 / 100) = k at *
  generalize s.φ * s.fst = f at *
  field_simp
  ring

/-- Momentum: the fuel brings its axial momentum, the wall friction takes some away. -/
theorem C101_burner_momentum (s : Burner) (R Tref : ℝ) (i : Gas) (hf : 1 + s.φ * s.fst ≠ 0) :
    (1 + (burn s R Tref i).f) * (burn s R Tref i).u = i.u + (burn s R Tref i).f * (s.vfx * i.u) - s.cfb * i.u / 2 ∧
      (burn s R Tref i).P = i.P := by
  refine ⟨?_, rfl⟩
  have e1 : (burn s R Tref i).f = s.φ * s.fst := rfl
  have e2 : (burn s R Tref i).u = i.u * (((1 + s.φ * s.fst * s.vfx) / (1 + s.φ * s.fst)) - (s.cfb / (2 * (1 + s.φ * s.fst)))) := rfl
  rw [e1, e2]
  generalize s.φ * s.fst = f at *
  field_simp

/-- The burner of the example: no fuel, no friction. -/
noncomputable def coldBurner : Burner := ⟨0, 1, 0, 0, 0, 0, 0, 0⟩

/-- The gas of the example. -/
noncomputable def coldGas : Gas := ⟨1, 1, 2, 1, 1, 1, 0, 100 / 145, 2⟩

/-- The stagnation temperature that leaves the burner is not that of the gas: with no fuel at all it
should be the temperature plus `u² / (2 cp)`. -/
theorem C101_stagnation_counterexample :
    ¬ ∀ (s : Burner) (R Tref : ℝ) (i : Gas), 0 < i.T → 0 < i.u → 0 < R → R < i.cp →
      (burn s R Tref i).cp * (burn s R Tref i).Tt = (burn s R Tref i).cp * (burn s R Tref i).T + (burn s R Tref i).u ^ 2 / 2 := by
  intro h
  have h1 := h coldBurner (1 / 2) 0 coldGas (by norm_num [coldGas]) (by norm_num [coldGas]) (by norm_num) (by norm_num [coldGas])
  have ecp : (burn coldBurner (1 / 2) 0 coldGas).cp = 1 := by norm_num [burn, coldGas]
  have eu : (burn coldBurner (1 / 2) 0 coldGas).u = 2 := by norm_num [burn, coldGas, coldBurner]
  have eT : (burn coldBurner (1 / 2) 0 coldGas).T = 1 := by norm_num [burn, coldGas, coldBurner]
  have eg : (burn coldBurner (1 / 2) 0 coldGas).γ = 2 := by norm_num [burn, coldGas, coldBurner]
  have eM : (burn coldBurner (1 / 2) 0 coldGas).M
      = (burn coldBurner (1 / 2) 0 coldGas).u / Real.sqrt ((burn coldBurner (1 / 2) 0 coldGas).γ * (1 / 2) * (burn coldBurner (1 / 2) 0 coldGas).T) := rfl
  have eTt : (burn coldBurner (1 / 2) 0 coldGas).Tt = (burn coldBurner (1 / 2) 0 coldGas).T * (1 + ((burn coldBurner (1 / 2) 0 coldGas).γ - 1) / 2) *
      (burn coldBurner (1 / 2) 0 coldGas).M * (burn coldBurner (1 / 2) 0 coldGas).M := rfl
  rw [eTt, eM, eT, eg, eu, ecp, show (2 : ℝ) * (1 / 2) * 1 = 1 by norm_num, Real.sqrt_one] at h1
  norm_num at h1

/-- The nozzle: energy is conserved, the area carries the mass flow of air and fuel, and the pressure
is the one asked for. -/
theorem C101_nozzle {η pr Po Vo To R : ℝ} (i : Gas) (hPo : 0 < Po) (hpr : 0 < pr) (hTo : 0 < To) (hR : 0 < R)
    (hk : 0 < i.u * i.u + 2 * i.cp * (i.T - (expand η pr Po Vo To R i).T)) {A0 : ℝ} :
    let o := expand η pr Po Vo To R i
    i.cp * o.T + o.u ^ 2 / 2 = i.cp * i.T + i.u ^ 2 / 2 ∧
      (o.T ≠ 0 → o.P / (R * o.T) * o.u * (o.area * A0) = (1 + i.f) * (Po / (R * To) * Vo * A0)) ∧ o.P = Po * pr := by
  intro o
  have hu : o.u = Real.sqrt (i.u * i.u + 2 * i.cp * (i.T - o.T)) := rfl
  have hu2 : o.u ^ 2 = i.u * i.u + 2 * i.cp * (i.T - o.T) := by rw [hu, Real.sq_sqrt hk.le]
  have hu0 : 0 < o.u := by rw [hu]; exact Real.sqrt_pos.2 hk
  have hP : o.P = Po * pr := rfl
  have ha : o.area = (1 + i.f) * (Po / o.P) * (o.T / To) * (Vo / o.u) := rfl
  refine ⟨by rw [hu2]; ring, ?_, hP⟩
  intro hT
  have hP0 : 0 < o.P := by rw [hP]; positivity
  rw [ha]
  field_simp

/-- A gas at rest that expands from pressure 4 to 1 with `R = cp / 2`: half the temperature is left. -/
example : let i : Gas := ⟨4, 4, 0, 4, 4, 0, 1 / 10, 1, 2⟩
    0 < i.u * i.u + 2 * i.cp * (i.T - (expand 1 1 1 1 1 (1 / 2) i).T) := by
  intro i
  have h : (expand 1 1 1 1 1 (1 / 2) i).T = 2 := by
    simp only [expand, i]
    rw [show ((1 : ℝ) * 1 / 1 * (1 / 4)) ^ ((1 / 2 : ℝ) / 1) = 1 / 2 by
      rw [show ((1 : ℝ) / 2) / 1 = 1 / 2 by norm_num, ← Real.sqrt_eq_rpow, show (1 : ℝ) * 1 / 1 * (1 / 4) = (1 / 2) ^ 2 by norm_num,
        Real.sqrt_sq (by norm_num)]]
    norm_num
  rw [h]
  norm_num [i]

/-- Without losses the nozzle is isentropic. -/
theorem C101_ideal_nozzle {pr Po Vo To R : ℝ} (i : Gas) (hPo : 0 < Po) :
    (expand 1 pr Po Vo To R i).T = i.T * ((expand 1 pr Po Vo To R i).P / i.P) ^ (R / i.cp) := by
  have h1 : (expand 1 pr Po Vo To R i).P = Po * pr := rfl
  have h2 : (expand 1 pr Po Vo To R i).T = i.T * (1 - 1 * (1 - ((Po * pr / Po) * (Po / i.P)) ^ (R / i.cp))) := rfl
  rw [h2, h1, div_mul_div_comm, show Po * pr * Po / (Po * i.P) = Po * pr / i.P by
    rw [mul_comm (Po * pr) Po]; exact mul_div_mul_left _ _ hPo.ne']
  ring

/-- Mach numbers are speeds over the local speed of sound, behind the burner and at the nozzle exit, and the
ratio of specific heats behind the burner belongs to the specific heat used there. -/
theorem C101_mach (s : Burner) {η pr Po Vo To R Tref : ℝ} (i : Gas) (hR : R ≠ 0) (hcp : i.cp * (145 / 100) ≠ R) :
    (0 < (burn s R Tref i).γ * R * (burn s R Tref i).T →
        (burn s R Tref i).M ^ 2 * ((burn s R Tref i).γ * R * (burn s R Tref i).T) = (burn s R Tref i).u ^ 2) ∧
      (burn s R Tref i).γ * R = (burn s R Tref i).cp * ((burn s R Tref i).γ - 1) ∧
      (0 < i.γ * R * (expand η pr Po Vo To R i).T →
        (expand η pr Po Vo To R i).M ^ 2 * (i.γ * R * (expand η pr Po Vo To R i).T) = (expand η pr Po Vo To R i).u ^ 2) := by
  have eM : (burn s R Tref i).M = (burn s R Tref i).u / Real.sqrt ((burn s R Tref i).γ * R * (burn s R Tref i).T) := rfl
  have eN : (expand η pr Po Vo To R i).M = (expand η pr Po Vo To R i).u / Real.sqrt (i.γ * R * (expand η pr Po Vo To R i).T) := rfl
  refine ⟨fun h => ?_, ?_, fun h => ?_⟩
  · rw [eM, div_pow, Real.sq_sqrt h.le, div_mul_cancel₀ _ h.ne']
  · have e1 : (burn s R Tref i).γ = (i.cp * (145 / 100) / R) / (i.cp * (145 / 100) / R - 1) := rfl
    have e2 : (burn s R Tref i).cp = i.cp * (145 / 100) := rfl
    rw [e1, e2]
    generalize i.cp * (145 / 100) = c at *
    have h1 : c - R ≠ 0 := sub_ne_zero.2 hcp
    rw [show c / R - 1 = (c - R) / R by field_simp]
    field_simp
    ring
  · rw [eN, div_pow, Real.sq_sqrt h.le, div_mul_cancel₀ _ h.ne']

/-! ## C102: stream thrust -/

/-- The thrust is the change of momentum plus the excess of exit pressure on the exit area, when the
area ratio is the nozzle's. -/
theorem C102_momentum {η pr : ℝ} (w : Stream) (s : ThrustSet) (i : Gas) {Po refT refP n : ℝ} (hPo : 0 < Po) (hpr : 0 < pr)
    (hu0 : 0 < w.u0) (ha0 : 0 < w.a0) (hT0 : 0 < w.T0)
    (hu : 0 < (expand η pr Po w.u0 w.T0 w.R i).u) :
    let e := expand η pr Po w.u0 w.T0 w.R i
    let t := streamThrust w s ⟨i.f, refT, refP, e.T, e.u, e.area, n⟩
    let m := t.mdot * n * w.throttle
    let A0 := m / (Po / (w.R * w.T0) * w.u0)
    t.thrust = (1 + i.f) * m * e.u - m * w.u0 + (e.P - Po) * (e.area * A0) := by
  intro e t m A0
  have ht : t.thrust = ((1 + i.f) * (e.u * (1 + w.R * e.T / e.u ^ 2)) - w.u0 * (1 + w.R * w.T0 / w.u0 ^ 2) - w.R * w.T0 / w.u0 * (e.area - 1)) / w.a0 *
      w.a0 * t.mdot * n * w.throttle := rfl
  have hA : e.area = (1 + i.f) * (Po / e.P) * (e.T / w.T0) * (w.u0 / e.u) := rfl
  have hP : e.P = Po * pr := rfl
  have hA0 : A0 = m / (Po / (w.R * w.T0) * w.u0) := rfl
  have hm : m = t.mdot * n * w.throttle := rfl
  have heP : 0 < e.P := by rw [hP]; positivity
  have hu' : 0 < e.u := hu
  rw [ht, hA0, hm, hA]
  clear_value e t
  field_simp
  ring

/-- Fuel burnt is the fuel to air ratio times the air that flows, as long as there is thrust. -/
theorem C102_fuel (w : Stream) (s : ThrustSet) (i : ThrustIn) (hg : w.g ≠ 0) (hfsp : (streamThrust w s i).fsp * w.a0 ≠ 0)
    (hpos : 0 ≤ i.f * ((streamThrust w s i).mdot * i.n * w.throttle)) :
    (streamThrust w s i).fuel = i.f * ((streamThrust w s i).mdot * i.n * w.throttle) := by
  have e1 : (streamThrust w s i).fuel = max ((streamThrust w s i).fsp * w.a0 * (streamThrust w s i).mdot * i.n * w.throttle *
      (i.f * w.g / ((streamThrust w s i).fsp * w.a0)) / w.g) 0 := rfl
  rw [e1]
  generalize (streamThrust w s i).fsp * w.a0 = F at *
  generalize (streamThrust w s i).mdot = m at *
  rw [show F * m * i.n * w.throttle * (i.f * w.g / F) / w.g = i.f * (m * i.n * w.throttle) by field_simp]
  exact max_eq_left hpos

/-- Specific impulse: thrust per weight of fuel. -/
theorem C102_isp (w : Stream) (s : ThrustSet) (i : ThrustIn) (hf : i.f ≠ 0) (hg : w.g ≠ 0) :
    (streamThrust w s i).thrust = (streamThrust w s i).isp * w.g * (i.f * ((streamThrust w s i).mdot * i.n * w.throttle)) := by
  have e1 : (streamThrust w s i).isp = (streamThrust w s i).fsp * w.a0 / (i.f * w.g) := rfl
  have e2 : (streamThrust w s i).thrust = (streamThrust w s i).fsp * w.a0 * (streamThrust w s i).mdot * i.n * w.throttle := rfl
  rw [e1, e2]
  field_simp

/-- After sizing, the engine makes the design thrust at the design condition. -/
theorem C102_design (net : Net) (w : Stream) (c : Cycle) (hthr : w.throttle = 1) (hn : net.n ≠ 0)
    (hT : 0 < c.Tt) (hP : 0 < c.Pt) (hTr : 0 < net.set.Tref) (hPr : 0 < net.set.Pref)
    (hF : ((net.size w c).evaluate w c).fsp * w.a0 ≠ 0) :
    ((net.size w c).evaluate w c).thrust = net.set.design := by
  have e1 : ((net.size w c).evaluate w c).thrust = ((net.size w c).evaluate w c).fsp * w.a0 * ((net.size w c).evaluate w c).mdot * net.n * w.throttle := rfl
  have e2 : ((net.size w c).evaluate w c).mdot = (net.set.design / (((net.size w c).evaluate w c).fsp * w.a0 * net.n * 1)) /
      (Real.sqrt (net.set.Tref / c.Tt) * (c.Pt / net.set.Pref)) * Real.sqrt (net.set.Tref / c.Tt) * (c.Pt / net.set.Pref) := rfl
  have hs : 0 < Real.sqrt (net.set.Tref / c.Tt) := Real.sqrt_pos.2 (div_pos hTr hT)
  rw [e1, e2, hthr]
  generalize ((net.size w c).evaluate w c).fsp * w.a0 = F at *
  generalize Real.sqrt (net.set.Tref / c.Tt) = S at *
  field_simp

/-- A cycle of the example with given stagnation values. -/
noncomputable def exCycle (Tt Pt : ℝ) : Cycle := ⟨1 / 10, ⟨1, 1, 4, 1, 1⟩, Tt, Pt⟩

/-- An engine of the example. -/
noncomputable def exNet : Net := ⟨⟨1, 1, 1, 1⟩, 1, 1, 1⟩

/-- A stream of the example. -/
noncomputable def exStream : Stream := ⟨1, 1, 1, 1, 1, 1⟩

/-- The example is sized for a thrust of one and gives it. -/
example : ((exNet.size exStream (exCycle 1 1)).evaluate exStream (exCycle 1 1)).thrust = 1 :=
  C102_design exNet exStream (exCycle 1 1) rfl (by norm_num [exNet]) (by norm_num [exCycle]) (by norm_num [exCycle]) (by norm_num [exNet])
    (by norm_num [exNet]) (by norm_num [Net.size, Net.evaluate, streamThrust, exNet, exStream, exCycle, sizeStream])

/-- But its air flow is frozen: at every later flight condition it is the one of the sizing condition. -/
theorem C102_frozen (net : Net) (w w' w'' : Stream) (c c' c'' : Cycle) :
    ((net.size w c).evaluate w' c').mdot = ((net.size w c).evaluate w'' c'').mdot := rfl

/-- So the air flow does not follow the stagnation state of the flight condition, as it does in the
other engines. -/
theorem C102_mass_flow_counterexample :
    ¬ ∀ (net : Net) (w w' : Stream) (c c' : Cycle), 0 < c.Tt → 0 < c.Pt → 0 < c'.Tt → 0 < c'.Pt → 0 < net.set.Tref → 0 < net.set.Pref →
      0 < ((net.size w c).evaluate w c).fsp → 0 < w.a0 → 0 < net.n → 0 < net.set.design →
      ((net.size w c).evaluate w' c').mdot = (net.size w c).set.mdhc * Real.sqrt (net.set.Tref / c'.Tt) * (c'.Pt / net.set.Pref) := by
  intro h
  have hf : ((exNet.size exStream (exCycle 1 1)).evaluate exStream (exCycle 1 1)).fsp = 107 / 40 := by
    norm_num [Net.size, Net.evaluate, streamThrust, exNet, exStream, exCycle, sizeStream]
  have h1 := h exNet exStream exStream (exCycle 1 1) (exCycle 1 2) (by norm_num [exCycle]) (by norm_num [exCycle]) (by norm_num [exCycle])
    (by norm_num [exCycle]) (by norm_num [exNet]) (by norm_num [exNet]) (by rw [hf]; norm_num) (by norm_num [exStream]) (by norm_num [exNet]) (by norm_num [exNet])
  norm_num [Net.size, Net.evaluate, streamThrust, exNet, exStream, exCycle, sizeStream] at h1

/-! ## C103: the ramjet nozzle -/

/-- Limits in the order the regimes need. -/
structure Ordered (L : Limits) : Prop where
  h1 : L.supMax ≤ L.supMin
  h2 : L.supMin < L.shock
  h3 : L.shock ≤ L.sub
  pos : 0 < L.supMax

/-- The exit pressure: ambient where the nozzle can match it, otherwise what the geometry allows, above
ambient when under-expanded and below when over-expanded. -/
theorem C103_pressure {L : Limits} (hL : Ordered L) {Po Pt : ℝ} (hPt : 0 < Pt) :
    (L.shock * Pt ≤ Po → exitPressure L Po Pt = Po) ∧
    (L.supMax * Pt ≤ Po → Po ≤ L.supMin * Pt → exitPressure L Po Pt = Po) ∧
    (L.supMin * Pt < Po → Po < L.shock * Pt → exitPressure L Po Pt = L.supMin * Pt ∧ exitPressure L Po Pt < Po) ∧
    (Po < L.supMax * Pt → exitPressure L Po Pt = L.supMax * Pt ∧ Po < exitPressure L Po Pt) := by
  obtain ⟨h1, h2, h3, hp⟩ := hL
  have hle : ∀ x : ℝ, x * Pt ≤ Po ↔ x ≤ Po / Pt := fun x => (le_div_iff₀ hPt).symm
  have hlt : ∀ x : ℝ, Po < x * Pt ↔ Po / Pt < x := fun x => (div_lt_iff₀ hPt).symm
  have hge : ∀ x : ℝ, Po ≤ x * Pt ↔ Po / Pt ≤ x := fun x => (div_le_iff₀ hPt).symm
  have hgt : ∀ x : ℝ, x * Pt < Po ↔ x < Po / Pt := fun x => (lt_div_iff₀ hPt).symm
  unfold exitPressure
  refine ⟨fun h => ?_, fun ha hb => ?_, fun ha hb => ?_, fun h => ?_⟩
  · rw [hle] at h
    simp only [if_neg (not_lt.2 (show L.supMax ≤ Po / Pt by linarith)), if_neg (show ¬ (Po / Pt ≤ L.supMin ∧ Po / Pt ≥ L.supMax) by intro hh; linarith [hh.1]),
      if_neg (show ¬ (Po / Pt < L.shock ∧ Po / Pt > L.supMin) by intro hh; linarith [hh.1])]
    by_cases hs : Po / Pt < L.sub
    · simp only [if_pos (show Po / Pt < L.sub ∧ Po / Pt ≥ L.shock from ⟨hs, h⟩)]
    · simp only [if_neg (show ¬ (Po / Pt < L.sub ∧ Po / Pt ≥ L.shock) from fun hh => hs hh.1), if_pos (show Po / Pt ≥ L.sub from not_lt.1 hs)]
  · rw [hle] at ha
    rw [hge] at hb
    simp only [if_neg (not_lt.2 ha), if_pos (show Po / Pt ≤ L.supMin ∧ Po / Pt ≥ L.supMax from ⟨hb, ha⟩)]
  · have ha' := ha
    rw [hgt] at ha'
    rw [hlt] at hb
    simp only [if_neg (not_lt.2 (show L.supMax ≤ Po / Pt by linarith)), if_neg (show ¬ (Po / Pt ≤ L.supMin ∧ Po / Pt ≥ L.supMax) by intro hh; linarith [hh.1]),
      if_pos (show Po / Pt < L.shock ∧ Po / Pt > L.supMin from ⟨hb, ha'⟩)]
    exact ⟨trivial, ha⟩
  · have h' := h
    rw [hlt] at h'
    simp only [if_pos h']
    exact ⟨trivial, h⟩

/-- Whatever the regime, exit pressure, temperature and Mach number belong to the stagnation values. -/
theorem C103_isentropic {L : Limits} {γ R Po Pt Tt : ℝ} (hγ : 1 < γ) (hTt : 0 < Tt) (hP : 0 < exitPressure L Po Pt) (hle : exitPressure L Po Pt ≤ Pt) :
    Isentropic γ (limited L γ R Po Pt Tt).M (limited L γ R Po Pt Tt).T (limited L γ R Po Pt Tt).P Tt Pt := by
  have hq : 1 ≤ Pt / exitPressure L Po Pt := (one_le_div hP).2 hle
  have e1 : (limited L γ R Po Pt Tt).M = machOf γ (Pt / exitPressure L Po Pt) := rfl
  have e2 : (limited L γ R Po Pt Tt).T = Tt / (1 + (γ - 1) / 2 * (limited L γ R Po Pt Tt).M * (limited L γ R Po Pt Tt).M) := rfl
  have e3 : (limited L γ R Po Pt Tt).P = exitPressure L Po Pt := rfl
  have hpow := pow_stag_machOf hγ hq
  rw [← e1] at hpow
  have hs := stag_ge_one hγ (limited L γ R Po Pt Tt).M
  rw [e2, e3]
  generalize (limited L γ R Po Pt Tt).M = M at *
  have h0 : (1 + (γ - 1) / 2 * M * M) ≠ 0 := by linarith
  refine ⟨?_, ?_⟩
  · rw [show Tt / (1 + (γ - 1) / 2 * M * M) + Tt / (1 + (γ - 1) / 2 * M * M) * (γ - 1) * M ^ 2 / 2
      = Tt / (1 + (γ - 1) / 2 * M * M) * (1 + (γ - 1) / 2 * M * M) by ring]
    rw [div_mul_cancel₀ _ h0]
  · rw [div_div_cancel₀ hTt.ne', hpow, mul_div_cancel₀ _ hP.ne']

/-- The exit velocity accounts for the drop from stagnation to static enthalpy. -/
theorem C103_velocity {L : Limits} {γ R Po Pt Tt : ℝ} (hγ : 1 < γ) (hR : 0 < R) (hTt : 0 < Tt) :
    γ * R / (γ - 1) * (limited L γ R Po Pt Tt).T + (limited L γ R Po Pt Tt).u ^ 2 / 2 = γ * R / (γ - 1) * Tt := by
  have e2 : (limited L γ R Po Pt Tt).T = Tt / (1 + (γ - 1) / 2 * (limited L γ R Po Pt Tt).M * (limited L γ R Po Pt Tt).M) := rfl
  have eu : (limited L γ R Po Pt Tt).u = (limited L γ R Po Pt Tt).M * Real.sqrt (γ * R * (limited L γ R Po Pt Tt).T) := rfl
  have hs : 0 < 1 + (γ - 1) / 2 * (limited L γ R Po Pt Tt).M * (limited L γ R Po Pt Tt).M :=
    lt_of_lt_of_le one_pos (stag_ge_one hγ (limited L γ R Po Pt Tt).M)
  have hT : 0 < (limited L γ R Po Pt Tt).T := by rw [e2]; exact div_pos hTt hs
  have hg : 0 < γ - 1 := by linarith
  rw [eu, mul_pow, Real.sq_sqrt (by positivity)]
  have e3 : Tt = (limited L γ R Po Pt Tt).T * (1 + (γ - 1) / 2 * (limited L γ R Po Pt Tt).M * (limited L γ R Po Pt Tt).M) := by
    rw [e2]; field_simp
  generalize (limited L γ R Po Pt Tt).T = T at *
  generalize (limited L γ R Po Pt Tt).M = M at *
  rw [e3]
  field_simp

/-- The area ratio reported is the one at which the exit carries the flow of the sonic throat. -/
theorem C103_area {L : Limits} {γ R Po Pt Tt : ℝ} (hγ : 1 < γ) (hM : 0 < (limited L γ R Po Pt Tt).M) :
    machAreaFun (limited L γ R Po Pt Tt).area γ (limited L γ R Po Pt Tt).M = 0 := by
  have e1 : (limited L γ R Po Pt Tt).area = 1 / fm (limited L γ R Po Pt Tt).M γ := rfl
  rw [e1]
  generalize (limited L γ R Po Pt Tt).M = M at *
  have k := Verif.Physics.Shock.k_pos hγ M
  have hg : 0 < γ + 1 := by linarith
  have hg1 : 0 < γ - 1 := by linarith
  have hb : 2 / (γ + 1) * (1 + (γ - 1) / 2 * M ^ 2) = (1 + (γ - 1) / 2 * M ^ 2) / ((γ + 1) / 2) := by field_simp
  simp only [machAreaFun, fm, Real.rpow_two]
  rw [hb, show (γ + 1) / (γ - 1) = (γ + 1) / (2 * (γ - 1)) * 2 by field_simp, Real.rpow_mul (by positivity), Real.rpow_two,
    Real.div_rpow k.le (by positivity), show (γ - 1) / 2 * M * M = (γ - 1) / 2 * M ^ 2 by ring]
  have h0 := Real.rpow_pos_of_pos k ((γ + 1) / (2 * (γ - 1)))
  have h1 := Real.rpow_pos_of_pos (show 0 < (γ + 1) / 2 by positivity) ((γ + 1) / (2 * (γ - 1)))
  generalize (1 + (γ - 1) / 2 * M ^ 2) ^ ((γ + 1) / (2 * (γ - 1))) = X at *
  generalize ((γ + 1) / 2) ^ ((γ + 1) / (2 * (γ - 1))) = Y at *
  field_simp
  ring

theorem machOf_mono {γ a b : ℝ} (hγ : 1 < γ) (ha : 0 ≤ a) (hab : a ≤ b) : machOf γ a ≤ machOf γ b := by
  apply Real.sqrt_le_sqrt
  have h1 : 0 < γ - 1 := by linarith
  have : a ^ ((γ - 1) / γ) ≤ b ^ ((γ - 1) / γ) := Real.rpow_le_rpow ha hab (div_nonneg h1.le (by linarith))
  apply div_le_div_of_nonneg_right _ h1.le
  linarith

theorem pr_pos {γ : ℝ} (hγ : 1 < γ) (M : ℝ) : 0 < prIsentropic γ M := by
  unfold prIsentropic
  rw [Real.rpow_two]
  exact Real.rpow_pos_of_pos (Verif.Physics.Shock.k_pos hγ M) _

theorem machOf_pr {γ M : ℝ} (hγ : 1 < γ) (hM : 0 ≤ M) : machOf γ (1 / prIsentropic γ M) = M := by
  have k := Verif.Physics.Shock.k_pos hγ M
  rw [prIsentropic, Real.rpow_two, neg_div, Real.rpow_neg k.le, one_div, inv_inv,
    show (γ - 1) / 2 * M ^ 2 = (γ - 1) / 2 * M * M by ring]
  exact machOf_pow hγ hM

/-- The exit Mach number in the regimes without an internal shock: at most the subsonic solution for
the mean area when the flow is subsonic, at least the supersonic solution for the smallest area when
it is supersonic.  Missing, because the code does not have it: a subsonic exit behind a shock inside
the nozzle. -/
theorem C103_mach_partial {γ R area Msub Msup Mmax Mmin Po Pt Tt : ℝ} (hγ : 1 < γ) (hPt : 0 < Pt)
    (hsub : 0 ≤ Msub) (hmin : 0 ≤ Mmin) (hL : Ordered (limitsOf γ area Msub Msup Mmax Mmin)) :
    (prIsentropic γ Msub * Pt ≤ Po → (limited (limitsOf γ area Msub Msup Mmax Mmin) γ R Po Pt Tt).M ≤ Msub) ∧
    (0 < Po → Po < shockRatio area γ Msup * Pt → Mmin ≤ (limited (limitsOf γ area Msub Msup Mmax Mmin) γ R Po Pt Tt).M) := by
  set L := limitsOf γ area Msub Msup Mmax Mmin with hLd
  have eM : (limited L γ R Po Pt Tt).M = machOf γ (Pt / exitPressure L Po Pt) := rfl
  have es : L.sub = prIsentropic γ Msub := rfl
  have em : L.supMin = prIsentropic γ Mmin := rfl
  have ek : L.shock = shockRatio area γ Msup := rfl
  obtain ⟨p1, p2, p3, p4⟩ := C103_pressure hL (Po := Po) hPt
  have q1 := pr_pos hγ Msub
  have q2 := pr_pos hγ Mmin
  rw [eM]
  constructor
  · intro h
    rw [← es] at h q1
    have hP : 0 < Po := lt_of_lt_of_le (mul_pos q1 hPt) h
    rw [p1 (le_trans (mul_le_mul_of_nonneg_right hL.h3 hPt.le) h)]
    rw [← machOf_pr hγ hsub, ← es]
    apply machOf_mono hγ (by positivity)
    rw [div_le_div_iff₀ hP q1]; linarith
  · intro hP h
    rw [← ek] at h
    rw [← em] at q2
    rw [← machOf_pr hγ hmin, ← em]
    have key : ∀ P : ℝ, 0 < P → P ≤ L.supMin * Pt → machOf γ (1 / L.supMin) ≤ machOf γ (Pt / P) := by
      intro P hP0 hP1
      apply machOf_mono hγ (by positivity)
      rw [div_le_div_iff₀ q2 hP0]; linarith
    by_cases h1 : L.supMin * Pt < Po
    · rw [(p3 h1 h).1]; exact key _ (mul_pos q2 hPt) (le_refl _)
    · by_cases h2 : L.supMax * Pt ≤ Po
      · rw [p2 h2 (not_lt.1 h1)]; exact key _ hP (not_lt.1 h1)
      · rw [(p4 (not_le.1 h2)).1]
        exact key _ (mul_pos hL.pos hPt) (mul_le_mul_of_nonneg_right hL.h1 hPt.le)

/-- The subsonic solution for area ratio √(27/2) and γ = 2. -/
noncomputable def subMach : ℝ := Real.sqrt (Real.sqrt (243 / 2) - 11)

theorem subMach_facts : 0 < Real.sqrt (243 / 2) - 11 ∧ Real.sqrt (243 / 2) - 11 < 1 ∧ subMach ^ 2 = Real.sqrt (243 / 2) - 11 ∧ 0 < subMach := by
  have h1 : (11 : ℝ) < Real.sqrt (243 / 2) := by rw [Real.lt_sqrt (by norm_num)]; norm_num
  have h2 : Real.sqrt (243 / 2) < 12 := by rw [Real.sqrt_lt' (by norm_num)]; norm_num
  exact ⟨by linarith, by linarith, Real.sq_sqrt (by linarith), Real.sqrt_pos.2 (by linarith)⟩

theorem pr_two (M : ℝ) : prIsentropic 2 M = ((1 + M ^ 2 / 2) ^ 2)⁻¹ := by
  rw [prIsentropic, Real.rpow_two, show (-2 : ℝ) / (2 - 1) = -(2 : ℕ) by norm_num, Real.rpow_neg (by positivity), Real.rpow_natCast]
  congr 2
  ring

theorem mach_area_two {a M : ℝ} : machAreaFun a 2 M = a ^ 2 - (1 / M) ^ 2 * (2 / 3 * (1 + M ^ 2 / 2)) ^ 3 := by
  rw [machAreaFun, Real.rpow_two, Real.rpow_two, Real.rpow_two, show ((2 : ℝ) + 1) / (2 - 1) = (3 : ℕ) by norm_num, Real.rpow_natCast]
  congr 3
  ring

theorem shock_two : shockRatio (Real.sqrt (27 / 2)) 2 4 = 7 / 27 := by
  have h1 : Verif.Physics.Shock.normalMach 2 4 = Real.sqrt (2 / 7) := by
    rw [Verif.Physics.Shock.normalMach]; norm_num
  have h2 : ((2 + 1 : ℝ) / 2) ^ ((2 + 1 : ℝ) / (2 * (2 - 1))) = Real.sqrt (27 / 8) := by
    rw [Real.sqrt_eq_rpow, show (27 / 8 : ℝ) = (3 / 2) ^ (3 : ℕ) by norm_num, ← Real.rpow_natCast, ← Real.rpow_mul (by norm_num)]
    norm_num
  simp only [shockRatio]
  rw [h1, h2, Real.rpow_two, Real.sq_sqrt (by norm_num), ← Real.sqrt_eq_rpow, ← Real.sqrt_mul (by norm_num), ← Real.sqrt_mul (by norm_num),
    ← Real.sqrt_mul (by norm_num), show (27 / 2 * (27 / 8) * (2 / 7) * (1 + (2 - 1) / 2 * (2 / 7)) : ℝ) = (27 / 7) ^ 2 by norm_num,
    Real.sqrt_sq (by norm_num)]
  norm_num

/-- Area ratio √(27/2): Mach 4 and `subMach` are the two solutions, and the limits are ordered. -/
theorem ordered_two : Ordered (limitsOf 2 (Real.sqrt (27 / 2)) subMach 4 4 4) := by
  obtain ⟨h0, h1, h2, h3⟩ := subMach_facts
  refine ⟨le_refl _, ?_, ?_, pr_pos (by norm_num) _⟩
  · change prIsentropic 2 4 < shockRatio (Real.sqrt (27 / 2)) 2 4
    rw [shock_two, pr_two]; norm_num
  · change shockRatio (Real.sqrt (27 / 2)) 2 4 ≤ prIsentropic 2 subMach
    rw [shock_two, pr_two, h2, le_inv_comm₀ (by norm_num) (by positivity)]
    nlinarith

/-- With a shock inside the nozzle the flow leaves it subsonic; the code computes a supersonic exit
here. -/
theorem C103_shock_counterexample :
    ¬ ∀ γ area Msub Msup Mmax Mmin R Po Pt Tt : ℝ, 1 < γ → 0 < Msub → Msub < 1 → 1 < Msup → 1 < Mmin → 1 < Mmax →
      machAreaFun area γ Msub = 0 → machAreaFun area γ Msup = 0 → Ordered (limitsOf γ area Msub Msup Mmax Mmin) → 0 < R → 0 < Tt → 0 < Pt →
      shockRatio area γ Msup * Pt ≤ Po → Po < prIsentropic γ Msub * Pt →
      (limited (limitsOf γ area Msub Msup Mmax Mmin) γ R Po Pt Tt).M ≤ 1 := by
  intro h
  obtain ⟨h0, h1, h2, h3⟩ := subMach_facts
  have hs : Real.sqrt (243 / 2) ^ 2 = 243 / 2 := Real.sq_sqrt (by norm_num)
  have h4 := h 2 (Real.sqrt (27 / 2)) subMach 4 4 4 1 1 3 1 (by norm_num) h3 (by nlinarith) (by norm_num) (by norm_num) (by norm_num)
    (by
      rw [mach_area_two, Real.sq_sqrt (by norm_num), div_pow, h2]
      generalize Real.sqrt (243 / 2) = q at *
      have : q - 11 ≠ 0 := h0.ne'
      field_simp
      ring_nf
      rw [show q ^ 3 = q * q ^ 2 by ring, hs]
      ring)
    (by rw [mach_area_two, Real.sq_sqrt (by norm_num)]; norm_num)
    ordered_two (by norm_num) (by norm_num) (by norm_num) (by rw [shock_two]; norm_num)
    (by
      rw [pr_two, h2, inv_mul_eq_div, lt_div_iff₀ (by positivity)]
      nlinarith)
  have hP := (C103_pressure ordered_two (Po := 1) (Pt := 3) (by norm_num)).1 (by
    change shockRatio (Real.sqrt (27 / 2)) 2 4 * 3 ≤ 1
    rw [shock_two]; norm_num)
  change machOf 2 (3 / exitPressure _ 1 3) ≤ 1 at h4
  rw [hP, show (3 / 1 : ℝ) = (Real.sqrt 3) ^ 2 by rw [Real.sq_sqrt (by norm_num)]; norm_num, machOf_two (Real.sqrt_nonneg 3),
    Real.sqrt_le_left (by norm_num)] at h4
  have : (1.7 : ℝ) < Real.sqrt 3 := by rw [Real.lt_sqrt (by norm_num)]; norm_num
  linarith


/-- **C101, no fuel and no shocks' losses.** In an inlet without losses the static pressure rises with the temperature as in an
isentropic compression, `P = P0 ψ^(cp/R)`; the nozzle's result is that of this gas after the burner. -/
theorem C101_inlet (s : Burner) (η pr : ℝ) (θs : List ℝ) (w : Stream) (γ cp P0 M0 Pt0 Tt0 : ℝ) :
    ∃ g : Gas, (cycle s η pr 1 θs w γ cp P0 M0 Pt0 Tt0).exit = expand η pr P0 w.u0 w.T0 w.R (burn s w.R w.T0 g)
      ∧ g.P = P0 * (shockTrain M0 γ θs).T ^ (cp / w.R) ∧ g.T = (scramInlet M0 w.T0 w.u0 γ cp θs).T
      ∧ g.u = (scramInlet M0 w.T0 w.u0 γ cp θs).u ∧ g.f = 0 ∧ g.Tt = Tt0 := by
  refine ⟨_, rfl, ?_, rfl, rfl, rfl, rfl⟩
  simp

end Verif.Energy.Scramjet
