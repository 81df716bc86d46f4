import Verif.Mission.AngleClimb
import Verif.Mission.PointsProps
/-
Properties C326 and C327 of the model in `AngleClimb.lean`.
-/

namespace Verif.Mission

open Verif.Num

variable {n : Nat}

/-! ### C326 -/

/-- **C326**: a converged climb with a start altitude obeys the equations of motion and climbs from the start
to the end altitude along the given angle; at every point the speed is the prescribed function of the
altitude of that point, and the altitude is the start altitude plus the integral of the climb rate. -/
theorem C326_climb_partial {I : Matrix (Fin (n + 2)) (Fin (n + 2)) ℝ} (hI : specI n (chebNode n) = some I)
    (speed : ℝ → ℝ) (time : Col n) (angle alt0 altf : ℝ) (alts Fx Fz m ax az : Col n) (hm : ∀ i, m i ≠ 0)
    (hf : altf ≠ 0) (hv : fin (I.mulVec fun j => speed (alts j) * Real.sin angle) ≠ 0) (c : Climbed n)
    (hc : angleClimb speed I (chebNode n) time angle (some alt0) altf alts = some c)
    (hres : ∀ i, angleResidual Fx Fz m ax az alts c i = (0, 0, 0)) :
    c.alt 0 = alt0 ∧ fin c.alt = altf ∧
    ∀ i, Fx i = m i * ax i ∧ Fz i = m i * az i ∧
      c.vx i = speed (c.alt i) * Real.cos angle ∧ -c.vz i = speed (c.alt i) * Real.sin angle ∧
      c.vx i ^ 2 + c.vz i ^ 2 = speed (c.alt i) ^ 2 ∧
      c.alt i = alt0 + c.dt * I.mulVec (fun j => -c.vz j) i := by
  have hc' : c = ⟨fun i => speed (alts i) * Real.cos angle, fun i => -speed (alts i) * Real.sin angle,
      (optDifferentials I (chebNode n) (fun i => -speed (alts i) * Real.sin angle) time alt0 altf).2.1,
      (optDifferentials I (chebNode n) (fun i => -speed (alts i) * Real.sin angle) time alt0 altf).1⟩ := by
    simpa [angleClimb] using hc.symm
  have hneg : (fun j => -(-speed (alts j) * Real.sin angle)) = fun j => speed (alts j) * Real.sin angle := by
    funext j; ring
  obtain ⟨h0, h1, -, -, -⟩ := C255_altitudes hI (fun i => -speed (alts i) * Real.sin angle) time alt0 altf
    (by rw [hneg]; exact hv)
  have ha0 : c.alt 0 = alt0 := by rw [hc']; exact h0
  have haf : fin c.alt = altf := by rw [hc']; exact h1
  have halt : ∀ i, alts i = c.alt i := by
    intro i
    have := congrArg (fun p => p.2.2) (hres i)
    simp only [angleResidual] at this
    rw [haf, div_eq_zero_iff] at this
    rcases this with h | h
    · linarith
    · exact absurd h hf
  refine ⟨ha0, haf, fun i => ?_⟩
  have hx := congrArg (fun p => p.1) (hres i)
  have hz := congrArg (fun p => p.2.1) (hres i)
  simp only [angleResidual] at hx hz
  have hmi := hm i
  have e1 : c.vx i = speed (c.alt i) * Real.cos angle := by rw [← halt i, hc']
  have e2 : -c.vz i = speed (c.alt i) * Real.sin angle := by rw [← halt i, hc']; ring
  refine ⟨?_, ?_, e1, e2, ?_, ?_⟩
  · have : Fx i / m i = ax i := by linarith
    rw [← this]; field_simp
  · have : Fz i / m i = az i := by linarith
    rw [← this]; field_simp
  · have : c.vz i ^ 2 = (speed (c.alt i) * Real.sin angle) ^ 2 := by rw [← e2]; ring
    rw [e1, this]
    linear_combination speed (c.alt i) ^ 2 * Real.sin_sq_add_cos_sq angle
  · rw [hc']
    simp only [optDifferentials, Matrix.smul_mulVec, Pi.smul_apply, smul_eq_mul]
    ring

/-- **C326**: the two climbs: the Mach number or the dynamic pressure at the altitude reached is the one
asked for. -/
theorem C326_law (mach q : ℝ) (a rho : ℝ → ℝ) (alt : ℝ) (ha : 0 < a alt) (hr : 0 < rho alt) (hq : 0 ≤ q) :
    machSpeed mach a alt / a alt = mach ∧ rho alt * pressureSpeed q rho alt ^ 2 / 2 = q := by
  refine ⟨by unfold machSpeed; field_simp, ?_⟩
  unfold pressureSpeed
  rw [Real.sq_sqrt (by positivity)]
  field_simp

/-- **C326**, refuted: without a start altitude the climb does not take that of the previous segment: it
fails. -/
theorem C326_start_counterexample (speed : ℝ → ℝ) (I : Matrix (Fin (n + 2)) (Fin (n + 2)) ℝ) (x time : Col n)
    (angle altf : ℝ) (alts : Col n) : angleClimb speed I x time angle none altf alts = none := rfl

/-- A climb to 10 km at 300 m/s sound speed: the altitudes of the uniform climb have no residual. -/
example {I : Matrix (Fin (n + 2)) (Fin (n + 2)) ℝ} (hI : specI n (chebNode n) = some I) (time : Col n) :
    ∃ c, angleClimb (machSpeed 0.5 fun _ => 300) I (chebNode n) time (Real.pi / 6) (some 0) 10000
        (fun i => chebNode n i * 10000) = some c ∧
      ∀ i, angleResidual (fun _ => 0) (fun _ => 0) (fun _ => 1) (fun _ => 0) (fun _ => 0)
        (fun i => chebNode n i * 10000) c i = (0, 0, 0) := by
  refine ⟨_, rfl, fun i => ?_⟩
  have hvz : (fun i : Fin (n + 2) => -machSpeed 0.5 (fun _ => 300) (chebNode n i * 10000) * Real.sin (Real.pi / 6)) =
      fun _ => -75 := by
    funext i; rw [Real.sin_pi_div_six]; norm_num [machSpeed]
  obtain ⟨-, h⟩ := C255_steady hI time 75 0 10000 (by norm_num) i
  simp only [angleResidual, hvz]
  rw [h]; norm_num

/-! ### C327 -/

/-- **C327**: a segment that gives an energy starts with that energy, a state of charge of the energy over the
aged capacity, the temperature given or that of the air at its first altitude, and a fresh battery where
nothing is said about its age; a segment that gives none keeps what was there. -/
theorem C327_initial_partial (air : ℝ → ℝ → ℝ) (alt0 maxEnergy : ℝ) (old c : BatCond) (s : BatSeg) (dev : ℝ)
    (hd : s.deviation = some dev) (hc : initialBattery air alt0 maxEnergy old s = some c) :
    (∀ t, s.packTemp = some t → c.temp = t) ∧ (s.packTemp = none → c.temp = air alt0 dev) ∧
    (s.energy = none → c.energy = old.energy ∧ c.soc = old.soc ∧ c.fade = old.fade ∧ c.growth = old.growth ∧
      c.throughput = old.throughput) ∧
    (∀ e, s.energy = some e → c.energy = e ∧ c.maxInitial = e ∧ (c.maxAged ≠ 0 → c.soc * c.maxAged = c.energy) ∧
      (s.growth = none → c.growth = 1) ∧ (s.fade = none → c.fade = 1) ∧ (s.throughput = none → c.throughput = 0)) := by
  unfold initialBattery at hc
  rw [hd] at hc
  cases he : s.energy with
  | none =>
    simp only [he, Option.map_some, Option.some.injEq] at hc
    subst hc
    exact ⟨fun t ht => by simp [ht], fun ht => by simp [ht], fun _ => by simp, by simp⟩
  | some e =>
    simp only [he, Option.map_some, Option.some.injEq] at hc
    subst hc
    refine ⟨fun t ht => by simp [ht], fun ht => by simp [ht], by simp, ?_⟩
    intro e' he'
    have : e = e' := by simpa using he'
    subst this
    exact ⟨rfl, rfl, fun h => div_mul_cancel₀ _ h, fun h => by simp [h], fun h => by simp [h], fun h => by simp [h]⟩

/-- **C327**, refuted: without a temperature deviation the conditions are not set at all. -/
theorem C327_deviation_counterexample (air : ℝ → ℝ → ℝ) (alt0 maxEnergy : ℝ) (old : BatCond) (s : BatSeg)
    (h : s.deviation = none) : initialBattery air alt0 maxEnergy old s = none := by
  unfold initialBattery; rw [h]; rfl

/-- **C327**, refuted: a battery is charged beyond full without complaint when the energy given exceeds its
capacity. -/
theorem C327_overfull_counterexample (air : ℝ → ℝ → ℝ) (alt0 maxEnergy e : ℝ) (old : BatCond) (h0 : 0 < maxEnergy)
    (he : maxEnergy < e) :
    ∃ c, initialBattery air alt0 maxEnergy old ⟨some 0, none, none, some e, none, none, none, none⟩ = some c ∧
      1 < c.soc := by
  refine ⟨_, rfl, ?_⟩
  show 1 < e / maxEnergy
  rwa [one_lt_div h0]

/-- A segment with half of 100 J. -/
example : ∃ c, initialBattery (fun _ _ => 288) 0 100 ⟨0, 0, 0, 0, 0, 0, 0, 0, 0⟩
    ⟨some 0, none, none, some 50, none, none, none, none⟩ = some c ∧ c.soc = 1 / 2 := by
  refine ⟨_, rfl, ?_⟩
  show (50 : ℝ) / 100 = 1 / 2
  norm_num

end Verif.Mission
