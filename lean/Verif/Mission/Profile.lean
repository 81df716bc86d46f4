import Verif.Mission.Chain
import Mathlib.Analysis.SpecialFunctions.Trigonometric.Arctan
import Mathlib.Analysis.SpecialFunctions.Sqrt
/-
Model of the prescribed motion of mission segments
(trunk/SUAVE/Methods/Missions/Segments/{Climb,Descent,Cruise,Hover,Transition}/*.py).

Simplifications
* A start altitude (or pitch) that is `None` has already been replaced by the last value of the
  previous segment; the functions below get the number.
* Exact real arithmetic; `np.sqrt` of a negative number (NaN) is 0 here, the theorems assume the
  argument non-negative.
* The atmosphere is a function of altitude (density `rho`, speed of sound `a`); the calibrated
  airspeed segments are covered only through `rateProfile` with an arbitrary speed column.
* `t` is the column of dimensionless control points.
-/

namespace Verif.Mission

variable {n : Nat}

/-- The columns written by the functions of this file. -/
structure Prof (n : Nat) where
  /-- `velocity_vector[:,0]` and `[:,2]` (down) -/
  vx : Col n
  vz : Col n
  /-- `position_vector[:,2]` (down) -/
  z : Col n
  /-- `freestream.altitude` -/
  alt : Col n

/-- `t_nondim * (b-a) + a`. -/
def ramp (t : Col n) (a b : ℝ) : Col n := fun i => t i * (b - a) + a

/-- The common end of all constant-rate segments: `v_x = sqrt(v_mag**2 - v_z**2)`, e.g.
Climb/Constant_Speed_Constant_Rate.py:57-68. -/
noncomputable def rateProfile (t vmag : Col n) (vz alt0 altf : ℝ) : Prof n where
  vx := fun i => Real.sqrt (vmag i ^ 2 - vz ^ 2)
  vz := fun _ => vz
  z := fun i => -ramp t alt0 altf i
  alt := ramp t alt0 altf

/-- Climb/Constant_Speed_Constant_Rate.py:57-68. -/
noncomputable def climbSpeedRate (t : Col n) (v rate alt0 altf : ℝ) : Prof n := rateProfile t (fun _ => v) (-rate) alt0 altf

/-- Climb/Linear_Speed_Constant_Rate.py:60-71. -/
noncomputable def climbLinearSpeed (t : Col n) (v0 vf rate alt0 altf : ℝ) : Prof n :=
  rateProfile t (fun i => (vf - v0) * t i + v0) (-rate) alt0 altf

/-- Climb/Constant_Mach_Constant_Rate.py:58-74. -/
noncomputable def climbMach (a : ℝ → ℝ) (t : Col n) (mach rate alt0 altf : ℝ) : Prof n :=
  rateProfile t (fun i => mach * a (ramp t alt0 altf i)) (-rate) alt0 altf

/-- Climb/Linear_Mach_Constant_Rate.py:61-78. -/
noncomputable def climbLinearMach (a : ℝ → ℝ) (t : Col n) (m0 mf rate alt0 altf : ℝ) : Prof n :=
  rateProfile t (fun i => ((mf - m0) * t i + m0) * a (ramp t alt0 altf i)) (-rate) alt0 altf

/-- Climb/Constant_EAS_Constant_Rate.py:59-78. -/
noncomputable def climbEas (rho : ℝ → ℝ) (t : Col n) (eas rate alt0 altf : ℝ) : Prof n :=
  rateProfile t (fun i => eas / Real.sqrt (rho (ramp t alt0 altf i) / rho 0)) (-rate) alt0 altf

/-- Climb/Constant_Dynamic_Pressure_Constant_Rate.py:53-73: the density is read (53-54) before the
altitude of the segment is stored (73), hence at the altitudes `old` the state had before. -/
noncomputable def climbDynPressure (rho : ℝ → ℝ) (old t : Col n) (q rate alt0 altf : ℝ) : Prof n :=
  rateProfile t (fun i => Real.sqrt (2 * q / rho (old i))) (-rate) alt0 altf

/-- Descent/Constant_Speed_Constant_Rate.py:58-69. -/
noncomputable def descentSpeedRate (t : Col n) (v rate alt0 altf : ℝ) : Prof n := rateProfile t (fun _ => v) rate alt0 altf

/-- Descent/Constant_EAS_Constant_Rate.py:59-78. -/
noncomputable def descentEas (rho : ℝ → ℝ) (t : Col n) (eas rate alt0 altf : ℝ) : Prof n :=
  rateProfile t (fun i => eas / Real.sqrt (rho (ramp t alt0 altf i) / rho 0)) rate alt0 altf

/-- Descent/Linear_Mach_Constant_Rate.py:61-80. -/
noncomputable def descentLinearMach (a : ℝ → ℝ) (t : Col n) (m0 mf rate alt0 altf : ℝ) : Prof n :=
  rateProfile t (fun i => ((mf - m0) * t i + m0) * a (ramp t alt0 altf i)) rate alt0 altf

/-- Climb/Constant_Speed_Constant_Angle.py:56-67. -/
noncomputable def climbAngle (t : Col n) (v angle alt0 altf : ℝ) : Prof n where
  vx := fun _ => v * Real.cos angle
  vz := fun _ => -v * Real.sin angle
  z := fun i => -ramp t alt0 altf i
  alt := ramp t alt0 altf

/-- Descent/Constant_Speed_Constant_Angle.py:58-69. -/
noncomputable def descentAngle (t : Col n) (v angle alt0 altf : ℝ) : Prof n where
  vx := fun _ => v * Real.cos (-angle)
  vz := fun _ => -v * Real.sin (-angle)
  z := fun i => -ramp t alt0 altf i
  alt := ramp t alt0 altf

/-- Climb/Constant_Speed_Linear_Altitude.py:50-62. -/
noncomputable def climbLinear (t : Col n) (v dist alt0 altf : ℝ) : Prof n where
  vx := fun _ => Real.cos (Real.arctan ((altf - alt0) / dist)) * v
  vz := fun _ => -(Real.sin (Real.arctan ((altf - alt0) / dist)) * v)
  z := fun i => -ramp t alt0 altf i
  alt := ramp t alt0 altf

/-- Climb/Constant_Mach_Linear_Altitude.py:58-79. -/
noncomputable def climbMachLinear (a : ℝ → ℝ) (t : Col n) (mach dist alt0 altf : ℝ) : Prof n where
  vx := fun i => Real.cos (Real.arctan ((altf - alt0) / dist)) * (mach * a (ramp t alt0 altf i))
  vz := fun i => -(Real.sin (Real.arctan ((altf - alt0) / dist)) * (mach * a (ramp t alt0 altf i)))
  z := fun i => -ramp t alt0 altf i
  alt := ramp t alt0 altf

/-- Climb/Constant_Dynamic_Pressure_Constant_Angle.py:72-86 at the altitudes `alts` (unknowns). -/
noncomputable def climbDynPressureAngle (rho : ℝ → ℝ) (alts : Col n) (q angle : ℝ) : Prof n where
  vx := fun i => Real.sqrt (2 * q / rho (alts i)) * Real.cos angle
  vz := fun i => -Real.sqrt (2 * q / rho (alts i)) * Real.sin angle
  z := fun i => -alts i
  alt := alts

/-- Climb/Optimized.py:110-131 `update_differentials`: time column (from the first row on) and altitude. -/
noncomputable def optimizedClimb (t : Col n) (I : Matrix (Fin (n + 2)) (Fin (n + 2)) ℝ) (alt0 altf : ℝ) (vz : Col n) (s : Traj n) : Traj n :=
  let dt := (altf - alt0) / I.mulVec (fun j => -vz j) (Fin.last (n + 1))
  { s with time := fun i => if i = 0 then s.time 0 else s.time 0 + t i * dt
           z := fun i => -((dt • I).mulVec (fun j => -vz j) i + alt0) }

/-- The segment as `update_differentials_altitude` (Climb/Common.py:106-122) times it. -/
noncomputable def Prof.timed (p : Prof n) (t : Col n) (I : Matrix (Fin (n + 2)) (Fin (n + 2)) ℝ) (t0 : ℝ) : Col n :=
  (altitudeTime t I p.vz { time := fun _ => t0, x := 0, y := 0, z := p.z, range := 0, mass := 0, lon := 0, lat := 0, energy := 0 }).time

/-- `numerics.time.integrate` (Common/Numerics.py:93-99). -/
def timeIntegrate (I : Matrix (Fin (n + 2)) (Fin (n + 2)) ℝ) (time : Col n) : Matrix (Fin (n + 2)) (Fin (n + 2)) ℝ :=
  (fin time - time 0) • I

/-! ### Cruise, hover -/

/-- A level segment: speed, altitude and time columns. -/
structure Level (n : Nat) where
  vx : Col n
  alt : Col n
  z : Col n
  time : Col n

/-- `t_nondim * (t_final-t_initial) + t_initial` with a `t_final` per row. -/
def rampTo (t : Col n) (t0 : ℝ) (tf : Col n) : Col n := fun i => t i * (tf i - t0) + t0

/-- Cruise/Constant_Speed_Constant_Altitude.py:49-58. -/
noncomputable def cruiseSpeed (t : Col n) (v dist alt t0 : ℝ) : Level n :=
  ⟨fun _ => v, fun _ => alt, fun _ => -alt, rampTo t t0 fun _ => dist / v + t0⟩

/-- Cruise/Constant_Mach_Constant_Altitude.py:54-73. -/
noncomputable def cruiseMach (a : ℝ → ℝ) (t : Col n) (mach dist alt t0 : ℝ) : Level n :=
  ⟨fun _ => mach * a alt, fun _ => alt, fun _ => -alt, rampTo t t0 fun _ => dist / (mach * a alt) + t0⟩

/-- Cruise/Constant_Dynamic_Pressure_Constant_Altitude.py:51-72: the density is read (51-52) at
the altitudes `old` the state had before. -/
noncomputable def cruiseDynPressure (rho : ℝ → ℝ) (old t : Col n) (q dist alt t0 : ℝ) : Level n :=
  let v : Col n := fun i => Real.sqrt (q / (rho (old i) * (1 / 2)))
  ⟨v, fun _ => alt, fun _ => -alt, rampTo t t0 fun i => dist / v i + t0⟩

/-- Cruise/Constant_Speed_Constant_Altitude_Loiter.py:55-64. -/
def loiterSpeed (t : Col n) (v duration alt t0 : ℝ) : Level n :=
  ⟨fun _ => v, fun _ => alt, fun _ => -alt, rampTo t t0 fun _ => duration + t0⟩

/-- Cruise/Constant_Mach_Constant_Altitude_Loiter.py:54-73. -/
def loiterMach (a : ℝ → ℝ) (t : Col n) (mach duration alt t0 : ℝ) : Level n :=
  ⟨fun _ => mach * a alt, fun _ => alt, fun _ => -alt, rampTo t t0 fun _ => duration + t0⟩

/-- Hover/Hover.py:50-58. -/
def hover (t : Col n) (duration alt t0 : ℝ) : Level n :=
  ⟨fun _ => 0, fun _ => alt, fun _ => -alt, fun i => t i * duration + t0⟩

/-- Hover/Climb.py:52-70: profile and time. -/
noncomputable def hoverClimb (t : Col n) (rate alt0 altf t0 : ℝ) : Prof n × Col n :=
  (⟨fun _ => 0, fun _ => -rate, fun i => -ramp t alt0 altf i, ramp t alt0 altf⟩,
    fun i => t0 + t i * ((altf - alt0) / rate))

/-- Hover/Descent.py:52-70. -/
noncomputable def hoverDescent (t : Col n) (rate alt0 altf t0 : ℝ) : Prof n × Col n :=
  (⟨fun _ => 0, fun _ => rate, fun i => -ramp t alt0 altf i, ramp t alt0 altf⟩,
    fun i => t0 + t i * ((alt0 - altf) / rate))

/-! ### Acceleration and pitch -/

/-- Cruise/Constant_Acceleration_Constant_Altitude.py:53-65. -/
noncomputable def accelerate (t : Col n) (v0 vf ax alt t0 : ℝ) : Level n :=
  let time := rampTo t t0 fun _ => (vf - v0) / ax + t0
  ⟨fun i => v0 + (time i - t0) * ax, fun _ => alt, fun _ => -alt, time⟩

/-- Cruise/Constant_Pitch_Rate_Constant_Altitude.py:64-76: time and body angle. -/
noncomputable def pitchRate (t : Col n) (T0 Tf rate t0 : ℝ) : Col n × Col n :=
  let time := rampTo t t0 fun _ => (Tf - T0) / rate + t0
  (time, fun i => rate * time i + T0)

/-- Transition/Constant_Acceleration_Constant_Pitchrate_Constant_Altitude.py:58-77: level motion
and body angle. -/
noncomputable def transitionLevel (t : Col n) (v0 vf ax T0 Tf alt t0 : ℝ) : Level n × Col n :=
  let tf := (vf - v0) / ax + t0
  let time := rampTo t t0 fun _ => tf
  (⟨fun i => v0 + (time i - t0) * ax, fun _ => alt, fun _ => -alt, time⟩,
    fun i => if Tf > T0 then T0 + time i * (Tf - T0) / (tf - t0) else T0 - time i * (T0 - Tf) / (tf - t0))

/-- Transition/Constant_Acceleration_Constant_Angle_Linear_Climb.py:74-105 for a given airspeed:
profile, elapsed time, final speed and body angle. -/
structure ClimbOut (n : Nat) where
  p : Prof n
  elapsed : ℝ
  vf : ℝ
  time : Col n
  pitch : Col n

/-- Lines 74-105.  Line 75 turns a given airspeed `v0` into the vector `(v0,0,0)`. -/
noncomputable def transitionClimb (t : Col n) (v0 ax angle T0 Tf alt0 altf t0 : ℝ) : ClimbOut n :=
  let ground := (altf - alt0) / Real.tan angle
  let dist := Real.sqrt ((altf - alt0) ^ 2 + ground ^ 2)
  let elapsed := (-|v0| + Real.sqrt (|v0| ^ 2 + 2 * ax * dist)) / ax
  let vf := |v0| + ax * elapsed
  let tf := t0 + elapsed
  let time : Col n := fun i => t i * (tf - t0)
  { p := { vx := fun i => t i * (vf - |v0|) * Real.cos angle + v0 * Real.cos angle
           vz := fun i => -(t i * (vf - |v0|) * Real.sin angle + 0 * Real.sin angle)
           z := fun i => -ramp t alt0 altf i
           alt := ramp t alt0 altf }
    elapsed := elapsed
    vf := vf
    time := time
    pitch := fun i => time i * (Tf - T0) / (tf - t0) + T0 }

/-- Cruise/Constant_Throttle_Constant_Altitude.py:52-64 `integrate_velocity`. -/
noncomputable def integrateVelocity (v0 : ℝ) (I : Matrix (Fin (n + 2)) (Fin (n + 2)) ℝ) (ax : Col n) : Col n :=
  fun i => v0 + I.mulVec ax i

/-- Lines 117-122 of Constant_Throttle_Constant_Altitude.py and 109-118 of Ground/Common.py: start
and end speeds are moved away from zero and from each other. -/
noncomputable def nudge (v0 vf : ℝ) : ℝ × ℝ :=
  let v0 := if v0 = 0 then 1 / 100 else v0
  let vf := if vf = 0 then 1 / 100 else vf
  (v0, if v0 = vf then vf + 1 / 100 else vf)

/-! ### Noise segments -/

/-- Descent/Constant_Speed_Constant_Angle_Noise.py:43-56: the number of control points. -/
noncomputable def noiseDescentPoints (v angle : ℝ) : ℤ := ⌈4000 / (v * Real.cos angle) / (1 / 2) + 1⌉

/-- Lines 101-121. -/
noncomputable def noiseDescent (t : Col n) (v angle : ℝ) (altf : ℝ) : Prof n :=
  descentAngle t v angle (2000 * Real.tan angle + altf + 2000 * Real.tan angle) altf

/-- Climb/Constant_Speed_Constant_Angle_Noise.py:88-112 with `n+2` control points. -/
noncomputable def noiseClimb (t : Col n) (v angle alt0 : ℝ) : Prof n :=
  climbAngle t v angle alt0 (alt0 + v * Real.sin angle * (1 / 2) * (n + 2))

/-! ### Residuals -/

/-- Climb/Common.py:75-80 (rows 0 and 1 of one control point). -/
noncomputable def climbResidual (F a : Fin 3 → ℝ) (m : ℝ) : ℝ × ℝ := (F 0 / m - a 0, F 2 / m - a 2)

/-- Cruise/Common.py:73-79. -/
noncomputable def cruiseResidual (F : Fin 3 → ℝ) (m : ℝ) : ℝ × ℝ := (Real.sqrt (F 0 ^ 2 + F 1 ^ 2) / m, F 2 / m)

/-- Hover/Common.py:61-64. -/
def hoverResidual (F : Fin 3 → ℝ) : ℝ := F 2

/-- Cruise/Constant_Pitch_Rate_Constant_Altitude.py:102-116: the second row is not divided by the
mass. -/
noncomputable def pitchRateResidual (F a : Fin 3 → ℝ) (m : ℝ) : ℝ × ℝ := (F 0 / m - a 0, F 2 - a 2)

/-- Cruise/Constant_Acceleration_Constant_Altitude.py:96-106. -/
noncomputable def accelerateResidual (F : Fin 3 → ℝ) (ax m : ℝ) : ℝ × ℝ := (F 0 / m - ax, F 2 / m)

/-- Ground/Common.py:161-178, one control point: normal and friction force from weight `W` (down
positive) and lift `L` (third inertial component). -/
def groundForces (W L mu : ℝ) : ℝ × ℝ :=
  let N := -(W + L)
  (N, N * mu)

end Verif.Mission
