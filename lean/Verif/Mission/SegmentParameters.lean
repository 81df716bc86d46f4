import Mathlib.Data.List.Basic

/-!
Parameters of the segments of a mission: the attributes every kind of segment has by default, and those its initialisation reads.

Source: trunk/SUAVE/Analyses/Mission/Segments (the `__defaults__` of every kind with those of its bases, Segment.py 52-62,
Aerodynamic.py) and the function set as `process.initialize.conditions`, in trunk/SUAVE/Methods/Missions/Segments.

Simplifications: attributes other than parameters of the flight (tag, state, process, analyses, conditions, features) are left out; so is
what the function reads of the state. The stored energy of a charging segment is read only where it is there and left out too, and so is
the temperature deviation that cruises at a Mach number or dynamic pressure read with the atmosphere (every kind has it). `none`
stands for an attribute error.
-/

namespace Verif.Mission.SegmentParameters

/-- A kind of segment: its name, its parameters with defaults, and the parameters its initialisation reads. -/
structure Kind where
  name : String
  params : List String
  reads : List String

/-- `Analyses/Mission/Segments/Climb/Constant_CAS_Constant_Rate.py`; `Methods/Missions/Segments/Climb/Constant_CAS_Constant_Rate.py` 21 ff. -/
def climbConstantCASConstantRate : Kind :=
  { name := "Climb.Constant_CAS_Constant_Rate"
    params := ["temperature_deviation", "altitude_start", "altitude_end", "true_course", "climb_rate", "calibrated_air_speed"]
    reads := ["climb_rate", "calibrated_air_speed", "altitude_start", "altitude_end"] }

/-- `Analyses/Mission/Segments/Climb/Constant_Dynamic_Pressure_Constant_Angle.py`; `Methods/Missions/Segments/Climb/Constant_Dynamic_Pressure_Constant_Angle.py` 18 ff. -/
def climbConstantDynamicPressureConstantAngle : Kind :=
  { name := "Climb.Constant_Dynamic_Pressure_Constant_Angle"
    params := ["temperature_deviation", "altitude_start", "altitude_end", "true_course", "climb_angle", "dynamic_pressure"]
    reads := ["climb_angle", "dynamic_pressure", "altitude_start", "altitude_end"] }

/-- `Analyses/Mission/Segments/Climb/Constant_Dynamic_Pressure_Constant_Rate.py`; `Methods/Missions/Segments/Climb/Constant_Dynamic_Pressure_Constant_Rate.py` 17 ff. -/
def climbConstantDynamicPressureConstantRate : Kind :=
  { name := "Climb.Constant_Dynamic_Pressure_Constant_Rate"
    params := ["temperature_deviation", "altitude_start", "altitude_end", "true_course", "climb_rate", "dynamic_pressure"]
    reads := ["climb_rate", "dynamic_pressure", "altitude_start", "altitude_end"] }

/-- `Analyses/Mission/Segments/Climb/Constant_EAS_Constant_Rate.py`; `Methods/Missions/Segments/Climb/Constant_EAS_Constant_Rate.py` 19 ff. -/
def climbConstantEASConstantRate : Kind :=
  { name := "Climb.Constant_EAS_Constant_Rate"
    params := ["temperature_deviation", "altitude_start", "altitude_end", "true_course", "climb_rate", "equivalent_air_speed"]
    reads := ["climb_rate", "equivalent_air_speed", "altitude_start", "altitude_end"] }

/-- `Analyses/Mission/Segments/Climb/Constant_Mach_Constant_Angle.py`; `Methods/Missions/Segments/Climb/Constant_Mach_Constant_Angle.py` 18 ff. -/
def climbConstantMachConstantAngle : Kind :=
  { name := "Climb.Constant_Mach_Constant_Angle"
    params := ["temperature_deviation", "altitude_start", "altitude_end", "true_course", "climb_angle", "mach"]
    reads := ["climb_angle", "mach", "altitude_start", "altitude_end"] }

/-- `Analyses/Mission/Segments/Climb/Constant_Mach_Constant_Rate.py`; `Methods/Missions/Segments/Climb/Constant_Mach_Constant_Rate.py` 17 ff. -/
def climbConstantMachConstantRate : Kind :=
  { name := "Climb.Constant_Mach_Constant_Rate"
    params := ["temperature_deviation", "altitude_start", "altitude_end", "true_course", "climb_rate", "mach_number"]
    reads := ["climb_rate", "mach_number", "altitude_start", "altitude_end"] }

/-- `Analyses/Mission/Segments/Climb/Constant_Mach_Linear_Altitude.py`; `Methods/Missions/Segments/Climb/Constant_Mach_Linear_Altitude.py` 18 ff. -/
def climbConstantMachLinearAltitude : Kind :=
  { name := "Climb.Constant_Mach_Linear_Altitude"
    params := ["temperature_deviation", "altitude_start", "altitude_end", "true_course", "mach", "distance"]
    reads := ["altitude_start", "altitude_end", "distance", "mach"] }

/-- `Analyses/Mission/Segments/Climb/Constant_Speed_Constant_Angle.py`; `Methods/Missions/Segments/Climb/Constant_Speed_Constant_Angle.py` 16 ff. -/
def climbConstantSpeedConstantAngle : Kind :=
  { name := "Climb.Constant_Speed_Constant_Angle"
    params := ["temperature_deviation", "altitude_start", "altitude_end", "true_course", "climb_angle", "air_speed"]
    reads := ["climb_angle", "air_speed", "altitude_start", "altitude_end"] }

/-- `Analyses/Mission/Segments/Climb/Constant_Speed_Constant_Angle_Noise.py`; `Methods/Missions/Segments/Climb/Constant_Speed_Constant_Angle_Noise.py` 62 ff. -/
def climbConstantSpeedConstantAngleNoise : Kind :=
  { name := "Climb.Constant_Speed_Constant_Angle_Noise"
    params := ["temperature_deviation", "altitude_start", "altitude_end", "true_course", "climb_angle", "air_speed"]
    reads := ["climb_angle", "air_speed"] }

/-- `Analyses/Mission/Segments/Climb/Constant_Speed_Constant_Rate.py`; `Methods/Missions/Segments/Climb/Constant_Speed_Constant_Rate.py` 16 ff. -/
def climbConstantSpeedConstantRate : Kind :=
  { name := "Climb.Constant_Speed_Constant_Rate"
    params := ["temperature_deviation", "altitude_start", "altitude_end", "true_course", "climb_rate", "air_speed"]
    reads := ["climb_rate", "air_speed", "altitude_start", "altitude_end"] }

/-- `Analyses/Mission/Segments/Climb/Constant_Speed_Linear_Altitude.py`; `Methods/Missions/Segments/Climb/Constant_Speed_Linear_Altitude.py` 13 ff. -/
def climbConstantSpeedLinearAltitude : Kind :=
  { name := "Climb.Constant_Speed_Linear_Altitude"
    params := ["temperature_deviation", "altitude_start", "altitude_end", "true_course", "air_speed", "distance"]
    reads := ["altitude_start", "altitude_end", "distance", "air_speed"] }

/-- `Analyses/Mission/Segments/Climb/Constant_Throttle_Constant_Speed.py`; `Methods/Missions/Segments/Climb/Constant_Throttle_Constant_Speed.py` 50 ff. -/
def climbConstantThrottleConstantSpeed : Kind :=
  { name := "Climb.Constant_Throttle_Constant_Speed"
    params := ["temperature_deviation", "altitude_start", "altitude_end", "throttle", "air_speed", "true_course"]
    reads := ["throttle", "air_speed", "altitude_start"] }

/-- `Analyses/Mission/Segments/Climb/Linear_Mach_Constant_Rate.py`; `Methods/Missions/Segments/Climb/Linear_Mach_Constant_Rate.py` 19 ff. -/
def climbLinearMachConstantRate : Kind :=
  { name := "Climb.Linear_Mach_Constant_Rate"
    params := ["temperature_deviation", "altitude_start", "altitude_end", "true_course", "climb_rate", "mach_end", "mach_start"]
    reads := ["climb_rate", "mach_start", "mach_end", "altitude_start", "altitude_end"] }

/-- `Analyses/Mission/Segments/Climb/Linear_Speed_Constant_Rate.py`; `Methods/Missions/Segments/Climb/Linear_Speed_Constant_Rate.py` 18 ff. -/
def climbLinearSpeedConstantRate : Kind :=
  { name := "Climb.Linear_Speed_Constant_Rate"
    params := ["temperature_deviation", "altitude_start", "altitude_end", "true_course", "climb_rate", "air_speed_start", "air_speed_end"]
    reads := ["climb_rate", "air_speed_start", "air_speed_end", "altitude_start", "altitude_end"] }

/-- `Analyses/Mission/Segments/Cruise/Constant_Acceleration_Constant_Altitude.py`; `Methods/Missions/Segments/Cruise/Constant_Acceleration_Constant_Altitude.py` 14 ff. -/
def cruiseConstantAccelerationConstantAltitude : Kind :=
  { name := "Cruise.Constant_Acceleration_Constant_Altitude"
    params := ["temperature_deviation", "altitude", "acceleration", "air_speed_start", "air_speed_end", "true_course"]
    reads := ["altitude", "air_speed_start", "air_speed_end", "acceleration"] }

/-- `Analyses/Mission/Segments/Cruise/Constant_Dynamic_Pressure_Constant_Altitude.py`; `Methods/Missions/Segments/Cruise/Constant_Dynamic_Pressure_Constant_Altitude.py` 20 ff. -/
def cruiseConstantDynamicPressureConstantAltitude : Kind :=
  { name := "Cruise.Constant_Dynamic_Pressure_Constant_Altitude"
    params := ["temperature_deviation", "altitude", "air_speed", "distance", "true_course", "dynamic_pressure"]
    reads := ["altitude", "distance", "dynamic_pressure"] }

/-- `Analyses/Mission/Segments/Cruise/Constant_Dynamic_Pressure_Constant_Altitude_Loiter.py`; `Methods/Missions/Segments/Cruise/Constant_Dynamic_Pressure_Constant_Altitude_Loiter.py` 20 ff. -/
def cruiseConstantDynamicPressureConstantAltitudeLoiter : Kind :=
  { name := "Cruise.Constant_Dynamic_Pressure_Constant_Altitude_Loiter"
    params := ["temperature_deviation", "altitude", "air_speed", "distance", "true_course", "dynamic_pressure", "time"]
    reads := ["altitude", "time", "dynamic_pressure"] }

/-- `Analyses/Mission/Segments/Cruise/Constant_Mach_Constant_Altitude.py`; `Methods/Missions/Segments/Cruise/Constant_Mach_Constant_Altitude.py` 20 ff. -/
def cruiseConstantMachConstantAltitude : Kind :=
  { name := "Cruise.Constant_Mach_Constant_Altitude"
    params := ["temperature_deviation", "altitude", "air_speed", "distance", "true_course", "mach"]
    reads := ["altitude", "distance", "mach"] }

/-- `Analyses/Mission/Segments/Cruise/Constant_Mach_Constant_Altitude_Loiter.py`; `Methods/Missions/Segments/Cruise/Constant_Mach_Constant_Altitude_Loiter.py` 20 ff. -/
def cruiseConstantMachConstantAltitudeLoiter : Kind :=
  { name := "Cruise.Constant_Mach_Constant_Altitude_Loiter"
    params := ["temperature_deviation", "altitude", "air_speed", "distance", "true_course", "mach", "time"]
    reads := ["altitude", "time", "mach"] }

/-- `Analyses/Mission/Segments/Cruise/Constant_Pitch_Rate_Constant_Altitude.py`; `Methods/Missions/Segments/Cruise/Constant_Pitch_Rate_Constant_Altitude.py` 20 ff. -/
def cruiseConstantPitchRateConstantAltitude : Kind :=
  { name := "Cruise.Constant_Pitch_Rate_Constant_Altitude"
    params := ["temperature_deviation", "altitude", "pitch_rate", "pitch_initial", "pitch_final", "true_course"]
    reads := ["altitude", "pitch_initial", "pitch_final", "pitch_rate"] }

/-- `Analyses/Mission/Segments/Cruise/Constant_Speed_Constant_Altitude.py`; `Methods/Missions/Segments/Cruise/Constant_Speed_Constant_Altitude.py` 13 ff. -/
def cruiseConstantSpeedConstantAltitude : Kind :=
  { name := "Cruise.Constant_Speed_Constant_Altitude"
    params := ["temperature_deviation", "altitude", "air_speed", "distance", "true_course"]
    reads := ["altitude", "distance", "air_speed"] }

/-- `Analyses/Mission/Segments/Cruise/Constant_Speed_Constant_Altitude_Loiter.py`; `Methods/Missions/Segments/Cruise/Constant_Speed_Constant_Altitude_Loiter.py` 19 ff. -/
def cruiseConstantSpeedConstantAltitudeLoiter : Kind :=
  { name := "Cruise.Constant_Speed_Constant_Altitude_Loiter"
    params := ["temperature_deviation", "altitude", "air_speed", "distance", "true_course", "time"]
    reads := ["altitude", "time", "air_speed"] }

/-- `Analyses/Mission/Segments/Cruise/Constant_Throttle_Constant_Altitude.py`; `Methods/Missions/Segments/Cruise/Constant_Throttle_Constant_Altitude.py` 73 ff. -/
def cruiseConstantThrottleConstantAltitude : Kind :=
  { name := "Cruise.Constant_Throttle_Constant_Altitude"
    params := ["temperature_deviation", "throttle", "altitude", "air_speed_start", "air_speed_end", "true_course"]
    reads := ["altitude", "air_speed_start", "air_speed_end", "throttle"] }

/-- `Analyses/Mission/Segments/Descent/Constant_CAS_Constant_Rate.py`; `Methods/Missions/Segments/Descent/Constant_CAS_Constant_Rate.py` 20 ff. -/
def descentConstantCASConstantRate : Kind :=
  { name := "Descent.Constant_CAS_Constant_Rate"
    params := ["temperature_deviation", "altitude_start", "altitude_end", "true_course", "descent_rate", "calibrated_airspeed"]
    reads := ["descent_rate", "calibrated_air_speed", "altitude_start", "altitude_end", "temperature_deviation"] }

/-- `Analyses/Mission/Segments/Descent/Constant_EAS_Constant_Rate.py`; `Methods/Missions/Segments/Descent/Constant_EAS_Constant_Rate.py` 19 ff. -/
def descentConstantEASConstantRate : Kind :=
  { name := "Descent.Constant_EAS_Constant_Rate"
    params := ["temperature_deviation", "altitude_start", "altitude_end", "true_course", "descent_rate", "equivalent_air_speed"]
    reads := ["descent_rate", "equivalent_air_speed", "altitude_start", "altitude_end"] }

/-- `Analyses/Mission/Segments/Descent/Constant_Speed_Constant_Angle.py`; `Methods/Missions/Segments/Descent/Constant_Speed_Constant_Angle.py` 18 ff. -/
def descentConstantSpeedConstantAngle : Kind :=
  { name := "Descent.Constant_Speed_Constant_Angle"
    params := ["temperature_deviation", "altitude_start", "altitude_end", "true_course", "descent_angle", "air_speed"]
    reads := ["descent_angle", "air_speed", "altitude_start", "altitude_end"] }

/-- `Analyses/Mission/Segments/Descent/Constant_Speed_Constant_Angle_Noise.py`; `Methods/Missions/Segments/Descent/Constant_Speed_Constant_Angle_Noise.py` 68 ff. -/
def descentConstantSpeedConstantAngleNoise : Kind :=
  { name := "Descent.Constant_Speed_Constant_Angle_Noise"
    params := ["temperature_deviation", "altitude_start", "altitude_end", "true_course", "descent_angle", "air_speed"]
    reads := ["descent_angle", "air_speed"] }

/-- `Analyses/Mission/Segments/Descent/Constant_Speed_Constant_Rate.py`; `Methods/Missions/Segments/Descent/Constant_Speed_Constant_Rate.py` 18 ff. -/
def descentConstantSpeedConstantRate : Kind :=
  { name := "Descent.Constant_Speed_Constant_Rate"
    params := ["temperature_deviation", "altitude_start", "altitude_end", "true_course", "descent_rate", "air_speed"]
    reads := ["descent_rate", "air_speed", "altitude_start", "altitude_end"] }

/-- `Analyses/Mission/Segments/Descent/Linear_Mach_Constant_Rate.py`; `Methods/Missions/Segments/Descent/Linear_Mach_Constant_Rate.py` 17 ff. -/
def descentLinearMachConstantRate : Kind :=
  { name := "Descent.Linear_Mach_Constant_Rate"
    params := ["temperature_deviation", "altitude_start", "altitude_end", "true_course", "descent_rate", "mach_end", "mach_start"]
    reads := ["descent_rate", "mach_start", "mach_end", "altitude_start", "altitude_end"] }

/-- `Analyses/Mission/Segments/Ground/Battery_Charge_Discharge.py`; `Methods/Missions/Segments/Ground/Battery_Charge_Discharge.py` 24 ff. -/
def groundBatteryChargeDischarge : Kind :=
  { name := "Ground.Battery_Charge_Discharge"
    params := ["temperature_deviation", "altitude", "time", "overcharge_contingency", "battery_discharge", "true_course"]
    reads := ["time", "battery_discharge"] }

/-- `Analyses/Mission/Segments/Ground/Ground.py`; `Methods/Missions/Segments/Ground/Common.py` 68 ff. -/
def groundGround : Kind :=
  { name := "Ground.Ground"
    params := ["temperature_deviation", "ground_incline", "friction_coefficient", "throttle", "velocity_start", "velocity_end", "altitude", "true_course"]
    reads := ["altitude", "velocity_start", "velocity_end", "throttle", "ground_incline", "friction_coefficient"] }

/-- `Analyses/Mission/Segments/Ground/Landing.py`; `Methods/Missions/Segments/Ground/Common.py` 68 ff. -/
def groundLanding : Kind :=
  { name := "Ground.Landing"
    params := ["temperature_deviation", "ground_incline", "friction_coefficient", "throttle", "velocity_start", "velocity_end", "altitude", "true_course"]
    reads := ["altitude", "velocity_start", "velocity_end", "throttle", "ground_incline", "friction_coefficient"] }

/-- `Analyses/Mission/Segments/Ground/Takeoff.py`; `Methods/Missions/Segments/Ground/Takeoff.py` 18-54, which begins with `Ground/Common.py` 68-131. -/
def groundTakeoff : Kind :=
  { name := "Ground.Takeoff"
    params := ["temperature_deviation", "ground_incline", "friction_coefficient", "throttle", "velocity_start", "velocity_end", "altitude", "true_course"]
    reads := ["altitude", "velocity_start", "velocity_end", "throttle", "ground_incline", "friction_coefficient"] }

/-- `Analyses/Mission/Segments/Hover/Climb.py`; `Methods/Missions/Segments/Hover/Climb.py` 12 ff. -/
def hoverClimb : Kind :=
  { name := "Hover.Climb"
    params := ["temperature_deviation", "altitude", "time", "true_course", "altitude_start", "altitude_end", "climb_rate"]
    reads := ["climb_rate", "altitude_start", "altitude_end"] }

/-- `Analyses/Mission/Segments/Hover/Descent.py`; `Methods/Missions/Segments/Hover/Descent.py` 12 ff. -/
def hoverDescent : Kind :=
  { name := "Hover.Descent"
    params := ["temperature_deviation", "altitude", "time", "true_course", "altitude_start", "altitude_end", "descent_rate"]
    reads := ["descent_rate", "altitude_start", "altitude_end"] }

/-- `Analyses/Mission/Segments/Hover/Hover.py`; `Methods/Missions/Segments/Hover/Hover.py` 13 ff. -/
def hoverHover : Kind :=
  { name := "Hover.Hover"
    params := ["temperature_deviation", "altitude", "time", "true_course"]
    reads := ["altitude", "time"] }

/-- `Analyses/Mission/Segments/Single_Point/Set_Speed_Set_Altitude.py`; `Methods/Missions/Segments/Single_Point/Set_Speed_Set_Altitude.py` 20 ff. -/
def singlePointSetSpeedSetAltitude : Kind :=
  { name := "Single_Point.Set_Speed_Set_Altitude"
    params := ["temperature_deviation", "altitude", "air_speed", "distance", "x_accel", "z_accel"]
    reads := ["altitude", "air_speed", "x_accel", "z_accel"] }

/-- `Analyses/Mission/Segments/Single_Point/Set_Speed_Set_Altitude_No_Propulsion.py`; `Methods/Missions/Segments/Single_Point/Set_Speed_Set_Altitude_No_Propulsion.py` 20 ff. -/
def singlePointSetSpeedSetAltitudeNoPropulsion : Kind :=
  { name := "Single_Point.Set_Speed_Set_Altitude_No_Propulsion"
    params := ["temperature_deviation", "altitude", "air_speed", "distance", "z_accel"]
    reads := ["altitude", "air_speed", "z_accel"] }

/-- `Analyses/Mission/Segments/Single_Point/Set_Speed_Set_Throttle.py`; `Methods/Missions/Segments/Single_Point/Set_Speed_Set_Throttle.py` 20 ff. -/
def singlePointSetSpeedSetThrottle : Kind :=
  { name := "Single_Point.Set_Speed_Set_Throttle"
    params := ["temperature_deviation", "altitude", "air_speed", "throttle", "z_accel"]
    reads := ["altitude", "air_speed", "throttle", "z_accel"] }

/-- `Analyses/Mission/Segments/Transition/Constant_Acceleration_Constant_Angle_Linear_Climb.py`; `Methods/Missions/Segments/Transition/Constant_Acceleration_Constant_Angle_Linear_Climb.py` 12 ff. -/
def transitionConstantAccelerationConstantAngleLinearClimb : Kind :=
  { name := "Transition.Constant_Acceleration_Constant_Angle_Linear_Climb"
    params := ["temperature_deviation", "altitude_start", "altitude_end", "air_speed", "climb_angle", "acceleration", "pitch_initial", "pitch_final", "true_course"]
    reads := ["altitude_start", "altitude_end", "climb_angle", "air_speed", "acceleration", "pitch_initial", "pitch_final"] }

/-- `Analyses/Mission/Segments/Transition/Constant_Acceleration_Constant_Pitchrate_Constant_Altitude.py`; `Methods/Missions/Segments/Transition/Constant_Acceleration_Constant_Pitchrate_Constant_Altitude.py` 12 ff. -/
def transitionConstantAccelerationConstantPitchrateConstantAltitude : Kind :=
  { name := "Transition.Constant_Acceleration_Constant_Pitchrate_Constant_Altitude"
    params := ["temperature_deviation", "altitude", "acceleration", "air_speed_start", "air_speed_end", "pitch_initial", "pitch_final", "true_course"]
    reads := ["altitude", "air_speed_start", "air_speed_end", "acceleration", "pitch_initial", "pitch_final"] }

/-- The kinds of segments that have a function of their own for the conditions. -/
def kinds : List Kind :=
  [climbConstantCASConstantRate, climbConstantDynamicPressureConstantAngle, climbConstantDynamicPressureConstantRate,
   climbConstantEASConstantRate, climbConstantMachConstantAngle, climbConstantMachConstantRate,
   climbConstantMachLinearAltitude, climbConstantSpeedConstantAngle, climbConstantSpeedConstantAngleNoise,
   climbConstantSpeedConstantRate, climbConstantSpeedLinearAltitude, climbConstantThrottleConstantSpeed,
   climbLinearMachConstantRate, climbLinearSpeedConstantRate, cruiseConstantAccelerationConstantAltitude,
   cruiseConstantDynamicPressureConstantAltitude, cruiseConstantDynamicPressureConstantAltitudeLoiter,
   cruiseConstantMachConstantAltitude, cruiseConstantMachConstantAltitudeLoiter, cruiseConstantPitchRateConstantAltitude,
   cruiseConstantSpeedConstantAltitude, cruiseConstantSpeedConstantAltitudeLoiter, cruiseConstantThrottleConstantAltitude,
   descentConstantCASConstantRate, descentConstantEASConstantRate, descentConstantSpeedConstantAngle,
   descentConstantSpeedConstantAngleNoise, descentConstantSpeedConstantRate, descentLinearMachConstantRate,
   groundBatteryChargeDischarge, groundGround, groundLanding, groundTakeoff, hoverClimb, hoverDescent, hoverHover,
   singlePointSetSpeedSetAltitude, singlePointSetSpeedSetAltitudeNoPropulsion, singlePointSetSpeedSetThrottle,
   transitionConstantAccelerationConstantAngleLinearClimb, transitionConstantAccelerationConstantPitchrateConstantAltitude]

/-- Initialisation: the values read, with `v` the values of the parameters, defaults or given by the user, and `added` the attributes the
user has added. -/
def initialise {V : Type} (k : Kind) (added : List String) (v : String → V) : Option (List V) :=
  k.reads.mapM fun r => if r ∈ k.params ∨ r ∈ added then some (v r) else none

end Verif.Mission.SegmentParameters
