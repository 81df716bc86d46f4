import Mathlib.Data.List.Basic

/-!
Steps of the aerodynamic analyses, as set by their defaults, and the settings their initialisation reads.

Source: trunk/SUAVE/Core/Data.py: `__new__` 165-174; trunk/SUAVE/Analyses/Aerodynamics/Fidelity_Zero.py: 61-145,
trunk/SUAVE/Analyses/Aerodynamics/Supersonic_Zero.py: 60-160, trunk/SUAVE/Analyses/Aerodynamics/AVL.py: 84-110,
trunk/SUAVE/Analyses/Aerodynamics/SU2_Euler.py: 81-108, trunk/SUAVE/Analyses/Aerodynamics/SU2_Euler_Super.py: 83-108,
trunk/SUAVE/Analyses/Aerodynamics/Supersonic_OpenVSP_Wave_Drag.py: 60-141, trunk/SUAVE/Analyses/Aerodynamics/Vortex_Lattice.py:
`initialize` 129; trunk/SUAVE/Methods/Aerodynamics/Common/Fidelity_Zero/Drag/__init__.py, `Lift/__init__.py`,
trunk/SUAVE/Methods/Aerodynamics/Supersonic_Zero/Drag/__init__.py, trunk/SUAVE/Methods/Aerodynamics/OpenVSP_Wave_Drag/__init__.py.

Simplifications: an assignment of the defaults is its place and the module and name of what is put there; classes constructed on the right
(`Process()`) are names without a module; of the packages the functions that occur in the analyses, and all of those of drag, are listed.
Assignments before the steps succeed.
-/

namespace Verif.Aero.Steps

/-- An assignment: place, module, name. -/
abbrev Step := String × String × String

/-- The steps of `Fidelity_Zero` (`Fidelity_Zero.py` 84-110), in order. -/
def fidelityZero : List Step :=
  [("lift", "", "Process"), ("lift.inviscid_wings", "", "Vortex_Lattice"),
   ("lift.vortex", "", "skip"), ("lift.fuselage", "Common.Lift", "fuselage_correction"),
   ("lift.total", "Common.Lift", "aircraft_total"), ("drag", "", "Process"),
   ("drag.parasite", "", "Process"), ("drag.parasite.wings", "", "Process_Geometry"),
   ("drag.parasite.wings.wing", "Common.Drag", "parasite_drag_wing"), ("drag.parasite.fuselages", "", "Process_Geometry"),
   ("drag.parasite.fuselages.fuselage", "Common.Drag", "parasite_drag_fuselage"), ("drag.parasite.nacelles", "", "Process_Geometry"),
   ("drag.parasite.nacelles.nacelle", "Common.Drag", "parasite_drag_nacelle"), ("drag.parasite.pylons", "Common.Drag", "parasite_drag_pylon"),
   ("drag.parasite.total", "Common.Drag", "parasite_total"), ("drag.induced", "Common.Drag", "induced_drag_aircraft"),
   ("drag.compressibility", "", "Process"), ("drag.compressibility.wings", "", "Process_Geometry"),
   ("drag.compressibility.wings.wing", "Common.Drag", "compressibility_drag_wing"), ("drag.compressibility.total", "Common.Drag", "compressibility_drag_wing_total"),
   ("drag.miscellaneous", "Common.Drag", "miscellaneous_drag_aircraft_ESDU"), ("drag.untrimmed", "Common.Drag", "untrimmed"),
   ("drag.trim", "Common.Drag", "trim"), ("drag.spoiler", "Common.Drag", "spoiler_drag"),
   ("drag.total", "Common.Drag", "total_aircraft")]

/-- The steps of `Supersonic_Zero` (`Supersonic_Zero.py` 106-128), in order. -/
def supersonicZero : List Step :=
  [("lift", "", "Process"), ("lift.inviscid_wings", "", "Vortex_Lattice"),
   ("lift.fuselage", "Common.Lift", "fuselage_correction"), ("lift.total", "Common.Lift", "aircraft_total"),
   ("drag", "", "Process"), ("drag.compressibility", "", "Process"),
   ("drag.compressibility.total", "Methods.Drag", "compressibility_drag_total"), ("drag.parasite", "", "Process"),
   ("drag.parasite.wings", "", "Process_Geometry"), ("drag.parasite.wings.wing", "Common.Drag", "parasite_drag_wing"),
   ("drag.parasite.fuselages", "", "Process_Geometry"), ("drag.parasite.fuselages.fuselage", "Methods.Drag", "parasite_drag_fuselage"),
   ("drag.parasite.nacelles", "", "Process_Geometry"), ("drag.parasite.nacelles.nacelle", "Methods.Drag", "parasite_drag_nacelle"),
   ("drag.parasite.total", "Common.Drag", "parasite_total"), ("drag.induced", "Common.Drag", "induced_drag_aircraft"),
   ("drag.miscellaneous", "Methods.Drag", "miscellaneous_drag_aircraft"), ("drag.untrimmed", "Common.Drag", "untrimmed"),
   ("drag.trim", "Common.Drag", "trim"), ("drag.spoiler", "Common.Drag", "spoiler_drag"),
   ("drag.total", "Common.Drag", "total_aircraft")]

/-- The steps of `AVL` (`AVL.py` 85-110), in order. -/
def avl : List Step :=
  [("lift", "", "Process"), ("lift.inviscid", "", "AVL_Inviscid"),
   ("lift.total", "Common.Lift", "aircraft_total"), ("drag", "", "Process"),
   ("drag.parasite", "", "Process"), ("drag.parasite.wings", "", "Process_Geometry"),
   ("drag.parasite.wings.wing", "Common.Drag", "parasite_drag_wing"), ("drag.parasite.fuselages", "", "Process_Geometry"),
   ("drag.parasite.fuselages.fuselage", "Common.Drag", "parasite_drag_fuselage"), ("drag.parasite.nacelles", "", "Process_Geometry"),
   ("drag.parasite.nacelles.nacelle", "Common.Drag", "parasite_drag_nacelle"), ("drag.parasite.pylons", "Common.Drag", "parasite_drag_pylon"),
   ("drag.parasite.total", "Common.Drag", "parasite_total"), ("drag.compressibility", "", "Process"),
   ("drag.compressibility.wings", "", "Process_Geometry"), ("drag.compressibility.wings.wing", "Common.Drag", "compressibility_drag_wing"),
   ("drag.compressibility.total", "Common.Drag", "compressibility_drag_wing_total"), ("drag.miscellaneous", "Common.Drag", "miscellaneous_drag_aircraft_ESDU"),
   ("drag.untrimmed", "Common.Drag", "untrimmed"), ("drag.trim", "Common.Drag", "trim"),
   ("drag.spoiler", "Common.Drag", "spoiler_drag"), ("drag.total", "Common.Drag", "total_aircraft")]

/-- The steps of `SU2_Euler` (`SU2_Euler.py` 82-108), in order. -/
def su2Euler : List Step :=
  [("lift", "", "Process"), ("lift.inviscid", "", "SU2_inviscid"),
   ("lift.total", "Common.Lift", "aircraft_total"), ("drag", "", "Process"),
   ("drag.parasite", "", "Process"), ("drag.parasite.wings", "", "Process_Geometry"),
   ("drag.parasite.wings.wing", "Common.Drag", "parasite_drag_wing"), ("drag.parasite.fuselages", "", "Process_Geometry"),
   ("drag.parasite.fuselages.fuselage", "Common.Drag", "parasite_drag_fuselage"), ("drag.parasite.nacelles", "", "Process_Geometry"),
   ("drag.parasite.nacelles.nacelle", "Common.Drag", "parasite_drag_nacelle"), ("drag.parasite.pylons", "Common.Drag", "parasite_drag_pylon"),
   ("drag.parasite.total", "Common.Drag", "parasite_total"), ("drag.induced", "Common.Drag", "induced_drag_aircraft"),
   ("drag.compressibility", "", "Process"), ("drag.compressibility.wings", "", "Process_Geometry"),
   ("drag.compressibility.wings.wing", "Common.Drag", "compressibility_drag_wing"), ("drag.compressibility.total", "Common.Drag", "compressibility_drag_wing_total"),
   ("drag.miscellaneous", "Common.Drag", "miscellaneous_drag_aircraft_ESDU"), ("drag.untrimmed", "Common.Drag", "untrimmed"),
   ("drag.trim", "Common.Drag", "trim"), ("drag.spoiler", "Common.Drag", "spoiler_drag"),
   ("drag.total", "Common.Drag", "total_aircraft")]

/-- The steps of `SU2_Euler_Super` (`SU2_Euler_Super.py` 84-108), in order. -/
def su2EulerSuper : List Step :=
  [("lift", "", "Process"), ("lift.inviscid", "", "SU2_inviscid_Super"),
   ("lift.total", "Common.Lift", "aircraft_total"), ("drag", "", "Process"),
   ("drag.compressibility", "", "Process"), ("drag.compressibility.total", "Methods.Drag", "compressibility_drag_total"),
   ("drag.parasite", "", "Process"), ("drag.parasite.wings", "", "Process_Geometry"),
   ("drag.parasite.wings.wing", "Common.Drag", "parasite_drag_wing"), ("drag.parasite.fuselages", "", "Process_Geometry"),
   ("drag.parasite.fuselages.fuselage", "Common.Drag", "parasite_drag_fuselage"), ("drag.parasite.nacelles", "", "Process_Geometry"),
   ("drag.parasite.nacelles.nacelle", "Methods.Drag", "parasite_drag_nacelle"), ("drag.parasite.total", "Common.Drag", "parasite_total"),
   ("drag.induced", "Common.Drag", "induced_drag_aircraft"), ("drag.miscellaneous", "Methods.Drag", "miscellaneous_drag_aircraft"),
   ("drag.untrimmed", "Common.Drag", "untrimmed"), ("drag.trim", "Common.Drag", "trim"),
   ("drag.spoiler", "Common.Drag", "spoiler_drag"), ("drag.total", "Common.Drag", "total_aircraft")]

/-- The steps of `Supersonic_OpenVSP_Wave_Drag` (`Supersonic_OpenVSP_Wave_Drag.py` 82-103), in order. -/
def openVspWaveDrag : List Step :=
  [("lift", "", "Process"), ("lift.inviscid_wings", "", "Vortex_Lattice"),
   ("lift.fuselage", "Common.Lift", "fuselage_correction"), ("lift.total", "Common.Lift", "aircraft_total"),
   ("drag", "", "Process"), ("drag.compressibility", "", "Process"),
   ("drag.compressibility.total", "VSP_Methods", "compressibility_drag_total"), ("drag.parasite", "", "Process"),
   ("drag.parasite.wings", "", "Process_Geometry"), ("drag.parasite.wings.wing", "Common.Drag", "parasite_drag_wing"),
   ("drag.parasite.fuselages", "", "Process_Geometry"), ("drag.parasite.fuselages.fuselage", "Common.Drag", "parasite_drag_fuselage"),
   ("drag.parasite.nacelles", "", "Process_Geometry"), ("drag.parasite.nacelles.nacelle", "Methods.Drag", "parasite_drag_nacelle"),
   ("drag.parasite.total", "Common.Drag", "parasite_total"), ("drag.induced", "Methods.Drag", "induced_drag_aircraft"),
   ("drag.miscellaneous", "Methods.Drag", "miscellaneous_drag_aircraft"), ("drag.untrimmed", "Common.Drag", "untrimmed"),
   ("drag.trim", "Common.Drag", "trim"), ("drag.total", "Methods.Drag", "total_aircraft")]

/-- The names there are: those imported by the modules of the analyses and by the packages of methods. -/
def supplied : String → List String
  | "" => ["Process", "Process_Geometry", "Vortex_Lattice", "AVL_Inviscid", "SU2_inviscid", "SU2_inviscid_Super", "skip"]
  | "Common.Lift" => ["aircraft_total", "fuselage_correction"]
  | "Common.Drag" => ["parasite_drag_wing", "parasite_drag_fuselage", "parasite_drag_nacelle", "parasite_drag_pylon", "parasite_total",
      "induced_drag_aircraft", "compressibility_drag_wing", "compressibility_drag_wing_total", "miscellaneous_drag_aircraft_ESDU", "trim",
      "spoiler_drag", "untrimmed", "total_aircraft"]
  | "Methods.Drag" => ["wave_drag_volume_raymer", "wave_drag_volume_sears_haack", "compressibility_drag_total", "parasite_drag_nacelle",
      "wave_drag_lift", "parasite_drag_fuselage", "miscellaneous_drag_aircraft"]
  | "VSP_Methods" => ["wave_drag_volume", "compressibility_drag_total"]
  | _ => []

/-- The right hand side of an assignment can be evaluated. -/
def resolves (names : String → List String) (s : Step) : Bool := (names s.2.1).contains s.2.2

/-- The places set by the defaults (`Data.__new__` 168-172): assignments are carried out until one raises an exception, which is dropped
together with the rest of the defaults. -/
def installed (names : String → List String) : List Step → List String
  | [] => []
  | s :: t => if resolves names s then s.1 :: installed names t else []

/-- Settings of `Fidelity_Zero` (62-79) with those of the bases. -/
def settingsFidelityZero : List String :=
  ["maximum_lift_coefficient_factor", "lift_to_drag_adjustment", "fuselage_lift_correction", "trim_drag_correction_factor",
   "wing_parasite_drag_form_factor", "fuselage_parasite_drag_form_factor", "oswald_efficiency_factor", "span_efficiency",
   "viscous_lift_dependent_drag_factor", "drag_coefficient_increment", "spoiler_drag_increment", "maximum_lift_coefficient",
   "number_spanwise_vortices", "number_chordwise_vortices", "use_surrogate", "recalculate_total_wetted_area", "propeller_wake_model",
   "discretize_control_surfaces", "model_fuselage", "model_nacelle"]

/-- Settings of `Supersonic_Zero` (61-100) with those of the bases. -/
def settingsSupersonicZero : List String :=
  ["maximum_lift_coefficient_factor", "lift_to_drag_adjustment", "fuselage_lift_correction", "trim_drag_correction_factor",
   "wing_parasite_drag_form_factor", "fuselage_parasite_drag_form_factor", "viscous_lift_dependent_drag_factor",
   "drag_coefficient_increment", "spoiler_drag_increment", "oswald_efficiency_factor", "span_efficiency", "maximum_lift_coefficient",
   "begin_drag_rise_mach_number", "end_drag_rise_mach_number", "transonic_drag_multiplier", "number_spanwise_vortices",
   "number_chordwise_vortices", "use_surrogate", "propeller_wake_model", "model_fuselage", "recalculate_total_wetted_area", "model_nacelle",
   "discretize_control_surfaces", "peak_mach_number", "cross_sectional_area_calculation_type", "wave_drag_type",
   "volume_wave_drag_scaling", "fuselage_parasite_drag_begin_blend_mach", "fuselage_parasite_drag_end_blend_mach"]

/-- Settings of `Supersonic_OpenVSP_Wave_Drag` (61-76) with those of the bases. -/
def settingsOpenVspWaveDrag : List String :=
  ["maximum_lift_coefficient_factor", "lift_to_drag_adjustment", "fuselage_lift_correction", "trim_drag_correction_factor",
   "wing_parasite_drag_form_factor", "fuselage_parasite_drag_form_factor", "aircraft_span_efficiency_factor", "span_efficiency",
   "viscous_lift_dependent_drag_factor", "drag_coefficient_increment", "oswald_efficiency_factor", "maximum_lift_coefficient",
   "number_slices", "number_rotations", "number_spanwise_vortices", "number_chordwise_vortices"]

/-- Parameters of `Vortex_Lattice.initialize` (129). -/
def vortexParameters : List String := ["use_surrogate", "n_sw", "n_cw", "propeller_wake_model", "mf", "mn", "dcs"]

/-- Settings read and passed on by `Fidelity_Zero.initialize` (136-145) and `Supersonic_Zero.initialize`. -/
def readsZero : List String :=
  ["use_surrogate", "propeller_wake_model", "number_spanwise_vortices", "number_chordwise_vortices", "model_fuselage", "model_nacelle",
   "discretize_control_surfaces"]

/-- Settings read and passed on by `Supersonic_OpenVSP_Wave_Drag.initialize` (133-141). -/
def readsOpenVsp : List String :=
  ["use_surrogate", "propeller_wake_model", "number_spanwise_vortices", "number_chordwise_vortices", "model_fuselage", "model_nacelle"]

/-- `initialize` comes to an end: every setting read is there, and as many are passed on as there are parameters. -/
def initialises (settings reads parameters : List String) : Bool :=
  reads.all (fun r => settings.contains r) && reads.length == parameters.length

/-- Settings of `AVL` (58-82) with those of the bases. -/
def settingsAvl : List String :=
  ["maximum_lift_coefficient_factor", "lift_to_drag_adjustment", "trim_drag_correction_factor", "wing_parasite_drag_form_factor",
   "fuselage_parasite_drag_form_factor", "oswald_efficiency_factor", "span_efficiency", "viscous_lift_dependent_drag_factor",
   "drag_coefficient_increment", "spoiler_drag_increment", "recalculate_total_wetted_area", "number_spanwise_vortices",
   "number_chordwise_vortices", "keep_files", "save_regression_results", "regression_flag", "trim_aircraft", "print_output",
   "maximum_lift_coefficient", "side_slip_angle", "roll_rate_coefficient", "pitch_rate_coefficient", "lift_coefficient"]

/-- Settings of `SU2_Euler` (62-78) and of `SU2_Euler_Super` (63-79), which are the same, with those of the bases. -/
def settingsSu2 : List String :=
  ["maximum_lift_coefficient_factor", "lift_to_drag_adjustment", "trim_drag_correction_factor", "wing_parasite_drag_form_factor",
   "fuselage_parasite_drag_form_factor", "oswald_efficiency_factor", "span_efficiency", "viscous_lift_dependent_drag_factor",
   "drag_coefficient_increment", "spoiler_drag_increment", "maximum_lift_coefficient", "half_mesh_flag", "parallel", "processors",
   "vsp_mesh_growth_ratio", "vsp_mesh_growth_limiting_flag", "recalculate_total_wetted_area"]

/-- The settings a step reads: `fuselage_correction.py` 38, `parasite_drag_wing.py` 68-69, `parasite_drag_fuselage.py` 51,
`induced_drag_aircraft.py` 73-75, `trim.py` 36, `spoiler_drag.py` 42, `total_aircraft.py` 43, 53; of the supersonic methods
`compressibility_drag_total.py` 64-77, `parasite_drag_fuselage.py` 54-56, `parasite_drag_nacelle.py` 52-53; `compressibility_drag_total.py`
59-60 of OpenVSP wave drag. -/
def readsOf : String → String → List String
  | "Common.Lift", "fuselage_correction" => ["fuselage_lift_correction"]
  | "Common.Drag", "parasite_drag_wing" => ["wing_parasite_drag_form_factor", "recalculate_total_wetted_area"]
  | "Common.Drag", "parasite_drag_fuselage" => ["fuselage_parasite_drag_form_factor"]
  | "Common.Drag", "induced_drag_aircraft" => ["viscous_lift_dependent_drag_factor", "oswald_efficiency_factor", "span_efficiency"]
  | "Common.Drag", "trim" => ["trim_drag_correction_factor"]
  | "Common.Drag", "spoiler_drag" => ["spoiler_drag_increment"]
  | "Common.Drag", "total_aircraft" => ["drag_coefficient_increment", "lift_to_drag_adjustment"]
  | "Methods.Drag", "compressibility_drag_total" => ["begin_drag_rise_mach_number", "end_drag_rise_mach_number", "peak_mach_number",
      "transonic_drag_multiplier", "volume_wave_drag_scaling", "wave_drag_type", "cross_sectional_area_calculation_type"]
  | "Methods.Drag", "parasite_drag_fuselage" => ["fuselage_parasite_drag_form_factor", "fuselage_parasite_drag_begin_blend_mach",
      "fuselage_parasite_drag_end_blend_mach"]
  | "Methods.Drag", "parasite_drag_nacelle" => ["begin_drag_rise_mach_number", "end_drag_rise_mach_number"]
  | "VSP_Methods", "compressibility_drag_total" => ["number_slices", "number_rotations"]
  | _, _ => []

/-- Where an evaluation stops for want of a setting, in a vehicle with a wing, a fuselage and a nacelle; `none` if nowhere
(`Process.evaluate`: one step after the other). -/
def stops (settings : List String) : List Step → Option String
  | [] => none
  | s :: t => if (readsOf s.2.1 s.2.2).all (fun r => settings.contains r) then stops settings t else some s.1

end Verif.Aero.Steps
