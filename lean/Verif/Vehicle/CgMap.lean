import Mathlib.Data.Real.Basic

/-!
The map of centres of gravity.

Source: trunk/SUAVE/Methods/Center_of_Gravity/compute_fuel_center_of_gravity_longitudinal_range.py: `plot_cg_map` 13-91.

Simplifications: arrays row by row; of the figure the two lines and the units named at its axes. `none` stands for `NotImplementedError`.
-/

namespace Verif.Vehicle.CgMap

/-- A row: mass and limits of the centre of gravity. -/
@[ext] structure MapRow where
  mass : ℝ
  lo : ℝ
  hi : ℝ

/-- With the empty vehicle, if its mass is not zero (60-63). -/
noncomputable def withEmpty (e ecg : ℝ) (r : MapRow) : MapRow :=
  open Classical in
  if e ≠ 0 then ⟨r.mass + e, (r.lo * r.mass + ecg * e) / (r.mass + e), (r.hi * r.mass + ecg * e) / (r.mass + e)⟩ else r

/-- `l_str`, `m_str` (45-57); a special length other than inches leaves `l_str` unset. -/
def unitNames (units : String) (special : Option String) : Option (Option String × String) :=
  if units = "metric" then some (some "m", "kg")
  else if units = "imperial" then
    match special with
    | none => some (some "ft", "lb")
    | some "inches" => some (some "in", "lb")
    | some _ => some (none, "lb")
  else none

/-- The row as drawn (74-84); foot, inch and pound of trunk/SUAVE/Core/Units.py. -/
noncomputable def drawnRow (units : String) (special : Option String) (r : MapRow) : Option MapRow :=
  if units = "metric" then some r
  else if units = "imperial" ∧ special = none then some ⟨r.mass / 0.45359237, r.lo / 0.3048, r.hi / 0.3048⟩
  else if units = "imperial" ∧ special = some "inches" then some ⟨r.mass / 0.45359237, r.lo / 0.0254, r.hi / 0.0254⟩
  else none

/-- What comes of it: unit of length and of mass at the axes, rows drawn, rows handed back (91). -/
structure CgFigure where
  length : Option String
  mass : String
  drawn : List MapRow
  back : List MapRow

/-- `plot_cg_map`. -/
noncomputable def plotCgMap (rows : List MapRow) (e ecg : ℝ) (units : String) (special : Option String) : Option CgFigure := do
  let (l, m) ← unitNames units special
  let back := rows.map (withEmpty e ecg)
  let drawn ← back.mapM (drawnRow units special)
  return ⟨l, m, drawn, back⟩

end Verif.Vehicle.CgMap
