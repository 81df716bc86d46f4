import Mathlib.Data.Real.Basic

/-!
# Payload-range diagram

Model of `trunk/SUAVE/Methods/Performance/payload_range.py`.  The mission is a function of take-off
weight and cruise distance.  Printing, files, plots and the storage of the results as attributes of
the function itself are not modelled.  Real numbers stand for floats; `None` and `0` both count as
not given.
-/

namespace Verif.Performance

/-- `vehicle.mass_properties`: the weights read here, zero when not given. -/
structure Masses where
  oew : ℝ
  mzfw : ℝ
  mtow : ℝ
  maxPayload : ℝ
  maxFuel : ℝ

/-- The lists `TOW`, `FUEL`, `PLD` as points (take-off weight, fuel, payload). -/
structure Pt where
  tow : ℝ
  fuel : ℝ
  pld : ℝ

open Classical in
/-- `MaxPLD` (84-88). -/
noncomputable def maxPld (m : Masses) : ℝ := if m.maxPayload = 0 then m.mzfw - m.oew else min m.maxPayload (m.mzfw - m.oew)

open Classical in
/-- `MaxFuel` (90-94). -/
noncomputable def maxFuel (m : Masses) : ℝ := if m.maxFuel = 0 then m.mtow - m.oew else min m.maxFuel (m.mtow - m.oew)

open Classical in
/-- The three corner points (66-101); `none` where the function returns `True` because a weight is not
given. -/
noncomputable def corners (m : Masses) : Option (List Pt) :=
  if m.oew = 0 ∨ m.mzfw = 0 ∨ m.mtow = 0 then none
  else some [
    ⟨m.mtow, min (m.mtow - m.oew - maxPld m) (maxFuel m), maxPld m⟩,
    ⟨m.mtow, maxFuel m, m.mtow - maxFuel m - m.oew⟩,
    ⟨m.oew + maxFuel m, maxFuel m, 0⟩]

/-- The points reported: one more in front (169-172). -/
noncomputable def reported (m : Masses) : Option (List Pt) := (corners m).map fun l => ⟨0, 0, maxPld m⟩ :: l

/-- What is read from an evaluated mission: mass at the end, cruise distance and cruise fuel. -/
structure Flight where
  endMass : ℝ
  cruiseDist : ℝ
  cruiseFuel : ℝ

/-- The iteration on the cruise distance (129-158) for one point: `mission` evaluates the mission with
this take-off weight for a cruise distance, `k` iterations remain; the last flight and `err`. -/
noncomputable def iterate (mission : ℝ → Flight) (tow fuel reserves : ℝ) : ℕ → ℝ → Flight → Flight × ℝ
  | 0, err, r => (r, err)
  | k + 1, err, r =>
    if |err| > 1 then
      let missing := fuel - (tow - r.endMass) - reserves
      let r' := mission (r.cruiseDist + r.cruiseDist / r.cruiseFuel * missing)
      iterate mission tow fuel reserves k (tow - r'.endMass - fuel + reserves) r'
    else (r, err)

/-- The loop as started (119-158), from the cruise distance the mission has. -/
noncomputable def solvePoint (mission : ℝ → Flight) (tow fuel reserves d : ℝ) : Flight × ℝ :=
  iterate mission tow fuel reserves 10 9999 (mission d)

end Verif.Performance
