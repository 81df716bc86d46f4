import Mathlib.Analysis.SpecialFunctions.Pow.Real

/-!
# V-n diagram

Models of parts of `trunk/SUAVE/Methods/Performance/V_n_diagram.py`: limit load factors, stall,
manoeuvre, cruise and dive speeds, the stall line, and the corner where the gust line meets the
manoeuvre boundary.  Real numbers stand for floats.  The lift-curve slope, the atmosphere, the gust
velocities, plots and files are not modelled; the assembly of the gust points is in
`Verif.Performance.Gust`.
-/

namespace Verif.Performance

/-- `category_tag` values for Part 23; `other` is anything else. -/
inductive Cat where
  | normal
  | commuter
  | utility
  | acrobatic
  | other
  deriving DecidableEq

/-- `FAR_part_number` and, for Part 23, the category; `other` is any other part number. -/
inductive Part where
  | far25 (cat : Cat)
  | far23 (cat : Cat)
  | other

/-- The estimate from weight in pounds (166, 187). -/
noncomputable def estimate (W : ℝ) : ℝ := 2.1 + 24000 / (W + 10000)

/-- The branches 166-174 and 187-195. -/
noncomputable def clampPos (est user : ℝ) : ℝ :=
  if est < 2.5 then 2.5
  else if est < user then user
  else if est > 3.8 then 3.8
  else est

/-- Lines 230-231. -/
noncomputable def finalNeg (neg user : ℝ) : ℝ := if |user| > |neg| then user else neg

/-- Limit load factors (163-231): positive and negative; `none` for the `ValueError`s. -/
noncomputable def limitLoads (p : Part) (W pos neg : ℝ) : Option (ℝ × ℝ) :=
  match p with
  | .far25 _ => some (clampPos (estimate W) pos, finalNeg (if neg > -1 then -1 else neg) neg)
  | .far23 c =>
    match c with
    | .normal => let n := clampPos (estimate W) pos; some (n, finalNeg (-0.4 * n) neg)
    | .commuter => let n := clampPos (estimate W) pos; some (n, finalNeg (-0.4 * n) neg)
    | .utility => let n := if pos < 4.4 then 4.4 else pos; some (n, finalNeg (-0.4 * n) neg)
    | .acrobatic => let n := if pos < 6.0 then 6.0 else pos; some (n, finalNeg (-0.5 * n) neg)
    | .other => none
  | .other => none

/-- `stall_maneuver_speeds` (485-486): stall speed for lift coefficient `CL`, true airspeed in ft/s. -/
noncomputable def stallSpeed (W rho S CL : ℝ) : ℝ := (2 * W / (rho * S * |CL|)) ^ (0.5 : ℝ)

/-- Manoeuvre speed, positive side (491). -/
noncomputable def manoeuvrePos (W rho S CL n : ℝ) : ℝ := stallSpeed W rho S CL * n ^ (0.5 : ℝ)

/-- Manoeuvre speed, negative side (492-493). -/
noncomputable def manoeuvreNeg (W rho S CL n : ℝ) : ℝ := (2 * W * |n| / (rho * S * |CL|)) ^ (0.5 : ℝ)

/-- `convert_keas` (984-991): `kt` is the number of ft/s in a knot, `sigma` the `density_ratio`. -/
noncomputable def keas (kt sigma v : ℝ) : ℝ := v / kt * sigma

/-- Cruise speed against the manoeuvre speeds (284-289). -/
noncomputable def raiseVc (Vc VaPos VaNeg : ℝ) : ℝ :=
  if VaNeg > Vc ∧ VaNeg > VaPos then 1.15 * VaNeg
  else if VaPos > Vc ∧ VaNeg < VaPos then 1.15 * VaPos
  else Vc

/-- Minimum cruise speed, Part 23 (326-333); `wl` is the wing loading in lb/ft². -/
noncomputable def minVc (c : Cat) (wl : ℝ) : ℝ :=
  match c with
  | .acrobatic => if wl ≥ 20 then (-0.0925 * wl + 37.85) * wl ^ (0.5 : ℝ) else 36 * wl ^ (0.5 : ℝ)
  | _ => if wl ≥ 20 then (-0.055 * wl + 34.1) * wl ^ (0.5 : ℝ) else 33 * wl ^ (0.5 : ℝ)

/-- Lines 337-339. -/
noncomputable def finalVc (Vc Vc1 : ℝ) : ℝ := if Vc1 > Vc then Vc1 else Vc

/-- Dive speed, Part 25 (343-344). -/
noncomputable def diveVd25 (Vc : ℝ) : ℝ := 1.25 * Vc

/-- Dive speed, Part 23, from the minimum cruise speed (346-357). -/
noncomputable def baseVd23 (c : Cat) (wl Vc1 : ℝ) : ℝ :=
  match c with
  | .acrobatic => if wl > 20 then (-0.0025 * wl + 1.6) * Vc1 else 1.55 * Vc1
  | .utility => if wl > 20 then (-0.001875 * wl + 1.5375) * Vc1 else 1.5 * Vc1
  | _ => if wl > 20 then (-0.000625 * wl + 1.4125) * Vc1 else 1.4 * Vc1

/-- Dive speed, Part 23 (345-361). -/
noncomputable def diveVd23 (c : Cat) (wl Vc Vc1 : ℝ) : ℝ :=
  if baseVd23 c wl Vc1 < 1.15 * Vc then 1.15 * Vc else baseVd23 c wl Vc1

/-- `nl` in `stall_line` (561-565): `positive` tells whether `load_factors[1] > 0`. -/
noncomputable def stallLoad (kt sigma W rho S CL : ℝ) (positive : Bool) (v : ℝ) : ℝ :=
  let vtas := v / sigma * kt
  if positive then 0.5 * rho * vtas ^ 2 * S * CL / W else -0.5 * rho * vtas ^ 2 * S * |CL| / W

/-- Insertion with `np.concatenate((a[:k], [x], a[k:]))`. -/
def insertAt {α : Type} (k : ℕ) (x : α) (a : List α) : List α := a.take k ++ [x] ++ a.drop k

/-- The loop of `stall_line` (558-567), for `i` from `i` on, `n` more points; `none` for an index
error. -/
noncomputable def stallLoop (load : ℝ → ℝ) (delta : ℝ) (lower : ℕ) : ℕ → ℕ → List ℝ → List ℝ → Option (List ℝ × List ℝ)
  | _, 0, v, n => some (v, n)
  | i, k + 1, v, n => do
    let a ← v[lower]?
    let v := insertAt (lower + i + 1) (a + (i + 1) * delta) v
    let x ← v[lower + i + 1]?
    stallLoop load delta lower (i + 1) k v (insertAt (lower + i + 1) (load x) n)

/-- `stall_line` (557-567): airspeeds and load factors with `num` points inserted. -/
noncomputable def stallLine (load : ℝ → ℝ) (upper lower num : ℕ) (v n : List ℝ) : Option (List ℝ × List ℝ) := do
  let b ← v[upper]?
  let a ← v[lower]?
  stallLoop load ((b - a) / (num + 1)) lower 0 num v n

/-- `gust_dive_speed_intersection` (813-825): airspeed and load factor of the corner.  `g2` and `g3`
are the gust load factors at `Vc` and `Vd`, `load` is `load_factors[element_num]`, `low` is
`min(load_factors)`. -/
noncomputable def corner (c : Cat) (positive : Bool) (load low g2 g3 Vc Vd : ℝ) : ℝ × ℝ :=
  if positive then ((load - g2) * (Vd - Vc) / (g3 - g2) + Vc, load)
  else if c = .acrobatic then
    let v := ((g3 + 1) * Vc + (low - g2) * Vd) / (g3 - g2 + low + 1)
    (v, (low + 1) / (Vc - Vd) * v - ((low + 1) / (Vc - Vd) * Vd + 1))
  else
    let v := (g3 * Vc + (low - g2) * Vd) / (g3 - g2 + low)
    (v, low * (v - Vd) / (Vc - Vd))

/-- The negative load factor at `Vd` (370-372). -/
noncomputable def negAtVd (c : Cat) : ℝ := if c = .acrobatic ∨ c = .utility then -1 else 0

end Verif.Performance
