import Verif.Num.Blend
import Verif.Energy.Electric
/-
Model of
`trunk/SUAVE/Components/Energy/Networks/Propulsor_Surrogate.py`,
`trunk/SUAVE/Components/Energy/Networks/Network.py`,
`trunk/SUAVE/Methods/Propulsion/electric_motor_sizing.py` and
`trunk/SUAVE/Methods/Propulsion/turbofan_emission_index.py`, one control point at a time.  A fitted regression is an arbitrary function
of altitude, Mach number and throttle; the optimizer is any answer that meets its constraints.
-/

namespace Verif.Energy.Deck

open Verif.Num

/-! ### Engine decks -/

/-- A built surrogate (Propulsor_Surrogate.py:153-250): the two regressions in scaled inputs, scales and anchors. -/
structure Deck where
  thr : ℝ → ℝ → ℝ → ℝ
  sfc : ℝ → ℝ → ℝ → ℝ
  altScale : ℝ
  thrScale : ℝ
  sfcScale : ℝ
  thrAnchor : ℝ
  sfcAnchor : ℝ
  engines : ℝ
  extended : Bool
  negative : Bool

/-- The anchor factor (236-246): one without an anchor, anchor over prediction otherwise. -/
noncomputable def anchorScale (anchor : Option ℝ) (predicted scale : ℝ) : ℝ :=
  match anchor with
  | none => 1
  | some a => a / (predicted * scale)

/-- `extended_thrust_surrogate` (252-312) at one point as a function of throttle, for the regression `f` along the throttle. -/
noncomputable def extThrust (f : ℝ → ℝ) (η : ℝ) : ℝ :=
  let lo := f 0
  let hi := f 1
  let d := hi - lo
  if η < 0 then lo + η * d
  else if η < 0.01 then (lo + η * d) * blend 0 0.01 η + f η * (1 - blend 0 0.01 η)
  else if η < 0.99 then f η
  else if η < 1 then f η * blend 0.99 1 η + (hi + (η - 1) * d) * (1 - blend 0.99 1 η)
  else hi + (η - 1) * d

/-- `extended_sfc_surrogate` (314-372). -/
noncomputable def extSfc (f : ℝ → ℝ) (η : ℝ) : ℝ :=
  if η < 0 then f 0
  else if η < 0.01 then f 0 * blend 0 0.01 η + f η * (1 - blend 0 0.01 η)
  else if η < 0.99 then f η
  else if η < 1 then f η * blend 0.99 1 η + f 1 * (1 - blend 0.99 1 η)
  else f 1

/-- Axial thrust and mass rate of `evaluate_thrust` (84-134); the thrust is then turned by the orientation of the engine (137-143). -/
noncomputable def Deck.evaluate (d : Deck) (h M η : ℝ) : ℝ × ℝ :=
  let x := h / d.altScale
  let thr := (if d.extended then extThrust (d.thr x M) η else d.thr x M η) * d.thrScale * d.thrAnchor
  let sfc := (if d.extended then extSfc (d.sfc x M) η else d.sfc x M η) * d.sfcScale * d.sfcAnchor
  let mdot := thr * sfc * d.engines
  if d.negative = false ∧ η ≤ 0 then (0, 0) else (thr, mdot)

/-! ### Sum over networks -/

/-- What one network returns (Network.py:143): thrust and mass rate, rotation if its results carry it, and the two rates of a network
with a second fuel. -/
structure NetOut where
  thrust : ℝ
  mass : ℝ
  rotation : Option ℝ
  extra : Option (ℝ × ℝ)

/-- A network: the flag `has_additional_fuel_type` (136-138) and its results. -/
structure Net where
  flag : Bool
  out : NetOut

/-- Accumulated results of the container. -/
structure Acc where
  thrust : ℝ
  mass : ℝ
  rotation : ℝ
  extra : Option (ℝ × ℝ)

/-- One turn of the loop (134-146): the extra entries are set to zero, then every entry present is added; `none` is the `KeyError` of
a missing entry. -/
def netStep (a : Acc) (n : Net) : Option Acc :=
  let extra := if n.flag then some (0, 0) else a.extra
  n.out.rotation.bind fun r =>
    match extra, n.out.extra with
    | none, _ => some ⟨a.thrust + n.out.thrust, a.mass + n.out.mass, a.rotation + r, none⟩
    | some _, none => none
    | some (x, y), some (x', y') => some ⟨a.thrust + n.out.thrust, a.mass + n.out.mass, a.rotation + r, some (x + x', y + y')⟩

/-- `Container.evaluate_thrust` (107-148). -/
def evaluateNets (ns : List Net) : Option Acc := ns.foldlM netStep ⟨0, 0, 0, none⟩

/-! ### Motors -/

/-- Coefficients `B_KV`, `B_RA`, `B_i0` (electric_motor_sizing.py:48-50, 86-88). -/
structure MotorFit where
  kv : ℝ
  ra : ℝ
  i0 : ℝ

/-- `size_from_kv` (22-62): resistance, no load current, mass. -/
noncomputable def sizeFromKv (b : MotorFit) (kv : ℝ) : ℝ × ℝ × ℝ :=
  let res := b.ra / kv ^ 2
  (res, b.i0 / res ^ (0.6 : ℝ), b.kv / kv)

/-- `size_from_mass` (65-100): resistance, no load current, speed constant. -/
noncomputable def sizeFromMass (b : MotorFit) (mass : ℝ) : ℝ × ℝ × ℝ :=
  let kv := b.kv / mass
  let res := b.ra / kv ^ 2
  (res, b.i0 / res ^ (0.6 : ℝ), kv)

/-- `hard_constraint_1` (212-213). -/
noncomputable def hard1 (kv res v ω η io : ℝ) : ℝ := η - (1 - io * res / (v - ω / kv)) * (ω / (v * kv))
/-- `hard_constraint_2` (216-217). -/
noncomputable def hard2 (kv res v ω Q io : ℝ) : ℝ := ((v - ω / kv) / res - io) / kv - Q

/-- `optimize_kv` (164-205) with the answers of the first two minimizations, `none` where they fail; the third one starts from a point
of one coordinate, for which the objective reads a second one: `IndexError`. -/
def optimizeKv (first second : Option (ℝ × ℝ)) : Option (ℝ × ℝ) := first <|> second

/-- The speed handed to the optimizer (145). -/
noncomputable def designSpeed (ωprop gear : ℝ) : ℝ := ωprop / gear

/-! ### Emissions -/

/-- Index of nitrogen oxides per kilogram of fuel (turbofan_emission_index.py:60, 66); pressures in psi, temperatures in Rankine. -/
noncomputable def noxIndex (T4 p3 T3 : ℝ) : ℝ := 0.004194 * T4 * (p3 / 439) ^ (0.37 : ℝ) * Real.exp ((T3 - 1471) / 345) * (1 / 1000)

/-- One row of `np.dot(I, mdot*index)` (69-72). -/
def emitted {n : ℕ} (I mdot index : Fin n → ℝ) : ℝ := ∑ j, I j * (mdot j * index j)

end Verif.Energy.Deck
