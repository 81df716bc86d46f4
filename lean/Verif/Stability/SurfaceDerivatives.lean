import Mathlib.Data.Real.Basic
import Mathlib.Data.List.Basic

/-!
Derivatives with respect to the deflections of control surfaces, and the differences of the propellers.

Source: trunk/SUAVE/Methods/Flight_Dynamics/Static_Stability/compute_aero_derivatives.py: `compute_aero_derivatives` 186-240,
`propeller_derivatives` 268-281.

Simplifications: one control point; the coefficients are given as functions of the deflection of one surface, the others being kept, which
is what the copy of the segment made for each surface (194) amounts to. The coefficients of thrust and power, divided like the others, are
left out of the record. `none` stands for a key error.
-/

namespace Verif.Stability.SurfaceDerivatives

/-- Coefficients of the vehicle. -/
structure Coefs where
  lift : ℝ
  drag : ℝ
  pitch : ℝ
  yaw : ℝ
  roll : ℝ

/-- A control surface: its key in the wing, its deflection (193), and the coefficients at any deflection of it. -/
structure Surface where
  key : String
  deflection : ℝ
  coefs : ℝ → Coefs

/-- The quotients of one surface (193-226): deflection plus 0.1; with a surrogate the differences of the moments are 0 (206-210). -/
noncomputable def quotients (surrogate : Bool) (s : Surface) : Coefs :=
  let plus := s.deflection + 1 / 10
  let d := plus - s.deflection
  let a := s.coefs s.deflection
  let b := s.coefs plus
  { lift := (b.lift - a.lift) / d
    drag := (b.drag - a.drag) / d
    pitch := (if surrogate then 0 else b.pitch - a.pitch) / d
    yaw := (if surrogate then 0 else b.yaw - a.yaw) / d
    roll := (if surrogate then 0 else b.roll - a.roll) / d }

/-- A dictionary. -/
abbrev Record := String → Option Coefs

/-- Writing under a key, replacing what was there (234-240). The five names `dCL_dDelta_` … with the key of the surface stand for one
entry. -/
def write (r : Record) (key : String) (v : Coefs) : Record := fun k => if k = key then some v else r k

/-- The loop over the surfaces of one wing (192-240). -/
noncomputable def wingLoop (surrogate : Bool) (r : Record) (cs : List Surface) : Record :=
  cs.foldl (fun r s => write r s.key (quotients surrogate s)) r

/-- The loop over the wings (189-240), wings without control surfaces being passed over (190). -/
noncomputable def record (surrogate : Bool) (wings : List (List Surface)) : Record :=
  wings.foldl (fun r cs => if cs.length ≠ 0 then wingLoop surrogate r cs else r) fun _ => none

/-- Thrust and power coefficients of a propeller. -/
structure PropCoefs where
  thrust : ℝ
  power : ℝ

/-- `propeller_derivatives` (268-281): in the order of the propellers, each with the perturbed one of the same key. -/
noncomputable def propellerDifferences (props perturbed : List (String × PropCoefs)) : Option (List PropCoefs) :=
  props.mapM fun kp => (perturbed.lookup kp.1).map fun q => ⟨q.thrust - kp.2.thrust, q.power - kp.2.power⟩

end Verif.Stability.SurfaceDerivatives
