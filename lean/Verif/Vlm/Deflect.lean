import Verif.Vlm.Horseshoe

/-!
# Deflection of control surfaces

Model of `Fidelity_Zero/Lift/deflect_control_surface.py`.
-/

namespace Verif.Vlm

/-- `make_hinge_quaternion` followed by `rotate_points_with_quaternion` for one point
(lines 497-518 and 548-550): the matrix entries `q11 … q34` applied to `(x, y, z, 1)`; `o` is the
point on the line, `d` the direction, `th` the angle. -/
noncomputable def hingeRotate (o d : Vec3) (th : ℝ) (p : Vec3) : Vec3 :=
  let a := o.x; let b := o.y; let c := o.z
  let u := d.x; let v := d.y; let w := d.z
  let co := Real.cos th
  let si := Real.sin th
  ⟨(u ^ 2 + (v ^ 2 + w ^ 2) * co) * p.x + (u * v * (1 - co) - w * si) * p.y
      + (u * w * (1 - co) + v * si) * p.z
      + ((a * (v ^ 2 + w ^ 2) - u * (b * v + c * w)) * (1 - co) + (b * w - c * v) * si),
   (u * v * (1 - co) + w * si) * p.x + (v ^ 2 + (u ^ 2 + w ^ 2) * co) * p.y
      + (v * w * (1 - co) - u * si) * p.z
      + ((b * (u ^ 2 + w ^ 2) - v * (a * u + c * w)) * (1 - co) + (c * u - a * w) * si),
   (u * w * (1 - co) - v * si) * p.x + (v * w * (1 - co) + u * si) * p.y
      + (w ^ 2 + (u ^ 2 + v ^ 2) * co) * p.z
      + ((c * (u ^ 2 + v ^ 2) - w * (a * u + b * v)) * (1 - co) + (a * v - b * u) * si)⟩

/-- `flip_1` (lines 556-585) applied to the `y` and `z` of a point. -/
def flip1 (vertical : Bool) (inv : ℝ) (p : Vec3) : Vec3 :=
  if vertical then ⟨p.x, p.z * inv, p.y⟩ else p

/-- `flip_2` (lines 587-616). -/
def flip2 (vertical : Bool) (inv : ℝ) (p : Vec3) : Vec3 :=
  if vertical then ⟨p.x, p.z, p.y * inv⟩ else p

/-- The attributes of a deflectable surface.  `isCS` distinguishes control surfaces from all-moving
surfaces. -/
structure Surface where
  isCS : Bool
  constFraction : Bool
  hingeFraction : ℝ
  vertical : Bool
  inverted : ℝ
  slat : Bool
  signDuplicate : ℝ

/-- One side of the surface: the corners of its first strip and all further points. -/
structure Side where
  ibLE : Vec3
  ibTE : Vec3
  obLE : Vec3
  obTE : Vec3
  pts : List Vec3

/-- Apply a function to every point of a side. -/
def Side.map (f : Vec3 → Vec3) (s : Side) : Side :=
  ⟨f s.ibLE, f s.ibTE, f s.obLE, f s.obTE, s.pts.map f⟩

/-- Hinge point of a section (lines 358-365): `np.interp` over the three coordinates.  The hinge
fraction is taken to lie in `[0, 1]`. -/
def hingePoint (f : ℝ) (le te : Vec3) : Vec3 := le + Vec3.smul f (te - le)

/-- Direction from inboard to outboard hinge point (lines 377-386); for all-moving surfaces without
constant hinge fraction the `x` of the outboard point is that of the inboard one. -/
noncomputable def computedHinge (w : Surface) (s : Side) : Vec3 :=
  let ib := hingePoint w.hingeFraction s.ibLE s.ibTE
  let ob0 := hingePoint w.hingeFraction s.obLE s.obTE
  let ob : Vec3 := if w.isCS = false ∧ w.constFraction = false then ⟨ib.x, ob0.y, ob0.z⟩ else ob0
  Vec3.smul (1 / (ob - ib).norm) (ob - ib)

open Classical in
/-- The hinge vector used and stored (lines 367-392); `stored` is the present value of the attribute
`hinge_vector` of the surface. -/
noncomputable def hingeVector (w : Surface) (stored : Vec3) (s : Side) : Vec3 :=
  if w.isCS = false ∧ w.constFraction = false ∧ stored ≠ ⟨0, 0, 0⟩ then
    if w.vertical then ⟨stored.x, stored.z, stored.y⟩ else stored
  else computedHinge w s

/-- The angle of rotation (lines 396-401). -/
def deltaDeflection (w : Surface) (left : Bool) (dd : ℝ) : ℝ :=
  (if w.slat then -1 else 1) * (if left then -w.signDuplicate else 1) *
    (if w.vertical then -1 else 1) * dd

/-- `deflect_control_surface_strip` over all strips of one side (lines 271-467): the new points and
the stored hinge vector. -/
noncomputable def deflectSide (w : Surface) (stored : Vec3) (left : Bool) (dd : ℝ) (s : Side) :
    Side × Vec3 :=
  let f := s.map (flip1 w.vertical w.inverted)
  let o := hingePoint w.hingeFraction f.ibLE f.ibTE
  let d := hingeVector w stored f
  let r := f.map (hingeRotate o d (deltaDeflection w left dd))
  (r.map (flip2 w.vertical w.inverted), d)

/-- `deflect_control_surface` (lines 61-262) for a symmetric surface: first the right side, then the
left; the stored hinge vector passes from the first to the second. -/
noncomputable def deflectBoth (w : Surface) (stored : Vec3) (last target : ℝ) (right left : Side) :
    Side × Side × Vec3 :=
  let r := deflectSide w stored false (target - last) right
  let l := deflectSide w r.2 true (target - last) left
  (r.1, l.1, l.2)

end Verif.Vlm
