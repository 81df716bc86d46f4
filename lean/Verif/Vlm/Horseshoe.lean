import Mathlib.Analysis.SpecialFunctions.Trigonometric.Basic
import Mathlib.Analysis.SpecialFunctions.Complex.Arg

/-!
# Horseshoe vortices of the vortex lattice

Model of `trunk/SUAVE/Methods/Aerodynamics/Common/Fidelity_Zero/Lift/compute_wing_induced_velocity.py`:
the velocity which one unit-strength horseshoe vortex induces at one control point.  The code
works on whole arrays; the model is one entry of those arrays.  Single precision is replaced by
real arithmetic.
-/

namespace Verif.Vlm

/-- A point or vector in the vehicle frame: `x` aft, `y` right, `z` up (the entries of the
`X*`, `Y*`, `Z*` arrays of the vortex distribution). -/
@[ext] structure Vec3 where
  x : ℝ
  y : ℝ
  z : ℝ

namespace Vec3

/-- Componentwise sum. -/
instance : Add Vec3 := ⟨fun a b => ⟨a.x + b.x, a.y + b.y, a.z + b.z⟩⟩
/-- Componentwise difference. -/
instance : Sub Vec3 := ⟨fun a b => ⟨a.x - b.x, a.y - b.y, a.z - b.z⟩⟩
/-- Componentwise negation. -/
instance : Neg Vec3 := ⟨fun a => ⟨-a.x, -a.y, -a.z⟩⟩

/-- Multiplication by a number. -/
def smul (k : ℝ) (a : Vec3) : Vec3 := ⟨k * a.x, k * a.y, k * a.z⟩
/-- Scalar product. -/
def dot (a b : Vec3) : ℝ := a.x * b.x + a.y * b.y + a.z * b.z
/-- Vector product. -/
def cross (a b : Vec3) : Vec3 :=
  ⟨a.y * b.z - a.z * b.y, a.z * b.x - a.x * b.z, a.x * b.y - a.y * b.x⟩
/-- Euclidean length. -/
noncomputable def norm (a : Vec3) : ℝ := Real.sqrt (a.x ^ 2 + a.y ^ 2 + a.z ^ 2)
/-- Reflection in the symmetry plane of the vehicle. -/
def mirror (a : Vec3) : Vec3 := ⟨a.x, -a.y, a.z⟩

@[simp] theorem add_x (a b : Vec3) : (a + b).x = a.x + b.x := rfl
@[simp] theorem add_y (a b : Vec3) : (a + b).y = a.y + b.y := rfl
@[simp] theorem add_z (a b : Vec3) : (a + b).z = a.z + b.z := rfl
@[simp] theorem sub_x (a b : Vec3) : (a - b).x = a.x - b.x := rfl
@[simp] theorem sub_y (a b : Vec3) : (a - b).y = a.y - b.y := rfl
@[simp] theorem sub_z (a b : Vec3) : (a - b).z = a.z - b.z := rfl
@[simp] theorem neg_x (a : Vec3) : (-a).x = -a.x := rfl
@[simp] theorem neg_y (a : Vec3) : (-a).y = -a.y := rfl
@[simp] theorem neg_z (a : Vec3) : (-a).z = -a.z := rfl

end Vec3

/-- The quantities handed to the two kernels, one entry each
(`compute_wing_induced_velocity.py` lines 137-166). -/
structure Frame where
  /-- half width of the bound vortex, `s` -/
  s : ℝ
  /-- tangent of its sweep, `t` -/
  t : ℝ
  /-- the coordinates of the control point relative to the middle of the bound vortex, in the
  frame rotated about the x axis into the plane of the horseshoe -/
  xo : ℝ
  yo : ℝ
  zo : ℝ

/-- `X1` (line 142). -/
def Frame.X1 (f : Frame) : ℝ := f.xo + f.t * f.s
/-- `Y1` (line 143). -/
def Frame.Y1 (f : Frame) : ℝ := f.yo + f.s
/-- `X2` (line 144). -/
def Frame.X2 (f : Frame) : ℝ := f.xo - f.t * f.s
/-- `Y2` (line 145). -/
def Frame.Y2 (f : Frame) : ℝ := f.yo - f.s
/-- `XTY` (line 151). -/
def Frame.XTY (f : Frame) : ℝ := f.xo - f.t * f.yo
/-- `TOL` (line 157). -/
noncomputable def Frame.tol (f : Frame) : ℝ := f.s / 500
/-- `TOLSQ` (line 158). -/
noncomputable def Frame.tolsq (f : Frame) : ℝ := f.tol * f.tol
/-- `TOLSQ2` (line 159). -/
noncomputable def Frame.tolsq2 (f : Frame) : ℝ := 2500 * f.tolsq
/-- `ZSQ` (line 160). -/
def Frame.zsq (f : Frame) : ℝ := f.zo * f.zo
/-- `RTV1` (lines 161-163). -/
def Frame.rtv1 (f : Frame) : ℝ := f.Y1 * f.Y1 + f.zsq
/-- `RTV2` (lines 162-164). -/
def Frame.rtv2 (f : Frame) : ℝ := f.Y2 * f.Y2 + f.zsq

/-- `RAD1` of the subsonic kernel (line 260, with `RO1 = B2 * RTV1` of line 171). -/
noncomputable def Frame.rad1 (f : Frame) (B2 : ℝ) : ℝ := Real.sqrt (f.X1 * f.X1 - B2 * f.rtv1)
/-- `RAD2` of the subsonic kernel (line 261). -/
noncomputable def Frame.rad2 (f : Frame) (B2 : ℝ) : ℝ := Real.sqrt (f.X2 * f.X2 - B2 * f.rtv2)

/-- `DENOM` after the floor of lines 263-268. -/
noncomputable def Frame.denomSub (f : Frame) (B2 : ℝ) : ℝ :=
  if f.XTY * f.XTY + (f.t * f.t - B2) * f.zsq < f.tolsq then f.tolsq
  else f.XTY * f.XTY + (f.t * f.t - B2) * f.zsq

/-- `FB1` (line 270). -/
noncomputable def Frame.fb1 (f : Frame) (B2 : ℝ) : ℝ := (f.t * f.X1 - B2 * f.Y1) / f.rad1 B2
/-- `FB2` (line 274). -/
noncomputable def Frame.fb2 (f : Frame) (B2 : ℝ) : ℝ := (f.t * f.X2 - B2 * f.Y2) / f.rad2 B2
/-- `FT1` (lines 271-272). -/
noncomputable def Frame.ft1 (f : Frame) (B2 : ℝ) : ℝ :=
  if f.rtv1 < f.tolsq then 0 else (f.X1 + f.rad1 B2) / (f.rad1 B2 * f.rtv1)
/-- `FT2` (lines 275-276). -/
noncomputable def Frame.ft2 (f : Frame) (B2 : ℝ) : ℝ :=
  if f.rtv2 < f.tolsq then 0 else (f.X2 + f.rad2 B2) / (f.rad2 B2 * f.rtv2)
/-- `QB` (line 278). -/
noncomputable def Frame.qb (f : Frame) (B2 : ℝ) : ℝ := (f.fb1 B2 - f.fb2 B2) / f.denomSub B2

/-- `subsonic` (lines 218-286): the induced velocity in the rotated frame. -/
noncomputable def subsonic (f : Frame) (B2 : ℝ) : Vec3 :=
  ⟨if f.zsq < f.tolsq then 0 else f.zo / (4 * Real.pi) * f.qb B2,
   if f.zsq < f.tolsq then 0
   else f.zo / (4 * Real.pi) * (f.ft1 B2 - f.ft2 B2 - f.qb B2 * f.t),
   -(f.qb B2 * f.XTY + f.ft1 B2 * f.Y1 - f.ft2 B2 * f.Y2) / (4 * Real.pi)⟩

/-- `theta` of line 121.  `numpy.arctan2(b, a)` is the argument of `a + i b`. -/
noncomputable def theta (A B : Vec3) : ℝ := Complex.arg ⟨B.y - A.y, B.z - A.z⟩

/-- Lines 111-140: midpoint, rotation into the plane of the horseshoe, half width and sweep. -/
noncomputable def frame (A B P : Vec3) : Frame :=
  let xc := (A.x + B.x) / 2
  let yc := (A.y + B.y) / 2
  let zc := (A.z + B.z) / 2
  let y1bar := (B.y - yc) * Real.cos (theta A B) + (B.z - zc) * Real.sin (theta A B)
  { s := |y1bar|
    t := (B.x - xc) / y1bar
    xo := P.x - xc
    yo := (P.y - yc) * Real.cos (theta A B) + (P.z - zc) * Real.sin (theta A B)
    zo := -(P.y - yc) * Real.sin (theta A B) + (P.z - zc) * Real.cos (theta A B) }

/-- Line 200: back from the rotated frame to the vehicle frame. -/
noncomputable def unrotate (th : ℝ) (v : Vec3) : Vec3 :=
  ⟨v.x, v.y * Real.cos th - v.z * Real.sin th, v.y * Real.sin th + v.z * Real.cos th⟩

open Classical in
/-- One entry `C_mn[m, point, vortex, :]` of `compute_wing_induced_velocity` for a subsonic Mach
number (lines 80-200): the ends of the bound vortex are put in order of increasing `y`
(lines 89-98), the kernel is evaluated in the rotated frame and rotated back. -/
noncomputable def inducedSub (A B P : Vec3) (M : ℝ) : Vec3 :=
  if A.y > B.y then unrotate (theta B A) (subsonic (frame B A P) (M ^ 2 - 1))
  else unrotate (theta A B) (subsonic (frame A B P) (M ^ 2 - 1))

/-- `RAD1` of the supersonic kernel (lines 341-344 and 358): `sqrt` of a negative number is nan and
becomes zero (the real square root is zero there too), and so is the value at points upstream. -/
noncomputable def Frame.srad1 (f : Frame) (B2 : ℝ) : ℝ :=
  if f.X1 < f.tol then 0 else Real.sqrt (f.X1 * f.X1 - B2 * f.rtv1)
/-- `RAD2` of the supersonic kernel (lines 342-345 and 381). -/
noncomputable def Frame.srad2 (f : Frame) (B2 : ℝ) : ℝ :=
  if f.X2 < f.tol then 0 else Real.sqrt (f.X2 * f.X2 - B2 * f.rtv2)

open Classical in
/-- `bool1` (lines 355-363): the end of the vortex is far enough upstream and the point well inside
its Mach cone. -/
noncomputable def Frame.in1 (f : Frame) (B2 : ℝ) : Bool :=
  decide (¬ f.X1 < f.tol ∧ f.srad1 B2 ≠ 0 ∧ ¬ B2 * f.rtv1 > 8 / 10 * (f.X1 * f.X1))
open Classical in
/-- `bool2` (lines 378-386). -/
noncomputable def Frame.in2 (f : Frame) (B2 : ℝ) : Bool :=
  decide (¬ f.X2 < f.tol ∧ f.srad2 B2 ≠ 0 ∧ ¬ B2 * f.rtv2 > 8 / 10 * (f.X2 * f.X2))

/-- `FB1` of the supersonic kernel (lines 364-373): nan and inf become 1 and are then multiplied
by the flag, which is false wherever the radius is zero. -/
noncomputable def Frame.sfb1 (f : Frame) (B2 : ℝ) : ℝ :=
  if f.in1 B2 then (f.t * f.X1 - B2 * f.Y1) / f.srad1 B2 else 0
/-- `FB2` of the supersonic kernel (lines 387-396). -/
noncomputable def Frame.sfb2 (f : Frame) (B2 : ℝ) : ℝ :=
  if f.in2 B2 then (f.t * f.X2 - B2 * f.Y2) / f.srad2 B2 else 0
/-- `FT1` of the supersonic kernel (lines 365-374). -/
noncomputable def Frame.sft1 (f : Frame) (B2 : ℝ) : ℝ :=
  if f.in1 B2 then (if f.rtv1 < f.tolsq then 0 else f.X1 / (f.srad1 B2 * f.rtv1)) else 0
/-- `FT2` of the supersonic kernel (lines 388-397). -/
noncomputable def Frame.sft2 (f : Frame) (B2 : ℝ) : ℝ :=
  if f.in2 B2 then (if f.rtv2 < f.tolsq then 0 else f.X2 / (f.srad2 B2 * f.rtv2)) else 0

/-- The raw `DENOM` of line 347. -/
def Frame.denomRaw (f : Frame) (B2 : ℝ) : ℝ := f.XTY * f.XTY + (f.t * f.t - B2) * f.zsq

/-- `DENOM` of the supersonic kernel, pushed away from zero with its sign (lines 347-352). -/
noncomputable def Frame.denomSup (f : Frame) (B2 : ℝ) : ℝ :=
  if |f.denomRaw B2| < f.tolsq then (if f.denomRaw B2 < 0 then -f.tolsq else f.tolsq)
  else f.denomRaw B2

/-- `QB` of the supersonic kernel (line 399). -/
noncomputable def Frame.sqb (f : Frame) (B2 : ℝ) : ℝ := (f.sfb1 B2 - f.sfb2 B2) / f.denomSup B2

/-- The downwash away from the plane of the vortex (line 402). -/
noncomputable def Frame.wGeneral (f : Frame) (B2 : ℝ) : ℝ :=
  -(f.sqb B2 * f.XTY + f.sft1 B2 * f.Y1 - f.sft2 B2 * f.Y2) / (2 * Real.pi)

/-- `supersonic_in_plane` (lines 499-547). -/
noncomputable def Frame.wInPlane (f : Frame) (B2 : ℝ) : ℝ :=
  let F1 := if |f.Y1| > f.tol then f.srad1 B2 / f.Y1 else 0
  let F2 := if |f.Y2| > f.tol then f.srad2 B2 / f.Y2 else 0
  if |f.XTY| > f.tol then (-F1 + F2) / (f.XTY * (2 * Real.pi)) else 0

/-- `supersonic` up to line 420: the induced velocity in the rotated frame before the self-induced
wave term on the diagonal (lines 457-465) and the sonic-edge averaging (lines 425-492). -/
noncomputable def supersonic (f : Frame) (B2 : ℝ) : Vec3 :=
  if f.zsq < f.tolsq2 then ⟨0, 0, f.wInPlane B2⟩
  else ⟨f.zo / (2 * Real.pi) * f.sqb B2,
        f.zo / (2 * Real.pi) * (f.sft1 B2 - f.sft2 B2 - f.sqb B2 * f.t),
        f.wGeneral B2⟩

open Classical in
/-- One entry `C_mn[m, point, vortex, :]` for a sonic or supersonic Mach number, without the two
diagonal modifications just mentioned (lines 80-200). -/
noncomputable def inducedSup (A B P : Vec3) (M : ℝ) : Vec3 :=
  if A.y > B.y then unrotate (theta B A) (supersonic (frame B A P) (M ^ 2 - 1))
  else unrotate (theta A B) (supersonic (frame A B P) (M ^ 2 - 1))

/-- `WWAVE` (lines 457-463): the extra downwash of a panel on itself when its vortex is swept
less than the Mach cone; `cox` is the panel chord. -/
noncomputable def selfWave (t B2 cox : ℝ) : ℝ :=
  if B2 > t * t then -(1 / 2) * Real.sqrt (B2 - t * t) / cox else 0

end Verif.Vlm
