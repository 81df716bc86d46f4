import Mathlib.Analysis.SpecialFunctions.Trigonometric.Basic
import Mathlib.Analysis.SpecialFunctions.Sqrt

/-!
Shapes of nacelles and blades as they are drawn and exported.

Source: trunk/SUAVE/Plots/Geometry/plot_vehicle.py (`generate_nacelle_points` 348-425, `get_blade_coordinates` 523-660), used for the
pictures and by `save_nacelle_vtk.py` 45 and `save_prop_vtk.py` 327.

Simplifications: a nacelle before it is turned and moved to its origin (416-424); a blade before it is turned into the frame of the
vehicle and moved to its origin (622-643), at one station and one point of its airfoil; coordinates of airfoils are given.
-/

namespace Verif.IO.Drawings

/-! ### Nacelles -/

/-- A station of a nacelle with stations (406-413): position along the nacelle and half width and height. -/
structure NSeg where
  x : ℝ
  y : ℝ
  z : ℝ
  width : ℝ
  height : ℝ

/-- What a nacelle is drawn from (367-413): `profile` holds the points of its airfoil if it has one, trailing edge first (376, 381). -/
structure Nac where
  length : ℝ
  diameter : ℝ
  inlet : ℝ
  flowThrough : Bool
  profile : Option (ℕ → ℝ × ℝ)
  segments : List NSeg

/-- `np.linspace(a, b, n)` at index `k`. -/
noncomputable def linspace (a b : ℝ) (n k : ℕ) : ℝ := a + k * ((b - a) / (n - 1 : ℕ))

/-- Number of stations: those of the nacelle, else half the points of the airfoil rounded up (367, 370-371). -/
def count (nac : Nac) (points : ℕ) : ℕ := if nac.segments.isEmpty then (points + 1) / 2 else nac.segments.length

/-- Distance along the nacelle and radius of station `k` of a nacelle without stations (373-395). With an airfoil only the point with
index 0 is taken, for all stations (377-378, 382-383). -/
noncomputable def plain (nac : Nac) (points k : ℕ) : ℝ × ℝ :=
  let lift : ℝ := if nac.flowThrough then nac.inlet / 2 else 0
  match nac.profile with
  | some p => ((p 0).1 * nac.length, (p 0).2 * nac.length + lift)
  | none =>
    let a := nac.length / 2
    let b := max ((nac.diameter - nac.inlet) / 2) 0.001
    let x := linspace (-a) a (count nac points) k
    ((x + a) * nac.length, Real.sqrt (b ^ 2 * (1 - x ^ 2 / a ^ 2)) * nac.length + lift)

/-- Point at angle `θ` of station `k` (398-413). -/
noncomputable def point (nac : Nac) (points k : ℕ) (θ : ℝ) : ℝ × ℝ × ℝ :=
  match nac.segments[k]? with
  | some s =>
    let r := Real.sqrt ((s.height / 2 * Real.sin θ) ^ 2 + (s.width / 2 * Real.cos θ) ^ 2)
    (s.x * nac.length, r * Real.cos θ + s.y * nac.length, r * Real.sin θ + s.z * nac.length)
  | none => let q := plain nac points k; (q.1, q.2 * Real.cos θ, q.2 * Real.sin θ)

/-! ### Blades -/

/-- A rotor: sense of rotation, number of blades, angle of the first blade and number of airfoils (543-557). -/
structure Rot where
  rotation : ℤ
  blades : ℕ
  start : ℝ
  airfoils : ℕ

/-- A station of the blade (544-550, 592): chord, pitch (twist and command), radius, mid chord alignment, thickness and the thickness to
chord ratio of its airfoil. -/
structure Sec where
  chord : ℝ
  pitch : ℝ
  radius : ℝ
  mca : ℝ
  thickness : ℝ
  ratio : ℝ

/-- Index used for the angle of the blade (616): the loop over the airfoils (574) leaves its own index in the variable `i` that held the
number of the blade. -/
def angleIndex (rot : Rot) (i : ℕ) : ℕ := if rot.airfoils = 0 then i else rot.airfoils - 1

/-- Angle of blade `i` (559, 561, 616): `none` when the index is beyond the last blade. -/
noncomputable def angle (rot : Rot) (i : ℕ) : Option ℝ :=
  if angleIndex rot i < rot.blades then
    some (linspace 0 (2 * Real.pi) (rot.blades + 1) (angleIndex rot i) + rot.start + Real.pi / 2) else none

/-- A point of the section in its own plane (554-557, 567, 590-592). -/
noncomputable def local3 (rot : Rot) (s : Sec) (x z : ℝ) : ℝ × ℝ × ℝ :=
  let b := if rot.rotation = 1 then -s.chord else s.chord
  (-s.mca + x * b - b / 2, s.radius, z * (s.thickness / s.ratio))

/-- Pitch, with its sign turned for a positive sense of rotation (554-557). -/
def pitchOf (rot : Rot) (s : Sec) : ℝ := if rot.rotation = 1 then -s.pitch else s.pitch

/-- The section turned by its pitch (606-611). -/
noncomputable def turnPitch (β : ℝ) (p : ℝ × ℝ × ℝ) : ℝ × ℝ × ℝ :=
  (Real.cos (Real.pi / 2 - β) * p.1 - Real.sin (Real.pi / 2 - β) * p.2.2, p.2.1,
    Real.sin (Real.pi / 2 - β) * p.1 + Real.cos (Real.pi / 2 - β) * p.2.2)

/-- The blade turned about the axis of the rotor (615-617). -/
noncomputable def turnAxis (φ : ℝ) (p : ℝ × ℝ × ℝ) : ℝ × ℝ × ℝ :=
  (p.1, Real.cos φ * p.2.1 - Real.sin φ * p.2.2, Real.sin φ * p.2.1 + Real.cos φ * p.2.2)

/-- Point `(x, z)` of the airfoil of a section of blade `i` (623-635). -/
noncomputable def blade (rot : Rot) (s : Sec) (i : ℕ) (x z : ℝ) : Option (ℝ × ℝ × ℝ) :=
  (angle rot i).map fun φ => turnAxis φ (turnPitch (pitchOf rot s) (local3 rot s x z))

end Verif.IO.Drawings
