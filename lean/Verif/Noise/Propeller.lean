import Verif.Noise.Microphones
import Verif.Noise.Tools
import Mathlib.Analysis.SpecialFunctions.Trigonometric.Inverse
import Mathlib.Analysis.SpecialFunctions.Complex.Log

/-!
`Methods/Noise/Fidelity_One/Propeller`: harmonic noise of a propeller at one control point, microphone, rotor and harmonic; coordinates of
its sources; the parts of the broadband noise that do not need Fresnel integrals.
-/

namespace Verif.Noise.Mic
open Real

/-! ### Retarded geometry -/

/-- Distance (compute_harmonic_noise.py 99), angle to the path (100), lateral distance (101). -/
noncomputable def Pt.dist (o : Pt) : ℝ := √(o.x ^ 2 + o.y ^ 2 + o.z ^ 2)
noncomputable def Pt.angle (o : Pt) : ℝ := arccos (o.x / o.dist)
noncomputable def Pt.lateral (o : Pt) : ℝ := √(o.y ^ 2 + o.z ^ 2)

/-- `np.arctan(z/y)` (108): infinite quotients at `y = 0`; the axis, `y = z = 0`, is excluded. -/
noncomputable def Pt.azimuth (o : Pt) : ℝ := if o.y = 0 then (if 0 < o.z then π / 2 else -(π / 2)) else arctan (o.z / o.y)

/-- `theta_r` (111). -/
noncomputable def retarded (M : ℝ) (o : Pt) : ℝ := arccos (cos o.angle * √(1 - M ^ 2 * sin o.angle ^ 2) + M * sin o.angle ^ 2)

/-- `theta_r_prime` (112). -/
noncomputable def shaftAngle (M alpha : ℝ) (o : Pt) : ℝ :=
  arccos (cos (retarded M o) * cos alpha + sin (retarded M o) * sin o.azimuth * sin alpha)

/-- `phi_prime_var` before the clip of line 129 (128), and `phi_prime` (130). -/
noncomputable def phaseCos (M alpha : ℝ) (o : Pt) : ℝ := sin (retarded M o) / sin (shaftAngle M alpha o) * cos o.azimuth
noncomputable def phase (M alpha : ℝ) (o : Pt) : ℝ := arccos (if 1 < phaseCos M alpha o then 1 else phaseCos M alpha o)

/-- `S_r` (131). -/
noncomputable def emissionDist (M : ℝ) (o : Pt) : ℝ := o.lateral / sin (retarded M o)

/-! ### Harmonic noise -/

/-- Rotor and flight condition: blades, radius of the tip, diameter (twice the last station), speed of sound, density, flight speed,
rotational speed, angle between flow and shaft; by station: relative radius, chord, thickness to chord, alignment of mid chords, thrust and
torque by length (Rotor.py 434-435). -/
structure Rot where
  B : ℝ
  Rtip : ℝ
  D : ℝ
  a : ℝ
  rho : ℝ
  V : ℝ
  omega : ℝ
  alpha : ℝ
  n : ℕ
  r : ℕ → ℝ
  c : ℕ → ℝ
  tc : ℕ → ℝ
  mca : ℕ → ℝ
  dT : ℕ → ℝ
  dQ : ℕ → ℝ

/-- Mach numbers (103-106). -/
noncomputable def Rot.Mx (p : Rot) : ℝ := p.V / p.a
noncomputable def Rot.Mt (p : Rot) : ℝ := p.Rtip * p.omega / p.a
noncomputable def Rot.Mr (p : Rot) (i : ℕ) : ℝ := √(p.Mx ^ 2 + p.r i ^ 2 * p.Mt ^ 2)

/-- `1 - M_x*np.cos(theta_r)`. -/
noncomputable def Rot.doppler (p : Rot) (o : Pt) : ℝ := 1 - p.Mx * cos (retarded p.Mx o)

/-- `k_x` (119). -/
noncomputable def Rot.kx (p : Rot) (o : Pt) (m : ℝ) (i : ℕ) : ℝ := 2 * m * p.B * (p.c i / p.D) * p.Mt / (p.Mr i * p.doppler o)

/-- `psi_V`, `psi_L` (120-123): the first station is filled by its index. -/
noncomputable def psiV (k : ℝ) (i : ℕ) : ℝ := if i = 0 then 2 / 3 else 8 / k ^ 2 * (2 / k * sin (1 / 2 * k) - cos (1 / 2 * k))
noncomputable def psiL (k : ℝ) (i : ℕ) : ℝ := if i = 0 then 1 else 2 / k * sin (1 / 2 * k)

/-- `Jmb` (126): `J` is the Bessel function of the first kind, any function here. -/
noncomputable def Rot.jmb (p : Rot) (J : ℝ → ℝ → ℝ) (o : Pt) (m : ℝ) (i : ℕ) : ℝ :=
  J (m * p.B) (m * p.B * p.r i * p.Mt * sin (shaftAngle p.Mx p.alpha o) / p.doppler o)

/-- `phi_s` (127). -/
noncomputable def Rot.phiS (p : Rot) (o : Pt) (m : ℝ) (i : ℕ) : ℝ := 2 * m * p.B * p.Mt / (p.Mr i * p.doppler o) * (p.mca i / p.D)

/-- `exponent_fraction` (132): it does not depend on the station. -/
noncomputable def Rot.wave (p : Rot) (o : Pt) (m : ℝ) : ℂ :=
  Complex.exp (Complex.I * ((m * p.B * (p.omega * emissionDist p.Mx o / p.a + phase p.Mx p.alpha o - π / 2) : ℝ) : ℂ)) / ((p.doppler o : ℝ) : ℂ)

/-- Integrands of thickness (133) and loading (137-138). -/
noncomputable def Rot.thickness (p : Rot) (J : ℝ → ℝ → ℝ) (o : Pt) (m : ℝ) (i : ℕ) : ℂ :=
  -(((p.Mr i ^ 2 * p.tc i : ℝ) : ℂ) * Complex.exp (Complex.I * ((p.phiS o m i : ℝ) : ℂ)) * ((p.jmb J o m i * p.kx o m i ^ 2 * psiV (p.kx o m i) i : ℝ) : ℂ)) *
    ((p.rho * p.a ^ 2 * p.B * sin (retarded p.Mx o) / (4 * √2 * π * (o.lateral / p.D)) : ℝ) : ℂ) * p.wave o m
noncomputable def Rot.loading (p : Rot) (J : ℝ → ℝ → ℝ) (o : Pt) (m : ℝ) (i : ℕ) : ℂ :=
  ((cos (shaftAngle p.Mx p.alpha o) / p.doppler o * p.dT i - 1 / (p.r i ^ 2 * p.Mt * p.Rtip) * p.dQ i : ℝ) : ℂ) *
    Complex.exp (Complex.I * ((p.phiS o m i : ℝ) : ℂ)) * ((p.jmb J o m i * psiL (p.kx o m i) i : ℝ) : ℂ) *
    ((m * p.B * p.Mt * sin (retarded p.Mx o) / (2 * √2 * π * o.lateral * p.Rtip) : ℝ) : ℂ) * p.wave o m

/-- `np.trapz` over the stations. -/
noncomputable def trapzC (n : ℕ) (r : ℕ → ℝ) (f : ℕ → ℂ) : ℂ := ∑ i ∈ Finset.range (n - 1), ((r (i + 1) - r i : ℝ) : ℂ) * (f (i + 1) + f i) / 2

/-- Pressures (134-140). -/
noncomputable def Rot.pT (p : Rot) (J : ℝ → ℝ → ℝ) (o : Pt) (m : ℝ) : ℂ := trapzC p.n p.r (p.thickness J o m)
noncomputable def Rot.pL (p : Rot) (J : ℝ → ℝ → ℝ) (o : Pt) (m : ℝ) : ℂ := trapzC p.n p.r (p.loading J o m)

/-- Level of a pressure, `20*np.log10(p/p_ref)`. -/
noncomputable def spl (p : ℝ) : ℝ := 20 * logb 10 (p / 2e-5)

/-- `SPL_prop_harmonic_bpf_spectrum` (143), and the frequency (96). -/
noncomputable def Rot.level (p : Rot) (J : ℝ → ℝ → ℝ) (o : Pt) (m : ℝ) : ℝ := spl |‖p.pL J o m‖ + ‖p.pT J o m‖|
noncomputable def Rot.frequency (p : Rot) (m : ℝ) : ℝ := p.B * p.omega * m / (2 * π)

/-! ### Coordinates of sources -/

/-- Rows of a matrix. -/
structure Mat3 where
  r0 : Pt
  r1 : Pt
  r2 : Pt

def Pt.dot (p q : Pt) : ℝ := p.x * q.x + p.y * q.y + p.z * q.z
def Mat3.app (T : Mat3) (p : Pt) : Pt := ⟨T.r0.dot p, T.r1.dot p, T.r2.dot p⟩
def Mat3.one : Mat3 := ⟨⟨1, 0, 0⟩, ⟨0, 1, 0⟩, ⟨0, 0, 1⟩⟩

/-- `compute_point_source_coordinates` (compute_source_coordinates.py 18-96): `T` is `transform_to_inertial`, `origin` that of the rotor,
`rel` the position relative to the microphone (`relative`). The rotation of the rotor (50-58) is applied to the zero vector. -/
def pointSource (T : Mat3) (origin rel : Pt) : Pt :=
  let q := T.app origin
  ⟨-(q.x + rel.x), -(q.y + rel.y), -(q.z + rel.z)⟩

/-- Rotations of lines 162-188: about the second axis and, with the azimuth, about the third. -/
def turnY (c s : ℝ) (p : Pt) : Pt := ⟨c * p.x + s * p.z, p.y, -s * p.x + c * p.z⟩
def turnZ (s c : ℝ) (p : Pt) : Pt := ⟨s * p.x - c * p.y, c * p.x + s * p.y, p.z⟩

/-- `compute_blade_section_source_coordinates` (99-209) for a section of radius `r`, which is tiled (143) and not used; `c`, `s` are the
entries of lines 150-151. -/
noncomputable def sectionSource (_r aoa c s azimuth alphaEff : ℝ) (origin rel : Pt) : Pt :=
  turnY (cos alphaEff) (sin alphaEff) (turnZ (sin azimuth) (cos azimuth) (turnY c s (turnY (cos (-aoa)) (sin (-aoa))
    ⟨rel.x + origin.x, rel.y + origin.y, rel.z + origin.z⟩)))

/-! ### Broadband noise -/

/-- `delta_r` (compute_broadband_noise.py 96-100) for `n` stations. -/
noncomputable def widths (n : ℕ) (r : ℕ → ℝ) (i : ℕ) : ℝ :=
  if i = n - 1 then 2 * (r (n - 1) - r (n - 2)) else if i = 0 then 2 * (r 1 - r 0) else ((r i - r (i - 1)) + (r (i + 1) - r i)) / 2

/-- Boundary layer of a section: thickness, displacement and momentum thickness, as fractions of the chord in the table. -/
structure Layer where
  delta : ℝ
  deltaStar : ℝ
  theta : ℝ

/-- What is used of it, with a nonuniform freestream (190-192, 196-198) and without (253-255, 259-261). -/
def Layer.used (l : Layer) (nonuniform : Bool) (chord : ℝ) : Layer := if nonuniform then l else ⟨chord * l.delta, l.deltaStar, l.theta⟩

/-- `np.linspace(0,2*np.pi,num_azi)` (338) and `np.trapz` over it (339-340) of the values `f` at the azimuths of the rotor. -/
noncomputable def azimuthMean (n : ℕ) (f : ℕ → ℝ) : ℝ :=
  (∑ j ∈ Finset.range (n - 1), (2 * π / (n - 1)) * (f (j + 1) + f j) / 2) * (1 / (2 * π))

/-- Spectral density at the microphone by section and surface (337-340): `g j` stands for the factors under the integral. -/
noncomputable def density (omega c0 chord dr B : ℝ) (n : ℕ) (g : ℕ → ℝ) : ℝ :=
  (omega / c0) ^ 2 * (chord / 2) ^ 2 * dr * (1 / (32 * π ^ 2)) * B * azimuthMean n g

/-- `propeller_mid_fidelity` (propeller_mid_fidelity.py 82): one band. -/
noncomputable def bandTotal (h b : ℝ) : ℝ := 10 * logb 10 ((10 : ℝ) ^ (h / 10) + (10 : ℝ) ^ (b / 10))

end Verif.Noise.Mic
