import Mathlib.Analysis.SpecialFunctions.Trigonometric.Basic
import Mathlib.Analysis.SpecialFunctions.Pow.Real
import Mathlib.Algebra.Polynomial.Basic
import Mathlib.Algebra.Polynomial.Eval.Defs
import Mathlib.Algebra.Polynomial.BigOperators

/-!
Dynamic stability: the closed-form mode approximations and the characteristic polynomials of the full linearised
equations (`trunk/SUAVE/Methods/Flight_Dynamics/Dynamic_Stability`). One row of the arrays at a time; `x**0.5` is the real square
root, for negative `x` (nan in python) nothing is claimed.
-/

namespace Verif.Stability
open Real

/-- Natural frequency and damping ratio, as the mode functions return them. -/
structure Mode where
  wn : ℝ
  zeta : ℝ

/-- `dutch_roll`, `Approximations/dutch_roll.py` 59-66. -/
noncomputable def dutchRoll (V CnB S ρ b Iz Cnr : ℝ) : Mode :=
  { wn := V * sqrt (CnB * S * ρ * b / 2 / Iz), zeta := -Cnr / 8 * sqrt (2 * S * ρ * b ^ 3 / Iz / CnB) }

/-- `phugoid`, `Approximations/phugoid.py` 55-62. -/
noncomputable def phugoid (g V CD CL : ℝ) : Mode :=
  { wn := g / V * sqrt 2, zeta := CD / (CL * sqrt 2) }

/-- `roll`, `Approximations/roll.py` 52. -/
noncomputable def rollTau (Ix S ρ V b Clp : ℝ) : ℝ := 4 * Ix / (S * ρ * V * b ^ 2 * Clp)

/-- `spiral`, `Approximations/spiral.py` 48. -/
noncomputable def spiralTau (m V ρ S Clp CnB CyPhi ClB Cnr Clr : ℝ) : ℝ :=
  m * V / S / (0.5 * ρ * V ^ 2) * (Clp * CnB / (CyPhi * (ClB * Cnr - CnB * Clr)))

/-- `short_period`, `Approximations/short_period.py` 59-66. -/
noncomputable def shortPeriod (V ρ S c Cmq Cza m Cma Iy CmaDot : ℝ) : Mode :=
  { wn := V * ρ * S * c / 2 * sqrt ((0.5 * Cmq * Cza - 2 * m / ρ / S / c * Cma) / Iy / m)
    zeta := -0.25 * (Cmq + CmaDot + 2 * Iy * Cza / m / c ^ 2) *
      sqrt (m * c ^ 2 / Iy / (Cmq * Cza * 0.5 - 2 * m * Cma / ρ / S / c)) }

open Polynomial in
/-- A tuple of coefficients, lowest first, as `numpy.polynomial.polynomial` reads it. -/
noncomputable def tuple (c : List ℝ) : ℝ[X] :=
  match c with
  | [] => 0
  | a :: l => Polynomial.C a + Polynomial.X * tuple l

/-- The cofactor expansion of `lateral_directional.py` 82-91 and `longitudinal.py` 82-91. -/
noncomputable def cofactors (A B C D E F G H I : Polynomial ℝ) : Polynomial ℝ :=
  let EI := E * I
  let FH := F * H
  let part1 := A * (EI - FH)
  let DI := D * I
  let FG := F * G
  let part2 := B * (FG - DI)
  let DH := D * H
  let GE := G * E
  let part3 := C * (DH - GE)
  part1 + (part2 + part3)

/-- Arguments of `lateral_directional`. -/
structure Lateral where
  V : ℝ
  CnB : ℝ
  S : ℝ
  ρ : ℝ
  b : ℝ
  Iz : ℝ
  Cnr : ℝ
  Ix : ℝ
  Clp : ℝ
  J : ℝ
  Clr : ℝ
  ClB : ℝ
  Cnp : ℝ
  CyPhi : ℝ
  CyPsi : ℝ
  CyB : ℝ
  m : ℝ

/-- The characteristic polynomial `total`, `lateral_directional.py` 70-91. -/
noncomputable def Lateral.total (a : Lateral) : Polynomial ℝ :=
  cofactors
    (tuple [0, -a.b * 0.5 / a.V * a.Clp, a.Ix / a.S / (0.5 * a.ρ * a.V ^ 2) / a.b])
    (tuple [0, -a.b * 0.5 / a.V * a.Clr, -a.J / a.S / (0.5 * a.ρ * a.V ^ 2) / a.b])
    (tuple [-a.ClB])
    (tuple [0, -a.b * 0.5 / a.V * a.Cnp, -a.J / a.S / (0.5 * a.ρ * a.V ^ 2) / a.b])
    (tuple [0, -a.b * 0.5 / a.V * a.Cnr, a.Iz / a.S / (0.5 * a.ρ * a.V ^ 2) / a.b])
    (tuple [-a.CnB])
    (tuple [-a.CyPhi])
    (tuple [-a.CyPsi, a.m * a.V / a.S / (0.5 * a.ρ * a.V ^ 2)])
    (tuple [-a.CyB, a.m * a.V / a.S / (0.5 * a.ρ * a.V ^ 2)])

/-- `np.roots` reads its argument highest power first, while `total` (and so `poly`, line 92) is stored lowest first: the
polynomial whose roots line 95 asks for. -/
noncomputable def Lateral.handed (a : Lateral) : Polynomial ℂ :=
  ∑ i ∈ Finset.range 6, Polynomial.C ((a.total.coeff i / a.total.coeff 5 : ℝ) : ℂ) * Polynomial.X ^ (5 - i)

/-- Numpy orders complex numbers by real, then imaginary part. -/
def cGe (z w : ℂ) : Prop := w.re < z.re ∨ (w.re = z.re ∧ w.im ≤ z.im)

/-- What `np.roots` followed by `sorted(..., reverse=True)` gives (lines 95-96): all roots with multiplicity, in decreasing
order. -/
structure RootsSorted (q : Polynomial ℂ) (rs : List ℂ) : Prop where
  roots : ∃ c : ℂ, c ≠ 0 ∧ q = Polynomial.C c * (rs.map (fun r => Polynomial.X - Polynomial.C r)).prod
  sorted : rs.Pairwise cGe

/-- What `lateral_directional` returns. -/
structure LateralOut where
  dutchWn : ℝ
  dutchZeta : ℝ
  spiralTau : ℝ
  rollTau : ℝ

/-- `lateral_directional.py` 97-107 for the sorted roots; `none` (an `IndexError`) when there are fewer than four. -/
noncomputable def lateralOut (rs : List ℂ) : Option LateralOut :=
  match rs with
  | r0 :: r1 :: _ :: r3 :: _ =>
    let wn := (r1.im ^ 2 + r1.re ^ 2) ^ (-0.5 : ℝ)
    some { spiralTau := 1 * r0.re, dutchWn := wn, dutchZeta := -2 * r1.re / wn, rollTau := 1 * r3.re }
  | _ => none

/-- Arguments of `longitudinal`. -/
structure Longitudinal where
  V : ℝ
  ρ : ℝ
  S : ℝ
  c : ℝ
  Cmq : ℝ
  Cza : ℝ
  m : ℝ
  Cma : ℝ
  Iy : ℝ
  CmaDot : ℝ
  Czu : ℝ
  CzaDot : ℝ
  Czq : ℝ
  Cw : ℝ
  Θ : ℝ
  Cxu : ℝ
  Cxa : ℝ

/-- The characteristic polynomial `total`, `longitudinal.py` 70-91. -/
noncomputable def Longitudinal.total (a : Longitudinal) : Polynomial ℝ :=
  cofactors
    (tuple [-a.Cxu, a.m * a.V / a.S / (0.5 * a.ρ * a.V ^ 2)])
    (tuple [-a.Cxa])
    (tuple [-a.Cw * cos a.Θ])
    (tuple [-a.Czu])
    (tuple [-a.Cza, a.m * a.V / a.S / (0.5 * a.ρ * a.V ^ 2) - a.c * 0.5 / a.V * a.CzaDot])
    (tuple [-a.Cw * sin a.Θ, -a.m * a.V / a.S / (0.5 * a.ρ * a.V ^ 2) - a.c * 0.5 / a.V * a.Czq])
    (tuple [0])
    (tuple [-a.Cma, -a.c * 0.5 / a.V * a.CmaDot])
    (tuple [0, -a.c * 0.5 / a.V * a.Cmq, a.Iy / a.S / (0.5 * a.ρ * a.V ^ 2) / a.c])

/-- What `longitudinal` returns. -/
structure LongitudinalOut where
  short : Mode
  phug : Mode

/-- The synthetic division, `longitudinal.py` 94-124, for the normalised coefficients `p i`. The entries of `poly1` to `poly4` not
assigned are copies of `poly`. -/
noncomputable def splitQuartic (p : ℕ → ℝ) : LongitudinalOut :=
  let p1_3 := p 3 - p 1 / p 2
  let p1_2 := p 2 - p 0 / p 2
  let p1_1 := p 1
  let p2_2 := p1_2 - p 1 * p1_3 / p 2
  let p2_1 := p1_1 - p 0 * p1_3 / p 2
  let p2_0 := p 0
  let p3_3 := p 3 - p2_1 / p2_2
  let p3_2 := p 2 - p2_0 / p2_2
  let p4_2 := p3_2 - p2_1 * p3_3 / p2_2
  let shortWn := sqrt p4_2
  let phugWn := sqrt (p2_0 / p2_2)
  { short := { wn := shortWn, zeta := p3_3 * 0.5 / shortWn },
    phug := { wn := phugWn, zeta := p2_1 / p2_2 * 0.5 / phugWn } }

/-- `longitudinal`, `longitudinal.py` 70-131. -/
noncomputable def longitudinal (a : Longitudinal) : LongitudinalOut :=
  splitQuartic (fun i => a.total.coeff i / a.total.coeff 4)

end Verif.Stability
