import Verif.Stability.Modes

/-!
Stability derivatives of the zero fidelity analysis and its dynamic part
(`trunk/SUAVE/Methods/Flight_Dynamics/Dynamic_Stability/Full_Linearized_Equations/Supporting_Functions`,
`trunk/SUAVE/Analyses/Stability/Fidelity_Zero.py` 143-243). One row of the arrays at a time; exact real arithmetic.
-/

namespace Verif.Stability
open Real

/-- `cl_p.py` 34-37. -/
noncomputable def clP (cla taper : ℝ) : ℝ := -(cla / 12) * ((1 + 3 * taper) / (1 + taper))

/-- `cl_beta.py` 33-37. -/
noncomputable def clBeta (taper dihedral clp : ℝ) : ℝ := dihedral * ((1 + 2 * taper) / (1 + 3 * taper)) * clp

/-- `cl_r.py` 33. -/
noncomputable def clR (cL : ℝ) : ℝ := cL / 4

/-- `cm_alphadot.py` 37. -/
noncomputable def cmAlphadot (cmi ep lt mac : ℝ) : ℝ := 2 * cmi * ep * lt / mac

/-- `cm_q.py` 34-35. -/
noncomputable def cmQ (cla vht lt mac : ℝ) : ℝ := -2 * lt / mac * vht * cla * 1.1

/-- `cn_p.py` 34. -/
noncomputable def cnP (cL dep : ℝ) : ℝ := -cL / 8 * (1 - dep)

/-- `cn_r.py` 39. -/
noncomputable def cnR (cD Sv S lv b eta cLv : ℝ) : ℝ := -cD / 4 - 2 * Sv / S * (lv / b) ^ 2 * cLv * eta

/-- `cx_alpha.py` 35, `cx_u.py` 34, `cy_phi.py` 35, `cy_psi.py` 41. -/
def cxAlpha (cL cLa : ℝ) : ℝ := cL - cLa
def cxU (cD : ℝ) : ℝ := -2 * cD
def cyPhi (cL : ℝ) : ℝ := cL
noncomputable def cyPsi (cL theta : ℝ) : ℝ := cL * tan theta

/-- `cz_alpha.py` 36, `cz_alphadot.py` 36, `cz_q.py` 34, `cz_u.py` 37. -/
def czAlpha (cD cLa : ℝ) : ℝ := -cD - cLa
def czAlphadot (cmi ep : ℝ) : ℝ := 2 * cmi * ep
noncomputable def czQ (cmi : ℝ) : ℝ := 2 * 1.1 * cmi
def czU (cL U cLu : ℝ) : ℝ := -2 * cL - U * cLu

/-- `ep_alpha.py` 42. -/
noncomputable def epAlphaZero (cLa S b : ℝ) : ℝ := 2 * cLa / π / (b ^ 2 / S)

/-- A tail surface as read in lines 172-192: area, distance of its aerodynamic centre, dynamic pressure ratio, lift-curve
slope (149) and downwash slope (150). -/
structure Tail where
  area : ℝ
  x : ℝ
  eta : ℝ
  CLa : ℝ
  ep : ℝ

/-- What the dynamic part reads. `xw` is the aerodynamic centre of the main wing; a missing tail is `none`; `dihedral` is `none`
when the main wing has no such entry (179). -/
structure Craft where
  Sref : ℝ
  span : ℝ
  mac : ℝ
  xw : ℝ
  taper : ℝ
  dihedral : Option ℝ
  CLa : ℝ
  fin : Option Tail
  tail : Option Tail
  inertia : Fin 3 → Fin 3 → ℝ

/-- The flight condition: speed, density, gravity, mass, drag and lift coefficients, parasite drag of the main wing, and the
static derivatives of lines 153-158. -/
structure Flight where
  V : ℝ
  rho : ℝ
  g : ℝ
  mass : ℝ
  CD : ℝ
  CL : ℝ
  cDw : ℝ
  Cma : ℝ
  CnB : ℝ

/-- What lines 171-215 leave in `stability`. The two time constants are only set when `Cl_p` is not zero (201). -/
structure Dynamics where
  Cnr : ℝ
  Clp : ℝ
  ClB : ℝ
  Cmq : ℝ
  CmaDot : ℝ
  Cza : ℝ
  dutch : Mode
  rollTau : Option ℝ
  spiralTau : Option ℝ
  short : Mode
  phug : Mode

/-- Derivatives and modes for an aircraft with both tails, lines 171-215. The roll time constant is handed the entry `[2][2]` of
the tensor (202). The damping in pitch takes the slope of the main wing (189), the lag of downwash the downwash slope
of the tail (192). Lines 218-241 are not reached: `Cy_beta` is set to 0 in line 184. -/
noncomputable def dynamics (a : Craft) (f : Flight) (fin tail : Tail) : Dynamics :=
  let lv := fin.x - a.xw
  let Cnr := cnR f.cDw fin.area a.Sref lv a.span fin.eta fin.CLa
  let Clp := clP a.CLa a.taper
  let ClB := match a.dihedral with
    | some d => clBeta a.taper d Clp
    | none => 0
  let lt := tail.x - a.xw
  let vht := tail.area * lt / (a.Sref * a.mac)
  let Cmq := cmQ a.CLa vht lt a.mac
  let CmaDot := cmAlphadot f.Cma tail.ep lt a.mac
  let Cza := czAlpha f.CD a.CLa
  open Classical in
  { Cnr := Cnr, Clp := Clp, ClB := ClB, Cmq := Cmq, CmaDot := CmaDot, Cza := Cza
    dutch := dutchRoll f.V f.CnB a.Sref f.rho a.span (a.inertia 2 2) Cnr
    rollTau := if Clp = 0 then none else some (rollTau (a.inertia 2 2) a.Sref f.rho f.V a.span Clp)
    spiralTau := if Clp = 0 then none else
      some (spiralTau f.mass f.V f.rho a.Sref Clp f.CnB (cyPhi f.CL) ClB Cnr (clR f.CL))
    short := shortPeriod f.V f.rho a.Sref a.mac Cmq Cza f.mass f.Cma (a.inertia 1 1) CmaDot
    phug := phugoid f.g f.V f.CD f.CL }

open Classical in
/-- The dynamic part, lines 167-243: nothing for an inertia tensor of zeros, an exception (`none`) for a missing tail. -/
noncomputable def dynamicPart (a : Craft) (f : Flight) : Option (Option Dynamics) :=
  if ∃ i j, a.inertia i j ≠ 0 then
    match a.fin, a.tail with
    | some v, some h => some (some (dynamics a f v h))
    | _, _ => none
  else some none

end Verif.Stability
