import Verif.Vlm.Horseshoe

/-!
# Forces and moments of the vortex lattice

Model of the last part of `VLM.py` (`Fidelity_Zero/Lift/VLM.py`): reference point (lines 135-159),
velocity guard (176-182), prefix sums along strips (317-319 and 584-595), strip forces, moments and
their resolution in wind axes (444-476), totals (485-493).
-/

namespace Verif.Vlm

/-- What the force resolution needs of one strip: normal and axial coefficient, the stored incidence
(`ZETA`, the *tangent* of the incidence, `generate_VD_helpers.py` line 71), dihedral angle, the load
point, the couples `BMLE`, `SICPLE`, chord and width `ES`. -/
structure Strip where
  cnc : ℝ
  caxl : ℝ
  zeta : ℝ
  dl : ℝ
  pos : Vec3
  bmle : ℝ
  sicple : ℝ
  chord : ℝ
  es : ℝ

/-- `BFX`, `BFY`, `BFZ` (`VLM.py` lines 444-451). -/
noncomputable def bodyForce (s : Strip) : Vec3 :=
  ⟨-s.cnc * Real.sin s.zeta + s.caxl * Real.cos s.zeta,
   -(s.cnc * Real.cos s.zeta + s.caxl * Real.sin s.zeta) * Real.sin s.dl,
   (s.cnc * Real.cos s.zeta + s.caxl * Real.sin s.zeta) * Real.cos s.dl⟩

/-- `BMX`, `BMY`, `BMZ` (lines 455-465), about the point `(xbar, 0, zbar)`. -/
noncomputable def bodyMoment (xbar zbar : ℝ) (s : Strip) : Vec3 :=
  let F := bodyForce s
  ⟨F.z * s.pos.y - F.y * (s.pos.z - zbar) + s.sicple,
   s.bmle * s.chord * Real.cos s.dl + F.x * (s.pos.z - zbar) - F.z * (s.pos.x - xbar),
   s.bmle * s.chord * Real.sin s.dl - F.x * s.pos.y + F.y * (s.pos.x - xbar)⟩

/-- `LIFT` (line 471). -/
noncomputable def liftOf (a p : ℝ) (s : Strip) : ℝ :=
  let F := bodyForce s
  (F.z * Real.cos a - (F.x * Real.cos p + F.y * Real.sin p) * Real.sin a) * (s.es * s.chord)
/-- `DRAG` (lines 466-467, 472). -/
noncomputable def dragOf (a p : ℝ) (s : Strip) : ℝ :=
  let F := bodyForce s
  (F.z * Real.sin a + (F.x * Real.cos p + F.y * Real.sin p) * Real.cos a) * s.chord * s.es
/-- `FY` (line 474). -/
noncomputable def sideOf (_a p : ℝ) (s : Strip) : ℝ :=
  let F := bodyForce s
  (F.y * Real.cos p - F.x * Real.sin p) * (s.es * s.chord)
/-- `MOMENT` (line 473). -/
noncomputable def pitchOf (xbar zbar _a p : ℝ) (s : Strip) : ℝ :=
  let M := bodyMoment xbar zbar s
  s.es * s.chord * (M.y * Real.cos p - M.x * Real.sin p)
/-- `RM` (line 475). -/
noncomputable def rollOf (xbar zbar a p : ℝ) (s : Strip) : ℝ :=
  let M := bodyMoment xbar zbar s
  s.es * s.chord * (M.x * Real.cos a * Real.cos p + M.y * Real.cos a * Real.sin p + M.z * Real.sin a)
/-- `YM` (line 476). -/
noncomputable def yawOf (xbar zbar a p : ℝ) (s : Strip) : ℝ :=
  let M := bodyMoment xbar zbar s
  s.es * s.chord * (M.z * Real.cos a - (M.x * Real.cos p + M.y * Real.sin p) * Real.sin a)

/-- Sum of a per-strip quantity (`np.sum(…,axis=1)`, lines 485-492). -/
noncomputable def total (q : Strip → ℝ) (l : List Strip) : ℝ := (l.map q).sum

/-- The outputs `CL`, `CDi`, `CM`, `CYTOT`, `CRMTOT`, `CYMTOT` (lines 485-493). -/
structure Coefs where
  CL : ℝ
  CDi : ℝ
  CM : ℝ
  CY : ℝ
  CRM : ℝ
  CYM : ℝ

/-- Totals (lines 485-493). -/
noncomputable def coefs (sref cbar span xbar zbar a p : ℝ) (l : List Strip) : Coefs where
  CL := total (liftOf a p) l / sref
  CDi := total (dragOf a p) l / sref
  CM := total (pitchOf xbar zbar a p) l / sref / cbar
  CY := total (sideOf a p) l / sref
  CRM := total (rollOf xbar zbar a p) l / sref / span * (-1)
  CYM := total (yawOf xbar zbar a p) l / sref / span * (-1)

/-- Strip number of a flat panel index, as laid out by `np.repeat(…, strip_lengths)` (line 594). -/
def stripOf : List ℕ → ℕ → ℕ
  | [], _ => 0
  | l :: ls, i => if i < l then 0 else stripOf ls (i - l) + 1

/-- `chord_breaks`: flat index of the first panel of strip `j`. -/
def chordBreak (lens : List ℕ) (j : ℕ) : ℕ := (lens.take j).sum

/-- `np.cumsum(arr)[i]` (line 591). -/
def cumsum (arr : ℕ → ℝ) (i : ℕ) : ℝ := ((List.range (i + 1)).map arr).sum

/-- `strip_cumsum` (lines 584-595). -/
def stripCumsum (lens : List ℕ) (arr : ℕ → ℝ) (i : ℕ) : ℝ :=
  cumsum arr i -
    (if stripOf lens i = 0 then 0 else cumsum arr (chordBreak lens (stripOf lens i) - 1))

/-- `GANT` (lines 317-319): the prefix sums, rolled by one over the whole row, zero on the first
panel of every strip. -/
def gant (lens : List ℕ) (arr : ℕ → ℝ) (i : ℕ) : ℝ :=
  if i = chordBreak lens (stripOf lens i) then 0
  else stripCumsum lens arr (if i = 0 then lens.sum - 1 else i - 1)

/-- A wing as far as the reference point is concerned. -/
structure RefWing where
  main : Bool
  vertical : Bool
  mac : ℝ
  xac : ℝ
  zac : ℝ
  span : ℝ

/-- `c_bar` in the loop of lines 144-151: 0 before the first wing. -/
def bestMac : Option RefWing → ℝ
  | none => 0
  | some b => b.mac

open Classical in
/-- The loop of lines 144-151: the last non-vertical wing whose chord is not less than the best so
far. -/
noncomputable def bestWing (best : Option RefWing) : List RefWing → Option RefWing
  | [] => best
  | w :: ws =>
    bestWing (if w.vertical = false ∧ bestMac best ≤ w.mac
      then some w else best) ws

/-- The wing that fixes the reference lengths (lines 135-151): the wing with the tag `main_wing`, otherwise
the result of the loop. -/
noncomputable def refWing (ws : List RefWing) : Option RefWing :=
  match ws.find? (·.main) with
  | some w => some w
  | none => bestWing none ws

open Classical in
/-- The moment reference point `(x_m, z_m)` (lines 153-159); `none` is the unbound `z_mac`. -/
noncomputable def momentPoint (cg : ℝ × ℝ) (ws : List RefWing) : Option (ℝ × ℝ) :=
  if cg.1 = 0 then (refWing ws).map fun w => (w.xac, w.zac) else some cg

/-- The guard on the free-stream velocities (lines 176-182). -/
noncomputable def velocityGuard (useSurrogate : Bool) (v : List ℝ) : Option (List ℝ) :=
  open Classical in
  if (0 : ℝ) ∈ v then
    if useSurrogate then some (v.map fun x => if x = 0 then 1 / 10 ^ 6 else x) else none
  else some v

end Verif.Vlm
