import Verif.Num.Blend
/-
Model of the analysis around the vortex lattice (trunk/SUAVE/Analyses/Aerodynamics/Vortex_Lattice.py).

Simplifications
* Exact real arithmetic, one flight condition at a time; the coefficient `f aoa mach` of the vortex lattice is an
  arbitrary function.
* The bivariate splines are arbitrary functions; the linear interpolator of the transonic table is modelled at the
  training angles of attack, where it is linear interpolation in the Mach number with the outer
  pieces extended.
* `none` stands for a raised exception.
-/

namespace Verif.Vlm

open Verif.Num

/-! ### Evaluation -/

/-- Limits of the two blends (lines 107-110). -/
structure Limits where
  subMin : ℝ
  subMax : ℝ
  supMin : ℝ
  supMax : ℝ

/-- The defaults (lines 107-110). -/
noncomputable def Limits.default : Limits := ⟨85 / 100, 95 / 100, 105 / 100, 125 / 100⟩

/-- `evaluate_surrogate` for one coefficient (lines 251-270), each surrogate a function of angle and
Mach number or absent. -/
noncomputable def surrogate (h : Limits) (sub trans sup : Option (ℝ → ℝ → ℝ)) (aoa mach : ℝ) : Option ℝ :=
  match sub, trans, sup with
  | some s, _, none => some (s aoa mach)
  | none, _, some p => some (p aoa mach)
  | some s, some t, some p =>
    let hsub := blend h.subMin h.subMax mach
    let hsup := blend h.supMin h.supMax mach
    some (hsub * s aoa mach + (hsup - hsub) * t aoa mach + (1 - hsup) * p aoa mach)
  | _, _, _ => none

/-! ### The transonic table -/

/-- `RegularGridInterpolator` with three Mach numbers, at a training angle. -/
noncomputable def linear3 (m0 m1 m2 v0 v1 v2 mach : ℝ) : ℝ :=
  if mach < m1 then v0 + (v1 - v0) * (mach - m0) / (m1 - m0) else v1 + (v2 - v1) * (mach - m1) / (m2 - m1)

/-- Columns of the transonic lift table (lines 563-569), from subsonic and supersonic columns.  `none`: an index
out of range. -/
def transLift (sub sup : List ℝ) : Option (ℝ × ℝ × ℝ) :=
  match sub.getLast?, sup[0]?, sup[1]? with
  | some a, some b, some c => some (a, b, c)
  | _, _, _ => none
/-- Columns of the transonic drag table of the aircraft (lines 564, 570-571): the last keeps its zeros. -/
def transDrag (sub sup : List ℝ) : Option (ℝ × ℝ × ℝ) :=
  match sub.getLast?, sup[0]? with
  | some a, some b => some (a, b, 0)
  | _, _ => none
/-- Columns of the transonic drag table of a wing (lines 601, 605-607). -/
def transWingDrag (sub sup : List ℝ) : Option (ℝ × ℝ × ℝ) := transLift sub sup

/-- `build_surrogate` (lines 562-579): the interpolators of lift and drag of the aircraft in the Mach
number; the Mach numbers are also read at the second index. -/
noncomputable def transSurrogates (machSub machSup liftSub liftSup dragSub dragSup : List ℝ) : Option ((ℝ → ℝ) × (ℝ → ℝ)) := do
  let (l0, l1, l2) ← transLift liftSub liftSup
  let (d0, d1, d2) ← transDrag dragSub dragSup
  let (m0, m1, m2) ← transLift machSub machSup
  pure (linear3 m0 m1 m2 l0 l1 l2, linear3 m0 m1 m2 d0 d1 d2)

/-! ### Training -/

/-- Angle of the `i`-th training point (line 424). -/
def trainAoA (nA : Nat) (aoa : Nat → ℝ) (i : Nat) : ℝ := aoa (i % nA)
/-- Mach number of the `i`-th training point (line 425). -/
def trainMach (nA : Nat) (mach : Nat → ℝ) (i : Nat) : ℝ := mach (i / nA)

open Classical in
/-- `sub_sup_split` (lines 437-440) for `n` values. -/
noncomputable def split (n : Nat) (m : Nat → ℝ) : Nat :=
  match ((List.range n).filter fun i => m i < 1).getLast? with
  | none => 0
  | some i => i + 1

open Classical in
/-- `len_sub_mach` (line 441). -/
noncomputable def countSub (nM : Nat) (mach : Nat → ℝ) : Nat := ((List.range nM).filter fun i => mach i < 1).length

/-- The tables `[aoa, mach]` of a coefficient (lines 434-454): subsonic and supersonic.  `none`: `np.reshape` is given
the wrong number of values. -/
noncomputable def tables (nA nM : Nat) (aoa mach : Nat → ℝ) (f : ℝ → ℝ → ℝ) : Option ((Nat → Nat → ℝ) × (Nat → Nat → ℝ)) :=
  let total := fun i => f (trainAoA nA aoa i) (trainMach nA mach i)
  let k := split (nM * nA) (trainMach nA mach)
  let nSub := countSub nM mach
  if k = nSub * nA ∧ nM * nA - k = (nM - nSub) * nA then
    some (fun a m => total (m * nA + a), fun a m => total (k + (m * nA + a)))
  else none

/-! ### Coefficients of the wings -/

/-- `calculate_VLM` (lines 686-699) for one coefficient: wings as (symmetric, reference area), force of each lattice
surface (coefficient times its area).  `none`: more surfaces asked for than there are. -/
noncomputable def wingCoefficients : List (Bool × ℝ) → List ℝ → Option (List ℝ)
  | [], _ => some []
  | (true, ref) :: ws, d :: d' :: ds => (wingCoefficients ws ds).map ((d + d') / ref :: ·)
  | (true, _) :: _, _ => none
  | (false, ref) :: ws, d :: ds => (wingCoefficients ws ds).map (d / ref :: ·)
  | (false, _) :: _, [] => none

end Verif.Vlm
