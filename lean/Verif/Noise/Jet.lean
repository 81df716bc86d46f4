import Verif.Noise.Airframe
import Mathlib.Analysis.SpecialFunctions.Trigonometric.Arctan

/-!
Jet noise of a turbofan (SAE ARP 876D): mixing of the two streams, apparent source positions, the three spectral components and their
installation effects, one time step of one frequency band. Python floats are real numbers; `np.float` is the identity; a `while`
loop is run with fuel, and `none` means that the fuel was spent.
-/

namespace Verif.Noise.Jet
open Real

/-- What `noise_SAE` reads from the turbofan. `/repo/trunk/SUAVE/Methods/Noise/Fidelity_One/Engine/noise_SAE.py` lines 84-100. -/
structure Engine where
  noiseSpeedCore : ℝ
  noiseSpeedFan : ℝ
  thrust : ℝ
  rotation : ℝ
  Dp : ℝ
  Ds : ℝ
  height : ℝ
  exa : ℝ
  plug : ℝ
  xe : ℝ
  ye : ℝ
  ce : ℝ

/-- `noise_SAE.py` lines 84, 88, 92: jet speeds and fan speed scaled with the design thrust. -/
noncomputable def Engine.Vp (e : Engine) : ℝ := e.noiseSpeedCore * 0.92 * (e.thrust / 52700)
noncomputable def Engine.Vs (e : Engine) : ℝ := e.noiseSpeedFan * (e.thrust / 52700)
noncomputable def Engine.N1 (e : Engine) : ℝ := e.rotation * 0.92 * (e.thrust / 52700)
/-- `noise_SAE.py` lines 145-146. -/
noncomputable def Engine.Ap (e : Engine) : ℝ := π * (e.Dp / 2) ^ 2
noncomputable def Engine.As (e : Engine) : ℝ := π * (e.Ds / 2) ^ 2

/-- One control point of the segment: exit stagnation states, free stream and microphone geometry. `noise_SAE.py` lines 85-136. -/
structure Point where
  Tp : ℝ
  Pp : ℝ
  Ts : ℝ
  Ps : ℝ
  a : ℝ
  rho : ℝ
  p : ℝ
  v : ℝ
  alpha : ℝ
  dist : ℝ
  theta : ℝ

/-! ### Mixing, `noise_SAE.py` lines 139-142 and 200-220 -/

noncomputable def Rgas : ℝ := 287.1
noncomputable def Cpp : ℝ := Rgas / (1 - 1 / 1.37)
noncomputable def Cp : ℝ := Rgas / (1 - 1 / 1.4)

/-- `noise_SAE.py` lines 203-204 and 217. -/
noncomputable def gasDensity (P T V cp : ℝ) : ℝ := P / (Rgas * T - 0.5 * Rgas * V ^ 2 / cp)

/-- A stream at its nozzle exit. -/
structure Stream where
  A : ℝ
  V : ℝ
  T : ℝ
  rho : ℝ

/-- `noise_SAE.py` lines 206-207. -/
def Stream.mdot (s : Stream) : ℝ := s.A * s.V * s.rho

/-- `noise_SAE.py` lines 213-219. -/
noncomputable def mix (p s : Stream) (pamb : ℝ) : Stream :=
  let V := (p.mdot * p.V + s.mdot * s.V) / (p.mdot + s.mdot)
  let T := (p.mdot * p.T + s.mdot * s.T) / (p.mdot + s.mdot)
  let rho := gasDensity pamb T V Cp
  ⟨p.A * p.rho * p.V * (1 + s.mdot / p.mdot) / (rho * V), V, T, rho⟩

/-- `noise_SAE.py` line 220. -/
noncomputable def Stream.D (s : Stream) : ℝ := (4 * s.A / π) ^ (0.5 : ℝ)

/-- `noise_SAE.py` lines 226-230. -/
noncomputable def bypassTerm (mp ms : ℝ) : ℝ :=
  let x := ms / mp - 5.5
  if x < 0 then 0 else if 4 < x then 4 else x

/-- `noise_SAE.py` lines 233-236. -/
noncomputable def shearSpeed (Vp Vs Va Ap As : ℝ) : ℝ :=
  let d := |Vp - (Vs * As + Va * Ap) / (As + Ap)|
  if d < 0.3 then 0.3 else d

/-- `noise_SAE.py` lines 245-252. -/
noncomputable def excitation (St : ℝ) : ℝ := exp (-(if 0.25 < St ∧ St < 0.5 then 0 else 50 * (St - 0.25) * (St - 0.5)))

/-- `noise_SAE.py` line 258. -/
noncomputable def excDirect (exa : ℝ) : ℝ := exp (0.6 - exa ^ (0.5 : ℝ))

/-- `noise_SAE.py` line 261. -/
noncomputable def contraction (exd exps : ℝ) : ℝ := 1 - 0.4 * exd * exps

/-! ### Apparent source positions
`/repo/trunk/SUAVE/Methods/Noise/Fidelity_One/Engine/noise_source_location.py` -/

/-- Lines 67, 79, 97, 110, 131, 144; `Xo` is zero in `noise_SAE` (line 148). -/
noncomputable def sourceB (theta d Xo XJ : ℝ) : ℝ := 1 / sin theta * ((Xo + XJ) / d + cos theta)

/-- Lines 69-72, 81-84, 99-102, 112-115, 132-135, 146-149. -/
noncomputable def sourceAngle (B : ℝ) : ℝ :=
  if 0 ≤ B then arcsin ((B ^ 2 + 1) ^ (-0.5 : ℝ)) else π - arcsin ((B ^ 2 + 1) ^ (-0.5 : ℝ))

/-- Lines 66, 74, 88: position of the primary source. -/
noncomputable def xjPrimary (zk Dp ratio t : ℝ) : ℝ := zk * Dp * (4 + 4 * arctan (18 * t / π - 9) + ratio)

/-- Lines 104-105, 119-120; with `D := Diameter_secondary` lines 94-95, which only serve to start the loop. -/
noncomputable def xjSecondary (zk D St Vs a Va t : ℝ) : ℝ :=
  zk * D * (2 + 1.6 * arctan (4.5 * t / π - 2.25)) * (1 + 0.5 / √St) * √(1 + 0.7 * Vs / a) * (Vs / (Vs - Va))

/-- Lines 127-129, 137-139, 153-155. -/
noncomputable def xjMixed (zk D St Vm a Va t : ℝ) : ℝ :=
  zk * D * (3 + exp (-St) + (2 + 1.1 * arctan (18 * t / π - 13)) + (1 + 0.5 / √St)) * √(0.5 + 0.5 * Vm / a) * (Vm / (Vm - Va))

/-- The body of the loops, lines 77-89, 108-122, 142-157: the angle seen from the source, averaged with the previous one; the loop ends once the
source moved by no more than `tol`. `ang` is the angle as a function of the source position. -/
noncomputable def settle (xj ang : ℝ → ℝ) (tol : ℝ) : ℕ → ℝ → Option ℝ
  | 0, _ => none
  | n + 1, t =>
    let t' := (t + ang (xj t)) / 2
    if tol < |xj t - xj t'| then settle xj ang tol n t' else some t'

/-- One source: lines 65-89, 92-122, 125-157. `xj0` is the position formula of the first line, `r0` the initial residual. -/
noncomputable def locate (xj0 xj ang : ℝ → ℝ) (r0 tol : ℝ) (fuel : ℕ) (t : ℝ) : Option ℝ :=
  let t1 := ang (xj0 t)
  if tol < r0 then settle xj ang tol fuel t1 else some t1

/-! ### Spectral components -/

/-- What the three components share of a time step: speeds, geometry and gas data. -/
structure Flow where
  Vp : ℝ
  Vs : ℝ
  Vm : ℝ
  Va : ℝ
  a : ℝ
  Tp : ℝ
  Ap : ℝ
  As : ℝ
  shear : ℝ
  xbpr : ℝ

/-- `/repo/trunk/SUAVE/Methods/Noise/Fidelity_One/Engine/primary_noise_component.py` lines 48-51. -/
noncomputable def primaryExponent (t : ℝ) : ℝ := if t ≤ 2.2 then 1.56 else 1.5 * exp (-10 * (t - 2.2) ^ 2)

/-- `primary_noise_component.py` lines 43-44 and 54-55. -/
noncomputable def primaryFV (j : Flow) (t : ℝ) : ℝ :=
  j.Vp / √(1.4 * Rgas * j.Tp) * (j.shear / j.a) ^ (0.6 : ℝ) * ((j.Vp + j.Vs) / j.a) ^ (0.4 : ℝ) * (|j.Vp - j.Va| / j.Vp) ^ primaryExponent t

/-- The common angle term `1.8 theta / pi - 0.6`. -/
noncomputable def tau (t : ℝ) : ℝ := 1.8 * t / π - 0.6

/-- `log10(1 + Area_secondary / Area_primary)`. -/
noncomputable def logArea (Ap As : ℝ) : ℝ := logb 10 (1 + As / Ap)

/-- `primary_noise_component.py` lines 58-68, the value written for a band below the last. -/
noncomputable def primaryBand (j : Flow) (t dspl ex St : ℝ) : ℝ :=
  let F := logb 10 (primaryFV j t)
  let Z1 := -18 * tau t ^ 2
  let Z2 := -18 - 18 * tau t ^ 2
  let Z3 := 0
  let Z4 := -0.1 - 0.75 * ((j.Vp - j.Vs - j.Va) / j.a) * tau t ^ 3 + 0.8 * (0.6 - logArea j.Ap j.As)
  let Z5 := 50 + 20 * exp (-(t - 2.6) ^ 2)
  let Z6 := 94 + 46 * exp (-(t - 2.5) ^ 2) - 26 * (0.6 - logArea j.Ap j.As) / exp (5 * (t - 2.3) ^ 2) + dspl + ex
  (Z1 * F + Z2) * (logb 10 St - Z3 * F - Z4) ^ 2 + Z5 * F + Z6

/-- `primary_noise_component.py` lines 47-70: the loop visits the bands `range(0,23)` of the array that is passed in; the other entries
keep the value they had. -/
noncomputable def primary (j : Flow) (old : ℝ) (i : ℕ) (t dspl ex St : ℝ) : ℝ := if i < 23 then primaryBand j t dspl ex St else old

/-- `/repo/trunk/SUAVE/Methods/Noise/Fidelity_One/Engine/secondary_noise_component.py` lines 50-54. -/
noncomputable def secondaryFV (j : Flow) (t : ℝ) : ℝ :=
  ((j.Vs - j.Va) / j.a) ^ (0.5 * 0.1 * t) * ((j.Vs + j.Va) / j.a) ^ (1 - 0.5 * 0.1 * t)

/-- `secondary_noise_component.py` lines 57-66. -/
noncomputable def secondary (j : Flow) (t dspl ex St : ℝ) : ℝ :=
  let F := logb 10 (secondaryFV j t)
  let Z1 := -18 * tau t ^ 2
  let Z2 := -14 - 8 * tau t ^ 3
  let Z3 := -0.7
  let Z4 := 0.6 - 0.5 * tau t ^ 2 + 0.5 * (0.6 - logArea j.Ap j.As)
  let Z5 := 51 + 54 * t / π - 9 * tau t ^ 3
  let Z6 := 99 + 36 * t / π - 15 * tau t ^ 4 + 5 * j.Vs * (j.Vp - j.Vs) / j.a ^ 2 + dspl + ex
  (Z1 * F + Z2) * (logb 10 St - Z3 * F - Z4) ^ 2 + Z5 * F + Z6

/-- `/repo/trunk/SUAVE/Methods/Noise/Fidelity_One/Engine/mixed_noise_component.py` lines 51-56. -/
noncomputable def mixedFV (j : Flow) (t St : ℝ) : ℝ :=
  let e := (j.Vm / j.a) ^ (0.5 : ℝ) * (0.6 + 0.2 / (0.2 + St) * exp (-0.3 * (t + St / (1 + St) - 2.7) ^ 2))
  ((j.Vm - j.Va) / j.a) ^ e * ((j.Vm + j.Va) / j.a) ^ (1 - e)

/-- `mixed_noise_component.py` lines 59-73. -/
noncomputable def mixed (j : Flow) (t dspl ex St : ℝ) : ℝ :=
  let F := logb 10 (mixedFV j t St)
  let Z1 := -30 * tau t ^ 2
  let Z2 := -9 - 4 * ((j.Vp - j.Vs) / j.a) - 38 * tau t ^ 3 + 30 * (0.6 - logArea j.Ap j.As) * tau t
  let Z3 := 1 - 0.4 * tau t ^ 2
  let Z4 := 0.44 - 0.5 / exp ((4.5 * t / π - 4) ^ 2) + 0.2 * j.Vp / j.a - 0.7 * j.Vm / j.a - 0.2 * logb 10 ((1 + j.As) / j.Ap) +
    0.05 * j.xbpr * exp (-5 * (t - 2.4) ^ 2)
  let Z5 := 34 + 81 * t / π - 20 * tau t ^ 3
  let Z6 := 108 + 37.8 * t / π + 5 * j.Vm * (j.Vp - j.Vs) / j.a ^ 2 - exp (-5 * (t - 1.8) ^ 2) +
    7 * j.Vm / j.a * (1 - 0.4 * (j.Vp / j.a) * exp (-0.7 * |St - 0.8|)) / exp (8 * (t - 2.4) ^ 2) +
    0.8 * j.xbpr * exp (t - 2.3 - j.Vm / j.a) + dspl + ex
  (Z1 * F + Z2) * (logb 10 St - Z3 * F - Z4) ^ 2 + Z5 * F + Z6

/-! ### Installation effects -/

/-- `/repo/trunk/SUAVE/Methods/Noise/Fidelity_One/Engine/angle_of_attack_effect.py` line 41. -/
noncomputable def attackEffect (aoa mach t : ℝ) : ℝ := 0.5 * aoa * mach * tau t ^ 2

/-- `/repo/trunk/SUAVE/Methods/Noise/Fidelity_One/Engine/jet_installation_effect.py` lines 41-46. -/
noncomputable def installEffect (xe ye ce t D : ℝ) : ℝ :=
  let x := 0.5 * ((ce - xe) ^ 2 / (ce * D)) * (exp (-ye / D) * (1.8 * t / π) - 0.6) ^ 2
  if 2.5 < x then 2.5 else x

/-- `/repo/trunk/SUAVE/Methods/Noise/Fidelity_One/Engine/external_plug_effect.py` lines 52-58. -/
noncomputable def plugPrimary (V a t plug D : ℝ) : ℝ := 0.1 * (V / a) * (10 - 18 * t / π) * plug / D
noncomputable def plugSecondary (V a t plug D : ℝ) : ℝ := 0.1 * (V / a) * (6 - 18 * t / π) * plug / D
noncomputable def plugMixed (V Vm a t plug D : ℝ) : ℝ := 0.1 * (V * Vm / a ^ 2) * (9 - 18 * t / π) * plug / D

/-- `/repo/trunk/SUAVE/Methods/Noise/Fidelity_One/Engine/ground_proximity_effect.py` lines 43-45. -/
noncomputable def groundEffect (Vm a t h D f : ℝ) : ℝ :=
  5 * Vm / a * exp (-(9 * (t / π) - 6.75) ^ 2 - (h / D - 2.5) ^ 2) * (1 + sin (π * h * f / a - π / 2) ^ 2) / (2 + |h * f / a - 1|)

/-! ### One time step of `noise_SAE` -/

/-- `noise_SAE.py` lines 291, 294-301, 337-339, 350-352: far field (`near_field = 0`), flight (`tunnel = 0`). -/
noncomputable def levelShift (pamb r1 r2 D dist att : ℝ) : ℝ :=
  20 * logb 10 (pamb / 101325) + 20 * logb 10 ((r1 + r2) / (2 * r2)) + -att + 20 * logb 10 (D / dist)

/-- `noise_SAE.py` lines 294 and 350: the primary jet is referred to the mean of the two exit densities. -/
noncomputable def levelShiftPrimary (pamb rp rs ra D dist att : ℝ) : ℝ :=
  20 * logb 10 (pamb / 101325) + 20 * logb 10 ((rp + rs) / (2 * ra)) + -att + 20 * logb 10 (D / dist)

/-- What is kept of a band from one time step to the next: the three source angles and the level of the primary jet
(`noise_SAE.py` lines 166-168, 173, 364). -/
structure Memory where
  tp : ℝ
  ts : ℝ
  tm : ℝ
  spl : ℝ

/-- `noise_SAE.py` lines 166-168 and 173. -/
noncomputable def Memory.start : Memory := ⟨π / 2, π / 2, π / 2, 0⟩

/-- The levels of a band. -/
structure Levels where
  p : ℝ
  s : ℝ
  m : ℝ
  total : ℝ

/-- `noise_SAE.py` line 375. -/
noncomputable def sum3 (p s m : ℝ) : ℝ := 10 * logb 10 ((10 : ℝ) ^ (0.1 * p) + (10 : ℝ) ^ (0.1 * s) + (10 : ℝ) ^ (0.1 * m))

/-- `noise_SAE.py` lines 203-207. -/
noncomputable def Engine.core (e : Engine) (q : Point) : Stream := ⟨e.Ap, e.Vp, q.Tp, gasDensity q.Pp q.Tp e.Vp Cpp⟩
noncomputable def Engine.fanJet (e : Engine) (q : Point) : Stream := ⟨e.As, e.Vs, q.Ts, gasDensity q.Ps q.Ts e.Vs Cp⟩
noncomputable def Engine.mixed (e : Engine) (q : Point) : Stream := mix (e.core q) (e.fanJet q) q.p

/-- `noise_SAE.py` lines 213-236, the quantities handed to the components; `Va` is the aircraft speed (line 102). -/
noncomputable def Engine.jet (e : Engine) (Va : ℝ) (q : Point) : Flow :=
  ⟨e.Vp, e.Vs, (e.mixed q).V, Va, q.a, q.Tp, e.Ap, e.As, shearSpeed e.Vp e.Vs Va e.Ap e.As, bypassTerm (e.core q).mdot (e.fanJet q).mdot⟩

/-- `noise_SAE.py` lines 245-261. -/
noncomputable def Engine.exps (e : Engine) (q : Point) : ℝ := excitation (e.N1 / 60 * ((e.mixed q).D / (e.mixed q).V))
noncomputable def Engine.zk (e : Engine) (q : Point) : ℝ := contraction (excDirect e.exa) (e.exps q)

/-- `noise_SAE.py` lines 239-241. -/
noncomputable def Engine.strP (e : Engine) (Va f : ℝ) : ℝ := f * e.Dp / shearSpeed e.Vp e.Vs Va e.Ap e.As
noncomputable def Engine.strS (e : Engine) (Va : ℝ) (q : Point) (f : ℝ) : ℝ := f * (e.mixed q).D / (e.Vs - Va)
noncomputable def Engine.strM (e : Engine) (Va : ℝ) (q : Point) (f : ℝ) : ℝ := f * (e.mixed q).D / ((e.mixed q).V - Va)

/-- `noise_SAE.py` lines 255, 273-281. -/
noncomputable def Engine.exMixed (e : Engine) (Va : ℝ) (q : Point) (f t : ℝ) : ℝ :=
  let St := e.N1 / 60 * ((e.mixed q).D / (e.mixed q).V)
  let exs := 5 * e.exps q * exp (-(logb 10 (e.strM Va q f / (2 * St + 0.00001))) ^ 2)
  let exc := if t ≤ 1.4 then q.a / (e.mixed q).V else q.a / (e.mixed q).V * (1 - 1.8 / π * (t - 1.4))
  excDirect e.exa * exs * exc

/-- `noise_SAE.py` lines 268-270: the three source angles of a band. -/
noncomputable def Engine.angles (e : Engine) (Va : ℝ) (q : Point) (f : ℝ) (fuel : ℕ) (st : Memory) : Option (ℝ × ℝ × ℝ) := do
  let ang := fun XJ => sourceAngle (sourceB q.theta q.dist 0 XJ)
  let D := (e.mixed q).D
  let xp := xjPrimary (e.zk q) e.Dp (e.As / e.Ap)
  let tp ← locate xp xp ang e.Dp (e.Dp / 200) fuel st.tp
  let xs := fun D => xjSecondary (e.zk q) D (e.strS Va q f) e.Vs q.a Va
  let ts ← locate (xs e.Ds) (xs D) ang e.Ds (D / 200) fuel st.ts
  let xm := xjMixed (e.zk q) D (e.strM Va q f) (e.mixed q).V q.a Va
  let tm ← locate xm xm ang D (D / 200) fuel st.tm
  pure (tp, ts, tm)

/-- `noise_SAE.py` lines 283-284, 350-375 for the band `i` with centre frequency `f`; `aoa` is the mean angle of attack in degrees. -/
noncomputable def Engine.levels (e : Engine) (Va aoa : ℝ) (q : Point) (i : ℕ) (f old : ℝ) (t : ℝ × ℝ × ℝ) : Levels :=
  let j := e.jet Va q
  let M := e.mixed q
  let att := Air.attenuation q.dist i
  let exp' := 5 * excDirect e.exa * e.exps q
  let exs' := 2 * q.a / (e.Vs * e.zk q)
  let dp := levelShiftPrimary q.p (e.core q).rho (e.fanJet q).rho q.rho e.Dp q.dist att
  let ds := levelShift q.p (e.fanJet q).rho q.rho M.D q.dist att
  let dm := levelShift q.p M.rho q.rho M.D q.dist att
  let p := primary j old i t.1 dp exp' (e.strP Va f) + plugPrimary e.Vp q.a t.1 e.plug e.Dp
  let s := secondary j t.2.1 ds exs' (e.strS Va q f) + plugSecondary e.Vs q.a t.2.1 e.plug e.Ds + installEffect e.xe e.ye e.ce t.2.1 M.D
  let m := Jet.mixed j t.2.2 dm (e.exMixed Va q f t.2.2) (e.strM Va q f) + plugMixed e.Vp M.V q.a t.2.2 e.plug M.D +
    attackEffect aoa (Va / q.a) t.2.2 + groundEffect M.V q.a t.2.2 e.height M.D f
  ⟨p, s, m, sum3 p s m⟩

/-- `noise_SAE.py` lines 195-381: the levels of a band at every time step, in order, together with what is carried over. -/
noncomputable def Engine.march (e : Engine) (Va aoa : ℝ) (i : ℕ) (f : ℝ) (fuel : ℕ) : Memory → List Point → Option (List Levels)
  | _, [] => some []
  | st, q :: qs => do
    let t ← e.angles Va q f fuel st
    let l := e.levels Va aoa q i f st.spl t
    let rest ← e.march Va aoa i f fuel ⟨t.1, t.2.1, t.2.2, l.p⟩ qs
    pure (l :: rest)

/-- `noise_SAE.py` lines 102, 104, 195-381: the aircraft speed is the one of the first control point, the angle of attack the mean over all
of them. The levels `SPL_total_history`, `SPL_primary_history`, ... of the band `i`. An empty segment raises `IndexError` at line 102. -/
noncomputable def Engine.history (e : Engine) (i : ℕ) (f : ℝ) (fuel : ℕ) (qs : List Point) : Option (List Levels) :=
  match qs with
  | [] => none
  | q :: _ => e.march q.v ((qs.map (fun x => x.alpha / (π / 180))).sum / qs.length) i f fuel Memory.start qs

end Verif.Noise.Jet
