import Verif.Performance.Vn
import Mathlib.Analysis.Real.Sqrt

/-!
# Gust loads in the V-n diagram

Model of `gust_loads` and of the insertion in `gust_dive_speed_intersection`
(`trunk/SUAVE/Methods/Performance/V_n_diagram.py`, 581-827).  Real numbers stand for floats, arrays are
lists, an index error, a complex root or a division by zero is `none`.  The load factors kept for plotting (765-774) and
the lines drawn with them (896-903) are at the end.
-/

namespace Verif.Performance

/-- What `gust_loads` unpacks (631-657).  `rho0` is `density / density_ratio**2`; the gust velocities
are already signed. -/
structure GustIn where
  kg : ℝ
  cla : ℝ
  wl : ℝ
  rho0 : ℝ
  cl : ℝ
  limit : ℝ
  uRough : ℝ
  uCruise : ℝ
  uDive : ℝ
  Vc : ℝ
  Vd : ℝ

/-- Gust load factor at airspeed `v` for gust velocity `u` (664, 665, 672, 731). -/
noncomputable def gust (d : GustIn) (v u : ℝ) : ℝ := 1 + d.kg * d.cla * v * u / (498 * d.wl)

/-- `max(np.roots([a, b, c]))`: `none` for complex roots; `np.roots` drops leading zeros. -/
noncomputable def maxRoot (a b c : ℝ) : Option ℝ :=
  if a = 0 then (if b = 0 then none else some (-c / b))
  else if b ^ 2 - 4 * a * c < 0 then none
  else some (max ((-b + √(b ^ 2 - 4 * a * c)) / (2 * a)) ((-b - √(b ^ 2 - 4 * a * c)) / (2 * a)))

/-- `V_inters` of the rough gust (669-671). -/
noncomputable def roughSpeed (d : GustIn) : Option ℝ :=
  maxRoot (709.486 * d.rho0 * d.cl) (-d.kg * d.uRough * d.cla) (-498 * d.wl)

/-- `load_factors[1] > 0`. -/
noncomputable def upper (n : List ℝ) : Option Bool := do
  let x ← n[1]?
  pure (decide (0 < x))

/-- Rough and cruise gusts (663-728); `load` is the lift law of `stall_line`, `N` is `Num_of_points`. -/
noncomputable def cruisePart (d : GustIn) (load : ℝ → ℝ) (N : ℕ) (v n : List ℝ) : Option (List ℝ × List ℝ) := do
  let va ← v[N + 2]?
  let g1 := gust d va d.uRough
  let g2 := gust d d.Vc d.uCruise
  if |d.limit| < |g1| then do
    let vb ← roughSpeed d
    let v := insertAt (N + 3) vb v
    let n := insertAt (N + 3) (gust d vb d.uRough) n
    let (v, n) ← stallLine load (N + 3) (N + 2) 5 v n
    let up ← upper n
    if up then pure (insertAt (N + 9) d.Vc v, insertAt (N + 9) g2 n) else pure (v, n)
  else if |d.limit| < |g2| then do
    let na ← n[N + 2]?
    let v := insertAt (N + 3) (498 * (na - 1) * d.wl / (d.kg * d.uCruise * d.cla)) v
    let n := insertAt (N + 3) d.limit n
    let up ← upper n
    if up then pure (insertAt (N + 4) d.Vc v, insertAt (N + 4) g2 n)
    else pure (v, n.set (v.length - 2) g2)
  else pure (v, n)

/-- `min(load_factors)`. -/
noncomputable def lowest : List ℝ → ℝ
  | [] => 0
  | x :: xs => xs.foldl min x

/-- `gust_dive_speed_intersection` with `element_num = len(load_factors) - 2` (813-827). -/
noncomputable def addCorner (c : Cat) (d : GustIn) (g2 g3 : ℝ) (v n : List ℝ) : Option (List ℝ × List ℝ) := do
  let x ← n[n.length - 2]?
  let up ← upper n
  let q := corner c up x (lowest n) g2 g3 d.Vc d.Vd
  pure (insertAt (n.length - 2) q.1 v, insertAt (n.length - 2) q.2 n)

/-- Dive gusts (730-763); the third result is `limit_loads.dive` of the side (761, 763, 783). -/
noncomputable def divePart (c : Cat) (d : GustIn) (v n : List ℝ) : Option (List ℝ × List ℝ × ℝ) := do
  let g2 := gust d d.Vc d.uCruise
  let g3 := gust d d.Vd d.uDive
  let up ← upper n
  if up then do
    let r ← (if |d.limit| < |g2| then
        (if |d.limit| < |g3| then some (v, n.set (n.length - 2) g3) else addCorner c d g2 g3 v n)
      else some (v, n))
    let x ← r.2[r.2.length - 2]?
    pure (r.1, r.2, x)
  else do
    let last ← n[n.length - 1]?
    if g3 < last then do
      let vl ← v[n.length - 1]?
      let v := insertAt (n.length - 1) vl v
      let n := insertAt (n.length - 1) g3 n
      let r ← (if |d.limit| < |g2| then some (v, n.set (n.length - 2) g3) else addCorner c d g2 g3 v n)
      let x ← r.2[r.2.length - 2]?
      pure (r.1, r.2, x)
    else pure (v, n, last)

/-- `gust_load_factors` when `gust_loads` ends (655-665, 731, 765-774): `va` is the manoeuvre speed. -/
noncomputable def gustFactors (commuter : Bool) (d : GustIn) (va : ℝ) : List ℝ :=
  [1, gust d va d.uRough, gust d d.Vc d.uCruise, gust d d.Vd d.uDive, gust d (1.05 * d.Vd) d.uCruise, gust d (1.05 * d.Vd) d.uDive,
    if commuter then gust d (1.05 * d.Vd) d.uRough else 0]

/-- The gust lines of one side in the diagram (896-903), as lists of points. -/
noncomputable def gustLines (commuter : Bool) (Vc Vd : ℝ) (f : List ℝ) : Option (List (List (ℝ × ℝ))) := do
  let f2 ← f[2]?
  let f3 ← f[3]?
  let c ← f[f.length - 3]?
  let v ← f[f.length - 2]?
  let r ← f[f.length - 1]?
  pure ([[(0, 1), (Vc, f2), (1.05 * Vd, c)], [(0, 1), (Vd, f3), (1.05 * Vd, v)]] ++
    (if commuter then [[(0, 1), (1.05 * Vd, r)]] else []))

end Verif.Performance
