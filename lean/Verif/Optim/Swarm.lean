import Mathlib.Algebra.Order.Field.Basic
import Mathlib.Algebra.Order.Group.Abs
/-
Model of `particle_swarm_optimization`
(trunk/SUAVE/Optimization/Package_Setups/particle_swarm_optimization.py:15-198).

Simplifications
* Positions are `Fin D → K` over a linearly ordered field; no rounding, no NaN.
* The random numbers are arbitrary functions given in advance; `np.random.rand` numbers are
  assumed to lie in [0,1] only where a theorem says so.
* The Euclidean step length of line 179 is an arbitrary function `dist`.
* Swarm size is at least one (with `swarmsize = 0` the source has no best position at all).
* The objective and the constraints are functions of the position (the Nexus cache is modelled
  separately, in Verif.Nexus.Cache).
-/

namespace Verif.Optim

variable {K : Type} [Field K] [LinearOrder K] {D : Nat}

/-- A position or velocity. -/
abbrev Pos (K : Type) (D : Nat) := Fin D → K

/-- The arguments (15-17); `feasible` is `is_feasible` (109-111), `sentinel` is the `1e100` of
line 121. -/
structure Swarm (K : Type) (D : Nat) where
  lb : Pos K D
  ub : Pos K D
  f : Pos K D → K
  feasible : Pos K D → Bool
  omega : K
  phip : K
  phig : K
  minstep : K
  minfunc : K
  sentinel : K
  dist : Pos K D → Pos K D → K

/-- Row `i` of the arrays `x`, `v`, `p`, `fp`. -/
structure Particle (K : Type) (D : Nat) where
  x : Pos K D
  v : Pos K D
  p : Pos K D
  fp : K

/-- The best position and its value (`g`, `fg`). -/
structure Best (K : Type) (D : Nat) where
  g : Pos K D
  fg : K

/-- Line 125. -/
def Swarm.place (P : Swarm K D) (u : Pos K D) : Pos K D := fun i => P.lb i + u i * (P.ub i - P.lb i)

/-- Line 145, with `vhigh = |ub - lb|`, `vlow = -vhigh` (90-91). -/
def Swarm.launch (P : Swarm K D) (w : Pos K D) : Pos K D := fun i =>
  -|P.ub i - P.lb i| + w i * (|P.ub i - P.lb i| - -|P.ub i - P.lb i|)

/-- One pass of the initialisation loop for `i > 0` (125-145). -/
def Swarm.initOne (P : Swarm K D) (u w : Pos K D) (b : Best K D) : Particle K D × Best K D :=
  let x := P.place u
  let fp := P.f x
  let b' := if fp < b.fg ∧ P.feasible x = true then ⟨x, fp⟩ else b
  (⟨x, P.launch w, x, fp⟩, b')

/-- The rest of the initialisation loop, particles `i`, `i+1`, …, `i+m-1`. -/
def Swarm.initRest (P : Swarm K D) (u w : Nat → Pos K D) : Nat → Nat → Best K D → List (Particle K D) × Best K D
  | _, 0, b => ([], b)
  | i, m + 1, b =>
    let r := P.initOne (u i) (w i) b
    let t := Swarm.initRest P u w (i + 1) m r.2
    (r.1 :: t.1, t.2)

/-- The initialisation (116-145) of a swarm of `m+1` particles; the first particle's position
is the provisional best with the sentinel value (121, 135-136). -/
def Swarm.init (P : Swarm K D) (m : Nat) (u w : Nat → Pos K D) : List (Particle K D) × Best K D :=
  P.initRest u w 0 (m + 1) ⟨P.place (u 0), P.sentinel⟩

/-- Lines 161-164: the marks are computed before the assignments. -/
def Swarm.clampPos (P : Swarm K D) (y : Pos K D) : Pos K D := fun i =>
  let m1 := y i < P.lb i
  let m2 := y i > P.ub i
  let z := if m1 then P.lb i else y i
  if m2 then P.ub i else z

/-- Velocity (155-156). -/
def Swarm.velocity (P : Swarm K D) (q : Particle K D) (g rp rg : Pos K D) : Pos K D := fun i =>
  P.omega * q.v i + P.phip * rp i * (q.p i - q.x i) + P.phig * rg i * (g i - q.x i)

/-- One particle of the main loop (155-188): new particle, new best, early return. -/
def Swarm.move (P : Swarm K D) (q : Particle K D) (b : Best K D) (rp rg : Pos K D) :
    Particle K D × Best K D × Option (Pos K D × K) :=
  let v := P.velocity q b.g rp rg
  let x := P.clampPos (fun i => q.x i + v i)
  let fx := P.f x
  if fx < q.fp ∧ P.feasible x = true then
    let q' : Particle K D := ⟨x, v, x, fx⟩
    if fx < b.fg then
      if |b.fg - fx| ≤ P.minfunc then (q', b, some (x, fx))
      else if P.dist b.g x ≤ P.minstep then (q', b, some (x, fx))
      else (q', ⟨x, fx⟩, none)
    else (q', b, none)
  else (⟨x, v, q.p, q.fp⟩, b, none)

/-- Lines 152-188 for the particles from index `i` on.  Also returns the positions at which
the objective was evaluated and the best after each particle. -/
def Swarm.sweep (P : Swarm K D) (rp rg : Nat → Pos K D) :
    Nat → List (Particle K D) → Best K D →
      List (Particle K D) × Best K D × List (Pos K D) × List K × Option (Pos K D × K)
  | _, [], b => ([], b, [], [], none)
  | i, q :: qs, b =>
    let r := P.move q b (rp i) (rg i)
    match r.2.2 with
    | some out => (r.1 :: qs, r.2.1, [r.1.x], [out.2], some out)
    | none =>
      let t := Swarm.sweep P rp rg (i + 1) qs r.2.1
      (r.1 :: t.1, t.2.1, r.1.x :: t.2.2.1, r.2.1.fg :: t.2.2.2.1, t.2.2.2.2)

/-- The answer: reported position and value, positions evaluated, and the successive reported
best values. -/
structure Report (K : Type) (D : Nat) where
  g : Pos K D
  fg : K
  seen : List (Pos K D)
  bests : List K

/-- The main loop (149-198). -/
def Swarm.loop (P : Swarm K D) (rp rg : Nat → Nat → Pos K D) :
    Nat → Nat → List (Particle K D) → Best K D → Report K D
  | _, 0, _, b => ⟨b.g, b.fg, [], []⟩
  | it, n + 1, qs, b =>
    let r := P.sweep (rp it) (rg it) 0 qs b
    match r.2.2.2.2 with
    | some out => ⟨out.1, out.2, r.2.2.1, r.2.2.2.1⟩
    | none =>
      let t := Swarm.loop P rp rg (it + 1) n r.1 r.2.1
      ⟨t.g, t.fg, r.2.2.1 ++ t.seen, r.2.2.2.1 ++ t.bests⟩

/-- The whole function: `m+1` particles, at most `maxiter` iterations. -/
def Swarm.run (P : Swarm K D) (m maxiter : Nat) (u w : Nat → Pos K D) (rp rg : Nat → Nat → Pos K D) : Report K D :=
  let s := P.init m u w
  let t := P.loop rp rg 1 maxiter s.1 s.2
  ⟨t.g, t.fg, s.1.map (·.x) ++ t.seen, s.2.fg :: t.bests⟩

end Verif.Optim
