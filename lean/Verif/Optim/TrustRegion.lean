import Mathlib.Algebra.Order.Field.Basic
import Mathlib.Algebra.BigOperators.Fin
import Mathlib.Analysis.SpecialFunctions.Pow.Real
/-
Model of the trust-region model-management optimizer
(trunk/SUAVE/Optimization/Package_Setups/TRMM/Trust_Region_Optimization.py and
Trust_Region.py).

Simplifications
* Points are vectors `Fin n → K` over a linearly ordered field (no rounding, no NaN).
* The inner optimizer (SNOPT/SLSQP) is external: its answer is an input of each iteration.
  The model records the box handed to it; "the solver respects its box" is an explicit
  hypothesis of the theorems that need it.
* The history file and the redirection of stdout are not modelled.
-/

namespace Verif.Optim

variable {K : Type} [Field K] [LinearOrder K]

/-- `Trust_Region.__defaults__` (Trust_Region.py:48-54). -/
structure TRParams (K : Type) where
  contractThreshold : K
  expandThreshold : K
  contraction : K
  expansion : K
  minimumSize : K

/-- Shrink / keep / expand, coded 1, 2, 3 in the source. -/
inductive Action where
  | shrink | keep | expand
deriving DecidableEq

/-- `update_tr_size` (Trust_Region_Optimization.py:709-759): new size and action. -/
def updateSize (p : TRParams K) (size rho : K) (accepted : Bool) : K × Action :=
  if !accepted then (size * p.contraction, .shrink)
  else if rho < 0 then (size * p.contraction, .shrink)
  else if rho ≤ p.contractThreshold then (size * p.contraction, .shrink)
  else if rho ≤ p.expandThreshold then (size, .keep)
  else if rho ≤ 5 / 4 then (size * p.expansion, .expand)
  else (size, .keep)

/-- `Trust_Region.evaluate_function` (Trust_Region.py:57-78). -/
def meritFn (f gviol : K) : K := f + gviol ^ 2

/-- `accuracy_ratio` (672-706). -/
def accuracyRatio (precision fCenter fHi fCorr gCenter gHi gCorr : K) : K :=
  let hc := meritFn fCenter gCenter
  let ho := meritFn fHi gHi
  let lc := meritFn fCenter gCenter
  let lo := meritFn fCorr gCorr
  if |lc - lo| < precision then 1 else (hc - ho) / (lc - lo)

/-- The acceptance test (328-336). -/
def accept (fOptHi fCenter gOptHi gCenter : K) : Bool :=
  if fOptHi < fCenter then true
  else if gOptHi < gCenter then true
  else false

/-- `tr.lower_bound` (185). -/
def lowerBox {n : Nat} (xlow x : Fin n → K) (size : K) : Fin n → K := fun i => max (xlow i) (x i - size)
/-- `tr.upper_bound` (186). -/
def upperBox {n : Nat} (xup x : Fin n → K) (size : K) : Fin n → K := fun i => min (xup i) (x i + size)

/-- What the outside world returns during one iteration: the point found inside the trust
region, whether that solve succeeded, the point found by the feasibility solve otherwise,
and the values of the corrected model reported for the chosen point. -/
structure Response (K : Type) (n : Nat) where
  x1 : Fin n → K
  success : Bool
  x2 : Fin n → K
  fCorr : K
  gCorr : K

/-- The fixed part of a run.  `f`, `viol` are the high-fidelity objective and constraint
violation as functions of the point. -/
structure TRProblem (K : Type) (n : Nat) where
  xlow : Fin n → K
  xup : Fin n → K
  f : (Fin n → K) → K
  viol : (Fin n → K) → K
  par : TRParams K
  precision : K
  tolerance : K

/-- The candidate of an iteration: line 243 or, after a failed solve, line 296 (or 281). -/
def Response.candidate {n : Nat} (r : Response K n) : Fin n → K := if r.success then r.x1 else r.x2

/-- Reasons for stopping (349, 359, 373, 389). -/
inductive Stop where
  | tooSmall | infeasible | converged | maxIterations
deriving DecidableEq

/-- The state of the loop: centre and size. -/
structure TRState (K : Type) (n : Nat) where
  x : Fin n → K
  size : K

/-- The outcome of one iteration. -/
inductive Iter (K : Type) (n : Nat) where
  | next (s : TRState K n)
  | stop (f : K) (x : Fin n → K) (why : Stop)

/-- One pass of the loop (150-378).  `np.isclose(xOpt_corr, x)` (353) is read as equality of
the points. -/
def iterate {n : Nat} (P : TRProblem K n) (s : TRState K n) (r : Response K n) :
    TRState K n × Bool × Action × Iter K n :=
  let cand := r.candidate
  let fHi := P.f cand
  let gHi := P.viol cand
  let fC := P.f s.x
  let gC := P.viol s.x
  let rho := accuracyRatio P.precision fC fHi r.fCorr gC gHi r.gCorr
  let acc := accept fHi fC gHi gC
  let u := updateSize P.par s.size rho acc
  let s' : TRState K n := { x := if acc then cand else s.x, size := u.1 }
  let out : Iter K n :=
    if u.1 < P.par.minimumSize then .stop r.fCorr cand .tooSmall
    else if r.success = false ∧ u.2 ≠ .expand ∧ (∀ i, cand i = s.x i) then .stop r.fCorr cand .infeasible
    else if acc = true ∧ |fC - fHi| < P.tolerance then .stop r.fCorr cand .converged
    else .next s'
  (s', acc, u.2, out)

/-- A run: responses are consumed until the loop stops or they (the iteration budget) run
out.  Returns the visited states (latest first) and the answer. -/
def runTR {n : Nat} (P : TRProblem K n) :
    TRState K n → Option (Response K n) → List (Response K n) → List (TRState K n) × Option (K × (Fin n → K) × Stop)
  | s, last, [] => ([s], last.map fun r => (r.fCorr, r.candidate, .maxIterations))
  | s, _, r :: rs =>
    match (iterate P s r).2.2.2 with
    | .stop f x w => ([(iterate P s r).1, s], some (f, x, w))
    | .next s' =>
      let q := runTR P s' (some r) rs
      (q.1 ++ [s], q.2)

/-! ### Corrections -/

/-- `calculate_correction` (565-602), objective row: `A = df1 - df0`, `b = f1 - f0`. -/
def correction {n : Nat} (f0 f1 : K) (df0 df1 : Fin n → K) : (Fin n → K) × K :=
  (fun i => df1 i - df0 i, f1 - f0)

/-- `evaluate_corrected_model` (432-479), objective (463): the low-fidelity value plus
`A·(x - x0) + b`. -/
def corrected {n : Nat} (low : (Fin n → K) → K) (c : (Fin n → K) × K) (x0 : Fin n → K) :
    (Fin n → K) → K :=
  fun x => low x + (∑ i, c.1 i * (x i - x0 i)) + c.2

/-! ### Constraint violation (real numbers) -/

/-- A constraint edge; `none` is an infinite one (654-662). -/
abbrev Edge := Option ℝ

/-- The entries collected for one constraint (555-561): lower edge first. -/
noncomputable def gapsOf (g : ℝ) (lb ub : Edge) : List ℝ :=
  (match lb with | some l => if g < l then [l - g] else [] | none => []) ++
  (match ub with | some u => if g > u then [g - u] else [] | none => [])

/-- `calculate_constraint_violation` (533-563): 2-norm of the collected gaps. -/
noncomputable def violation (rows : List (ℝ × Edge × Edge)) : ℝ :=
  Real.sqrt (((rows.flatMap fun r => gapsOf r.1 r.2.1 r.2.2).map fun d => d ^ 2).sum)

/-- The comparison symbol of a constraint row. -/
inductive CSense where
  | lt | gt | eq
deriving DecidableEq

/-- The edges `scale_vals` computes (636-662) for a row with bound, units and scale:
`bound*units/scale`. -/
noncomputable def edges (sense : CSense) (bound units scale : ℝ) : Edge × Edge :=
  let e := bound * units / scale
  match sense with
  | .lt => (none, some e)
  | .gt => (some e, none)
  | .eq => (some e, some e)

/-- `unpack_constraints_slsqp` (781-793) with the sign chosen in 773-776 and the edge `c[2]`,
the raw bound of the table. -/
noncomputable def slsqpValue (sense : CSense) (bound g : ℝ) : ℝ :=
  match sense with
  | .lt => (g - bound) * (-1)
  | .gt => (g - bound) * 1
  | .eq => (g - bound) * 1

end Verif.Optim
