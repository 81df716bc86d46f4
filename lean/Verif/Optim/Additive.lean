import Verif.Optim.Setups
import Mathlib.Analysis.SpecialFunctions.Gaussian.GaussianIntegral
import Mathlib.Analysis.Real.Sqrt

/-!
# Additive corrections, expected improvement, sweeps and surrogate optimization

`trunk/SUAVE/Optimization/Package_Setups/additive_setup.py`, `trunk/SUAVE/Optimization/carpet_plot.py`, `line_plot.py`,
`Surrogate_Optimization.py` and `trunk/SUAVE/Surrogate/svr_surrogate_functions.py`.
Regression models and optimizers are arbitrary functions; what they promise is a hypothesis of the theorems. The objective is a
single number. `none` is an exception or a result that is not a number.
-/

namespace Verif.Optim

/-! ### Additive_Solve -/

/-- A problem with two levels of fidelity: objective and constraints. -/
structure TwoLevel (X : Type) where
  f1 : X → ℝ
  f2 : X → ℝ
  g1 : X → ℕ → ℝ
  g2 : X → ℕ → ℝ

/-- What is recorded: `x_samples`, `f`, `g` (additive_setup.py 97-108). -/
structure Samples (X : Type) where
  x : List X
  f1 : List ℝ
  f2 : List ℝ
  g1 : List (ℕ → ℝ)
  g2 : List (ℕ → ℝ)

/-- Lines 100-108. -/
def TwoLevel.sample {X : Type} (p : TwoLevel X) (x : List X) : Samples X := ⟨x, x.map p.f1, x.map p.f2, x.map p.g1, x.map p.g2⟩

/-- Lines 203-210. -/
def Samples.add {X : Type} (d : Samples X) (p : TwoLevel X) (x : X) : Samples X :=
  ⟨d.x ++ [x], d.f1 ++ [p.f1 x], d.f2 ++ [p.f2 x], d.g1 ++ [p.g1 x], d.g2 ++ [p.g2 x]⟩

/-- A regression model: a function for a list of points and values. -/
abbrev Fit (X : Type) := List (X × ℝ) → X → ℝ

/-- Objective of `evaluate_corrected_model` (383-390) with the surrogate of lines 114-116. -/
def Samples.corrected {X : Type} (d : Samples X) (p : TwoLevel X) (fit : Fit X) (x : X) : ℝ :=
  p.f1 x + fit (d.x.zip (List.zipWith (fun b a => b - a) d.f2 d.f1)) x

/-- Constraint `i` of `evaluate_corrected_model` (384-392) with the surrogate of lines 119-121. -/
def Samples.correctedCon {X : Type} (d : Samples X) (p : TwoLevel X) (fit : Fit X) (i : ℕ) (x : X) : ℝ :=
  p.g1 x i + fit (d.x.zip (List.zipWith (fun b a => b i - a i) d.g2 d.g1)) x

/-- What is returned, with the recorded samples. -/
structure AddResult (X : Type) where
  f : ℝ
  x : X
  data : Samples X
  converged : Bool

open Classical in
/-- The loop of lines 112-305 for `opt_type = 'basic'`. `opt` is the optimizer with the constraints it was given: a point for the
corrected objective; `none` a point that is not a number, for which the final value is not a number either (226). The first argument is
the number of iterations left. -/
noncomputable def addBasic {X : Type} (p : TwoLevel X) (fit : Fit X) (opt : Samples X → (X → ℝ) → Option X) (tol : ℝ) : ℕ → Samples X → Option (AddResult X)
  | 0, _ => none
  | n + 1, d =>
    (opt d (d.corrected p fit)).bind fun x =>
      let d' := d.add p x
      if n = 0 then some ⟨p.f2 x, x, d', false⟩
      else if |d.corrected p fit x - p.f2 x| < tol then some ⟨d.corrected p fit x, x, d', true⟩
      else addBasic p fit opt tol n d'

/-- `np.argmin`: the first of the points of least value. -/
noncomputable def argminPoint {X : Type} : List X → List ℝ → Option X
  | x :: xs, f :: fs => open Classical in
    match argminPoint xs fs with
    | none => some x
    | some y => if ∀ g ∈ fs, f ≤ g then some x else some y
  | _, _ => none

/-- The loop for `opt_type = 'MEI'`: `glob` maximizes the expected improvement over the best recorded value (156), `loc` is the local
optimizer started at the best sample (229-247). The value of the improvement step is not a number (188), so the test of line 260 fails. -/
noncomputable def addMEI {X : Type} (p : TwoLevel X) (fit : Fit X) (glob : Samples X → X) (loc : (X → ℝ) → X → X) : ℕ → Samples X → Option (AddResult X)
  | 0, _ => none
  | n + 1, d =>
    let d' := d.add p (glob d)
    if n = 0 then (argminPoint d'.x d'.f2).map fun s => ⟨p.f2 (loc (d.corrected p fit) s), loc (d.corrected p fit) s, d', false⟩
    else addMEI p fit glob loc n d'

/-- One entry of a row of the table of inputs. -/
inductive Entry where
  | num (a : ℝ)
  | pair (a b : ℝ)

/-- Bounds of one variable (90-91, 609-611; likewise Surrogate_Optimization.py 88-99): columns 2 and 3 of the row are the bounds as a
pair and the scale; indexing a number is an exception. -/
noncomputable def readBounds (row : List Entry) : Option (ℝ × ℝ) :=
  match row with
  | _ :: _ :: .pair a b :: .num s :: _ => some (a / s, b / s)
  | _ => none

/-- Bounds of one variable in `Pyopt_Solve`, `SciPy_Solve` and others (pyopt_setup.py 67-69, 78-81): columns 2, 3, 4. -/
noncomputable def setupBounds (row : List Entry) : Option (ℝ × ℝ) :=
  match row with
  | _ :: _ :: .num a :: .num b :: .num s :: _ => some (a / s, b / s)
  | _ => none

/-- `unpack_constraints_slsqp` with the arguments of lines 709-712 and 732-735, for a corrected constraint value `v`: the solver keeps
inequality rows at zero or more and equality rows at zero. -/
def Con.slsqp {K X : Type} [Field K] (c : Con K X) (v : K) : K := (v - c.bound) * (if c.cmp = .lt then -1 else 1)

/-- The solver's reading of a row (701-707). -/
def Con.slsqpOk {K X : Type} [Field K] [LinearOrder K] (c : Con K X) (v : K) : Prop :=
  if c.cmp = .eq then c.slsqp v = 0 else 0 ≤ c.slsqp v

/-- What line 148 hands to `minimize`: the constraints, no bounds. -/
def posedSlsqp {X : Type} (cs : List (Con ℝ X)) (x : X) : Prop := ∀ c ∈ cs, c.slsqpOk (c.seen x)

/-- `norm.pdf` and `norm.cdf`. -/
noncomputable def normPdf (t : ℝ) : ℝ := Real.exp (-(1 / 2) * t ^ 2) / Real.sqrt (2 * Real.pi)
noncomputable def normCdf (z : ℝ) : ℝ := ∫ t in Set.Iic z, normPdf t

/-- Expected improvement (451-453) below `fstar` for a prediction with mean `fhat` and deviation `sigma`. -/
noncomputable def expectedImprovement (fstar fhat sigma : ℝ) : ℝ :=
  (fstar - fhat) * normCdf ((fstar - fhat) / sigma) + sigma * normPdf ((fstar - fhat) / sigma)

/-- What the global optimizer minimizes (455-457, 481). -/
noncomputable def improvementCost (fstar fhat sigma : ℝ) : ℝ := -Real.log (expectedImprovement fstar fhat sigma)

/-! ### Sweeps -/

/-- `np.linspace`. -/
noncomputable def sweepPoint (a b : ℝ) (n i : ℕ) : ℝ := if n = 1 then a else a + i * ((b - a) / (n - 1))

/-- A problem for sweeps: physical objective and constraint values of the column of inputs, the scale and units of the objective, the
constraint scales. -/
structure SweepProblem where
  obj : (ℕ → ℝ) → ℝ
  objScale : ℝ
  objUnits : ℝ
  con : (ℕ → ℝ) → ℕ → ℝ
  conScale : ℕ → ℝ
  lower : ℕ → ℝ
  upper : ℕ → ℝ

/-- `problem.objective()` (`scale_obj_values`, helper_functions.py 284-289) and `problem.all_constraints()`. -/
noncomputable def SweepProblem.objective (p : SweepProblem) (v : ℕ → ℝ) : ℝ := p.obj v / (p.objScale * p.objUnits)
noncomputable def SweepProblem.constraint (p : SweepProblem) (v : ℕ → ℝ) (k : ℕ) : ℝ := p.con v k / p.conScale k

/-- What a sweep returns, and the column of inputs it leaves behind. -/
structure Sweep (I : Type) where
  objective : I → Option ℝ
  constraint : ℕ → I → Option ℝ
  left : ℕ → ℝ

/-- `carpet_plot` (carpet_plot.py 67-86): the loop over pairs `(i, j)` in order, the arrays filled so far as functions of `(j, i)`. -/
noncomputable def carpetLoop (p : SweepProblem) (n k0 k1 : ℕ) : List (ℕ × ℕ) → Sweep (ℕ × ℕ) → Sweep (ℕ × ℕ)
  | [], s => s
  | (i, j) :: l, s =>
    let v := Function.update (Function.update s.left k0 (sweepPoint (p.lower k0) (p.upper k0) n i)) k1 (sweepPoint (p.lower k1) (p.upper k1) n j)
    carpetLoop p n k0 k1 l ⟨Function.update s.objective (j, i) (some (p.objective v * p.objScale)),
      fun k => Function.update (s.constraint k) (j, i) (some (p.constraint v k)), v⟩

noncomputable def carpet (p : SweepProblem) (n k0 k1 : ℕ) (v : ℕ → ℝ) : Sweep (ℕ × ℕ) :=
  carpetLoop p n k0 k1 ((List.range n).flatMap fun i => (List.range n).map fun j => (i, j)) ⟨fun _ => none, fun _ _ => none, v⟩

/-- `line_plot` (line_plot.py 68-83). -/
noncomputable def lineLoop (p : SweepProblem) (n k0 : ℕ) : List ℕ → Sweep ℕ → Sweep ℕ
  | [], s => s
  | i :: l, s =>
    let v := Function.update s.left k0 (sweepPoint (p.lower k0) (p.upper k0) n i)
    lineLoop p n k0 l ⟨Function.update s.objective i (some (p.objective v * p.objScale)),
      fun k => Function.update (s.constraint k) i (some (p.constraint v k)), v⟩

noncomputable def lineSweep (p : SweepProblem) (n k0 : ℕ) (v : ℕ → ℝ) : Sweep ℕ :=
  lineLoop p n k0 (List.range n) ⟨fun _ => none, fun _ _ => none, v⟩

/-! ### Surrogate optimization -/

/-- State of the loop of `iterative_optimization` (Surrogate_Optimization.py 155-213): evaluated points with their objectives, the last
point and its objective. -/
structure SurrState (X : Type) where
  data : List (X × ℝ)
  last : Option (X × ℝ)

open Classical in
/-- The loop, at iteration `j` with `n` left: `opt` is the optimum of the surrogate of the data, `close` the test of line 192. The result
is `output_real`; the point is that it belongs to. -/
noncomputable def surrLoop {X : Type} (f : X → ℝ) (opt : List (X × ℝ) → X) (close : X → X → Prop) : ℕ → ℕ → SurrState X → SurrState X
  | 0, _, s => s
  | n + 1, j, s =>
    let x := opt s.data
    if 1 < j ∧ ∃ y, s.last = some y ∧ close x y.1 then s
    else surrLoop f opt close n (j + 1) ⟨s.data ++ [(x, f x)], some (x, f x)⟩

/-- `output_real`; `none` is the exception of an unassigned name with no iterations (216). -/
noncomputable def surrogateOptimum {X : Type} (f : X → ℝ) (opt : List (X × ℝ) → X) (close : X → X → Prop) (maxIter : ℕ) (data : List (X × ℝ)) : Option (X × ℝ) :=
  (surrLoop f opt close maxIter 0 ⟨data, none⟩).last

/-- Python's `l[:i]` and `l[i:]` for an integer. -/
def pyTake {α : Type} (i : ℤ) (l : List α) : List α := l.take (if 0 ≤ i then i.toNat else (l.length + i).toNat)
def pyDrop {α : Type} (i : ℤ) (l : List α) : List α := l.drop (if 0 ≤ i then i.toNat else (l.length + i).toNat)
def pyGet? {α : Type} (i : ℤ) (l : List α) : Option α := if 0 ≤ i then l[i.toNat]? else if 0 ≤ l.length + i then l[(l.length + i).toNat]? else none

/-- Data the model is fitted to in `check_svr_accuracy` (svr_surrogate_functions.py 99-104). -/
def keptData {X : Type} (data : List X) (imin : ℤ) : List X := if imin = 0 then pyDrop (imin + 1) data else pyTake imin data ++ pyDrop (imin + 1) data

open Classical in
/-- `check_svr_accuracy` (92-114) for one output: the difference of line 112, its absolute value. -/
noncomputable def svrAccuracy {X : Type} (fit : Fit X) (data : List (X × ℝ)) (imin : ℤ) : Option ℝ :=
  (pyGet? (-1) data).bind fun last => (pyGet? imin data).bind fun real =>
    if real.2 = 0 then none else some |(real.2 - fit (keptData data imin) last.1) / real.2|

end Verif.Optim
