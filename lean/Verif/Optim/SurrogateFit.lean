import Mathlib.Data.List.Basic
import Mathlib.Data.Real.Basic

/-!
Model of the fitting of surrogates to a sampled problem (`trunk/SUAVE/Surrogate/scikit_surrogate_functions.py`, lines 47 to 63;
`svr_surrogate_functions.py`, lines 50 to 70; `kriging_surrogate_functions.py`, lines 47 to 66).

Regression objects live in a store and are handed round by reference: `fit` and `train` change the object and return it.
Simplifications: what a fitted object knows is the result of an arbitrary function of the samples and values it was fitted to;
the printed times are left out; `constraints[0,:]` of no samples is an index error, `none`.
-/

namespace Verif.Optim

/-- A regression object: not fitted, or what it learnt. -/
abbrev FitStore (M : Type) := List (Option M)

/-- `surrogate_model()` or `svm.SVR(…)`: a new object, by its number. -/
def newModel {M : Type} (h : FitStore M) : FitStore M × ℕ := (h ++ [none], h.length)

/-- `regr.fit(inputs, values)`: the object learns and is returned. -/
def fitModel {M I : Type} (learn : List I → List ℝ → M) (h : FitStore M) (k : ℕ) (xs : List I) (ys : List ℝ) : FitStore M × ℕ :=
  (h.set k (some (learn xs ys)), k)

/-- `constraints[:,j]`; `none` for a row that is too short. -/
def column (rows : List (List ℝ)) (j : ℕ) : Option (List ℝ) := rows.mapM fun r => r[j]?

/-- The loop over the constraints (scikit 52-55, svr 59-62) for the columns in `js`. -/
def fitColumns {M I : Type} (learn : List I → List ℝ → M) (xs : List I) (rows : List (List ℝ)) :
    List ℕ → FitStore M → Option (FitStore M × List ℕ)
  | [], h => some (h, [])
  | j :: js, h => do
    let ys ← column rows j
    let (h1, k) := newModel h
    let (h2, k2) := fitModel learn h1 k xs ys
    let (h3, ks) ← fitColumns learn xs rows js h2
    some (h3, k2 :: ks)

/-- `build_scikit_models` (47-63) and `build_svr_models` (53-70): the store, the surrogate of the objective and those of the
constraints. -/
def buildScikit {M I : Type} (learn : List I → List ℝ → M) (obj : List ℝ) (xs : List I) (rows : List (List ℝ))
    (h : FitStore M) : Option (FitStore M × ℕ × List ℕ) := do
  let (h1, k) := newModel h
  let (h2, o) := fitModel learn h1 k xs obj
  let r0 ← rows.head?
  let (h3, ks) ← fitColumns learn xs rows (List.range r0.length) h2
  some (h3, o, ks)

/-- A kriging object: the data it was made with, and what it learnt when it was trained. -/
abbrev KrigeStore (M I : Type) := List ((List I × List ℝ) × Option M)

/-- `kriging(inputs, values, name='simple')`. -/
def newKrige {M I : Type} (h : KrigeStore M I) (xs : List I) (ys : List ℝ) : KrigeStore M I × ℕ := (h ++ [((xs, ys), none)], h.length)

/-- `train()`: the object learns from the data it was made with. -/
def trainKrige {M I : Type} (learn : List I → List ℝ → M) (h : KrigeStore M I) (k : ℕ) : KrigeStore M I :=
  h.modify k fun o => (o.1, some (learn o.1.1 o.1.2))

/-- The loop over the constraints (kriging 56-59). -/
def krigeColumns {M I : Type} (learn : List I → List ℝ → M) (xs : List I) (rows : List (List ℝ)) :
    List ℕ → KrigeStore M I → Option (KrigeStore M I × List ℕ)
  | [], h => some (h, [])
  | j :: js, h => do
    let ys ← column rows j
    let (h1, k) := newKrige h xs ys
    let h2 := trainKrige learn h1 k
    let (h3, ks) ← krigeColumns learn xs rows js h2
    some (h3, k :: ks)

/-- `build_kriging_models` (50-66). -/
def buildKriging {M I : Type} (learn : List I → List ℝ → M) (obj : List ℝ) (xs : List I) (rows : List (List ℝ))
    (h : KrigeStore M I) : Option (KrigeStore M I × ℕ × List ℕ) := do
  let (h1, o) := newKrige h xs obj
  let h2 := trainKrige learn h1 o
  let r0 ← rows.head?
  let (h3, ks) ← krigeColumns learn xs rows (List.range r0.length) h2
  some (h3, o, ks)

end Verif.Optim
