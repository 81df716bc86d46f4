import Verif.Mission.Process

/-!
# Processes carried out for each part of a vehicle

Model of `Process_Geometry` (`trunk/SUAVE/Analyses/Aerodynamics/Process_Geometry.py`).

Simplifications
* As in `Verif.Mission.Process`.  The arguments `state` and `settings` are those of the state `S` and of
  `A`; a step gets `A` together with the part.
* The parts are those that `geometry.deep_get(geometry_key)` finds, as (tag, part) in their order; a
  vehicle without that container gives the exception of `deep_get`.
* `geometry_key` is an attribute of the class, so assigning it makes no step of it
  (DataOrdered.py:684).
-/

namespace Verif.Mission

variable {A G S E R : Type}

/-- The loop over the parts (Process_Geometry.py:74-76); the accumulator is `results`. -/
def evalParts (a : A) (steps : List (String × Step (A × G) S E R)) :
    List (String × G) → S → List (String × Res R) → S × Except E (List (String × Res R))
  | [], s, acc => (s, .ok acc)
  | (t, g) :: l, s, acc => match evalSteps (a, g) steps s [] with
    | (s', .ok r) => evalParts a steps l s' (putKey acc t (.data r))
    | (s', .error e) => (s', .error e)

/-- `Process_Geometry.evaluate` (50-78). -/
def evalGeometry (a : A) (steps : List (String × Step (A × G) S E R)) (parts : Except E (List (String × G))) (s : S) :
    S × Except E (List (String × Res R)) :=
  match parts with
  | .error e => (s, .error e)
  | .ok l => evalParts a steps l s []

end Verif.Mission
