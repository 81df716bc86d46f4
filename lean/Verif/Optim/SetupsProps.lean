import Verif.Optim.Setups
import Verif.Nexus.Table
import Mathlib.Tactic.Linarith
import Mathlib.Tactic.NormNum
import Mathlib.Tactic.Ring
import Mathlib.Tactic.FieldSimp
import Mathlib.Data.List.OfFn
import Mathlib.Data.List.FinRange
/-!
C22 (differential evolution closures), C23 (IPOPT structure), C58 (limits handed to the
optimizers), C59 (failure flag).
-/

set_option linter.unusedSectionVars false

namespace Verif.Optim

variable {K : Type} [Field K] [LinearOrder K] [IsStrictOrderedRing K] {X : Type}

/-- Meaning of a row: the physical value compared with the bound in its units. -/
def Con.Holds (c : Con K X) (x : X) : Prop :=
  match c.cmp with
  | .lt => c.value x ≤ c.bound * c.units
  | .gt => c.bound * c.units ≤ c.value x
  | .eq => c.value x = c.bound * c.units

/-! ### C58 -/

/-- **C58, PyOpt and pyOptSparse.** For a positive scale, the limits handed over hold for the
number the optimizer sees exactly when the row holds. -/
theorem C58_pyopt (c : Con K X) (hs : 0 < c.scale) (x : X) : Limits.ok c.pyopt (c.seen x) ↔ c.Holds x := by
  unfold Limits.ok Con.pyopt Con.seen Con.scaled Con.Holds Con.bnd
  cases c.cmp with
  | lt => simp [div_le_div_iff_of_pos_right hs]
  | gt => simp [div_le_div_iff_of_pos_right hs]
  | eq =>
    simp only [Option.some.injEq, forall_eq', div_le_div_iff_of_pos_right hs]
    exact ⟨fun h => le_antisymm h.2 h.1, fun h => ⟨h.ge, h.le⟩⟩

/-- **C58, IPOPT (partial).** Same claim when unit and scale coincide. (Missing: all other
rows.) -/
theorem C58_ipopt_partial (c : Con K X) (hs : 0 < c.scale) (hu : c.units = c.scale) (x : X) :
    Limits.ok c.ipopt (c.seen x) ↔ c.Holds x := by
  rw [← C58_pyopt c hs x]
  have : c.pyopt = c.ipopt := by
    unfold Con.pyopt Con.ipopt Con.scaled Con.bnd
    rw [hu, mul_div_cancel_right₀ _ hs.ne']
  rw [this]

example : ∃ c : Con ℚ Unit, 0 < c.scale ∧ c.units = c.scale := ⟨⟨.lt, 5, 2, 2, fun _ => 8⟩, by norm_num, rfl⟩

/-- **C58 is false for IPOPT** in general: bound 5, scale 10, value 20 must be below 5, but the
optimizer sees 2 ≤ 5. -/
theorem C58_ipopt_counterexample :
    ∃ (c : Con ℚ Unit), 0 < c.scale ∧ Limits.ok c.ipopt (c.seen ()) ∧ ¬ c.Holds () := by
  refine ⟨⟨.lt, 5, 10, 1, fun _ => 20⟩, by norm_num, ?_, ?_⟩
  · simp [Limits.ok, Con.ipopt, Con.seen, Con.scaled]; norm_num
  · simp [Con.Holds]; norm_num

/-- **C58 is false for a negative scale** even with PyOpt: dividing by it turns the inequality
round and the comparison symbol is not adapted. -/
theorem C58_negative_scale_counterexample :
    ∃ (c : Con ℚ Unit), c.scale ≠ 0 ∧ Limits.ok c.pyopt (c.seen ()) ∧ ¬ c.Holds () := by
  refine ⟨⟨.lt, 5, -1, 1, fun _ => 20⟩, by norm_num, ?_, ?_⟩
  · simp [Limits.ok, Con.pyopt, Con.seen, Con.scaled, Con.bnd]; norm_num
  · simp [Con.Holds]; norm_num

/-- **C58, surrogate set-up**: equality rows are dropped altogether. -/
theorem C58_surrogate_drops_equality (c : Con K X) (h : c.cmp = .eq) : c.surrogate = none := by
  unfold Con.surrogate; simp [h]

/-- **C58, surrogate set-up**: inequality rows are handed over with the unit factor applied
twice: on the scaled value the limit is `bound*units/scale*units`. -/
theorem C58_surrogate_inequality (c : Con K X) (hs : 0 < c.scale) (x : X) :
    (c.cmp = .lt → ∃ l, c.surrogate = some l ∧ (Limits.ok l (c.seen x) ↔ c.value x ≤ c.bound * c.units * c.units)) ∧
    (c.cmp = .gt → ∃ l, c.surrogate = some l ∧ (Limits.ok l (c.seen x) ↔ c.bound * c.units * c.units ≤ c.value x)) := by
  have e : c.bound * c.units / c.scale * c.units = c.bound * c.units * c.units / c.scale := by ring
  constructor
  · intro h
    refine ⟨(none, some (c.scaled c.bnd * c.units)), by simp [Con.surrogate, h], ?_⟩
    simp [Limits.ok, Con.seen, Con.scaled, Con.bnd, e, div_le_div_iff_of_pos_right hs]
  · intro h
    refine ⟨(some (c.scaled c.bnd * c.units), none), by simp [Con.surrogate, h], ?_⟩
    simp [Limits.ok, Con.seen, Con.scaled, Con.bnd, e, div_le_div_iff_of_pos_right hs]

/-! ### C22 -/

/-- What the set-up should hand over: limit and function of each row. -/
def deSpec (cs : List (Con K X)) : List (Limits K × (X → K)) :=
  cs.map fun c => (match c.cmp with
    | .lt => (none, some (c.bound * c.units))
    | .gt => (some (c.bound * c.units), none)
    | .eq => (some (c.bound * c.units), some (c.bound * c.units)), c.value)

theorem deLoop_ineq (cs : List (Con K X)) (h : ∀ c ∈ cs, c.cmp ≠ .eq) (s : DELoop K X) :
    ∃ s', deLoop s cs = some s' ∧
      s'.out = s.out ++ cs.map (fun c => ⟨match c.cmp with
        | .lt => (none, some (c.bound * c.units))
        | .gt => (some (c.bound * c.units), none)
        | .eq => (some (c.bound * c.units), some (c.bound * c.units))⟩) ∧
      s'.deConstraint = (cs.getLast?.or s.deConstraint) := by
  induction cs generalizing s with
  | nil => exact ⟨s, rfl, by simp, by simp⟩
  | cons c cs ih =>
    have hc := h c List.mem_cons_self
    have hcs : ∀ d ∈ cs, d.cmp ≠ .eq := fun d hd => h d (List.mem_cons_of_mem _ hd)
    simp only [deLoop]
    have : ∃ o : NLC K, deStep s c = some { deConstraint := some c, nlc := some o, out := s.out ++ [o] } ∧
        o = ⟨match c.cmp with
        | .lt => (none, some (c.bound * c.units))
        | .gt => (some (c.bound * c.units), none)
        | .eq => (some (c.bound * c.units), some (c.bound * c.units))⟩ := by
      unfold deStep
      cases hcmp : c.cmp with
      | lt => exact ⟨_, rfl, rfl⟩
      | gt => exact ⟨_, rfl, rfl⟩
      | eq => exact absurd hcmp hc
    obtain ⟨o, ho, ho'⟩ := this
    rw [ho]
    obtain ⟨s', e1, e2, e3⟩ := ih hcs { deConstraint := some c, nlc := some o, out := s.out ++ [o] }
    refine ⟨s', e1, ?_, ?_⟩
    · rw [e2, ho']; simp
    · rw [e3]
      cases cs with
      | nil => simp
      | cons d ds => simp [List.getLast?_cons_cons]; rw [List.getLast?_eq_some_getLast (List.cons_ne_nil d ds)]; simp

/-- **C22, what the code does.** With inequality rows only, the limits are right but every
constraint object evaluates the *last* row's quantity. -/
theorem C22_all_evaluate_last (cs : List (Con K X)) (h : ∀ c ∈ cs, c.cmp ≠ .eq) (last : Con K X)
    (hl : cs.getLast? = some last) :
    deConstraints cs = some ((deSpec cs).map fun p => (p.1, last.value)) := by
  obtain ⟨s', e1, e2, e3⟩ := deLoop_ineq cs h ⟨none, none, []⟩
  unfold deConstraints
  rw [e1]
  simp only [Option.bind_some, e3, hl, Option.some_or, e2, List.nil_append, deSpec, List.map_map]
  congr 1

/-- **C22, partial.** With a single inequality row the object evaluates that row. (Missing:
more than one row, where the claim is false.) -/
theorem C22_single_partial (c : Con K X) (h : c.cmp ≠ .eq) : deConstraints [c] = some (deSpec [c]) := by
  rw [C22_all_evaluate_last [c] (by simpa using h) c rfl]
  simp [deSpec]

/-- The claim also holds when all rows constrain the same quantity (e.g. a range given as two
rows). -/
theorem C22_same_quantity_partial (cs : List (Con K X)) (h : ∀ c ∈ cs, c.cmp ≠ .eq) (v : X → K)
    (hv : ∀ c ∈ cs, c.value = v) : deConstraints cs = some (deSpec cs) := by
  cases cs with
  | nil => rfl
  | cons c cs =>
    rw [C22_all_evaluate_last (c :: cs) h _ (List.getLast?_eq_some_getLast (List.cons_ne_nil c cs))]
    congr 1
    unfold deSpec
    rw [List.map_map]
    apply List.map_congr_left
    intro d hd
    simp only [Function.comp]
    rw [hv d hd, hv _ (List.getLast_mem _)]

/-- Two rows: first quantity below 1, second below 2. -/
def exCons : List (Con ℚ (ℚ × ℚ)) := [⟨.lt, 1, 1, 1, Prod.fst⟩, ⟨.lt, 2, 1, 1, Prod.snd⟩]

example : ∀ c ∈ exCons, c.cmp ≠ .eq := by decide +revert

/-- **C22 is false of the code**: a point violating the first constraint satisfies every object
handed to the solver. -/
theorem C22_counterexample :
    ∃ x : ℚ × ℚ, (∃ c ∈ exCons, ¬ c.Holds x) ∧
      ∃ l, deConstraints exCons = some l ∧ ∀ p ∈ l, Limits.ok p.1 (p.2 x) := by
  refine ⟨(5, 0), ⟨⟨.lt, 1, 1, 1, Prod.fst⟩, by simp [exCons], by norm_num [Con.Holds]⟩, _,
    C22_all_evaluate_last exCons (by simp [exCons]) ⟨.lt, 2, 1, 1, Prod.snd⟩ rfl, ?_⟩
  intro p hp
  simp [deSpec, exCons] at hp
  rcases hp with rfl | rfl <;> simp [Limits.ok]

/-- **C22, equality rows**: as first row they raise; later they repeat the previous row's
limits instead of adding their own. -/
theorem C22_equality_first (c : Con K X) (cs : List (Con K X)) (h : c.cmp = .eq) :
    deConstraints (c :: cs) = none := by
  simp [deConstraints, deLoop, deStep, h]

theorem C22_equality_counterexample :
    ∃ cs : List (Con ℚ Unit), cs.map (·.cmp) = [.lt, .eq] ∧
      ∃ l, deConstraints cs = some l ∧ l.map (·.1) = [(none, some 7), (none, some 7)] := by
  refine ⟨[⟨.lt, 7, 1, 1, fun _ => 0⟩, ⟨.eq, 3, 1, 1, fun _ => 0⟩], rfl, _, rfl, ?_⟩
  simp [Con.bnd]

/-! ### C23 -/

/-- Row-major list of all (constraint, variable) pairs. -/
def rowMajor (ncon nvar : Nat) : List (Nat × Nat) := (List.range ncon).flatMap fun i => (List.range nvar).map fun j => (i, j)

theorem structure_eq (ncon nvar : Nat) (hn : 0 < nvar) :
    (makeStructure ncon nvar).1.zip (makeStructure ncon nvar).2 = rowMajor ncon nvar := by
  unfold makeStructure
  rw [List.zip_map']
  induction ncon with
  | zero => simp [rowMajor]
  | succ c ih =>
    have : rowMajor (c + 1) nvar = rowMajor c nvar ++ (List.range nvar).map fun j => (c, j) := by
      simp [rowMajor, List.range_succ]
    rw [this, ← ih, Nat.mul_succ, List.range_add, List.map_append, List.map_map]
    congr 1
    apply List.map_congr_left
    intro j hj
    have hj' : j < nvar := List.mem_range.1 hj
    simp only [Function.comp]
    rw [Nat.mul_add_div hn, Nat.div_eq_of_lt hj', Nat.mul_add_mod, Nat.mod_eq_of_lt hj', Nat.add_zero]

/-- **C23.** The structure handed to IPOPT lists every (constraint, variable) pair exactly
once, in row-major order. -/
theorem C23_structure (ncon nvar : Nat) (hn : 0 < nvar) :
    let s := (makeStructure ncon nvar).1.zip (makeStructure ncon nvar).2
    (∀ i j, (i, j) ∈ s ↔ i < ncon ∧ j < nvar) ∧ s.Nodup ∧ s.length = ncon * nvar ∧
    s.Pairwise (fun a b => a.1 < b.1 ∨ (a.1 = b.1 ∧ a.2 < b.2)) := by
  intro s
  have hs : s = rowMajor ncon nvar := structure_eq ncon nvar hn
  have hp : s.Pairwise (fun a b => a.1 < b.1 ∨ (a.1 = b.1 ∧ a.2 < b.2)) := by
    rw [hs]
    unfold rowMajor
    rw [List.pairwise_flatMap]
    refine ⟨?_, ?_⟩
    · intro i _
      rw [List.pairwise_map]
      exact List.pairwise_lt_range.imp (fun h => Or.inr ⟨rfl, h⟩)
    · refine List.pairwise_lt_range.imp ?_
      intro a b hab x hx y hy
      obtain ⟨_, _, rfl⟩ := List.mem_map.1 hx
      obtain ⟨_, _, rfl⟩ := List.mem_map.1 hy
      exact Or.inl hab
  refine ⟨?_, ?_, ?_, hp⟩
  · intro i j
    rw [hs]
    simp [rowMajor]
  · refine hp.imp ?_
    rintro a b h rfl
    rcases h with h | ⟨_, h⟩ <;> exact absurd h (lt_irrefl _)
  · show (List.zip _ _).length = _
    rw [List.length_zip]; simp [makeStructure, Nat.mul_comm]

example : (makeStructure 2 3).1.zip (makeStructure 2 3).2 = [(0,0),(0,1),(0,2),(1,0),(1,1),(1,2)] := by decide

theorem ofFn_eq_range {V : Type} {n : Nat} (f : Fin n → V) (k : Nat) : (List.ofFn f)[k]? = if h : k < n then some (f ⟨k, h⟩) else none := by
  rw [List.getElem?_ofFn]

/-- **C23, values.** Entry `k` of the flattened Jacobian is the derivative of the constraint and
with respect to the variable listed at `k`. -/
theorem C23_values {V : Type} {ncon nvar : Nat} (jac : Fin ncon → Fin nvar → V) (hn : 0 < nvar) (k : Nat) (i : Nat) (j : Nat)
    (h : ((makeStructure ncon nvar).1.zip (makeStructure ncon nvar).2)[k]? = some (i, j)) :
    ∃ (hi : i < ncon) (hj : j < nvar), (flatten jac)[k]? = some (jac ⟨i, hi⟩ ⟨j, hj⟩) := by
  rw [structure_eq ncon nvar hn] at h
  have key : flatten jac = (rowMajor ncon nvar).filterMap fun p =>
      if h : p.1 < ncon ∧ p.2 < nvar then some (jac ⟨p.1, h.1⟩ ⟨p.2, h.2⟩) else none := by
    unfold flatten rowMajor
    rw [List.filterMap_flatMap, List.flatMap_def]
    congr 1
    apply List.ext_getElem?
    intro a
    simp only [List.getElem?_ofFn, List.getElem?_map]
    by_cases ha : a < ncon
    · simp only [ha, dif_pos, List.getElem?_range ha, Option.map_some]
      congr 1
      rw [List.filterMap_map]
      apply List.ext_getElem?
      intro b
      have : (List.filterMap ((fun p : Nat × Nat => if h : p.1 < ncon ∧ p.2 < nvar then some (jac ⟨p.1, h.1⟩ ⟨p.2, h.2⟩) else none) ∘ fun j => (a, j)) (List.range nvar))
          = (List.finRange nvar).map (jac ⟨a, ha⟩) := by
        rw [← List.map_coe_finRange_eq_range, List.filterMap_map]
        rw [← List.filterMap_eq_map]
        congr 1
        funext b
        simp [ha]
      rw [this, List.ofFn_eq_map]
    · simp [ha]
  have hmem := List.mem_of_getElem? h
  have hij : i < ncon ∧ j < nvar := by simpa [rowMajor] using hmem
  refine ⟨hij.1, hij.2, ?_⟩
  have key2 : ∀ (l : List (Nat × Nat)), (∀ p ∈ l, p.1 < ncon ∧ p.2 < nvar) → ∀ (k : Nat),
      l[k]? = some (i, j) → (l.filterMap fun p =>
      if h : p.1 < ncon ∧ p.2 < nvar then some (jac ⟨p.1, h.1⟩ ⟨p.2, h.2⟩) else none)[k]? = some (jac ⟨i, hij.1⟩ ⟨j, hij.2⟩) := by
    intro l
    induction l with
    | nil => intro _ k hk; simp at hk
    | cons p l ih =>
      intro hall k hk
      have hp := hall p List.mem_cons_self
      rw [List.filterMap_cons_some (b := jac ⟨p.1, hp.1⟩ ⟨p.2, hp.2⟩) (by rw [dif_pos hp])]
      cases k with
      | zero =>
        simp only [List.getElem?_cons_zero, Option.some.injEq] at hk ⊢
        subst hk; rfl
      | succ k =>
        simp only [List.getElem?_cons_succ] at hk ⊢
        exact ih (fun q hq => hall q (List.mem_cons_of_mem _ hq)) k hk
  rw [key]
  exact key2 _ (by intro p hp; obtain ⟨a, b⟩ := p; simpa [rowMajor] using hp) k h

/-! ### C59 -/

/-- **C59, partial.** A NaN objective is flagged. -/
theorem C59_objective_partial (con : List (MaybeNaN K)) : failFlag none con = true := rfl

/-- **C59 is false of the code**: NaN constraints are never flagged, whatever they are. -/
theorem C59_constraints_ignored (a : K) (con : List (MaybeNaN K)) : failFlag (some a) con = false := rfl

theorem C59_counterexample : ∃ (obj : MaybeNaN ℚ) (con : List (MaybeNaN ℚ)), none ∈ con ∧ failFlag obj con = false :=
  ⟨some 0, [some 1, none], by simp, rfl⟩

end Verif.Optim
