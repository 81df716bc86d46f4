import Verif.Nexus.Table
import Mathlib.Tactic.Linarith
import Mathlib.Tactic.FieldSimp
import Mathlib.Tactic.Ring
import Mathlib.Algebra.BigOperators.Fin
/-!
C15 (inputs: scale, bounds, units), C16 (constraint signs), C18 (finite differences).
-/

namespace Verif.Nexus
open Verif.Core (Key Err)

variable {K : Type} [Field K] [LinearOrder K]

/-! ### C15 -/

/-- The design variable a bounded request should give: the request itself if it is within
the bounds, else the violated bound. -/
def IsBounded (lo hi req v : K) : Prop :=
  (lo ≤ req ∧ req ≤ hi ∧ v = req) ∨ (req < lo ∧ v = lo) ∨ (hi < req ∧ v = hi)

/-- Same row except for the value. -/
def SameButValue (a b : InRow K) : Prop :=
  a.name = b.name ∧ a.lower = b.lower ∧ a.upper = b.upper ∧ a.scale = b.scale ∧ a.units = b.units

theorem limitRow_spec (r : InRow K) (h : r.lower ≤ r.upper) :
    IsBounded r.lower r.upper r.value (limitRow r).value ∧ SameButValue (limitRow r) r := by
  refine ⟨?_, rfl, rfl, rfl, rfl, rfl⟩
  unfold IsBounded limitRow
  dsimp only
  by_cases h1 : r.value < r.lower
  · rw [if_pos h1, if_neg (not_lt.2 h)]
    exact Or.inr (Or.inl ⟨h1, rfl⟩)
  · rw [if_neg h1]
    by_cases h2 : r.value > r.upper
    · rw [if_pos h2]; exact Or.inr (Or.inr ⟨h2, rfl⟩)
    · rw [if_neg h2]; exact Or.inl ⟨not_lt.1 h1, not_lt.1 h2, rfl⟩

/-- **C15.** For every input table and every request `x` of matching length: the i-th stored
value is `x_i*scale_i`, or with hard bounds that request forced into its bounds; the other
columns are unchanged; and the number written to the vehicle is the stored value times the
unit. -/
theorem C15_unpack (hard : Bool) (x : List K) (rows : List (InRow K)) (hlen : x.length = rows.length)
    (hb : hard = true → ∀ r ∈ rows, r.lower ≤ r.upper) :
    ∃ rows', unpackTable hard (some x) rows = .ok rows' ∧ rows'.length = rows.length ∧
      ∀ (i : Nat) (r : InRow K) (xi : K), rows[i]? = some r → x[i]? = some xi →
        ∃ r', rows'[i]? = some r' ∧ SameButValue r' r ∧
          (hard = false → r'.value = xi * r.scale) ∧
          (hard = true → IsBounded r.lower r.upper (xi * r.scale) r'.value ∧
            r.lower ≤ r'.value ∧ r'.value ≤ r.upper) ∧
          (convertValues rows')[i]? = some (r'.value * r.units) := by
  have hz : scaleInputs rows x = .ok (List.zipWith (fun r v => { r with value := v * r.scale }) rows x) := by
    unfold scaleInputs; rw [if_pos hlen]
  have hzi : ∀ (i : Nat) (r : InRow K) (xi : K), rows[i]? = some r → x[i]? = some xi →
      (List.zipWith (fun (r : InRow K) v => { r with value := v * r.scale }) rows x)[i]? =
        some { r with value := xi * r.scale } := by
    intro i r xi h1 h2
    rw [List.getElem?_zipWith, h1, h2]
  cases hard with
  | false =>
    refine ⟨_, by unfold unpackTable; simp only [hz]; rfl, by simp [hlen], ?_⟩
    intro i r xi h1 h2
    refine ⟨_, hzi i r xi h1 h2, ⟨rfl, rfl, rfl, rfl, rfl⟩, fun _ => rfl, by simp, ?_⟩
    unfold convertValues
    rw [List.getElem?_map]
    show Option.map _ ((List.zipWith _ rows x)[i]?) = _
    rw [hzi i r xi h1 h2]; rfl
  | true =>
    refine ⟨_, by unfold unpackTable; simp only [hz]; rfl, by simp [hlen], ?_⟩
    intro i r xi h1 h2
    have hle := hb rfl r (List.mem_of_getElem? h1)
    have hs := limitRow_spec ({ r with value := xi * r.scale } : InRow K) hle
    have hget : ((List.zipWith (fun (r : InRow K) v => { r with value := v * r.scale }) rows x).map limitRow)[i]? =
        some (limitRow { r with value := xi * r.scale }) := by
      rw [List.getElem?_map, hzi i r xi h1 h2]; rfl
    refine ⟨_, hget, hs.2, by simp, fun _ => ⟨hs.1, ?_⟩, ?_⟩
    · rcases hs.1 with ⟨a, b, c⟩ | ⟨a, c⟩ | ⟨a, c⟩
      · rw [c]; exact ⟨a, b⟩
      · rw [c]; exact ⟨le_refl _, hle⟩
      · rw [c]; exact ⟨hle, le_refl _⟩
    · unfold convertValues
      rw [List.getElem?_map]
      show Option.map _ ((List.map limitRow (List.zipWith _ rows x))[i]?) = _
      rw [hget]; rfl

/-- A request of the wrong length (other than one) is rejected. -/
theorem C15_length_error (hard : Bool) (x : List K) (rows : List (InRow K))
    (hlen : x.length ≠ rows.length) (h1 : x.length ≠ 1) :
    unpackTable hard (some x) rows = .error .valueError := by
  unfold unpackTable scaleInputs
  simp only [if_neg hlen]
  match x, h1 with
  | [], _ => rfl
  | [a], h => simp at h
  | _ :: _ :: _, _ => rfl

/-- Without a request (`x = None`) only the bounds act. -/
theorem C15_none (hard : Bool) (rows : List (InRow K)) :
    unpackTable hard none rows = .ok (if hard then rows.map limitRow else rows) := by
  unfold unpackTable; rfl

/-- Unpacking twice the same request is the same as once (the table is mutated in place by
the code, so this matters). -/
theorem C15_idempotent (hard : Bool) (x : List K) (rows rows' : List (InRow K))
    (hlen : x.length = rows.length) (h : unpackTable hard (some x) rows = .ok rows') :
    unpackTable hard (some x) rows' = .ok rows' := by
  have hz : ∀ rows : List (InRow K), x.length = rows.length →
      unpackTable hard (some x) rows = .ok (
        let z := List.zipWith (fun (r : InRow K) v => { r with value := v * r.scale }) rows x
        if hard then z.map limitRow else z) := by
    intro rows hl; unfold unpackTable scaleInputs; simp only [if_pos hl]; rfl
  rw [hz rows hlen] at h
  injection h with h
  have hl' : x.length = rows'.length := by
    rw [← h]; cases hard <;> simp [hlen]
  rw [hz rows' hl']
  congr 1
  rw [← h]
  clear h hl' hz
  cases hard with
  | false =>
    simp only [Bool.false_eq_true, if_false]
    induction rows generalizing x with
    | nil => simp
    | cons r rows ih =>
      cases x with
      | nil => simp at hlen
      | cons a x => simp at hlen; simp [ih _ hlen]
  | true =>
    simp only [if_true]
    induction rows generalizing x with
    | nil => simp
    | cons r rows ih =>
      cases x with
      | nil => simp at hlen
      | cons a x =>
        simp only [List.length_cons, Nat.add_right_cancel_iff] at hlen
        simp only [List.zipWith_cons_cons, List.map_cons, ih _ hlen]
        rfl

def exRow : InRow ℚ := { name := "span".toList, value := 0, lower := 10, upper := 50, scale := 20, units := 3 / 10 }
example : unpackTable true (some [3]) [exRow] = .ok [{ exRow with value := 50 }] ∧
    ([3] : List ℚ).length = [exRow].length ∧ ∀ r ∈ [exRow], r.lower ≤ r.upper := by
  refine ⟨?_, rfl, ?_⟩
  · simp [unpackTable, scaleInputs, exRow, limitRow]; norm_num
  · simp [exRow]; norm_num

/-! ### C16 -/

/-- What the user means by a constraint row: the physical quantity compared with the bound
given in the row's units. -/
def Satisfied (r : ConRow K) (x : K) : Prop :=
  match r.sense with
  | .lt => x ≤ r.bound * r.units
  | .gt => r.bound * r.units ≤ x
  | .eq => x = r.bound * r.units
  | .other => True

variable [IsStrictOrderedRing K]

/-- **C16, what the code computes.** One entry per '<' or '>' row, in order; the entry is
non-negative exactly when the quantity satisfies the bound *multiplied by the scale*. -/
theorem C16_inequality_meaning (rows : List (ConRow K)) (val : ConRow K → K)
    (hs : ∀ r ∈ rows, 0 < r.scale) (ho : ∀ r ∈ rows, r.sense ≠ .other) :
    List.Forall₂ (fun r e => 0 ≤ e ↔ Satisfied { r with bound := r.bound * r.scale } (val r))
      (rows.filter fun r => r.sense = .lt ∨ r.sense = .gt) (inequality rows val) := by
  induction rows with
  | nil => exact List.Forall₂.nil
  | cons r rows ih =>
    have ih := ih (fun r h => hs r (by simp [h])) (fun r h => ho r (by simp [h]))
    have hr := hs r (by simp)
    have hor := ho r (by simp)
    unfold inequality at ih ⊢
    have key : ∀ v : K, v / r.scale - r.bound * r.units ≥ 0 ↔ r.bound * r.scale * r.units ≤ v := by
      intro v
      rw [ge_iff_le, sub_nonneg, le_div_iff₀ hr]
      constructor <;> intro h <;> linarith [mul_right_comm r.bound r.units r.scale]
    have key2 : ∀ v : K, -(v / r.scale - r.bound * r.units) ≥ 0 ↔ v ≤ r.bound * r.scale * r.units := by
      intro v
      rw [ge_iff_le, neg_nonneg, sub_nonpos, div_le_iff₀ hr]
      constructor <;> intro h <;> linarith [mul_right_comm r.bound r.units r.scale]
    cases hsn : r.sense with
    | lt =>
      simp only [List.filter_cons, hsn]
      simp only [reduceCtorEq, or_false, decide_true, if_true, ne_eq, not_false_eq_true, List.map_cons, hsn]
      refine List.Forall₂.cons ?_ ih
      simp only [Satisfied, hsn, scaleConst, scaleBound]
      exact key2 _
    | gt =>
      simp only [List.filter_cons, hsn]
      simp only [reduceCtorEq, false_or, decide_true, if_true, ne_eq, not_false_eq_true, List.map_cons, hsn, if_false]
      refine List.Forall₂.cons ?_ ih
      simp only [Satisfied, hsn, scaleConst, scaleBound]
      exact key _
    | eq =>
      simp only [List.filter_cons, hsn]
      simpa using ih
    | other => exact absurd hsn hor

/-- **C16, partial.** With unit scales the entries are non-negative exactly when the physical
constraint holds.  (Missing: scales other than one, for which the claim is false, see
`C16_counterexample`; the code divides the value by the scale but not the bound.) -/
theorem C16_inequality_partial (rows : List (ConRow K)) (val : ConRow K → K)
    (hs : ∀ r ∈ rows, r.scale = 1) (ho : ∀ r ∈ rows, r.sense ≠ .other) :
    List.Forall₂ (fun r e => 0 ≤ e ↔ Satisfied r (val r))
      (rows.filter fun r => r.sense = .lt ∨ r.sense = .gt) (inequality rows val) := by
  have h := C16_inequality_meaning rows val (fun r h => by rw [hs r h]; exact one_pos) ho
  have hmem : ∀ r ∈ (rows.filter fun r => r.sense = .lt ∨ r.sense = .gt), r.scale = 1 :=
    fun r hr => hs r (List.mem_of_mem_filter hr)
  generalize (rows.filter fun r => r.sense = .lt ∨ r.sense = .gt) = l at h hmem ⊢
  generalize inequality rows val = l' at h ⊢
  induction h with
  | nil => exact List.Forall₂.nil
  | cons h1 h2 ih =>
    rename_i a b l1 l2
    refine List.Forall₂.cons ?_ (ih (fun r hr => hmem r (by simp [hr])))
    have := hmem a (by simp)
    rw [this] at h1
    simpa [Satisfied] using h1

omit [IsStrictOrderedRing K] in
/-- **C16, equality rows**: zero exactly at the bound multiplied by the scale. -/
theorem C16_equality_meaning (rows : List (ConRow K)) (val : ConRow K → K)
    (hs : ∀ r ∈ rows, r.scale ≠ 0) (ho : ∀ r ∈ rows, r.sense ≠ .other) :
    List.Forall₂ (fun r e => e = 0 ↔ Satisfied { r with bound := r.bound * r.scale } (val r))
      (rows.filter fun r => r.sense = .eq) (equality rows val) := by
  induction rows with
  | nil => exact List.Forall₂.nil
  | cons r rows ih =>
    have ih := ih (fun r h => hs r (by simp [h])) (fun r h => ho r (by simp [h]))
    have hr := hs r (by simp)
    have hor := ho r (by simp)
    unfold equality at ih ⊢
    cases hsn : r.sense with
    | lt => simp only [List.filter_cons, hsn]; simpa using ih
    | gt => simp only [List.filter_cons, hsn]; simpa using ih
    | other => exact absurd hsn hor
    | eq =>
      simp only [List.filter_cons, hsn]
      simp only [reduceCtorEq, or_self, decide_true, not_false_eq_true, if_true, List.map_cons]
      refine List.Forall₂.cons ?_ ih
      simp only [Satisfied, hsn, scaleConst, scaleBound]
      rw [sub_eq_zero, div_eq_iff hr]
      constructor <;> intro h <;> rw [h] <;> ring

/-- **C16, equality rows with unit scale** (partial for the same reason). -/
theorem C16_equality_partial (rows : List (ConRow K)) (val : ConRow K → K)
    (hs : ∀ r ∈ rows, r.scale = 1) (ho : ∀ r ∈ rows, r.sense ≠ .other) :
    List.Forall₂ (fun r e => e = 0 ↔ Satisfied r (val r))
      (rows.filter fun r => r.sense = .eq) (equality rows val) := by
  have h := C16_equality_meaning rows val (fun r h => by rw [hs r h]; exact one_ne_zero) ho
  have hmem : ∀ r ∈ (rows.filter fun r => r.sense = .eq), r.scale = 1 :=
    fun r hr => hs r (List.mem_of_mem_filter hr)
  generalize (rows.filter fun r => r.sense = .eq) = l at h hmem ⊢
  generalize equality rows val = l' at h ⊢
  induction h with
  | nil => exact List.Forall₂.nil
  | cons h1 h2 ih =>
    rename_i a b l1 l2
    refine List.Forall₂.cons ?_ (ih (fun r hr => hmem r (by simp [hr])))
    have := hmem a (by simp)
    rw [this] at h1
    simpa [Satisfied] using h1

/-- **C16 is false of the code** when the scale is not one: the constraint "x > 5" with
scale 10 and `x = 20` is satisfied, yet the returned entry is negative (2 - 5). -/
theorem C16_counterexample :
    let r : ConRow ℚ := { name := [], sense := .gt, bound := 5, scale := 10, units := 1 }
    Satisfied r 20 ∧ inequality [r] (fun _ => 20) = [-3] := by
  refine ⟨by simp [Satisfied]; norm_num, ?_⟩
  simp [inequality, scaleConst, scaleBound]; norm_num

example : (∀ r ∈ [({ name := [], sense := .lt, bound := 5, scale := 1, units := 2 } : ConRow ℚ)], r.scale = 1) ∧
    inequality [({ name := [], sense := .lt, bound := 5, scale := 1, units := 2 } : ConRow ℚ)] (fun _ => 7) = [3] := by
  refine ⟨by simp, ?_⟩
  simp [inequality, scaleConst, scaleBound]; norm_num

/-! ### C52: `translate` -/

omit [LinearOrder K] [IsStrictOrderedRing K] in
/-- **C52, constraints.** The value printed for a constraint is the physical value in the
units of its row. -/
theorem C52_translate_constraint (r : ConRow K) (hs : r.scale ≠ 0) (hu : r.units ≠ 0) (v : K) :
    unscaleConst r (scaleConst r v) * r.units = v := by
  unfold unscaleConst scaleConst; field_simp

omit [LinearOrder K] [IsStrictOrderedRing K] in
/-- **C52, objective: what is printed** is the physical value divided by the *square* of the
unit. -/
theorem C52_translate_objective_meaning (r : ObjRow K) (hs : r.scale ≠ 0) (hu : r.units ≠ 0) (v : K) :
    unscaleObj r (scaleObj r v) * (r.units * r.units) = v := by
  unfold unscaleObj scaleObj; field_simp

omit [LinearOrder K] [IsStrictOrderedRing K] in
/-- **C52, objective, partial**: right when the unit is one. -/
theorem C52_translate_objective_partial (r : ObjRow K) (hs : r.scale ≠ 0) (hu : r.units = 1) (v : K) :
    unscaleObj r (scaleObj r v) * r.units = v := by
  unfold unscaleObj scaleObj; rw [hu]; field_simp

/-- **C52 is false of the code for the objective** in any other unit: 6 (SI) in a unit of 2
is 3 units, but 3/2 is printed. -/
theorem C52_translate_objective_counterexample :
    let r : ObjRow ℚ := { name := [], scale := 5, units := 2 }
    unscaleObj r (scaleObj r 6) = 3 / 2 ∧ unscaleObj r (scaleObj r 6) * r.units ≠ 6 := by
  simp [unscaleObj, scaleObj]; norm_num

/-! ### C18 -/

section
omit [LinearOrder K] [IsStrictOrderedRing K]

/-- **C18, general form.** Every gradient entry is the forward difference quotient along
its own coordinate: with `x'` equal to `x` except for the step at `i`. -/
theorem C18_difference_quotient {n m : Nat} (obj : (Fin n → K) → K) (con : (Fin n → K) → (Fin m → K))
    (x : Fin n → K) (h : K) (hh : h ≠ 0) (i : Fin n) (x' : Fin n → K)
    (hi : x' i = x i + h) (ho : ∀ j, j ≠ i → x' j = x j) :
    fdGrad obj x h i * h = obj x' - obj x ∧ ∀ c, fdJac con x h c i * h = con x' c - con x c := by
  have : Function.update x i (x i + h) = x' := by
    funext j
    by_cases e : j = i
    · subst e; simp [hi]
    · simp [Function.update_of_ne e, ho j e]
  unfold fdGrad fdJac
  dsimp only
  rw [this]
  exact ⟨div_mul_cancel₀ _ hh, fun c => div_mul_cancel₀ _ hh⟩

/-- **C18.** On an affine model the gradient and Jacobian are exact for every non-zero step:
the Jacobian has a row per constraint and a column per variable. -/
theorem C18_affine_exact {n m : Nat} (g : Fin n → K) (b : K) (A : Fin m → Fin n → K) (d : Fin m → K)
    (x : Fin n → K) (h : K) (hh : h ≠ 0) :
    fdGrad (fun y => (∑ j, g j * y j) + b) x h = g ∧
    fdJac (fun y c => (∑ j, A c j * y j) + d c) x h = A := by
  have key : ∀ (a : Fin n → K) (i : Fin n),
      (∑ j, a j * Function.update x i (x i + h) j) = (∑ j, a j * x j) + a i * h := by
    intro a i
    have : ∀ j, a j * Function.update x i (x i + h) j = a j * x j + (if j = i then a i * h else 0) := by
      intro j
      by_cases e : j = i
      · subst e; simp; ring
      · simp [e]
    simp only [this, Finset.sum_add_distrib, Finset.sum_ite_eq', Finset.mem_univ, if_true]
  constructor
  · funext i
    simp only [fdGrad, key]
    field_simp
    ring
  · funext c i
    simp only [fdJac, key]
    field_simp
    ring

example : fdGrad (fun y : Fin 2 → ℚ => 3 * y 0 + 5 * y 1 + 7) (fun _ => 1) (1 / 100) 1 = 5 := by
  simp [fdGrad, Function.update]; norm_num

end

end Verif.Nexus
