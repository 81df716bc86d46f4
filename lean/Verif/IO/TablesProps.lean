import Verif.IO.Tables
import Mathlib.Tactic.Ring
import Mathlib.Tactic.Linarith
import Mathlib.Tactic.NormNum
import Mathlib.Data.List.Nodup

/-! Proofs for C376 to C379. -/

namespace Verif.IO.Tables

/-! ### C376 results of AVL -/

/-- Spec: coefficients of the body axis table from its first line, and of the stability axis table. -/
def bodyRows : List String := ["CX", "CY", "CZ", "Cl", "Cm", "Cn"]

/-- Spec: columns of roll, pitch and yaw rate. -/
def rateCols : List (String × ℕ) := [("_p", 24), ("_q", 43), ("_r", 65)]

/-- C376 in part: whatever the number of control surfaces, the derivative of every coefficient of the body axes with respect to every
rate is that of its own line and column of the body axis table, and those of the lift are of the stability axis table. -/
theorem C376_rates_partial (n : ℕ) (stab body : ℕ → ℕ → ℝ) :
    (∀ i c, bodyRows[i]? = some c → ∀ q ∈ rateCols, rate n stab body (c ++ q.1) = some (body (45 + n + i) q.2))
      ∧ ∀ q ∈ rateCols, rate n stab body ("CL" ++ q.1) = some (stab (44 + n) q.2) := by
  refine ⟨?_, ?_⟩
  · intro i c hc q hq
    have hi : i < 6 := by
      have := (List.getElem?_eq_some_iff.mp hc).1
      simpa [bodyRows] using this
    simp only [rateCols, List.mem_cons, List.not_mem_nil, or_false] at hq
    obtain rfl | rfl | rfl | rfl | rfl | rfl : i = 0 ∨ i = 1 ∨ i = 2 ∨ i = 3 ∨ i = 4 ∨ i = 5 := by omega
    all_goals
      simp only [bodyRows, List.getElem?_cons_zero, List.getElem?_cons_succ, Option.some.injEq] at hc
      subst hc
      rcases hq with rfl | rfl | rfl <;>
      · simp [rate, store, reads]
        try (congr 1; omega)
  · intro q hq
    simp only [rateCols, List.mem_cons, List.not_mem_nil, or_false] at hq
    rcases hq with rfl | rfl | rfl <;> simp [rate, store, reads]

/-- C376 fails: the rate derivatives are not all in the same axes. Of the stability axis table, whatever is printed in it, only the line
of the lift is ever found in the results. -/
theorem C376_axes_counterexample (n : ℕ) (stab stab' body : ℕ → ℕ → ℝ) (h : ∀ c, stab (44 + n) c = stab' (44 + n) c)
    (i : ℕ) (c : String) (hc : bodyRows[i]? = some c) (q : String × ℕ) (hq : q ∈ rateCols) :
    rate n stab body (c ++ q.1) = rate n stab' body (c ++ q.1) ∧ rate n stab body ("CL" ++ q.1) = rate n stab' body ("CL" ++ q.1) := by
  obtain ⟨h1, h2⟩ := C376_rates_partial n stab body
  obtain ⟨h3, h4⟩ := C376_rates_partial n stab' body
  rw [h1 i c hc q hq, h3 i c hc q hq, h2 q hq, h4 q hq, h]
  exact ⟨rfl, rfl⟩

/-- Two tables in stability axes that differ in the damping in roll. -/
example : ∃ stab stab' : ℕ → ℕ → ℝ, (∀ c, stab (44 + 3) c = stab' (44 + 3) c) ∧ stab (46 + 3) 24 ≠ stab' (46 + 3) 24 :=
  ⟨fun _ _ => 0, fun l _ => if l = 49 then 1 else 0, by simp, by simp⟩

theorem fold_lines (nsw i a : ℕ) : (List.range i).foldl (fun idx _ => 15 + nsw + idx) a = a + i * (15 + nsw) := by
  induction i generalizing a with
  | zero => simp
  | succ i ih => rw [List.range_succ, List.foldl_append, ih]; simp only [List.foldl_cons, List.foldl_nil]; ring

/-- C376: every strip of every surface is read from a line of its own, in order, with fifteen lines between surfaces. -/
theorem C376_strips (nsw i j i' j' : ℕ) (hj : j < nsw) (hj' : j' < nsw) :
    (stripLine nsw i j = stripLine nsw i' j' ↔ i = i' ∧ j = j')
      ∧ (i < i' → stripLine nsw i j + 15 < stripLine nsw i' j')
      ∧ stripLine nsw i j = 20 + i * (nsw + 15) + j := by
  have e : ∀ a b, stripLine nsw a b = 20 + b + a * (15 + nsw) := by intro a b; rw [stripLine, fold_lines]; ring
  have lt : ∀ a b c d, c < nsw → d < nsw → a < b → stripLine nsw a c + 15 < stripLine nsw b d := by
    intro a b c d hc hd hab
    rw [e, e]
    have : (a + 1) * (15 + nsw) ≤ b * (15 + nsw) := Nat.mul_le_mul_right _ hab
    have h2 : (a + 1) * (15 + nsw) = a * (15 + nsw) + (15 + nsw) := by ring
    omega
  refine ⟨?_, lt i i' j j' hj hj', ?_⟩
  · constructor
    · intro h
      rcases Nat.lt_trichotomy i i' with h1 | h1 | h1
      · have := lt i i' j j' hj hj' h1; omega
      · subst h1
        rw [e, e] at h
        exact ⟨rfl, by omega⟩
      · have := lt i' i j' j hj' hj h1; omega
    · rintro ⟨rfl, rfl⟩; rfl
  · rw [e]; ring

example : (3 : ℕ) < 20 ∧ (7 : ℕ) < 20 := by norm_num

/-- C376: as many surfaces are read as AVL prints, one for each wing and one more for each that is mirrored. -/
theorem C376_surfaces (symmetric : List Bool) : surfaces symmetric = symmetric.length + symmetric.count true := by
  induction symmetric with
  | nil => rfl
  | cons s l ih =>
    have e : surfaces (s :: l) = (if s then 2 else 1) + surfaces l := by simp [surfaces]
    rw [e, ih]
    cases s <;> simp <;> omega

example : surfaces [true, true, false] = 5 := by rw [C376_surfaces]; rfl

/-- C376: the fields of two control surfaces do not overlap. -/
theorem C376_controls (k k' : ℕ) (h : k < k') : (ctrlCols k).2 < (ctrlCols k').1 ∧ (ctrlCols k).2 = (ctrlCols k).1 + 11 := by
  refine ⟨?_, rfl⟩
  change 20 * k + 34 < 20 * k' + 23
  omega

example : (0 : ℕ) < 2 := by norm_num

/-! ### C377 the airfoil written for AVL -/

/-- C377 in part: the points of the airfoil are written in their order, all but the one in the middle and the last. -/
theorem C377_points_partial (pts : List (ℝ × ℝ)) :
    avlPoints pts = pts.take (pts.length / 2) ++ (pts.take (pts.length - 1)).drop (pts.length / 2 + 1) := by
  rcases Nat.eq_zero_or_pos pts.length with h0 | hpos
  · have : pts = [] := List.length_eq_zero_iff.mp h0
    subst this; simp [avlPoints]
  set m := pts.length / 2 with hm
  have gen : ∀ (l : List (ℝ × ℝ)) (a b : ℕ), b ≤ l.length → a ≤ b →
      (List.range' a (b - a)).filterMap (fun i => l[i]?) = (l.take b).drop a := by
    intro l a b hb hab
    induction hk : b - a generalizing a with
    | zero =>
      have : a = b := by omega
      subst this
      simp
    | succ k ih =>
      have hlt : a < b := by omega
      have hget : l[a]? = some l[a] := List.getElem?_eq_getElem (by omega)
      rw [List.range'_succ, List.filterMap_cons, hget]
      simp only []
      rw [ih (a + 1) (by omega) (by omega)]
      rw [List.drop_eq_getElem_cons (i := a) (by simp; omega)]
      simp
  have noMid : ∀ (a k : ℕ), (∀ i ∈ List.range' a k, i ≠ m) →
      (List.range' a k).filterMap (fun i => if i = m then none else pts[i]?) = (List.range' a k).filterMap (fun i => pts[i]?) := by
    intro a k h
    apply List.filterMap_congr
    intro i hi
    simp [h i hi]
  unfold avlPoints
  rw [← hm, List.range_eq_range']
  rcases Nat.lt_or_ge m (pts.length - 1) with h | h
  · have hsplit : List.range' 0 (pts.length - 1) = List.range' 0 m ++ m :: List.range' (m + 1) (pts.length - 1 - (m + 1)) := by
      have : pts.length - 1 = m + ((pts.length - 1 - (m + 1)) + 1) := by omega
      have h2 : List.range' 0 (m + ((pts.length - 1 - (m + 1)) + 1))
          = List.range' 0 m ++ m :: List.range' (m + 1) (pts.length - 1 - (m + 1)) := by
        rw [← List.range'_append_1 (s := 0)]
        simp [List.range'_succ]
      rw [← h2, ← this]
    rw [hsplit, List.filterMap_append, List.filterMap_cons]
    simp only [if_true]
    rw [noMid 0 m (by intro i hi; simp at hi; omega), noMid (m + 1) _ (by intro i hi; simp at hi; omega)]
    have g1 := gen pts 0 m (by omega) (by omega)
    have g2 := gen pts (m + 1) (pts.length - 1) (by omega) (by omega)
    simp only [Nat.sub_zero, List.drop_zero] at g1
    rw [g1, g2]
  · have hl : pts.length - 1 ≤ m := h
    have g1 := gen pts 0 (pts.length - 1) (by omega) (by omega)
    simp only [Nat.sub_zero, List.drop_zero] at g1
    rw [noMid 0 _ (by intro i hi; simp at hi; omega), g1]
    have hme : m = pts.length - 1 := by omega
    rw [hme]
    simp

/-- C377 fails: of an airfoil without repeated points the last point and the one in the middle are not written. -/
theorem C377_missing_counterexample (pts : List (ℝ × ℝ)) (hn : pts.Nodup) (h3 : 3 ≤ pts.length) :
    (∀ p, pts.getLast? = some p → p ∉ avlPoints pts) ∧ (∀ p, pts[pts.length / 2]? = some p → p ∉ avlPoints pts)
      ∧ (avlPoints pts).length + 2 = pts.length := by
  have mem : ∀ k p, pts[k]? = some p → p ∈ avlPoints pts → k < pts.length - 1 ∧ k ≠ pts.length / 2 := by
    intro k p hk hp
    simp only [avlPoints, List.mem_filterMap, List.mem_range] at hp
    obtain ⟨i, hi, hs⟩ := hp
    split_ifs at hs with hm
    · have : i = k := by
        obtain ⟨h1, e1⟩ := List.getElem?_eq_some_iff.mp hs
        obtain ⟨h2, e2⟩ := List.getElem?_eq_some_iff.mp hk
        exact (List.Nodup.getElem_inj_iff hn).mp (e1.trans e2.symm)
      subst this
      exact ⟨hi, hm⟩
  refine ⟨?_, ?_, ?_⟩
  · intro p hp hmem
    rw [List.getLast?_eq_getElem?] at hp
    have := mem _ p hp hmem
    omega
  · intro p hp hmem
    exact (mem _ p hp hmem).2 rfl
  · rw [C377_points_partial]
    simp
    omega

example : ([(1, 0), (0.5, -0.1), (0, 0), (0.5, 0.1), (1, 0.001)] : List (ℝ × ℝ)).Nodup := by
  norm_num

/-- C377 fails: airfoils of one name in two directories are written to one file, of a name with two dots only the middle is kept, and a
name without a dot is refused. -/
theorem C377_name_counterexample :
    avlName "a/naca.txt".toList = avlName "b/naca.txt".toList ∧ avlName "a/naca.txt".toList = some "naca.dat".toList
      ∧ avlName "naca.v2.txt".toList = some "v2.dat".toList ∧ avlName "naca2410".toList = none := by
  decide

/-! ### C378 weight breakdown -/

/-- Spec: a whole number no further than a half from `x`, the even one of two. -/
def Nearest (x : ℝ) (k : ℤ) : Prop := |(k : ℝ) - x| ≤ 1 / 2 ∧ (|(k : ℝ) - x| = 1 / 2 → Even k)

theorem nearest_whole (x : ℝ) : Nearest x (whole x) := by
  have h1 := Int.floor_le x
  have h2 := Int.lt_floor_add_one x
  unfold whole Nearest
  split_ifs with a b c
  · refine ⟨by rw [abs_le]; constructor <;> linarith, fun h => ?_⟩
    rcases abs_eq (by norm_num) |>.mp h with h | h <;> linarith
  · push_cast
    refine ⟨by rw [abs_le]; constructor <;> linarith, fun h => ?_⟩
    rcases abs_eq (by norm_num) |>.mp h with h | h <;> linarith
  · exact ⟨by rw [abs_le]; constructor <;> linarith, fun _ => c⟩
  · push_cast
    refine ⟨by rw [abs_le]; constructor <;> linarith, fun _ => ?_⟩
    exact (Int.not_even_iff_odd.mp c).add_one

/-- Spec: the text before a number: the name with blanks for underscores and a capital, then dots to column 31 and a colon. -/
def Named (tag text : List Char) : Prop :=
  ∃ c cs dots, tag = c :: cs
    ∧ text = [' ', '\t', (if c = '_' then ' ' else c).toUpper] ++ cs.map (fun d => if d = '_' then ' ' else d) ++ [' ']
        ++ List.replicate dots '.' ++ [' ', ':']
    ∧ dots = 31 - (cs.length + 4)

/-- C378 in part: every item of a group but the total is printed once, in order, to the nearest kilogram, behind its name. -/
theorem C378_lines_partial (items : List (List Char × ℝ)) (ls : List (List Char × ℤ)) (h : lines items = some ls) :
    List.Forall₂ (fun it l => Nearest it.2 l.2 ∧ Named it.1 l.1)
      (items.filter fun it => it.1 ≠ "total".toList) ls := by
  unfold lines at h
  generalize (items.filter fun it => it.1 ≠ "total".toList) = its at h
  induction its generalizing ls with
  | nil =>
    simp only [List.mapM_nil] at h
    cases h
    exact .nil
  | cons it its ih =>
    simp only [List.mapM_cons] at h
    cases hl : label it.1 with
    | none => simp [hl] at h
    | some l =>
      cases hr : its.mapM (fun it => (label it.1).map fun l => (l, whole it.2)) with
      | none => simp [hl, hr] at h
      | some r =>
        simp only [hl, hr, Option.map_some, Option.bind_eq_bind, Option.bind_some, Option.pure_def, Option.some.injEq] at h
        subst h
        refine .cons ⟨nearest_whole _, ?_⟩ (ih r hr)
        unfold label at hl
        cases ht : it.1 with
        | nil => simp [ht] at hl
        | cons c cs =>
          simp only [ht, List.map_cons, Option.some.injEq] at hl
          refine ⟨c, cs, _, rfl, ?_, rfl⟩
          rw [← hl]
          simp

example : ∃ ls, lines [("wing".toList, 100.4), ("total".toList, 100.4)] = some ls := ⟨_, rfl⟩

/-- C378 in part: the printed items add up to the printed total within half a kilogram for each number printed. -/
theorem C378_sum_partial (xs : List ℝ) :
    |(((xs.map whole).sum : ℤ) : ℝ) - (whole xs.sum : ℝ)| ≤ ((xs.length : ℝ) + 1) / 2 := by
  have h1 : |(((xs.map whole).sum : ℤ) : ℝ) - xs.sum| ≤ (xs.length : ℝ) / 2 := by
    induction xs with
    | nil => simp
    | cons x xs ih =>
      have hx := (nearest_whole x).1
      simp only [List.map_cons, List.sum_cons, List.length_cons]
      push_cast
      rw [abs_le] at *
      constructor <;> linarith [ih.1, ih.2, hx.1, hx.2]
  have h2 := (nearest_whole xs.sum).1
  rw [abs_le] at *
  constructor <;> linarith [h1.1, h1.2, h2.1, h2.2]

/-- C378 fails: the printed column need not add up to its printed total. -/
theorem C378_sum_counterexample : ((([0.4, 0.4, 0.4] : List ℝ).map whole).sum) = 0 ∧ whole (([0.4, 0.4, 0.4] : List ℝ).sum) = 1 := by
  have f1 : ⌊(0.4 : ℝ)⌋ = 0 := by rw [Int.floor_eq_iff]; norm_num
  have f2 : ⌊(1.2 : ℝ)⌋ = 1 := by rw [Int.floor_eq_iff]; norm_num
  have w1 : whole 0.4 = 0 := by unfold whole; rw [f1]; norm_num
  have w2 : whole 1.2 = 1 := by unfold whole; rw [f2]; norm_num
  refine ⟨by simp [w1], ?_⟩
  have : ([0.4, 0.4, 0.4] : List ℝ).sum = 1.2 := by norm_num
  rw [this, w2]

/-! ### C379 compressibility drag -/

theorem breakdown_eq (cdc : String → ℝ → ℝ → ℝ) (cl : ℝ) (tags : List String) (b : String → ℝ → ℝ) (t : String) (h : t ∈ tags) :
    (tags.foldl (fun (b : String → ℝ → ℝ) t => fun s => if s = t then fun m => cdc t m cl else b s) b) t = fun m => cdc t m cl := by
  induction tags generalizing b with
  | nil => simp at h
  | cons a tags ih =>
    simp only [List.foldl_cons]
    by_cases ht : t ∈ tags
    · exact ih _ ht
    · have hta : t = a := by simpa [ht] using h
      subst hta
      have keep : ∀ (l : List String) (b' : String → ℝ → ℝ), t ∉ l →
          (l.foldl (fun (b : String → ℝ → ℝ) t => fun s => if s = t then fun m => cdc t m cl else b s) b') t = b' t := by
        intro l
        induction l with
        | nil => intro b' _; rfl
        | cons a l ihl =>
          intro b' hn
          simp only [List.foldl_cons]
          rw [ihl _ (fun hm => hn (by simp [hm]))]
          have : t ≠ a := fun e => hn (by simp [e])
          simp [this]
      rw [keep _ _ ht]
      simp

theorem step_eq (cdc : String → ℝ → ℝ → ℝ) (tags : List String) (st : Comp) (k : ℕ) (cl : ℝ) (m : ℝ) (j : ℕ) :
    (compStep cdc tags st k cl).total m j
        = (if j = k then st.total m j + (tags.map fun t => cdc t m cl).sum else st.total m j)
      ∧ ∀ t, (compStep cdc tags st k cl).wings t m j = (if t ∈ tags ∧ j = k then cdc t m cl else st.wings t m j) := by
  simp only [compStep]
  set b := tags.foldl (fun (b : String → ℝ → ℝ) t => fun s => if s = t then fun m => cdc t m cl else b s) st.breakdown with hb
  have hbt : ∀ t ∈ tags, b t m = cdc t m cl := by
    intro t ht; rw [hb, breakdown_eq cdc cl tags _ t ht]
  clear_value b
  have gen : ∀ (l : List String) (c : Comp), (∀ t ∈ l, b t m = cdc t m cl) →
      ((l.foldl (fun (c : Comp) t =>
          { c with
            wings := fun s m j => if s = t ∧ j = k then b t m else c.wings s m j
            total := fun m j => if j = k then c.total m j + b t m else c.total m j }) c).total m j
        = if j = k then c.total m j + (l.map fun t => cdc t m cl).sum else c.total m j)
      ∧ ∀ t, ((l.foldl (fun (c : Comp) t =>
          { c with
            wings := fun s m j => if s = t ∧ j = k then b t m else c.wings s m j
            total := fun m j => if j = k then c.total m j + b t m else c.total m j }) c).wings t m j
        = if t ∈ l ∧ j = k then cdc t m cl else c.wings t m j) := by
    intro l
    induction l with
    | nil => intro c _; simp
    | cons a l ih =>
      intro c hl
      simp only [List.foldl_cons]
      obtain ⟨h1, h2⟩ := ih { c with
            wings := fun s m j => if s = a ∧ j = k then b a m else c.wings s m j
            total := fun m j => if j = k then c.total m j + b a m else c.total m j } (fun t ht => hl t (by simp [ht]))
      refine ⟨?_, ?_⟩
      · rw [h1]
        simp only [hl a (by simp)]
        split_ifs with hj
        · simp [add_assoc]
        · rfl
      · intro t
        rw [h2 t]
        simp only [hl a (by simp)]
        by_cases hj : j = k <;> by_cases hta : t = a <;> by_cases htl : t ∈ l <;> simp [hj, hta, htl]
  exact gen tags { st with breakdown := b } hbt

/-- C379: whatever was in the conditions before, the table of every wing holds its drag at every Mach number and lift coefficient, and the
total table the sum over the wings. -/
theorem C379_compress (cdc : String → ℝ → ℝ → ℝ) (old : String → ℝ → ℝ) (tags : List String) (cls : List ℝ)
    (hm : "main_wing" ∈ tags) :
    ∃ c, compress cdc old tags cls = some c ∧ ∀ k cl, cls[k]? = some cl → ∀ m,
      (∀ t ∈ tags, c.wings t m k = cdc t m cl) ∧ c.total m k = (tags.map fun t => cdc t m cl).sum := by
  have gen : ∀ (cls : List ℝ) (st : Comp) (k0 : ℕ) (m : ℝ), (∀ j, k0 ≤ j → st.total m j = 0) →
      (∀ j, j < k0 → (compLoop cdc tags st k0 cls).total m j = st.total m j
        ∧ ∀ t, (compLoop cdc tags st k0 cls).wings t m j = st.wings t m j)
      ∧ ∀ k cl, cls[k]? = some cl → (∀ t ∈ tags, (compLoop cdc tags st k0 cls).wings t m (k0 + k) = cdc t m cl)
        ∧ (compLoop cdc tags st k0 cls).total m (k0 + k) = (tags.map fun t => cdc t m cl).sum := by
    intro cls
    induction cls with
    | nil => intro st k0 m _; simp [compLoop]
    | cons c0 cls ih =>
      intro st k0 m h0
      have hs := step_eq cdc tags st k0 c0 m
      have ihh := ih (compStep cdc tags st k0 c0) (k0 + 1) m (by
        intro j hj
        rw [(hs j).1, if_neg (by omega)]
        exact h0 j (by omega))
      simp only [compLoop]
      refine ⟨?_, ?_⟩
      · intro j hj
        obtain ⟨a1, a2⟩ := ihh.1 j (by omega)
        refine ⟨by rw [a1, (hs j).1, if_neg (by omega)], fun t => ?_⟩
        rw [a2 t, (hs j).2 t, if_neg (by omega)]
      · intro k cl hk
        cases k with
        | zero =>
          simp only [List.getElem?_cons_zero, Option.some.injEq] at hk
          subst hk
          obtain ⟨a1, a2⟩ := ihh.1 k0 (by omega)
          simp only [Nat.add_zero]
          refine ⟨fun t ht => by rw [a2 t, (hs k0).2 t, if_pos ⟨ht, rfl⟩], ?_⟩
          rw [a1, (hs k0).1, if_pos rfl, h0 k0 (Nat.le_refl _), zero_add]
        | succ k =>
          have := ihh.2 k cl (by simpa using hk)
          rw [show k0 + (k + 1) = k0 + 1 + k by omega]
          exact this
  refine ⟨compLoop cdc tags ⟨old, fun _ _ _ => 0, fun _ _ => 0⟩ 0 cls, by simp only [compress, if_pos hm], ?_⟩
  intro k cl hk m
  have := (gen cls ⟨old, fun _ _ _ => 0, fun _ _ => 0⟩ 0 m (by intro j _; rfl)).2 k cl hk
  simpa using this

example : "main_wing" ∈ ["main_wing", "horizontal_stabilizer"] := by simp

end Verif.IO.Tables
