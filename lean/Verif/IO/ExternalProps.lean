import Verif.IO.External
import Mathlib.Tactic.Linarith
import Mathlib.Tactic.Positivity
import Mathlib.Tactic.Ring
import Mathlib.Tactic.FieldSimp
import Mathlib.Tactic.NormNum

/-! Meshes (C353), half models (C354), tables of flow solutions (C355), wave drag files (C356), fuel tanks (C357), trees (C358). -/

namespace Verif.IO.External

/-! ### C353 -/

/-- A line is neither the far field nor the plane of symmetry. -/
def Key.other (l : Key) : Bool := l.name ≠ "FarField" && l.name ≠ "SymPlane"

theorem foldl_add (ls : List Key) : ∀ k : Keys, ls.foldl Keys.add k =
    ⟨k.vehicle ++ (ls.filter Key.other).map Key.num, ((ls.filter (·.name = "FarField")).map Key.num).getLastD k.far,
      ((ls.filter (·.name = "SymPlane")).map Key.num).getLastD k.sym⟩ := by
  induction ls with
  | nil => intro k; simp
  | cons l ls ih =>
    intro k
    rw [List.foldl_cons, ih]
    by_cases h1 : l.name = "FarField"
    · have h2 : ¬ l.name = "SymPlane" := by rw [h1]; decide
      have h3 : l.other = false := by simp [Key.other, h1]
      simp only [Keys.add, h1, h2, h3, if_true, List.filter_cons, decide_true, List.map_cons, List.getLastD_cons, decide_false]
      simp
    · by_cases h2 : l.name = "SymPlane"
      · have h3 : l.other = false := by simp [Key.other, h2]
        simp only [Keys.add, h1, h2, h3, if_true, if_false, List.filter_cons, decide_true, List.map_cons, List.getLastD_cons, decide_false]
        simp
      · have h3 : l.other = true := by simp [Key.other, h1, h2]
        simp [Keys.add, h1, h2, h3]

/-- Numbers and surfaces of the loops of a geo file. -/
def loopsOf (g : List Stmt) : List (ℕ × List ℤ) := g.filterMap fun | .loop n s => some (n, s) | _ => none

/-- Loops that bound the volumes of a geo file. -/
def volumesOf (g : List Stmt) : List (List ℕ) := g.filterMap fun | .volume _ l => some l | _ => none

/-- Surfaces of a physical group of a geo file. -/
def groupOf (name : String) (g : List Stmt) : List ℤ := g.flatMap fun | .physical n s => if n = name then s else [] | _ => []

theorem vehicleLoops_fst (vs : List ℤ) : ∀ n, (vehicleLoops n vs).map Prod.fst = List.range' n vs.length := by
  induction vs with
  | nil => simp [vehicleLoops]
  | cons v vs ih => intro n; simp [vehicleLoops, ih, List.range'_succ]

theorem vehicleLoops_snd (vs : List ℤ) : ∀ n, (vehicleLoops n vs).map Prod.snd = vs := by
  induction vs with
  | nil => simp [vehicleLoops]
  | cons v vs ih => intro n; simp [vehicleLoops, ih]

theorem loopsOf_map (l : List (ℕ × ℤ)) : loopsOf (l.map fun p => .loop p.1 [p.2]) = l.map fun p => (p.1, [p.2]) := by
  induction l with
  | nil => rfl
  | cons a l ih => simpa [loopsOf] using ih

theorem volumesOf_map (l : List (ℕ × ℤ)) : volumesOf (l.map fun p => .loop p.1 [p.2]) = [] := by
  simp [volumesOf, List.filterMap_eq_nil_iff]

theorem groupOf_map (name : String) (l : List (ℕ × ℤ)) : groupOf name (l.map fun p => .loop p.1 [p.2]) = [] := by
  induction l with
  | nil => rfl
  | cons a l ih => simpa [groupOf] using ih

theorem loopsOf_append (a b : List Stmt) : loopsOf (a ++ b) = loopsOf a ++ loopsOf b := by simp [loopsOf]

theorem volumesOf_append (a b : List Stmt) : volumesOf (a ++ b) = volumesOf a ++ volumesOf b := by simp [volumesOf]

theorem groupOf_append (name : String) (a b : List Stmt) : groupOf name (a ++ b) = groupOf name a ++ groupOf name b := by simp [groupOf]

/-- For a key file with one far field and at most one plane of symmetry: the loops have different numbers, the one volume is
bounded by all of them beginning with the far field, every surface of the key file is in exactly one loop, and the groups
hold what their names say.  Missing: key files without a far field. -/
theorem C353_geo_partial (ls : List Key) (far : ℤ) (sym : Option ℤ)
    (hf : (ls.filter (·.name = "FarField")).map Key.num = [far])
    (hs : (ls.filter (·.name = "SymPlane")).map Key.num = sym.toList) (hs1 : sym ≠ some (-1)) :
    let g := writeGeo (readKeys ls)
    ((loopsOf g).map Prod.fst).Nodup ∧ volumesOf g = [(loopsOf g).map Prod.fst] ∧
    ((loopsOf g).flatMap Prod.snd).Perm (ls.map Key.num) ∧ ((loopsOf g).head?.map Prod.snd = some [far]) ∧
    groupOf "VEHICLE" g = (ls.filter Key.other).map Key.num ∧ groupOf "FARFIELD" g = [far] ∧ groupOf "SYMPLANE" g = sym.toList := by
  have hk : readKeys ls = ⟨(ls.filter Key.other).map Key.num, far, sym.getD (-1)⟩ := by
    unfold readKeys
    rw [foldl_add, hf, hs]
    cases sym <;> simp
  have hperm : (far :: (sym.toList ++ (ls.filter Key.other).map Key.num)).Perm (ls.map Key.num) := by
    have h1 := List.filter_append_perm (fun l : Key => decide (l.name = "FarField")) ls
    have h2 := List.filter_append_perm (fun l : Key => decide (l.name = "SymPlane"))
      (ls.filter fun l => !decide (l.name = "FarField"))
    have e1 : (ls.filter fun l => !decide (l.name = "FarField")).filter (fun l => decide (l.name = "SymPlane"))
        = ls.filter (·.name = "SymPlane") := by
      rw [List.filter_filter]
      apply List.filter_congr
      intro l _
      by_cases h : l.name = "SymPlane"
      · simp [h]
      · simp [h]
    have e2 : (ls.filter fun l => !decide (l.name = "FarField")).filter (fun l => !decide (l.name = "SymPlane"))
        = ls.filter Key.other := by
      rw [List.filter_filter]
      apply List.filter_congr
      intro l _
      simp [Key.other, Bool.and_comm]
    rw [e1, e2] at h2
    have h3 := ((h2.append_left (ls.filter fun l => decide (l.name = "FarField"))).trans h1).map Key.num
    simp only [List.map_append] at h3
    rw [hf, hs] at h3
    simpa using h3
  generalize (ls.filter Key.other).map Key.num = vs at *
  intro g
  have hg : g = writeGeo ⟨vs, far, sym.getD (-1)⟩ := by rw [← hk]
  clear_value g
  subst hg
  cases sym with
  | none =>
    refine ⟨?_, ?_, ?_, ?_, ?_, ?_, ?_⟩
    · simp only [writeGeo, Option.getD_none, loopsOf_append, loopsOf_map]
      simp [loopsOf, vehicleLoops_fst, List.nodup_range', Function.comp_def]
    · simp only [writeGeo, Option.getD_none, loopsOf_append, loopsOf_map, volumesOf_append, volumesOf_map]
      simp [loopsOf, volumesOf, Function.comp_def]
      try rfl
    · have e : (loopsOf (writeGeo ⟨vs, far, (none : Option ℤ).getD (-1)⟩)).flatMap Prod.snd = far :: vs := by
        simp only [writeGeo, Option.getD_none, loopsOf_append, loopsOf_map]
        simp [loopsOf, List.flatMap_map]
        rw [← List.map_eq_flatMap, vehicleLoops_snd]
      rw [e]
      simpa using hperm
    · simp only [writeGeo, Option.getD_none, loopsOf_append, loopsOf_map]
      simp [loopsOf]
    · simp only [writeGeo, Option.getD_none, groupOf_append, groupOf_map]
      simp [groupOf]
    · simp only [writeGeo, Option.getD_none, groupOf_append, groupOf_map]
      simp [groupOf]
    · simp only [writeGeo, Option.getD_none, groupOf_append, groupOf_map]
      simp [groupOf]
  | some s =>
    have hs2 : s ≠ -1 := by simpa using hs1
    refine ⟨?_, ?_, ?_, ?_, ?_, ?_, ?_⟩
    · simp only [writeGeo, Option.getD_some, loopsOf_append, loopsOf_map, if_pos hs2, ne_eq]
      simp [loopsOf, hs2, vehicleLoops_fst, List.nodup_range', Function.comp_def]
      omega
    · simp only [writeGeo, Option.getD_some, loopsOf_append, loopsOf_map, volumesOf_append, volumesOf_map]
      simp [loopsOf, volumesOf, hs2, Function.comp_def]
      try rfl
    · have e : (loopsOf (writeGeo ⟨vs, far, (some s : Option ℤ).getD (-1)⟩)).flatMap Prod.snd = far :: s :: vs := by
        simp only [writeGeo, Option.getD_some, loopsOf_append, loopsOf_map]
        simp [loopsOf, hs2, List.flatMap_map]
        rw [← List.map_eq_flatMap, vehicleLoops_snd]
      rw [e]
      simpa using hperm
    · simp only [writeGeo, Option.getD_some, loopsOf_append, loopsOf_map]
      simp [loopsOf, hs2]
    · simp only [writeGeo, Option.getD_some, groupOf_append, groupOf_map]
      simp [groupOf, hs2]
    · simp only [writeGeo, Option.getD_some, groupOf_append, groupOf_map]
      simp [groupOf, hs2]
    · simp only [writeGeo, Option.getD_some, groupOf_append, groupOf_map]
      simp [groupOf, hs2]

example : groupOf "VEHICLE" (writeGeo (readKeys [⟨1, "Wing"⟩, ⟨2, "SymPlane"⟩, ⟨3, "Body"⟩, ⟨4, "FarField"⟩])) = [1, 3] :=
  (C353_geo_partial [⟨1, "Wing"⟩, ⟨2, "SymPlane"⟩, ⟨3, "Body"⟩, ⟨4, "FarField"⟩] 4 (some 2) (by decide) (by decide) (by decide)).2.2.2.2.1

/-- C353: the file ends with the volume, whose number no loop exceeds. -/
theorem C353_volume (k : Keys) : ∃ n l, (writeGeo k).getLast? = some (.volume n l) ∧ ∀ p ∈ loopsOf (writeGeo k), p.1 ≤ n := by
  refine ⟨_, _, by simp only [writeGeo]; exact List.getLast?_concat, ?_⟩
  have hv : ∀ m, ∀ p ∈ vehicleLoops m k.vehicle, p.1 < m + k.vehicle.length := by
    intro m p hp
    have h : p.1 ∈ (vehicleLoops m k.vehicle).map Prod.fst := List.mem_map_of_mem hp
    rw [vehicleLoops_fst, List.mem_range'_1] at h
    exact h.2
  by_cases hs : k.sym = -1
  · intro p hp
    simp only [writeGeo, hs, ne_eq, not_true_eq_false, if_false, loopsOf_append, loopsOf_map] at hp ⊢
    simp [loopsOf] at hp
    rcases hp with rfl | ⟨a, b, hab, rfl⟩
    · simp
    · have := hv _ _ hab
      simp only [List.length_nil] at this ⊢
      omega
  · intro p hp
    simp only [writeGeo, hs, ne_eq, not_false_eq_true, if_true, loopsOf_append, loopsOf_map] at hp ⊢
    simp [loopsOf] at hp
    rcases hp with rfl | rfl | ⟨a, b, hab, rfl⟩
    · simp; omega
    · simp
    · have := hv _ _ hab
      simp only [List.length_cons, List.length_nil] at this ⊢
      omega

/-- Without a far field the volume is bounded by a surface that does not exist. -/
theorem C353_far_counterexample : loopsOf (writeGeo (readKeys [⟨1, "Wing"⟩])) = [(3, [-1]), (4, [1])] := by decide

/-! ### C354 -/

/-- With equal settings for mesh and solver the coefficient is that of the whole vehicle, and the solver gets the angle in
degrees.  Missing: settings changed in the analysis (`C354_full_counterexample`). -/
theorem C354_half_partial (force : ℝ → ℝ → ℝ) (deg : ℝ) (s : Su2Settings) (S aoa mach : ℝ) :
    euler force deg s s S aoa mach = force mach (aoa / deg) / S := by
  unfold euler solve cfg refArea
  cases s.half
  · simp
  · simp only [if_true]
    by_cases h : S = 0
    · simp [h]
    · field_simp

example : euler (fun _ a => 30 * a) (1 / 50) ⟨true, 10⟩ ⟨true, 10⟩ 100 0.1 0.5 = 30 * (0.1 / (1 / 50)) / 100 :=
  C354_half_partial _ _ _ _ _ _

/-- A full mesh asked for in the analysis doubles the coefficients, as the solver still gets half the area. -/
theorem C354_full_counterexample (force : ℝ → ℝ → ℝ) (deg : ℝ) (n : ℕ) (S aoa mach : ℝ) :
    euler force deg ⟨false, n⟩ Su2Settings.default S aoa mach = 2 * (force mach (aoa / deg) / S) := by
  simp [euler, solve, cfg, refArea, Su2Settings.default]
  ring

/-! ### C355 -/

/-- Every pair of the training values has a row with the coefficients computed for it, and there are no other rows. -/
theorem C355_rows (run : ℝ → ℝ → ℝ × ℝ) (aoas machs : List ℝ) (r : (ℝ × ℝ) × (ℝ × ℝ)) :
    (r ∈ samples run aoas machs ↔ r.1.1 ∈ aoas ∧ r.1.2 ∈ machs ∧ r.2 = run r.1.1 r.1.2) ∧
    (samples run aoas machs).length = aoas.length * machs.length := by
  constructor
  · obtain ⟨⟨a, m⟩, c⟩ := r
    simp only [samples, List.mem_flatMap, List.mem_map, Prod.mk.injEq]
    constructor
    · rintro ⟨a', ha, m', hm, ⟨rfl, rfl⟩, rfl⟩
      exact ⟨ha, hm, rfl⟩
    · rintro ⟨ha, hm, rfl⟩
      exact ⟨a, ha, m, hm, ⟨rfl, rfl⟩, rfl⟩
  · simp [samples, List.length_flatMap]

/-- A table saved and read again differs by less than the last printed digit, and saving it again changes nothing. -/
theorem C355_file (x : ℝ) : |text x - x| ≤ 5 / 10 ^ 9 ∧ text (text x) = text x := by
  have h10 : (0 : ℝ) < 10 ^ 8 := by norm_num
  constructor
  · have h := abs_sub_round (x * 10 ^ 8)
    have e : text x - x = -(x * 10 ^ 8 - round (x * 10 ^ 8)) / 10 ^ 8 := by
      unfold text
      field_simp
      ring
    rw [e, abs_div, abs_neg, abs_of_pos h10, div_le_div_iff₀ h10 (by norm_num)]
    generalize |x * 10 ^ 8 - (round (x * 10 ^ 8) : ℝ)| = y at *
    norm_num
    linarith
  · unfold text
    rw [div_mul_cancel₀ _ h10.ne', round_intCast]

/-- C355: so does every column of a row, each from its own. -/
theorem C355_columns (r : (ℝ × ℝ) × (ℝ × ℝ)) :
    |(textRow r).1.1 - r.1.1| ≤ 5 / 10 ^ 9 ∧ |(textRow r).1.2 - r.1.2| ≤ 5 / 10 ^ 9 ∧ |(textRow r).2.1 - r.2.1| ≤ 5 / 10 ^ 9
      ∧ |(textRow r).2.2 - r.2.2| ≤ 5 / 10 ^ 9 ∧ textRow (textRow r) = textRow r := by
  refine ⟨(C355_file _).1, (C355_file _).1, (C355_file _).1, (C355_file _).1, ?_⟩
  simp only [textRow, (C355_file _).2]

example : ∃ r : (ℝ × ℝ) × (ℝ × ℝ), r.2.1 ≠ r.2.2 := ⟨((0, 0.5), (0.3, 0.02)), by norm_num⟩

theorem fit_filter (model : List ((ℝ × ℝ) × ℝ) → ℝ × ℝ → ℝ) (rows : List ((ℝ × ℝ) × ℝ)) (p : (ℝ × ℝ) × ℝ → Prop) [DecidablePred p]
    (h : ∃ r ∈ rows, p r) : fit model (rows.filter fun r => p r) = some (model (rows.filter fun r => p r)) := by
  obtain ⟨r, hr, hp⟩ := h
  have : (rows.filter fun r => decide (p r)).isEmpty = false := by
    rw [List.isEmpty_eq_false_iff_exists_mem]
    exact ⟨r, List.mem_filter.2 ⟨hr, by simpa using hp⟩⟩
  simp only [fit, this]
  rfl

/-- No point has two values. -/
def Consistent (rows : List ((ℝ × ℝ) × ℝ)) : Prop := ∀ r ∈ rows, ∀ q ∈ rows, r.1 = q.1 → r.2 = q.2

/-- A fitted model that reproduces its rows gives the lift of the training rows on both sides of Mach one, if there are rows on
both sides.  Missing: the training values of a new analysis (`C355_default_counterexample`). -/
theorem C355_super_partial (model : List ((ℝ × ℝ) × ℝ) → ℝ × ℝ → ℝ)
    (hm : ∀ rows, Consistent rows → ∀ r ∈ rows, model rows r.1 = r.2)
    (rows : List ((ℝ × ℝ) × ℝ)) (hc : Consistent rows) (h1 : ∃ r ∈ rows, 1 ≤ r.1.2) (h2 : ∃ r ∈ rows, r.1.2 ≤ 1) :
    ∃ lift, superLift model rows = some lift ∧ ∀ r ∈ rows, lift r.1 = r.2 := by
  have hf : ∀ p : (ℝ × ℝ) × ℝ → Bool, Consistent (rows.filter p) := fun p r hr q hq =>
    hc r (List.mem_filter.1 hr).1 q (List.mem_filter.1 hq).1
  unfold superLift
  rw [fit_filter model rows (fun r => 1 ≤ r.1.2) h1, fit_filter model rows (fun r => r.1.2 ≤ 1) h2]
  refine ⟨_, rfl, ?_⟩
  intro r hr
  by_cases h : r.1.2 ≤ 1
  · simp only [h, if_true]
    exact hm _ (hf _) r (List.mem_filter.2 ⟨hr, by simpa using h⟩)
  · simp only [h, if_false]
    exact hm _ (hf _) r (List.mem_filter.2 ⟨hr, by simpa using (not_le.1 h).le⟩)

open Classical in
/-- A model that looks up the value of a point reproduces its rows. -/
example : ∃ lift, superLift (fun rows p => ((rows.find? fun r => r.1 = p).map Prod.snd).getD 0) [((0, 0.5), 1), ((0, 1.5), 2)] = some lift ∧
    lift (0, 1.5) = 2 := by
  obtain ⟨lift, h1, h2⟩ := C355_super_partial (fun rows p => ((rows.find? fun r => r.1 = p).map Prod.snd).getD 0) (by
      intro rows hc r hr
      cases hf : rows.find? fun q => decide (q.1 = r.1) with
      | none =>
        have := List.find?_eq_none.1 hf r hr
        simp at this
      | some q =>
        have e := List.find?_some hf
        simp only [decide_eq_true_eq] at e
        simp only [Option.map_some, Option.getD_some]
        exact hc q (List.mem_of_find?_eq_some hf) r hr e)
    [((0, 0.5), 1), ((0, 1.5), 2)] (by
      intro r hr q hq
      simp only [List.mem_cons, List.not_mem_nil, or_false] at hr hq
      rcases hr with rfl | rfl <;> rcases hq with rfl | rfl <;> norm_num)
    ⟨((0, 1.5), 2), by simp, by norm_num⟩ ⟨((0, 0.5), 1), by simp, by norm_num⟩
  exact ⟨lift, h1, h2 ((0, 1.5), 2) (by simp)⟩

/-- The training values of a new supersonic analysis are all above Mach one (SU2_inviscid_Super.py:72): building the models
raises. -/
theorem C355_default_counterexample (model : List ((ℝ × ℝ) × ℝ) → ℝ × ℝ → ℝ) (run : ℝ → ℝ → ℝ × ℝ) (aoas : List ℝ) :
    superLift model ((samples run aoas [1.1, 1.7, 2.3]).map fun r => (r.1, r.2.1)) = none := by
  classical
  have h : (((samples run aoas [1.1, 1.7, 2.3]).map fun r => (r.1, r.2.1)).filter fun r => decide (r.1.2 ≤ 1)) = [] := by
    rw [List.filter_eq_nil_iff]
    intro r hr
    obtain ⟨q, hq, rfl⟩ := List.mem_map.1 hr
    have := ((C355_rows run aoas [1.1, 1.7, 2.3] q).1.1 hq).2.1
    simp only [decide_eq_true_eq, not_le]
    simp only [List.mem_cons, List.not_mem_nil, or_false] at this
    rcases this with h | h | h <;> rw [h] <;> norm_num
  unfold superLift
  have h2 : fit model (((samples run aoas [1.1, 1.7, 2.3]).map fun r => (r.1, r.2.1)).filter fun r => decide (r.1.2 ≤ 1)) = none := by
    rw [h]
    rfl
  split
  · rename_i h3
    exfalso
    have : ∀ o, fit model (((samples run aoas [1.1, 1.7, 2.3]).map fun r => (r.1, r.2.1)).filter fun r => decide (r.1.2 ≤ 1)) ≠ some o := by
      intro o ho
      rw [h2] at ho
      cases ho
    apply this
    convert h3 using 3
  · rfl

/-! ### C356 -/

/-- The file holds drags of the numbers of slices and rotations, once for each Mach number. -/
def Good (vsp : ℕ → ℕ → ℝ → ℝ) (n k : ℕ) (f : List (ℝ × ℝ)) : Prop := ∀ p ∈ f, p.2 = vsp n k p.1

theorem stored_good {vsp : ℕ → ℕ → ℝ → ℝ} {n k : ℕ} {f : List (ℝ × ℝ)} (h : Good vsp n k f) {m c : ℝ} (hs : stored f m = some c) :
    c = vsp n k m := by
  unfold stored at hs
  obtain ⟨p, hp, rfl⟩ := Option.map_eq_some_iff.1 hs
  have h1 := List.find?_some hp
  have h2 := List.mem_of_find?_eq_some hp
  simp only [decide_eq_true_eq] at h1
  rw [h p h2, h1]

theorem dragAll_good (vsp : ℕ → ℕ → ℝ → ℝ) (n k : ℕ) (ms : List ℝ) : ∀ f, Good vsp n k f →
    (dragAll vsp n k f ms).1 = ms.map (fun m => if 1.05 ≤ m then vsp n k m else 0) ∧ Good vsp n k (dragAll vsp n k f ms).2 := by
  classical
  induction ms with
  | nil => intro f h; exact ⟨rfl, h⟩
  | cons m ms ih =>
    intro f h
    have key : (dragAt vsp n k f m).1 = (if 1.05 ≤ m then vsp n k m else 0) ∧ Good vsp n k (dragAt vsp n k f m).2 := by
      unfold dragAt
      by_cases hm : 1.05 ≤ m
      · simp only [hm, if_true]
        cases hs : stored f m with
        | some c => exact ⟨stored_good h hs, h⟩
        | none =>
          refine ⟨rfl, fun p hp => ?_⟩
          rcases List.mem_append.1 hp with hp | hp
          · exact h p hp
          · rw [List.mem_singleton.1 hp]
      · simp only [hm, if_false]
        exact ⟨trivial, h⟩
    obtain ⟨h1, h2⟩ := ih _ key.2
    simp only [dragAll]
    exact ⟨by rw [h1, key.1]; simp, h2⟩

/-- The volume drags of any sequence of evaluations after `initialize`. -/
noncomputable def evaluations (vsp : ℕ → ℕ → ℝ → ℝ) (n k : ℕ) : File → List (List ℝ) → List (List ℝ)
  | _, [] => []
  | f, ms :: rest => (volumeDrag vsp n k f ms).1 :: evaluations vsp n k (volumeDrag vsp n k f ms).2 rest

theorem drag105_good (vsp : ℕ → ℕ → ℝ → ℝ) (f : File) (h : ∀ l, f = some l → Good vsp 20 10 l) :
    ∃ l, (drag105 vsp f).2 = some l ∧ Good vsp 20 10 l := by
  classical
  cases f with
  | some l => exact ⟨l, rfl, h l rfl⟩
  | none =>
    refine ⟨_, rfl, fun p hp => ?_⟩
    rw [List.mem_singleton.1 hp]
    have : stored [((-1 : ℝ), (-1 : ℝ))] 1.05 = none := by
      simp only [stored, List.find?_cons, List.find?_nil]
      norm_num
    simp [this]

/-- With the default numbers of slices and rotations every evaluation gives the drag that OpenVSP computes, from Mach 1.05 up,
and none below, whatever was evaluated before.  Missing: other numbers (`C356_slices_counterexample`), and the sum, which is
never returned (`C356_raises_counterexample`). -/
theorem C356_file_partial (vsp : ℕ → ℕ → ℝ → ℝ) (evals : List (List ℝ)) :
    evaluations vsp 20 10 none evals = evals.map fun ms => ms.map fun m => if 1.05 ≤ m then vsp 20 10 m else 0 := by
  have key : ∀ (evals : List (List ℝ)) (f : File), (∀ l, f = some l → Good vsp 20 10 l) →
      evaluations vsp 20 10 f evals = evals.map fun ms => ms.map fun m => if 1.05 ≤ m then vsp 20 10 m else 0 := by
    intro evals
    induction evals with
    | nil => intro f _; rfl
    | cons ms rest ih =>
      intro f h
      obtain ⟨l, hl, hg⟩ := drag105_good vsp f h
      obtain ⟨h1, h2⟩ := dragAll_good vsp 20 10 ms l hg
      have e : volumeDrag vsp 20 10 f ms = ((dragAll vsp 20 10 l ms).1, some (dragAll vsp 20 10 l ms).2) := by
        simp [volumeDrag, hl]
      simp only [evaluations, e, List.map_cons]
      rw [h1, ih _ (by rintro l' ⟨⟩; exact h2)]
  exact key evals none (by simp)

example : evaluations (fun n k m => n * k * m) 20 10 none [[1.2, 0.5], [1.2]] =
    [[((20 : ℕ) : ℝ) * ((10 : ℕ) : ℝ) * 1.2, 0], [((20 : ℕ) : ℝ) * ((10 : ℕ) : ℝ) * 1.2]] := by
  rw [C356_file_partial]
  norm_num

/-- With other numbers of slices the drag at Mach 1.05 is still that of the default numbers. -/
theorem C356_slices_counterexample (vsp : ℕ → ℕ → ℝ → ℝ) (n k : ℕ) : (volumeDrag vsp n k none [1.05]).1 = [vsp 20 10 1.05] := by
  have h0 : stored [((-1 : ℝ), (-1 : ℝ))] 1.05 = none := by
    simp only [stored, List.find?_cons, List.find?_nil]
    norm_num
  have h1 : ∀ c : ℝ, stored [((1.05 : ℝ), c)] 1.05 = some c := by
    intro c
    simp [stored]
  simp [volumeDrag, drag105, dragAll, dragAt, h0, h1]

/-- The compressibility drag of this analysis is never returned: with a wing the second call of the divergence function has
one argument too many, without a wing a variable is unbound. -/
theorem C356_raises_counterexample (vsp : ℕ → ℕ → ℝ → ℝ) (n k wings : ℕ) (total : List ℝ → List ℝ) (f : File) (ms : List ℝ) :
    (compressible vsp n k wings total f ms).1 = none := by
  unfold compressible dragDivCall
  by_cases h : wings = 0 <;> simp [h]

/-! ### C357 -/

/-- Lines of a tank. -/
def linesOf (tag : String) (rows : List Row) : List Row := rows.filter (·.name = tag)

/-- Centre of gravity of several masses, by one coordinate. -/
noncomputable def centroidOf (x : Row → ℝ) (rows : List Row) : ℝ := (rows.map fun r => r.mass * x r).sum / (rows.map (·.mass)).sum

theorem foldl_into (tag : String) (rows : List Row) : ∀ t, rows.foldl (Row.into tag) t = (linesOf tag rows).foldl (Row.into tag) t := by
  induction rows with
  | nil => intro t; rfl
  | cons r rows ih =>
    intro t
    by_cases h : r.name = tag
    · simp only [linesOf, List.filter_cons, h, decide_true, if_true, List.foldl_cons]
      exact ih _
    · simp only [linesOf, List.filter_cons, h, decide_false, List.foldl_cons]
      rw [ih]
      simp [Row.into, h, linesOf]

theorem foldl_mass (tag : String) (rows : List Row) (hr : ∀ r ∈ rows, r.name = tag) : ∀ t : Tank, ∃ c,
    rows.foldl (Row.into tag) (some t) = some ⟨c, t.mass + (rows.map (·.mass)).sum, t.vol + (rows.map (·.vol)).sum⟩ := by
  induction rows with
  | nil => intro t; exact ⟨t.cg, by simp⟩
  | cons r rows ih =>
    intro t
    have h := hr r List.mem_cons_self
    rw [List.foldl_cons, show Row.into tag (some t) r = some ⟨midpoint t.cg r.cg, t.mass + r.mass, t.vol + r.vol⟩ by simp [Row.into, h]]
    obtain ⟨c, hc⟩ := ih (fun q hq => hr q (List.mem_cons_of_mem r hq)) ⟨midpoint t.cg r.cg, t.mass + r.mass, t.vol + r.vol⟩
    exact ⟨c, by rw [hc]; simp [add_assoc]⟩

/-- Mass and volume of a tank are the sums over its lines; a tank without a line raises. -/
theorem C357_mass (tag : String) (rows : List Row) :
    (tankOf tag rows).map (fun t => (t.mass, t.vol)) =
      if linesOf tag rows = [] then none
      else some (((linesOf tag rows).map (·.mass)).sum, ((linesOf tag rows).map (·.vol)).sum) := by
  unfold tankOf
  rw [foldl_into]
  have hn : ∀ r ∈ linesOf tag rows, r.name = tag := by
    intro r hr
    simpa [linesOf] using (List.mem_filter.1 hr).2
  cases hl : linesOf tag rows with
  | nil => simp
  | cons r l =>
    rw [hl] at hn
    have h := hn r List.mem_cons_self
    obtain ⟨c, hc⟩ := foldl_mass tag l (fun q hq => hn q (List.mem_cons_of_mem r hq)) ⟨r.cg, r.mass, r.vol⟩
    rw [List.foldl_cons, show Row.into tag none r = some ⟨r.cg, r.mass, r.vol⟩ by simp [Row.into, h], hc]
    simp

/-- The centre of gravity of a tank with one line, or with two of equal mass, is that of its masses.  Missing: other masses and
more lines (`C357_cg_counterexample`). -/
theorem C357_cg_partial (tag : String) (rows : List Row) (r q : Row) (hm : 0 < r.mass)
    (h : linesOf tag rows = [r] ∨ (linesOf tag rows = [r, q] ∧ q.mass = r.mass)) :
    (tankOf tag rows).map Tank.cg = some (centroidOf (·.cg.1) (linesOf tag rows), centroidOf (·.cg.2.1) (linesOf tag rows),
      centroidOf (·.cg.2.2) (linesOf tag rows)) := by
  unfold tankOf
  rw [foldl_into]
  have hn : ∀ r ∈ linesOf tag rows, r.name = tag := by
    intro r hr
    simpa [linesOf] using (List.mem_filter.1 hr).2
  rcases h with h | ⟨h, hq⟩
  · rw [h] at hn ⊢
    have h1 := hn r (by simp)
    simp [Row.into, h1, centroidOf, hm.ne']
  · rw [h] at hn ⊢
    have h1 := hn r (by simp)
    have h2 := hn q (by simp)
    simp only [List.foldl_cons, List.foldl_nil, Row.into, h1, h2, if_true, midpoint, centroidOf, List.map_cons, List.map_nil, List.sum_cons,
      List.sum_nil, hq, Option.map_some]
    have h3 : r.mass + r.mass ≠ 0 := by positivity
    generalize r.mass = m at *
    congr 2
    · field_simp
      ring
    · congr 1
      · field_simp
        ring
      · field_simp
        ring

example : (tankOf "t" [⟨"t", 5, (1, 2, 0), 3⟩, ⟨"u", 1, (0, 0, 0), 1⟩, ⟨"t", 5, (1, -2, 0), 3⟩]).map Tank.cg =
    some (1, 0, 0) := by
  rw [C357_cg_partial "t" _ ⟨"t", 5, (1, 2, 0), 3⟩ ⟨"t", 5, (1, -2, 0), 3⟩ (by norm_num) (Or.inr ⟨by simp [linesOf], rfl⟩)]
  simp [centroidOf, linesOf]
  norm_num

/-- Two parts of masses one and three, at zero and at four: the centre of gravity is at three, the code says two. -/
theorem C357_cg_counterexample :
    (tankOf "t" [⟨"t", 1, (0, 0, 0), 1⟩, ⟨"t", 3, (4, 0, 0), 3⟩]).map (fun t => t.cg.1) = some 2 ∧
    centroidOf (·.cg.1) [⟨"t", 1, (0, 0, 0), 1⟩, ⟨"t", 3, (4, 0, 0), 3⟩] = 3 := by
  constructor
  · simp [tankOf, Row.into, midpoint]
    norm_num
  · simp [centroidOf]
    norm_num

/-! ### C358 -/

mutual
/-- No value prints as the text of an empty dictionary. -/
def Val.Plain : Val → Prop
  | .leaf s => s ≠ "{}"
  | .dict d => d.Plain
/-- No value prints as the text of an empty dictionary. -/
def Dict.Plain : Dict → Prop
  | .nil => True
  | .cons _ v rest => v.Plain ∧ rest.Plain
end

/-- The child of a tree that stands for a text, if it is one. -/
def Forest.text? : Forest → Option String
  | .cons (.bare s) .nil => some s
  | _ => none

mutual
/-- Items that a tree stands for. -/
def Tree.read : Tree → Option (String × Val)
  | .bare _ => none
  | .node k f => match f.text? with
    | some "{}" => some (k, .dict .nil)
    | some s => some (k, .leaf s)
    | none => (f.read).map fun d => (k, .dict d)
/-- Items that children stand for. -/
def Forest.read : Forest → Option Dict
  | .nil => some .nil
  | .cons t rest => match t.read, rest.read with
    | some p, some d => some (.cons p.1 p.2 d)
    | _, _ => none
end

/-- The data structure that a saved tree stands for. -/
def Tree.data : Tree → Option Dict
  | .bare _ => none
  | .node _ f => if f.text? = some "{}" then some .nil else f.read

theorem children_text (k : String) (v : Val) (rest : Dict) : (children (.cons k v rest)).text? = none := by
  cases v <;> cases rest <;> simp [children, element, Forest.text?]

mutual
theorem element_read (k : String) : ∀ v : Val, v.Plain → (element k v).read = some (k, v)
  | .leaf s, h => by
    have hs : s ≠ "{}" := h
    simp only [element, Tree.read, Forest.text?]
  | .dict d, h => by
    simp only [element, Tree.read]
    match d, h with
    | .nil, _ => rfl
    | .cons k' v r, h =>
      rw [children_text, children_read (.cons k' v r) h (by simp)]
      rfl
theorem children_read : ∀ d : Dict, d.Plain → d ≠ .nil → (children d).read = some d
  | .nil, _, h => absurd rfl h
  | .cons k v rest, h, _ => by
    obtain ⟨h1, h2⟩ := h
    cases rest with
    | nil =>
      simp only [children, Forest.read]
      rw [element_read k v h1]
    | cons k' v' r =>
      rw [children, Forest.read, element_read k v h1]
      rw [children_read (.cons k' v' r) h2 (by simp)]
end

/-- A saved tree determines the keys, their order, the nesting and the text of every value, and is named by the tag, else by the
given name.  Missing: values that print as an empty dictionary (`C358_empty_counterexample`). -/
theorem C358_tree_partial (root : Option String) (d : Dict) (h : d.Plain) :
    (saveTree root d).data = some d ∧
    (∀ t, d.tag = some t → ∃ f, saveTree root d = .node t f) ∧
    (∀ r, d.tag = none → r ≠ "" → root = some r → ∃ f, saveTree root d = .node r f) := by
  refine ⟨?_, ?_, ?_⟩
  · simp only [saveTree, Tree.data]
    cases d with
    | nil => rfl
    | cons k v r =>
      rw [children_text]
      simp only [reduceCtorEq, if_false]
      exact children_read _ h (by simp)
  · intro t ht
    exact ⟨children d, by simp [saveTree, ht]⟩
  · intro r ht hr hroot
    exact ⟨children d, by simp [saveTree, ht, hr, hroot]⟩

example : (saveTree none (.cons "a" (.dict (.cons "b" (.leaf "1.0") .nil)) (.cons "c" (.dict .nil) .nil))).data =
    some (.cons "a" (.dict (.cons "b" (.leaf "1.0") .nil)) (.cons "c" (.dict .nil) .nil)) :=
  (C358_tree_partial none _ (by simp [Dict.Plain, Val.Plain])).1

/-- A value that prints as `{}` and an empty dictionary give the same tree. -/
theorem C358_empty_counterexample (root : Option String) :
    saveTree root (.cons "a" (.leaf "{}") .nil) = saveTree root (.cons "a" (.dict .nil) .nil) := by
  simp [saveTree, Dict.tag, children, element]

end Verif.IO.External
