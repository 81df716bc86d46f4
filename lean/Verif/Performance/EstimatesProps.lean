import Verif.Performance.Estimates
import Mathlib.Tactic.Linarith
import Mathlib.Tactic.Ring
import Mathlib.Tactic.FieldSimp
import Mathlib.Tactic.NormNum
import Mathlib.Tactic.Positivity

/-! Lift-to-drag ratio of the second segment (C367), table of a PyCycle engine (C368), centre of gravity with fuel (C369), files of
points (C370). -/

namespace Verif.Performance.Estimates

/-! ### C367 -/

/-- With one main wing whose aspect ratio is set, wherever it is in the list, the ratio is that of the wing: it grows with the
aspect ratio and falls with the lift coefficient, and is positive below a lift coefficient of 1.12 times the root of the aspect
ratio.  Missing: larger lift coefficients (`C367_negative_counterexample`), aspect ratios not set
(`C367_unset_counterexample`). -/
theorem C367_ratio_partial (ratio : Option ℝ) (hr : ∀ r ∈ ratio, 0 < r) (before after : List RWing) (w v : RWing) (hw : w.main = true)
    (hv : v.main = true) (hb : ∀ u ∈ before, u.main = false) (ha : ∀ u ∈ after, u.main = false) (h0 : 0 < w.aspect) (c d : ℝ)
    (hwv : w.aspect < v.aspect) (hcd : c < d) (hc : c / ratio.getD 1.20 ^ 2 ≤ 1.12 * √w.aspect) :
    ∃ x, liftDrag ratio (before ++ w :: after) c = some x ∧ 0 < x ∧
      (∃ y, liftDrag ratio (before ++ v :: after) c = some y ∧ x < y) ∧
      (∃ y, liftDrag ratio (before ++ w :: after) d = some y ∧ y < x) := by
  have key : ∀ u : RWing, u.main = true → aspectOf (before ++ u :: after) = some u.aspect := by
    intro u hu
    have e : (before ++ u :: after).filter (·.main) = [u] := by
      rw [List.filter_append, List.filter_cons_of_pos hu, List.filter_eq_nil_iff.2, List.filter_eq_nil_iff.2]
      · rfl
      · intro q hq; simp [ha q hq]
      · intro q hq; simp [hb q hq]
    simp [aspectOf, e]
  have hr0 : 0 < ratio.getD 1.20 := by
    cases ratio with
    | none => norm_num
    | some r => simpa using hr r rfl
  have hp : ∀ x : ℝ, x ^ (0.5 : ℝ) = √x := by
    intro x
    rw [Real.sqrt_eq_rpow]
    norm_num
  refine ⟨-6.464 * (c / ratio.getD 1.20 ^ 2) + 7.264 * √w.aspect, ?_, ?_,
    ⟨-6.464 * (c / ratio.getD 1.20 ^ 2) + 7.264 * √v.aspect, ?_, ?_⟩, ⟨-6.464 * (d / ratio.getD 1.20 ^ 2) + 7.264 * √w.aspect, ?_, ?_⟩⟩
  · simp only [liftDrag, key w hw, Option.map_some, hp]
  · have : 0 < √w.aspect := Real.sqrt_pos.2 h0
    linarith
  · simp only [liftDrag, key v hv, Option.map_some, hp]
  · have : √w.aspect < √v.aspect := Real.sqrt_lt_sqrt h0.le hwv
    linarith
  · simp only [liftDrag, key w hw, Option.map_some, hp]
  · have : c / ratio.getD 1.20 ^ 2 < d / ratio.getD 1.20 ^ 2 := div_lt_div_of_pos_right hcd (pow_pos hr0 2)
    linarith

example : ∃ x, liftDrag (some 1) [⟨false, 4, 1, 1⟩, ⟨true, 9, 30, 100⟩] 2 = some x ∧ 0 < x := by
  have h3 : √(9 : ℝ) = 3 := by rw [show (9 : ℝ) = 3 ^ 2 by norm_num, Real.sqrt_sq (by norm_num)]
  obtain ⟨x, h, h0, _⟩ := C367_ratio_partial (some 1) (by simp) [⟨false, 4, 1, 1⟩] [] ⟨true, 9, 30, 100⟩ ⟨true, 10, 30, 90⟩ rfl rfl
    (by simp) (by simp) (by norm_num) 2 3 (by norm_num) (by norm_num) (by simp only [h3, Option.getD_some]; norm_num)
  exact ⟨x, h, h0⟩

/-- Of several main wings the last one counts; without any the first wing. -/
theorem C367_wings (ratio : Option ℝ) (before after : List RWing) (w : RWing) (ha : ∀ u ∈ after, u.main = false) (c : ℝ) :
    (w.main = true → liftDrag ratio (before ++ w :: after) c = liftDrag ratio [w] c)
      ∧ (w.main = false → liftDrag ratio (w :: after) c = liftDrag ratio [{ w with main := true }] c)
      ∧ (liftDrag ratio [w] c).isSome := by
  have e : after.filter (·.main) = [] := List.filter_eq_nil_iff.2 fun q hq => by simp [ha q hq]
  refine ⟨fun h => ?_, fun h => ?_, ?_⟩
  · simp [liftDrag, aspectOf, List.filter_append, List.filter_cons_of_pos, h, e]
  · simp [liftDrag, aspectOf, h, e]
  · cases h : w.main <;> simp [liftDrag, aspectOf, h]

/-- Two main wings and a tail. -/
example : ∀ u ∈ [(⟨false, 4, 1, 1⟩ : RWing)], u.main = false := by simp

/-- A short wing with much lift: the ratio is negative. -/
theorem C367_negative_counterexample : ∃ x, liftDrag (some 1) [⟨true, 1, 10, 100⟩] 2 = some x ∧ x < 0 := by
  refine ⟨-6.464 * (2 / 1 ^ 2) + 7.264 * (1 : ℝ) ^ (0.5 : ℝ), rfl, ?_⟩
  rw [Real.one_rpow]
  norm_num

/-- A wing given by span and area only, with the aspect ratio as it is by default: the ratio is negative for any lift. -/
theorem C367_unset_counterexample (r b S c : ℝ) (hr : 0 < r) (hc : 0 < c) :
    ∃ x, liftDrag (some r) [⟨true, 0, b, S⟩] c = some x ∧ x < 0 := by
  refine ⟨-6.464 * (c / r ^ 2) + 7.264 * (0 : ℝ) ^ (0.5 : ℝ), rfl, ?_⟩
  rw [Real.zero_rpow (by norm_num)]
  have : 0 < c / r ^ 2 := by positivity
  linarith

/-! ### C368 -/

theorem table_perm (run : ℝ → ℝ → ℝ → ℝ × ℝ) (ft lbf lbm : ℝ) (cs : List (ℝ × ℝ)) : ∀ pcs pcs' : List ℝ, pcs.Perm pcs' →
    (table run ft lbf lbm pcs cs).Perm
      (cs.flatMap fun c => pcs'.map fun pc => ⟨c.2 * ft, c.1, pc, (run c.1 c.2 pc).1 * lbf, (run c.1 c.2 pc).2 * lbm⟩) := by
  induction cs with
  | nil => intro pcs pcs' _; simp [table]
  | cons c cs ih =>
    intro pcs pcs' h
    obtain ⟨m, a⟩ := c
    simp only [table, List.flatMap_cons]
    exact (h.map _).append (ih _ _ ((List.reverse_perm pcs).trans h))

/-- The table has, up to order, one row for each condition and each throttle, with what the model gives there in SI units. -/
theorem C368_rows (run : ℝ → ℝ → ℝ → ℝ × ℝ) (ft lbf lbm : ℝ) (pcs : List ℝ) (cs : List (ℝ × ℝ)) :
    (table run ft lbf lbm pcs cs).Perm
      (cs.flatMap fun c => pcs.map fun pc => ⟨c.2 * ft, c.1, pc, (run c.1 c.2 pc).1 * lbf, (run c.1 c.2 pc).2 * lbm⟩) :=
  table_perm run ft lbf lbm cs pcs pcs (List.Perm.refl _)

theorem table_head (run : ℝ → ℝ → ℝ → ℝ × ℝ) (ft lbf lbm : ℝ) (pcs : List ℝ) (c : ℝ × ℝ) (cs : List (ℝ × ℝ)) (hp : pcs ≠ []) :
    (table run ft lbf lbm pcs (c :: cs)).head?.map (·.pc) = pcs.head? := by
  obtain ⟨m, a⟩ := c
  cases pcs with
  | nil => exact absurd rfl hp
  | cons p ps => simp [table]

/-- From one row to the next either the condition or the throttle stays. -/
theorem C368_neighbours (run : ℝ → ℝ → ℝ → ℝ × ℝ) (ft lbf lbm : ℝ) (cs : List (ℝ × ℝ)) : ∀ pcs : List ℝ,
    (table run ft lbf lbm pcs cs).IsChain fun a b => (a.alt = b.alt ∧ a.mach = b.mach) ∨ a.pc = b.pc := by
  induction cs with
  | nil => intro pcs; simp [table]
  | cons c cs ih =>
    intro pcs
    obtain ⟨m, a⟩ := c
    simp only [table]
    rw [List.isChain_append]
    refine ⟨?_, ih _, ?_⟩
    · rw [List.isChain_map]
      exact (List.pairwise_of_forall (fun _ _ => Or.inl ⟨rfl, rfl⟩)).isChain
    · intro x hx y hy
      right
      rw [List.getLast?_map] at hx
      obtain ⟨p, hp, rfl⟩ := Option.mem_map.1 hx
      cases cs with
      | nil => simp [table] at hy
      | cons c' cs =>
        have hne : pcs.reverse ≠ [] := by
          intro h
          rw [List.reverse_eq_nil_iff] at h
          simp [h] at hp
        have h := table_head run ft lbf lbm pcs.reverse c' cs hne
        rw [Option.mem_def.1 hy, List.head?_reverse, Option.mem_def.1 hp] at h
        simpa using h.symm

/-- With altitudes not below zero and not all zero, the scaled altitudes lie between zero and one and are in proportion to the
altitudes.  Missing: tables at sea level only (`C368_level_counterexample`). -/
theorem C368_scale_partial (rows : List Row) (h0 : ∀ r ∈ rows, 0 ≤ r.alt) (h1 : ∃ r ∈ rows, 0 < r.alt) :
    ∃ s xs, 0 < s ∧ scaledAltitudes rows = some xs ∧ xs = rows.map (fun r => r.alt / s) ∧ (∀ x ∈ xs, 0 ≤ x ∧ x ≤ 1) ∧ 1 ∈ xs := by
  unfold scaledAltitudes
  obtain ⟨q, hq, hq0⟩ := h1
  cases hm : (rows.map (·.alt)).max? with
  | none =>
    rw [List.max?_eq_none_iff, List.map_eq_nil_iff] at hm
    simp [hm] at hq
  | some top =>
    rw [List.max?_eq_some_iff] at hm
    have ht : 0 < top := lt_of_lt_of_le hq0 (hm.2 _ (List.mem_map_of_mem hq))
    refine ⟨top, _, ht, if_neg ht.ne', rfl, ?_, ?_⟩
    · intro x hx
      obtain ⟨r, hr, rfl⟩ := List.mem_map.1 hx
      refine ⟨div_nonneg (h0 r hr) ht.le, ?_⟩
      rw [div_le_one ht]
      exact hm.2 _ (List.mem_map_of_mem hr)
    · obtain ⟨r, hr, e⟩ := List.mem_map.1 hm.1
      exact List.mem_map.2 ⟨r, hr, by rw [e]; exact div_self ht.ne'⟩

example : ∃ (s : ℝ) (xs : List ℝ), 0 < s ∧ scaledAltitudes (table (fun m h pc => (m * pc, h)) 0.3048 4.4 2 [1, 0.7] [(0.8, 35000), (0.2, 0)]) = some xs ∧
    xs.length = 4 ∧ 1 ∈ xs := by
  obtain ⟨s, xs, hs, h, e, _, h1⟩ := C368_scale_partial (table (fun m h pc => (m * pc, h)) 0.3048 4.4 2 [1, 0.7] [(0.8, 35000), (0.2, 0)])
    (by simp only [table, List.map_cons, List.map_nil, List.reverse_cons, List.reverse_nil, List.nil_append, List.cons_append, List.mem_cons,
          List.not_mem_nil, or_false]
        rintro r (rfl | rfl | rfl | rfl) <;> norm_num)
    ⟨⟨35000 * 0.3048, 0.8, 1, 0.8 * 1 * 4.4, 35000 * 2⟩, by simp [table], by norm_num⟩
  exact ⟨s, xs, hs, h, by rw [e]; simp [table], h1⟩

/-- A table at sea level only cannot be scaled. -/
theorem C368_level_counterexample (run : ℝ → ℝ → ℝ → ℝ × ℝ) (ft lbf lbm m pc : ℝ) :
    scaledAltitudes (table run ft lbf lbm [pc] [(m, 0)]) = none := by
  simp [table, scaledAltitudes]

/-! ### C369 -/

/-- The moments of vehicle without fuel and of fuel about the centre of gravity cancel; with masses that are not negative the
centre is between the two, at that of the vehicle without fuel, and moves towards the fuel with its mass. -/
theorem C369_cg (zcg zw fcg fo fw gw : ℝ) (hz : 0 < zw) (hf : 0 ≤ fw) (hg : fw < gw) :
    ∃ x y, missionCg zcg zw fcg fo fw = some x ∧ missionCg zcg zw fcg fo gw = some y ∧
      zw * (zcg - x) + fw * (fcg + fo - x) = 0 ∧ |x - zcg| ≤ |fcg + fo - zcg| ∧ missionCg zcg zw fcg fo 0 = some zcg ∧
      (fcg + fo ≠ zcg → |fcg + fo - y| < |fcg + fo - x|) := by
  have h1 : 0 < fw + zw := by linarith
  have h2 : 0 < gw + zw := by linarith
  have e : ∀ u, 0 ≤ u → fcg + fo - (zcg * zw + (fcg + fo) * u) / (u + zw) = (fcg + fo - zcg) * (zw / (u + zw)) := by
    intro u hu
    have : 0 < u + zw := by linarith
    field_simp
    ring
  refine ⟨_, _, if_neg h1.ne', if_neg h2.ne', ?_, ?_, ?_, ?_⟩
  · field_simp
    ring
  · have : (zcg * zw + (fcg + fo) * fw) / (fw + zw) - zcg = (fcg + fo - zcg) * (fw / (fw + zw)) := by
      field_simp
      ring
    rw [this, abs_mul]
    apply mul_le_of_le_one_right (abs_nonneg _)
    rw [abs_of_nonneg (by positivity), div_le_one h1]
    linarith
  · unfold missionCg
    rw [if_neg (by linarith)]
    simp [hz.ne']
  · intro hne
    rw [e fw hf, e gw (by linarith), abs_mul, abs_mul]
    apply mul_lt_mul_of_pos_left _ (abs_pos.2 (sub_ne_zero.2 hne))
    rw [abs_of_pos (by positivity), abs_of_pos (by positivity)]
    exact div_lt_div_of_pos_left hz h1 (by linarith)

example : missionCg 10 3 4 8 1 = some 10.5 := by norm_num [missionCg]

/-! ### C370 -/

theorem range_getD {α : Type} (l : List α) (d : α) : (List.range l.length).map (fun i => l.getD i d) = l := by
  apply List.ext_getElem
  · simp
  · intro i h1 h2
    simp [List.getD_eq_getElem?_getD, List.getElem?_eq_getElem h2]

/-- Two or more points, or one row of them: the file has each point once in order, their numbers, and the velocities given.
Missing: a single point (`C370_single_counterexample`) and radial velocities (`C370_radial_counterexample`). -/
theorem C370_points_partial (ps : List (ℝ × ℝ × ℝ)) (vt va : List ℝ) (ht : vt.length = ps.length) (ha : va.length = ps.length)
    (stem ext : String) (step : ℕ) :
    ∃ f, savePoints (.rows [ps.map (·.1)]) (.rows [ps.map (·.2.1)]) (.rows [ps.map (·.2.2)]) (some (vt, va)) stem ext step = some f ∧
      (ps.length ≠ 1 →
        savePoints (.flat (ps.map (·.1))) (.flat (ps.map (·.2.1))) (.flat (ps.map (·.2.2))) (some (vt, va)) stem ext step = some f) ∧
      f.points = ps ∧ f.columns.lookup "i" = some ((List.range ps.length).map fun i => (i : ℝ)) ∧ f.columns.lookup "vt" = some vt ∧
      f.columns.lookup "va" = some va ∧ f.name = stem ++ "." ++ toString step ++ ext := by
  have hflat : ∀ l : List ℝ, l.length ≠ 1 → (Coords.flat l).read = some l := by
    intro l hl
    match l with
    | [] => rfl
    | [_] => simp at hl
    | _ :: _ :: _ => rfl
  refine ⟨_, by
    simp only [savePoints, Coords.read, Option.bind_eq_bind, Option.bind_some, List.length_map, lt_irrefl, or_self, if_false, ht, ha]
    rfl, ?_, ?_, ?_, ?_, ?_, rfl⟩
  · intro h
    simp only [savePoints, hflat _ (show (ps.map (·.1)).length ≠ 1 by simpa using h), hflat _ (show (ps.map (·.2.1)).length ≠ 1 by simpa using h),
      hflat _ (show (ps.map (·.2.2)).length ≠ 1 by simpa using h), Option.bind_eq_bind, Option.bind_some, List.length_map, lt_irrefl, or_self,
      if_false, ht, ha]
  · show (List.range ps.length).map _ = ps
    conv_rhs => rw [← range_getD ps (0, 0, 0)]
    apply List.map_congr_left
    intro i hi
    have hi' := List.mem_range.1 hi
    simp [List.getD_eq_getElem?_getD, hi']
  · simp
  · have : (List.range ps.length).map (fun i => vt.getD i 0) = vt := by rw [← ht]; exact range_getD vt 0
    simp only [List.cons_append, List.nil_append, List.lookup, this]
    rfl
  · have : (List.range ps.length).map (fun i => va.getD i 0) = va := by rw [← ha]; exact range_getD va 0
    simp only [List.cons_append, List.nil_append, List.lookup, this]
    rfl

example : ∃ f, savePoints (.flat [1, 2]) (.flat [3, 4]) (.flat [5, 6]) (some ([7, 8], [9, 10])) "eval" ".vtk" 0 = some f ∧
    f.points = [(1, 3, 5), (2, 4, 6)] ∧ f.name = "eval.0.vtk" := by
  obtain ⟨f, _, h, hp, _, _, _, hn⟩ := C370_points_partial [(1, 3, 5), (2, 4, 6)] [7, 8] [9, 10] rfl rfl "eval" ".vtk" 0
  exact ⟨f, h (by simp), hp, by rw [hn]; decide⟩

/-- A single point in flat arrays raises. -/
theorem C370_single_counterexample (x y z : ℝ) (vel : Option (List ℝ × List ℝ)) (stem ext : String) (step : ℕ) :
    savePoints (.flat [x]) (.flat [y]) (.flat [z]) vel stem ext step = none := rfl

/-- The radial velocities in the file are zero, whatever the flow. -/
theorem C370_radial_counterexample (ps : List (ℝ × ℝ × ℝ)) (vt va : List ℝ) (ht : vt.length = ps.length) (ha : va.length = ps.length)
    (stem ext : String) (step : ℕ) :
    (savePoints (.rows [ps.map (·.1)]) (.rows [ps.map (·.2.1)]) (.rows [ps.map (·.2.2)]) (some (vt, va)) stem ext step).bind
      (fun f => f.columns.lookup "vr") = some (List.replicate ps.length 0) := by
  simp only [savePoints, Coords.read, Option.bind_eq_bind, Option.bind_some, List.length_map, lt_irrefl, or_self, if_false, ht, ha,
    List.cons_append, List.nil_append, List.lookup, mul_zero]
  have : ∀ n : ℕ, (List.range n).map (fun i => (vt.map fun _ => (0 : ℝ)).getD i 0) = List.replicate n 0 := by
    intro n
    rw [List.eq_replicate_iff]
    refine ⟨by simp, ?_⟩
    intro b hb
    obtain ⟨i, _, rfl⟩ := List.mem_map.1 hb
    rw [List.getD_eq_getElem?_getD, List.getElem?_map]
    cases vt[i]? <;> rfl
  rw [this]
  rfl

end Verif.Performance.Estimates
