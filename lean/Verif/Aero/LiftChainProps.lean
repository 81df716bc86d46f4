import Verif.Aero.LiftChain
import Mathlib.Tactic.Ring
import Mathlib.Tactic.FieldSimp
import Mathlib.Tactic.Linarith
import Mathlib.Tactic.NormNum

/-! C462: lift of the aerodynamic analyses. -/

namespace Verif.Aero.LiftChain

theorem foldl_put_keep (f : Wing → String) (g : Wing → ℝ) (ws : List Wing) (d : Dict) (k : String) (h : ∀ w ∈ ws, f w ≠ k) :
    ws.foldl (fun d w => put d (f w) (g w)) d k = d k := by
  induction ws generalizing d with
  | nil => rfl
  | cons w t ih =>
    rw [List.foldl_cons, ih _ (fun x hx => h x (by simp [hx]))]
    simp [put, Ne.symm (h w (by simp))]

theorem foldl_put_mem (f : Wing → String) (g : Wing → ℝ) (ws : List Wing) (d : Dict) (hn : (ws.map f).Nodup) (w : Wing) (hw : w ∈ ws) :
    ws.foldl (fun d w => put d (f w) (g w)) d (f w) = some (g w) := by
  induction ws generalizing d with
  | nil => simp at hw
  | cons a t ih =>
    rw [List.map_cons, List.nodup_cons] at hn
    rw [List.foldl_cons]
    rcases List.mem_cons.mp hw with rfl | hw
    · rw [foldl_put_keep f g t _ (f w) (fun x hx he => hn.1 (List.mem_map.mpr ⟨x, hx, he⟩))]
      simp [put]
    · exact ih _ hn.2 hw

theorem byTag_mem (ws : List Wing) (hn : (ws.map Wing.tag).Nodup) (w : Wing) (hw : w ∈ ws) : byTag ws w.tag = some w.cl :=
  foldl_put_mem Wing.tag Wing.cl ws _ hn w hw

theorem byTag_none (ws : List Wing) (k : String) (h : ∀ w ∈ ws, w.tag ≠ k) : byTag ws k = none :=
  foldl_put_keep Wing.tag Wing.cl ws _ k h

theorem trained_some (src : Dict) (ws : List Wing) (d : Dict) (h : ∀ w ∈ ws, src (key w.tag) ≠ none) :
    ∃ t, ws.foldlM (fun d w => (src (key w.tag)).map (put d (key w.tag))) d = some t ∧
      (∀ w ∈ ws, t (key w.tag) = src (key w.tag)) ∧ ∀ k, (∀ w ∈ ws, key w.tag ≠ k) → t k = d k := by
  induction ws generalizing d with
  | nil => exact ⟨d, rfl, by simp, by simp⟩
  | cons a t ih =>
    cases ha : src (key a.tag) with
    | none => exact absurd ha (h a (by simp))
    | some v =>
      obtain ⟨r, h1, h2, h3⟩ := ih (put d (key a.tag) v) (fun w hw => h w (by simp [hw]))
      refine ⟨r, by rw [List.foldlM_cons, ha]; exact h1, fun w hw => ?_, fun k hk => ?_⟩
      · by_cases hx : ∃ x ∈ t, key x.tag = key w.tag
        · obtain ⟨x, hx, he⟩ := hx
          rw [← he]; exact h2 x hx
        · rcases List.mem_cons.mp hw with rfl | hw
          · rw [h3 _ (fun x hxt he => hx ⟨x, hxt, he⟩), ha]; simp [put]
          · exact h2 w hw
      · rw [h3 k (fun w hw => hk w (by simp [hw]))]
        simp [put, Ne.symm (hk a (by simp))]

theorem trained_none (src : Dict) (ws : List Wing) (d : Dict) (w : Wing) (hw : w ∈ ws) (h : src (key w.tag) = none) :
    ws.foldlM (fun d w => (src (key w.tag)).map (put d (key w.tag))) d = none := by
  induction ws generalizing d with
  | nil => simp at hw
  | cons a t ih =>
    rw [List.foldlM_cons]
    cases ha : src (key a.tag) with
    | none => rfl
    | some v =>
      rcases List.mem_cons.mp hw with rfl | hw
      · rw [h] at ha; simp at ha
      · exact ih _ hw

theorem copy_keep (t : Dict) (ws : List Wing) (d : Dict) (k : String) (hd : d k = t k) :
    ws.foldl (fun (d : Dict) w => fun x => if x = key w.tag then t x else d x) d k = t k := by
  induction ws generalizing d with
  | nil => exact hd
  | cons a r ih =>
    rw [List.foldl_cons]
    apply ih
    by_cases h : k = key a.tag <;> simp [h, hd]

theorem copy_mem (t : Dict) (ws : List Wing) (d : Dict) (w : Wing) (hw : w ∈ ws) :
    ws.foldl (fun (d : Dict) w => fun x => if x = key w.tag then t x else d x) d (key w.tag) = t (key w.tag) := by
  induction ws generalizing d with
  | nil => simp at hw
  | cons a r ih =>
    rw [List.foldl_cons]
    rcases List.mem_cons.mp hw with rfl | hw
    · exact copy_keep t r _ _ (by simp)
    · exact ih _ hw

theorem mapM_entries (d : Dict) (g : Wing → ℝ) (ws : List Wing) (h : ∀ w ∈ ws, d w.tag = some (g w)) :
    (ws.mapM fun w => d w.tag) = some (ws.map g) := by
  induction ws with
  | nil => rfl
  | cons a t ih =>
    rw [List.mapM_cons, h a (by simp), ih (fun w hw => h w (by simp [hw]))]
    rfl

theorem mapM_missing (d : Dict) (ws : List Wing) (w : Wing) (hw : w ∈ ws) (h : d w.tag = none) : (ws.mapM fun w => d w.tag) = none := by
  induction ws with
  | nil => simp at hw
  | cons a t ih =>
    rw [List.mapM_cons]
    rcases List.mem_cons.mp hw with rfl | hw
    · rw [h]; rfl
    · rw [ih hw]; cases d a.tag <;> rfl

/-- C462, the value: the lift left behind and returned is the lift of the wings times the correction, and what was there before the
evaluation does not matter. -/
theorem C462_lift (surrogate : Bool) (correction lift : ℝ) (ws : List Wing) (s s' : Lift) (r : Lift × ℝ)
    (h : vortexChain surrogate correction lift ws s = some r) :
    r.1.coef = correction * lift ∧ r.2 = correction * lift ∧ vortexChain surrogate correction lift ws s' = some r := by
  refine ⟨?_, ?_, ?_⟩
  · cases surrogate <;> simp [vortexChain, vortexSurrogate, vortexDirect, fuselageCorrection, aircraftTotal] at h
    · subst h; simp; ring
    · obtain ⟨t, _, rfl⟩ := h; simp; ring
  · cases surrogate <;> simp [vortexChain, vortexSurrogate, vortexDirect, fuselageCorrection, aircraftTotal] at h
    · subst h; simp; ring
    · obtain ⟨t, _, rfl⟩ := h; simp; ring
  · rw [← h]; cases surrogate <;> rfl

/-- C462, the entries, in part: with tags that are their own keys (small letters, no marks but underscores), all different, the steps of drag
find the lift of every wing. Missing: other tags, which fail with a surrogate (`C462_tags_counterexample`). -/
theorem C462_entries_partial (surrogate : Bool) (correction lift : ℝ) (ws : List Wing) (s : Lift) (hn : (ws.map Wing.tag).Nodup)
    (hk : ∀ w ∈ ws, key w.tag = w.tag) :
    ∃ r, vortexChain surrogate correction lift ws s = some r ∧ inducedReads r.1 ws = some (ws.map Wing.cl) ∧
      compressibilityReads r.1 ws = some (ws.map Wing.cl) := by
  cases surrogate with
  | false =>
    exact ⟨_, rfl, mapM_entries _ Wing.cl ws (byTag_mem ws hn), mapM_entries _ Wing.cl ws (byTag_mem ws hn)⟩
  | true =>
    obtain ⟨t, h1, h2, _⟩ := trained_some (byTag ws) ws (fun _ => none)
      (fun w hw => by rw [hk w hw, byTag_mem ws hn w hw]; simp)
    have ht : trained ws = some t := h1
    have hd : ∀ w ∈ ws, (ws.foldl (fun (d : Dict) w => fun x => if x = key w.tag then t x else d x) fun _ => none) w.tag = some w.cl := by
      intro w hw
      have := copy_mem t ws (fun _ => none) w hw
      rw [h2 w hw, hk w hw, byTag_mem ws hn w hw] at this
      exact this
    refine ⟨_, by simp only [vortexChain, vortexSurrogate, ht, if_true, Option.map_some]; rfl, ?_, ?_⟩
    · exact mapM_entries _ Wing.cl ws hd
    · exact mapM_entries _ Wing.cl ws hd

/-- Without a surrogate any different tags do. -/
theorem C462_entries_direct (correction lift : ℝ) (ws : List Wing) (s : Lift) (hn : (ws.map Wing.tag).Nodup) :
    ∃ r, vortexChain false correction lift ws s = some r ∧ inducedReads r.1 ws = some (ws.map Wing.cl) ∧
      compressibilityReads r.1 ws = some (ws.map Wing.cl) :=
  ⟨_, rfl, mapM_entries _ Wing.cl ws (byTag_mem ws hn), mapM_entries _ Wing.cl ws (byTag_mem ws hn)⟩

/-- C462 fails for tags with capitals or marks when a surrogate is used: a wing whose key is the tag of no wing ends the training. -/
theorem C462_tags_counterexample (correction lift : ℝ) (ws : List Wing) (s : Lift) (w : Wing) (hw : w ∈ ws)
    (h : ∀ x ∈ ws, x.tag ≠ key w.tag) : vortexChain true correction lift ws s = none := by
  have ht : trained ws = none := trained_none (byTag ws) ws _ w hw (byTag_none ws _ h)
  simp [vortexChain, vortexSurrogate, ht]

/-- In particular: a vehicle with one wing whose tag has a capital letter, a blank, a hyphen or a point anywhere. -/
theorem C462_capital_counterexample (correction lift : ℝ) (w : Wing) (s : Lift) (c : Char) (hc : c ∈ w.tag.toList)
    (h : c ∈ "ABCDEFGHIJKLMNOPQRSTUVWXYZ -.".toList) : vortexChain true correction lift [w] s = none := by
  have hne : ∀ c ∈ "ABCDEFGHIJKLMNOPQRSTUVWXYZ -.".toList, trChar c ≠ c := by decide
  refine C462_tags_counterexample correction lift [w] s w (by simp) ?_
  simp only [List.mem_singleton, forall_eq]
  intro he
  have hl : w.tag.toList = w.tag.toList.map trChar := by
    conv_lhs => rw [he]
    simp [key]
  have hfix : ∀ l : List Char, l = l.map trChar → ∀ c ∈ l, trChar c = c := by
    intro l
    induction l with
    | nil => simp
    | cons a t ih =>
      intro hm x hx
      rw [List.map_cons, List.cons.injEq] at hm
      rcases List.mem_cons.mp hx with rfl | hx
      · exact hm.1.symm
      · exact ih hm.2 x hx
  exact hne c h (hfix _ hl c hc)

/-- And tags of small letters, digits and underscores are their own keys. -/
theorem C462_plain (t : String) (h : ∀ c ∈ t.toList, c ∈ "abcdefghijklmnopqrstuvwxyz0123456789_".toList) : key t = t := by
  have hf : ∀ c ∈ "abcdefghijklmnopqrstuvwxyz0123456789_".toList, trChar c = c := by decide
  have hm : t.toList.map trChar = t.toList := by
    conv_rhs => rw [← List.map_id t.toList]
    exact List.map_congr_left fun c hc => hf c (h c hc)
  simp [key, hm]

example (s : Lift) : vortexChain true 1 (1 / 2) [⟨"Main", 1 / 2, 100⟩] s = none :=
  C462_capital_counterexample _ _ _ s 'M' (by decide) (by decide)

example (s : Lift) : vortexChain true 1 (1 / 2) [⟨"Main Wing", 1 / 2, 100⟩] s = none :=
  C462_tags_counterexample _ _ _ s ⟨"Main Wing", 1 / 2, 100⟩ (by simp) (by
    simp only [List.mem_singleton, forall_eq]
    decide)

example (s : Lift) : ∃ r, vortexChain true (114 / 100) (1 / 2) [⟨"main_wing", 1 / 2, 100⟩, ⟨"tail", 1 / 10, 20⟩] s = some r ∧
    inducedReads r.1 [⟨"main_wing", 1 / 2, 100⟩, ⟨"tail", 1 / 10, 20⟩] = some [1 / 2, 1 / 10] ∧
    compressibilityReads r.1 [⟨"main_wing", 1 / 2, 100⟩, ⟨"tail", 1 / 10, 20⟩] = some [1 / 2, 1 / 10] :=
  C462_entries_partial true _ _ _ s (by simp) (by
    intro w hw
    simp only [List.mem_cons, List.not_mem_nil, or_false] at hw
    rcases hw with rfl | rfl <;> decide)

/-- C462 fails for the total of the breakdown: it is the lift without correction, so that it is the lift of the vehicle only without lift
or with a correction of one. -/
theorem C462_total_counterexample (surrogate : Bool) (correction lift : ℝ) (ws : List Wing) (s : Lift) (r : Lift × ℝ)
    (h : vortexChain surrogate correction lift ws s = some r) :
    r.1.total = some lift ∧ (r.1.total = some r.1.coef ↔ correction = 1 ∨ lift = 0) := by
  have hc := (C462_lift surrogate correction lift ws s s r h).1
  have ht : r.1.total = some lift := by
    cases surrogate <;> simp [vortexChain, vortexSurrogate, vortexDirect, fuselageCorrection, aircraftTotal] at h
    · subst h; rfl
    · obtain ⟨t, _, rfl⟩ := h; rfl
  refine ⟨ht, ?_⟩
  rw [ht, hc, Option.some.injEq]
  constructor
  · intro he
    by_cases hl : lift = 0
    · exact Or.inr hl
    · exact Or.inl (mul_right_cancel₀ hl (by rw [one_mul]; exact he.symm))
  · rintro (rfl | rfl) <;> simp

/-- C462 with AVL: the lift is that of AVL, every wing has its share by area, and the shares make up the lift when the areas make up the
reference area. -/
theorem C462_avl (lift sref : ℝ) (ws : List Wing) (s : Lift) (hs : sref ≠ 0) (hn : (ws.map Wing.tag).Nodup) :
    (avlChain lift sref ws s).1.coef = lift ∧ (avlChain lift sref ws s).2 = lift ∧
      ∃ cls, compressibilityReads (avlChain lift sref ws s).1 ws = some cls ∧ cls.length = ws.length ∧
        (∀ (i : ℕ) (w : Wing) (c : ℝ), ws[i]? = some w → cls[i]? = some c → c * sref = lift * w.area) ∧
        ((ws.map Wing.area).sum = sref → cls.sum = lift) := by
  refine ⟨rfl, rfl, ws.map (fun w => lift * (w.area / sref)), ?_, by simp, ?_, ?_⟩
  · exact mapM_entries _ _ ws (fun w hw => foldl_put_mem Wing.tag (fun w => lift * (w.area / sref)) ws _ hn w hw)
  · intro i w c hw hc
    rw [List.getElem?_map, hw] at hc
    simp only [Option.map_some, Option.some.injEq] at hc
    rw [← hc]
    field_simp
  · intro ha
    have : ∀ l : List Wing, (l.map fun w => lift * (w.area / sref)).sum = lift * ((l.map Wing.area).sum / sref) := by
      intro l
      induction l with
      | nil => simp
      | cons a t ih => rw [List.map_cons, List.sum_cons, ih, List.map_cons, List.sum_cons]; ring
    rw [this, ha, div_self hs, mul_one]

example (s : Lift) : (avlChain (1 / 2) 120 [⟨"Main Wing", 1 / 2, 100⟩, ⟨"tail", 1 / 10, 20⟩] s).2 = 1 / 2 :=
  (C462_avl (1 / 2) 120 _ s (by norm_num) (by simp)).2.1

/-- C462 with SU2, in part: the lift and the total are those of SU2, and both steps of drag find them for the main wing. Missing: the other
wings (`C462_su2_counterexample`). -/
theorem C462_su2_partial (lift : ℝ) (s : Lift) (w : Wing) (hw : w.tag = "main_wing") :
    (su2Chain lift s).1.coef = lift ∧ (su2Chain lift s).2 = lift ∧ (su2Chain lift s).1.total = some lift ∧
      inducedReads (su2Chain lift s).1 [w] = some [lift] ∧ compressibilityReads (su2Chain lift s).1 [w] = some [lift] := by
  refine ⟨rfl, rfl, rfl, ?_, ?_⟩
  · exact mapM_entries _ (fun _ => lift) [w] (by simp [hw, su2Chain, put])
  · exact mapM_entries _ (fun _ => lift) [w] (by simp [hw, su2Chain, put])

example (s : Lift) : inducedReads (su2Chain (1 / 2) s).1 [⟨"main_wing", 0, 100⟩] = some [1 / 2] :=
  (C462_su2_partial (1 / 2) s ⟨"main_wing", 0, 100⟩ rfl).2.2.2.1

/-- C462 fails with SU2 for vehicles with any wing not called `main_wing`. -/
theorem C462_su2_counterexample (lift : ℝ) (s : Lift) (ws : List Wing) (w : Wing) (hw : w ∈ ws) (ht : w.tag ≠ "main_wing") :
    inducedReads (su2Chain lift s).1 ws = none ∧ compressibilityReads (su2Chain lift s).1 ws = none :=
  ⟨mapM_missing _ ws w hw (by simp [su2Chain, put, ht]), mapM_missing _ ws w hw (by simp [su2Chain, put, ht])⟩

example (s : Lift) : inducedReads (su2Chain (1 / 2) s).1 [⟨"main_wing", 1 / 2, 100⟩, ⟨"tail", 1 / 10, 20⟩] = none :=
  (C462_su2_counterexample (1 / 2) s _ ⟨"tail", 1 / 10, 20⟩ (by simp) (by simp)).1

/-- C462 fails with supersonic SU2: lift is stored only where the branch was there before, and the conditions start without it. -/
theorem C462_su2_super_counterexample (branch : Option (Option ℝ)) (lift : ℝ) :
    (su2SuperStore branch lift = some (some lift) ↔ branch ≠ none) ∧ su2SuperStore none lift = none := by
  cases branch <;> simp [su2SuperStore]

end Verif.Aero.LiftChain
