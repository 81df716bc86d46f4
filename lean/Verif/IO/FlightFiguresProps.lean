import Verif.IO.FlightFigures
import Mathlib.Tactic.Linarith
import Mathlib.Tactic.NormNum
import Mathlib.Data.List.Induction

/-! Proofs for C451, C452 and C453. -/

namespace Verif.IO.FlightFigures

/-! ### C451 -/

theorem clear_at (p r : List Bool) (b : Bool) : clearFlag (p ++ b :: r) p.length = some (p ++ false :: r) := by
  unfold clearFlag
  rw [if_pos (by simp)]
  simp

theorem flagLoop_good (ws : List WingKind) : ∀ p : List Bool, (∀ w ∈ ws.dropLast, w.symmetric = true) →
    flagLoop ws p.length (p ++ List.replicate (surfacesOf ws).length true) = some (p ++ (surfacesOf ws).map not) := by
  induction ws with
  | nil => intro p _; simp [flagLoop, surfacesOf]
  | cons w ws ih =>
    intro p h
    cases hs : w.symmetric with
    | true =>
      have hsub : ∀ v ∈ ws.dropLast, v.symmetric = true := by
        intro v hv
        cases ws with
        | nil => simp at hv
        | cons a l => exact h v (by simp [List.dropLast] at hv ⊢; exact Or.inr hv)
      have e : surfacesOf (w :: ws) = w.vertical :: w.vertical :: surfacesOf ws := by simp [surfacesOf, hs]
      rw [e]
      have h2 := ih (p ++ [!w.vertical, !w.vertical]) hsub
      simp only [List.length_append, List.length_cons, List.length_nil, List.append_assoc, List.cons_append, List.nil_append] at h2
      cases hv : w.vertical with
      | false =>
        rw [hv] at h2
        simp only [flagLoop, hv, List.length_cons, List.replicate_succ, List.map_cons, Bool.false_eq_true, if_false, Bool.false_and]
        exact h2
      | true =>
        rw [hv] at h2
        simp only [flagLoop, hv, hs, List.length_cons, List.replicate_succ, List.map_cons, if_true, Bool.and_self]
        rw [clear_at]
        have hc := clear_at (p ++ [false]) (List.replicate (surfacesOf ws).length true) true
        simp only [List.length_append, List.length_cons, List.length_nil, List.append_assoc, List.cons_append, List.nil_append] at hc
        simp only [Option.bind_eq_bind, Option.bind_some]
        rw [hc]
        exact h2
    | false =>
      cases ws with
      | cons a l =>
        have := h w (by simp [List.dropLast])
        rw [hs] at this
        exact absurd this (by simp)
      | nil =>
        cases hv : w.vertical with
        | false => simp [flagLoop, surfacesOf, hv, hs]
        | true =>
          have hc := clear_at p [] true
          simp only [flagLoop, surfacesOf, hv, hs, List.flatMap_cons, List.flatMap_nil, Bool.false_eq_true, if_false, if_true,
            List.length_cons, List.length_nil, List.length_append, List.append_nil, List.replicate_succ, List.replicate_zero, Bool.and_false]
          rw [hc]
          rfl

/-- C451, in part: with all wings but the last symmetric, the surfaces drawn are those that are not vertical. -/
theorem C451_drawn_partial (ws : List WingKind) (h : ∀ w ∈ ws.dropLast, w.symmetric = true) :
    plotFlags ws = some ((surfacesOf ws).map not) := by
  have := flagLoop_good ws [] h
  simpa [plotFlags] using this

/-- An airliner: main wing, horizontal tail, fin. -/
example : plotFlags [⟨false, true⟩, ⟨false, true⟩, ⟨true, false⟩] = some [true, true, true, true, false] :=
  C451_drawn_partial _ (by simp [List.dropLast])

/-- C451 fails: with two fins listed before a main wing the second fin is drawn and one half of the wing is not; listed after it there is no
figure at all. -/
theorem C451_fins_counterexample :
    surfacesOf [⟨true, false⟩, ⟨true, false⟩, ⟨false, true⟩] = [true, true, false, false] ∧
      plotFlags [⟨true, false⟩, ⟨true, false⟩, ⟨false, true⟩] = some [false, true, false, true] ∧
      plotFlags [⟨false, true⟩, ⟨true, false⟩, ⟨true, false⟩] = none := ⟨rfl, rfl, rfl⟩

/-! ### C452 -/

variable {α : Type}

theorem history_init (segs : List (List α)) (l : List α) (s ti : ℕ) (h : s < segs.length) :
    frameHistory (segs ++ [l]) s ti = frameHistory segs s ti := by
  unfold frameHistory
  rw [List.flatMap_def, List.flatMap_def]
  congr 1
  apply List.map_congr_left
  intro i hi
  have hi' : i < segs.length := by have := List.mem_range.mp hi; omega
  have e : (segs ++ [l]).getD i [] = segs.getD i [] := by
    simp [List.getD_eq_getElem?_getD, List.getElem?_append_left hi']
  rw [e]

theorem flatMap_getD (segs : List (List α)) : ((List.range segs.length).flatMap fun i => segs.getD i []) = segs.flatten := by
  induction segs using List.reverseRecOn with
  | nil => rfl
  | append_singleton segs l ih =>
    rw [List.length_append, List.length_singleton, List.range_succ, List.flatMap_append, List.flatten_append]
    congr 1
    · rw [← ih, List.flatMap_def, List.flatMap_def]
      congr 1
      apply List.map_congr_left
      intro i hi
      simp [List.getD_eq_getElem?_getD, List.getElem?_append_left (List.mem_range.mp hi)]
    · simp

theorem history_last (segs : List (List α)) (l : List α) (ti : ℕ) :
    frameHistory (segs ++ [l]) segs.length ti = segs.flatten ++ l.take (ti + 1) := by
  unfold frameHistory
  rw [List.range_succ, List.flatMap_append, ← flatMap_getD segs]
  congr 1
  · rw [List.flatMap_def, List.flatMap_def]
    congr 1
    apply List.map_congr_left
    intro i hi
    have hi' := List.mem_range.mp hi
    rw [if_neg (by omega)]
    simp [List.getD_eq_getElem?_getD, List.getElem?_append_left hi']
  · simp

theorem histories (segs : List (List α)) :
    ((List.range segs.length).flatMap fun s => (List.range (segs.getD s []).length).map fun ti => frameHistory segs s ti) =
      (List.range segs.flatten.length).map fun k => segs.flatten.take (k + 1) := by
  induction segs using List.reverseRecOn with
  | nil => rfl
  | append_singleton segs l ih =>
    rw [List.length_append, List.length_singleton, List.range_succ, List.flatMap_append, List.flatten_append, List.length_append,
      List.range_add, List.map_append]
    congr 1
    · have e : ((List.range segs.flatten.length).map fun k => (segs.flatten ++ [l].flatten).take (k + 1)) =
          (List.range segs.flatten.length).map fun k => segs.flatten.take (k + 1) := by
        apply List.map_congr_left
        intro k hk
        have := List.mem_range.mp hk
        rw [List.take_append_of_le_length (by omega)]
      rw [e, ← ih, List.flatMap_def, List.flatMap_def]
      congr 1
      apply List.map_congr_left
      intro s hs
      have hs' := List.mem_range.mp hs
      have e2 : (segs ++ [l]).getD s [] = segs.getD s [] := by
        simp [List.getD_eq_getElem?_getD, List.getElem?_append_left hs']
      rw [e2]
      apply List.map_congr_left
      intro ti _
      exact history_init segs l s ti hs'
    · simp only [List.flatMap_cons, List.flatMap_nil, List.append_nil, List.map_map, List.flatten_cons, List.flatten_nil]
      have e2 : (segs ++ [l]).getD segs.length [] = l := by simp [List.getD_eq_getElem?_getD]
      rw [e2]
      apply List.map_congr_left
      intro ti _
      rw [history_last]
      show _ = (segs.flatten ++ l).take (segs.flatten.length + ti + 1)
      rw [List.take_append, List.take_of_length_le (by omega : segs.flatten.length ≤ segs.flatten.length + ti + 1),
        show segs.flatten.length + ti + 1 - segs.flatten.length = ti + 1 by omega]

/-- C452, in part: there is one frame for each point of the mission, numbered from one without gaps, and each holds exactly the points flown
up to its own, in order. -/
theorem C452_frames_partial (segs : List (List α)) :
    (frames segs).length = segs.flatten.length ∧
      ∀ k < segs.flatten.length, (frames segs)[k]? = some (segs.flatten.take (k + 1), k + 1) := by
  unfold frames
  rw [histories]
  refine ⟨by simp, fun k hk => ?_⟩
  rw [List.getElem?_zipIdx, List.getElem?_map, List.getElem?_range hk]
  simp [Nat.add_comm]

example : (frames [[1, 2], [3]])[2]? = some ([1, 2, 3], 3) := (C452_frames_partial [[1, 2], [3]]).2 2 (by simp)

/-- C452 fails: whatever the flight, points after seven hours, above 36000 ft, or of an aircraft of less than 60 t or more than 80 t lie
outside the panels. -/
theorem C452_limits_counterexample (m : Mark) (h : 420 < m.time ∨ 36000 < m.altitude ∨ m.mass < 60 ∨ 80 < m.mass) : ¬ m.visible := by
  rintro ⟨⟨-, h1⟩, ⟨-, h2⟩, ⟨h3, h4⟩, -⟩
  rcases h with h | h | h | h <;> linarith

/-- A light aircraft of a ton in cruise. -/
example : ¬ (Mark.mk 30 8000 1 0.5 16).visible := C452_limits_counterexample _ (by norm_num)

/-! ### C453 -/

theorem mapM_all {β γ : Type} (f : β → Option γ) (g : β → γ) (l : List β) (h : ∀ b ∈ l, f b = some (g b)) : l.mapM f = some (l.map g) := by
  induction l with
  | nil => rfl
  | cons b l ih =>
    rw [List.mapM_cons, h b (by simp), ih fun c hc => h c (by simp [hc])]
    rfl

theorem mapM_fails {β γ : Type} (f : β → Option γ) (l : List β) (b : β) (hb : b ∈ l) (h : f b = none) : l.mapM f = none := by
  induction l with
  | nil => simp at hb
  | cons a l ih =>
    rw [List.mapM_cons]
    rcases List.mem_cons.mp hb with rfl | hb
    · rw [h]; rfl
    · rw [ih hb]; cases f a <;> rfl

theorem slices {β : Type} (nsw : List ℕ) : ∀ xs : List β, xs.length = nsw.sum →
    (List.range nsw.length).flatMap (fun i => (xs.take (stationStart nsw (i + 1))).drop (stationStart nsw i)) = xs := by
  induction nsw using List.reverseRecOn with
  | nil => intro xs h; simp at h; simp [h]
  | append_singleton nsw n ih =>
    intro xs h
    rw [List.length_append, List.length_singleton, List.range_succ, List.flatMap_append]
    have hsum : xs.length = nsw.sum + n := by simpa using h
    have e : (List.range nsw.length).flatMap (fun i => (xs.take (stationStart (nsw ++ [n]) (i + 1))).drop (stationStart (nsw ++ [n]) i)) =
        xs.take nsw.sum := by
      have := ih (xs.take nsw.sum) (by simp; omega)
      rw [← this, List.flatMap_def, List.flatMap_def]
      congr 1
      apply List.map_congr_left
      intro i hi
      have hi' := List.mem_range.mp hi
      have e1 : stationStart (nsw ++ [n]) (i + 1) = stationStart nsw (i + 1) := by
        unfold stationStart; rw [List.take_append_of_le_length (by omega)]
      have e2 : stationStart (nsw ++ [n]) i = stationStart nsw i := by
        unfold stationStart; rw [List.take_append_of_le_length (by omega)]
      have e3 : stationStart nsw (i + 1) ≤ nsw.sum := by
        unfold stationStart
        conv_rhs => rw [← List.take_append_drop (i + 1) nsw]
        rw [List.sum_append]; omega
      rw [e1, e2, List.take_take, min_eq_left e3]
    rw [e]
    have f1 : stationStart (nsw ++ [n]) nsw.length = nsw.sum := by simp [stationStart]
    have f2 : stationStart (nsw ++ [n]) (nsw.length + 1) = nsw.sum + n := by
      unfold stationStart
      rw [List.take_of_length_le (by simp)]
      simp
    simp only [List.flatMap_cons, List.flatMap_nil, List.append_nil, f1, f2]
    rw [List.take_of_length_le (by omega : xs.length ≤ nsw.sum + n), List.take_append_drop]

/-- C453, in part: with up to five surfaces there is one line for each, with as many stations as the surface has, and the lines together hold
every station with its own lift once, in order. -/
theorem C453_lines_partial (nsw : List ℕ) (y cl : List ℝ) (hn : nsw.length ≤ 5) (hy : y.length = nsw.sum) (hc : cl.length = nsw.sum) :
    ∃ ls, liftLines nsw y cl = some ls ∧ ls.length = nsw.length ∧ (ls.map fun p => p.1).flatten = y.zip cl ∧
      ∀ (i n : ℕ), nsw[i]? = some n → ∃ p, ls[i]? = some p ∧ p.1.length = n := by
  have hz : ∀ a b : ℕ, (((y.take b).drop a).zip ((cl.take b).drop a)) = ((y.zip cl).take b).drop a := by
    intro a b
    simp only [List.zip_eq_zipWith, List.take_zipWith, List.drop_zipWith]
  have hl : liftLines nsw y cl = some ((List.range nsw.length).map fun i =>
      (((y.zip cl).take (stationStart nsw (i + 1))).drop (stationStart nsw i), lineStyles.getD i "")) := by
    apply mapM_all
    intro i hi
    have hi' : i < lineStyles.length := by
      have := List.mem_range.mp hi
      have : lineStyles.length = 5 := rfl
      omega
    simp only [liftLine, List.getElem?_eq_getElem hi', Option.map_some, hz, List.getD_eq_getElem?_getD, Option.getD_some]
  have hlen : (y.zip cl).length = nsw.sum := by simp [hy, hc]
  refine ⟨_, hl, by simp, ?_, ?_⟩
  · rw [List.map_map]
    have := slices nsw (y.zip cl) hlen
    rw [List.flatMap_def] at this
    exact this
  · intro i n hi
    have hlt := (List.getElem?_eq_some_iff.mp hi).1
    refine ⟨_, by rw [List.getElem?_map, List.getElem?_range hlt]; rfl, ?_⟩
    have hs : stationStart nsw (i + 1) = stationStart nsw i + n := by
      unfold stationStart
      rw [List.take_add_one, hi]
      simp
    have hle : stationStart nsw (i + 1) ≤ nsw.sum := by
      unfold stationStart
      conv_rhs => rw [← List.take_append_drop (i + 1) nsw]
      rw [List.sum_append]; omega
    simp only [List.length_drop, List.length_take]
    omega

example : ∃ ls, liftLines [2, 1] [1, 2, 3] [0.5, 0.4, 0.1] = some ls ∧ ls.length = 2 := by
  obtain ⟨ls, h, h1, -⟩ := C453_lines_partial [2, 1] [1, 2, 3] [0.5, 0.4, 0.1] (by simp) (by simp) (by simp)
  exact ⟨ls, h, h1⟩

/-- C453 fails: with six surfaces or more, such as three symmetric wings, there is no figure. -/
theorem C453_surfaces_counterexample (nsw : List ℕ) (y cl : List ℝ) (hn : 6 ≤ nsw.length) : liftLines nsw y cl = none := by
  apply mapM_fails _ _ 5 (List.mem_range.mpr (by omega))
  rfl

example : liftLines [4, 4, 2, 2, 3, 3] [] [] = none := C453_surfaces_counterexample _ _ _ (by simp)

end Verif.IO.FlightFigures
