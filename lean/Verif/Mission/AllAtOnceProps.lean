import Verif.Mission.AllAtOnce
import Verif.Mission.PointsProps

/-! Proofs for C450. -/

namespace Verif.Mission

theorem expandFrom_length (l : List SubSeg) : ∀ (last : Option ℕ) (i : ℕ), (expandFrom last i l).length = l.length := by
  induction l with
  | nil => intro _ _; rfl
  | cons s l ih => intro last i; simp [expandFrom, ih]

theorem expandFrom_get (l : List SubSeg) : ∀ (last : Option ℕ) (i k : ℕ) (s : SubSeg), l[k]? = some s →
    ∃ t, (expandFrom last i l)[k]? = some t ∧ t.points = s.points ∧ t.expands = false ∧
      t.state = (if s.expands then stateExpand s.points false s.state else s.state) ∧
      t.initials = (if k = 0 then (match last with | some j => some j | none => s.initials) else some (i + k - 1)) := by
  induction l with
  | nil => intro _ _ k s h; simp at h
  | cons a l ih =>
    intro last i k s h
    cases k with
    | zero =>
      simp only [List.getElem?_cons_zero, Option.some.injEq] at h
      subst h
      refine ⟨_, rfl, ?_⟩
      cases last <;> by_cases he : a.expands <;> simp [SubSeg.expandStep, he]
    | succ k =>
      rw [List.getElem?_cons_succ] at h
      obtain ⟨t, ht, h1, h2, h3, h4⟩ := ih (some i) (i + 1) k s h
      refine ⟨t, by simp only [expandFrom, List.getElem?_cons_succ]; exact ht, h1, h2, h3, ?_⟩
      rw [h4]
      by_cases hk : k = 0
      · subst hk; simp
      · simp only [hk, if_false, Nat.succ_ne_zero]
        congr 1; omega

/-- C450: no segment is added or lost, every segment after the first starts from the state of the segment before it and the first keeps its
own start; each segment is expanded to the number of points set for it. -/
theorem C450_expand (l : List SubSeg) (hl : ∀ s ∈ l, s.expands = true) :
    (expandSubSegments l).length = l.length ∧ ∀ (k : ℕ) (s : SubSeg), l[k]? = some s → ∃ t, (expandSubSegments l)[k]? = some t ∧
      t.state = stateExpand s.points false s.state ∧ t.points = s.points ∧
      t.initials = (match k with | 0 => s.initials | j + 1 => some j) := by
  refine ⟨expandFrom_length l _ _, fun k s h => ?_⟩
  obtain ⟨t, ht, h1, -, h3, h4⟩ := expandFrom_get l none 0 k s h
  refine ⟨t, ht, ?_, h1, ?_⟩
  · rw [h3, hl s (List.mem_of_getElem? h)]; rfl
  · rw [h4]
    cases k with
    | zero => rfl
    | succ k => simp

theorem expandFrom_done (l : List SubSeg) (last : Option ℕ) (i : ℕ) : ∀ t ∈ expandFrom last i l, t.expands = false := by
  intro t ht
  obtain ⟨k, hk⟩ := List.mem_iff_getElem?.mp ht
  have hlt : k < l.length := by rw [← expandFrom_length l last i]; exact (List.getElem?_eq_some_iff.mp hk).1
  obtain ⟨t', ht', -, h2, -⟩ := expandFrom_get l last i k _ (List.getElem?_eq_getElem hlt)
  rw [hk, Option.some.injEq] at ht'
  subst ht'
  exact h2

/-- C450: initializing the segments again in an iteration, and preparing the mission again, change nothing: the values the solver has given
to the unknowns stay, with any states `f` written in between. -/
theorem C450_again (l : List SubSeg) (f : ℕ → Fields) :
    let done := (expandSubSegments l).mapIdx fun k s => { s with state := f k }
    reinitialize done = done ∧ expandSubSegments done = done := by
  intro done
  have hd : ∀ t ∈ done, t.expands = false := by
    intro t ht
    obtain ⟨k, hk, rfl⟩ := List.mem_mapIdx.mp ht
    exact expandFrom_done l none 0 (expandSubSegments l)[k] (List.getElem_mem hk)
  constructor
  · unfold reinitialize
    conv_rhs => rw [← List.map_id done]
    apply List.map_congr_left
    intro t ht
    simp [SubSeg.expandStep, hd t ht]
  · apply List.ext_getElem?
    intro k
    by_cases hk : k < done.length
    · have hg := List.getElem?_eq_getElem hk
      obtain ⟨t, ht, h1, h2, h3, h4⟩ := expandFrom_get done none 0 k _ hg
      rw [show (expandSubSegments done)[k]? = some t from ht, hg]
      congr 1
      have he := hd _ (List.getElem_mem hk)
      have hlk : k < l.length := by
        have : done.length = l.length := by simp [done, expandSubSegments, expandFrom_length]
        omega
      obtain ⟨t0, ht0, -, -, -, h40⟩ := expandFrom_get l none 0 k _ (List.getElem?_eq_getElem hlk)
      have hi : done[k].initials = t0.initials := by
        have hlt := (List.getElem?_eq_some_iff.mp ht0).1
        have : (expandSubSegments l)[k]'(hlt) = t0 := (List.getElem?_eq_some_iff.mp ht0).2
        simp only [done, List.getElem_mapIdx]
        exact congrArg SubSeg.initials this
      have hin : t.initials = done[k].initials := by
        rw [h4]
        by_cases hk0 : k = 0
        · simp [hk0]
        · rw [hi, h40, if_neg hk0, if_neg hk0]
      rw [he] at h3
      cases hdk : done[k] with
      | mk p st ex ini =>
        rw [hdk] at h1 h3 hin he
        cases t
        simp_all
    · have e : (expandSubSegments done).length = done.length := expandFrom_length done _ _
      rw [List.getElem?_eq_none (by omega), List.getElem?_eq_none (by omega)]

/-- C450, in part: the number of points is taken from the segment when it is prepared the first time. -/
theorem C450_points_partial (n : ℕ) (l : List SubSeg) (hl : ∀ s ∈ l, s.expands = true) (k : ℕ) (s : SubSeg) (h : l[k]? = some s) :
    ∃ t, (expandSubSegments (setPoints n l))[k]? = some t ∧ t.state = stateExpand n false s.state := by
  have h' : (setPoints n l)[k]? = some { s with points := n } := by simp [setPoints, h]
  obtain ⟨-, h2⟩ := C450_expand (setPoints n l) (by
    intro t ht
    obtain ⟨s', hs', rfl⟩ := List.mem_map.mp ht
    exact hl s' hs')
  obtain ⟨t, ht, h3, -⟩ := h2 k _ h'
  exact ⟨t, ht, h3⟩

/-- C450 fails: a number of points set after the mission was prepared is not used; the states keep their rows. -/
theorem C450_points_counterexample (n : ℕ) (l : List SubSeg) :
    (expandSubSegments (setPoints n (expandSubSegments l))).map (·.state) = (expandSubSegments l).map (·.state) := by
  apply List.ext_getElem?
  intro k
  rw [List.getElem?_map, List.getElem?_map]
  by_cases hk : k < (expandSubSegments l).length
  · have hg := List.getElem?_eq_getElem hk
    obtain ⟨t, ht, -, -, h3, -⟩ := expandFrom_get (setPoints n (expandSubSegments l)) none 0 k
      { (expandSubSegments l)[k] with points := n } (by simp [setPoints, hg])
    rw [show (expandSubSegments (setPoints n (expandSubSegments l)))[k]? = some t from ht, hg]
    have he := expandFrom_done l none 0 _ (List.getElem_mem hk)
    have he' : (expandSubSegments l)[k].expands = false := he
    simp only [Option.map_some, h3, he']
    rfl
  · have e : (expandSubSegments (setPoints n (expandSubSegments l))).length = (expandSubSegments l).length := by
      unfold expandSubSegments
      rw [expandFrom_length]
      simp [setPoints]
    rw [List.getElem?_eq_none (by omega), List.getElem?_eq_none (by omega)]

/-- A climb of four points and a cruise of eight. -/
example : ∃ t, (expandSubSegments [⟨4, .cons "unknowns" (.arr 1 [[1]]) .nil, true, none⟩,
    ⟨8, .cons "unknowns" (.arr 1 [[2]]) .nil, true, none⟩])[1]? = some t ∧
    t.initials = some 0 ∧ t.state = stateExpand 8 false (.cons "unknowns" (.arr 1 [[2]]) .nil) := by
  obtain ⟨t, h1, h2, -, h3⟩ := (C450_expand [⟨4, .cons "unknowns" (.arr 1 [[1]]) .nil, true, none⟩,
    ⟨8, .cons "unknowns" (.arr 1 [[2]]) .nil, true, none⟩] (by simp)).2 1 _ rfl
  exact ⟨t, h1, h3, h2⟩

end Verif.Mission
