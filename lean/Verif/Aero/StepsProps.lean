import Verif.Aero.Steps

/-! C463: every supplied aerodynamic analysis has all its steps and can be initialised. C464: every setting read has a default. -/

namespace Verif.Aero.Steps

theorem installed_eq (names : String → List String) (l : List Step) : installed names l = (l.takeWhile (resolves names)).map Prod.fst := by
  induction l with
  | nil => rfl
  | cons s t ih =>
    by_cases h : resolves names s <;> simp [installed, h, ih]

/-- C463 in general: step `i` of any analysis is there if and only if what it and all before it are made of exists. -/
theorem C463_defaults (names : String → List String) (l : List Step) (i : ℕ) (hi : i < l.length) :
    ((installed names l)[i]? = some (l[i]'hi).1 ↔ ∀ (j : ℕ) (s : Step), j ≤ i → l[j]? = some s → s.2.2 ∈ names s.2.1) ∧
      (installed names l).length ≤ l.length := by
  induction l generalizing i with
  | nil => simp at hi
  | cons a t ih =>
    by_cases h : a.2.2 ∈ names a.2.1
    · have hr : resolves names a = true := by simpa [resolves] using h
      have hlen : (installed names (a :: t)).length ≤ (a :: t).length := by
        rw [installed_eq, List.length_map]
        exact (List.takeWhile_sublist _).length_le
      refine ⟨?_, hlen⟩
      simp only [installed, hr, if_true]
      cases i with
      | zero =>
        simp only [List.getElem?_cons_zero, List.getElem_cons_zero, true_iff]
        intro j s hj hs
        obtain rfl : j = 0 := Nat.le_zero.mp hj
        simp only [List.getElem?_cons_zero, Option.some.injEq] at hs
        subst hs
        exact h
      | succ i =>
        have hi' : i < t.length := by simpa using hi
        simp only [List.getElem?_cons_succ, List.getElem_cons_succ]
        rw [(ih i hi').1]
        constructor
        · intro hh j s hj hs
          cases j with
          | zero =>
            simp only [List.getElem?_cons_zero, Option.some.injEq] at hs
            subst hs
            exact h
          | succ j => exact hh j s (by omega) (by simpa using hs)
        · intro hh j s hj hs
          exact hh (j + 1) s (by omega) (by simpa using hs)
    · have hr : resolves names a = false := by simpa [resolves] using h
      refine ⟨?_, by simp [installed, hr]⟩
      simp only [installed, hr, Bool.false_eq_true, if_false]
      constructor
      · intro hh; simp at hh
      · intro hh
        exact absurd (hh 0 a (Nat.zero_le _) (by simp)) h

/-- An analysis all of whose names exist has all its steps, in order. -/
theorem C463_all (names : String → List String) (l : List Step) (h : ∀ s ∈ l, s.2.2 ∈ names s.2.1) : installed names l = l.map Prod.fst := by
  induction l with
  | nil => rfl
  | cons a t ih =>
    have hr : resolves names a = true := by simpa [resolves] using h a (by simp)
    simp [installed, hr, ih (fun s hs => h s (by simp [hs]))]

/-- C463, steps, in part: the five analyses other than that of OpenVSP wave drag have all their steps; lift is complete before drag
starts, and the last step of drag is its total. Missing: the analysis with OpenVSP wave drag (`C463_wave_counterexample`). -/
theorem C463_steps_partial (l : List Step) (h : l ∈ [fidelityZero, supersonicZero, avl, su2Euler, su2EulerSuper]) :
    installed supplied l = l.map Prod.fst ∧ (installed supplied l).getLast? = some "drag.total" ∧
      (installed supplied l).idxOf "lift.total" + 1 = (installed supplied l).idxOf "drag" ∧
      (installed supplied l).idxOf "drag.parasite.total" < (installed supplied l).idxOf "drag.untrimmed" ∧
      (installed supplied l).idxOf "drag.untrimmed" < (installed supplied l).idxOf "drag.trim" ∧
      (installed supplied l).idxOf "drag.trim" < (installed supplied l).idxOf "drag.total" := by
  have ha : installed supplied l = l.map Prod.fst := by
    apply C463_all
    simp only [List.mem_cons, List.not_mem_nil, or_false] at h
    rcases h with rfl | rfl | rfl | rfl | rfl <;> decide
  rw [ha]
  refine ⟨rfl, ?_⟩
  simp only [List.mem_cons, List.not_mem_nil, or_false] at h
  rcases h with rfl | rfl | rfl | rfl | rfl <;> decide

/-- Every step that a drag total of the five analyses adds up comes before the untrimmed drag: parasite, compressibility and miscellaneous drag. -/
theorem C463_order (l : List Step) (h : l ∈ [fidelityZero, supersonicZero, avl, su2Euler, su2EulerSuper]) (place : String)
    (hp : place ∈ ["drag.parasite.total", "drag.compressibility.total", "drag.miscellaneous"]) :
    place ∈ installed supplied l ∧ (installed supplied l).idxOf place < (installed supplied l).idxOf "drag.untrimmed" := by
  rw [(C463_steps_partial l h).1]
  simp only [List.mem_cons, List.not_mem_nil, or_false] at h hp
  rcases h with rfl | rfl | rfl | rfl | rfl <;> rcases hp with rfl | rfl | rfl <;> decide

/-- C463 fails for the analysis with OpenVSP wave drag: its steps end with the total of parasite drag, so that there is neither induced
nor total drag; and this is so whatever other packages come to offer, as long as the package named does not offer induced drag. -/
theorem C463_wave_counterexample (names : String → List String) (h : "induced_drag_aircraft" ∉ names "Methods.Drag") :
    (∀ place ∈ ["drag.induced", "drag.miscellaneous", "drag.untrimmed", "drag.trim", "drag.total"], place ∉ installed names openVspWaveDrag) ∧
      (installed supplied openVspWaveDrag).getLast? = some "drag.parasite.total" := by
  refine ⟨?_, by decide⟩
  have key : ∀ (a b : List Step) (s : Step), resolves names s = false → ∀ x ∈ installed names (a ++ s :: b), x ∈ a.map Prod.fst := by
    intro a b s hs
    induction a with
    | nil => simp [installed, hs]
    | cons c t ih =>
      intro x hx
      by_cases hc : resolves names c = true
      · simp only [List.cons_append, installed, hc, if_true, List.mem_cons] at hx
        rcases hx with rfl | hx
        · simp
        · simp only [List.map_cons, List.mem_cons]
          exact Or.inr (ih x hx)
      · simp [installed, hc] at hx
  have hsplit : openVspWaveDrag = openVspWaveDrag.take 15 ++ ("drag.induced", "Methods.Drag", "induced_drag_aircraft") :: openVspWaveDrag.drop 16 := by
    decide
  intro place hp hx
  rw [hsplit] at hx
  have := key _ _ _ (by simpa [resolves] using h) place hx
  revert this
  simp only [List.mem_cons, List.not_mem_nil, or_false] at hp
  rcases hp with rfl | rfl | rfl | rfl | rfl <;> decide

example : ("drag.total" : String) ∉ installed supplied openVspWaveDrag :=
  (C463_wave_counterexample supplied (by decide)).1 _ (by simp)

/-- C463, initialisation, in part: it ends for the two analyses built on the vortex lattice whatever other settings a user adds. Missing:
the analysis with OpenVSP wave drag (`C463_initialise_counterexample`). -/
theorem C463_initialise_partial (more : List String) :
    initialises (settingsFidelityZero ++ more) readsZero vortexParameters = true ∧
      initialises (settingsSupersonicZero ++ more) readsZero vortexParameters = true := by
  constructor <;> simp [initialises, settingsFidelityZero, settingsSupersonicZero, readsZero, vortexParameters]

/-- None of the settings read can be done without: taking any one away ends the initialisation. -/
theorem C463_needed (r : String) (h : r ∈ readsZero) :
    initialises (settingsFidelityZero.filter (· ≠ r)) readsZero vortexParameters = false ∧
      initialises (settingsSupersonicZero.filter (· ≠ r)) readsZero vortexParameters = false := by
  simp only [readsZero, List.mem_cons, List.not_mem_nil, or_false] at h
  rcases h with rfl | rfl | rfl | rfl | rfl | rfl | rfl <;> decide

/-- C463 fails for the analysis with OpenVSP wave drag: settings it reads are missing, and with any settings added one argument is. -/
theorem C463_initialise_counterexample (more : List String) :
    initialises (settingsOpenVspWaveDrag ++ more) readsOpenVsp vortexParameters = false ∧
      (∃ r ∈ readsOpenVsp, r ∉ settingsOpenVspWaveDrag) ∧ readsOpenVsp.length < vortexParameters.length :=
  ⟨by simp [initialises, readsOpenVsp, vortexParameters], ⟨"use_surrogate", by decide, by decide⟩, by decide⟩

/-! ### C464 -/

/-- C464 in general: an evaluation goes through if and only if every setting read by any of its steps is there. -/
theorem C464_through (settings : List String) (l : List Step) :
    stops settings l = none ↔ ∀ s ∈ l, ∀ r ∈ readsOf s.2.1 s.2.2, r ∈ settings := by
  induction l with
  | nil => simp [stops]
  | cons a t ih =>
    by_cases h : (readsOf a.2.1 a.2.2).all (fun r => settings.contains r) = true
    · have h' : ∀ r ∈ readsOf a.2.1 a.2.2, r ∈ settings := by simpa using h
      simp only [stops, h, if_true, ih, List.mem_cons, forall_eq_or_imp]
      exact ⟨fun x => ⟨h', x⟩, fun x => x.2⟩
    · have h' : ¬∀ r ∈ readsOf a.2.1 a.2.2, r ∈ settings := by simpa using h
      simp only [stops, h, List.mem_cons, forall_eq_or_imp]
      simp [h']

/-- Where it stops, everything before was done and the step stopped at reads something that is not there. -/
theorem C464_where (settings : List String) (l : List Step) (place : String) (h : stops settings l = some place) :
    ∃ (pre : List Step) (s : Step) (post : List Step), l = pre ++ s :: post ∧ s.1 = place ∧
      (∀ x ∈ pre, ∀ r ∈ readsOf x.2.1 x.2.2, r ∈ settings) ∧ ∃ r ∈ readsOf s.2.1 s.2.2, r ∉ settings := by
  induction l with
  | nil => simp [stops] at h
  | cons a t ih =>
    by_cases ha : (readsOf a.2.1 a.2.2).all (fun r => settings.contains r) = true
    · simp only [stops, ha, if_true] at h
      obtain ⟨pre, s, post, h1, h2, h3, h4⟩ := ih h
      refine ⟨a :: pre, s, post, by rw [h1]; rfl, h2, ?_, h4⟩
      simp only [List.mem_cons, forall_eq_or_imp]
      exact ⟨by simpa using ha, h3⟩
    · simp only [stops, ha, Bool.false_eq_true, if_false, Option.some.injEq] at h
      exact ⟨[], a, t, rfl, h, by simp, by simpa using ha⟩

/-- C464 in part: the evaluation of the subsonic and supersonic analyses, of AVL and of SU2 finds every setting it reads, whatever a user
adds. Missing: supersonic SU2 and OpenVSP wave drag. -/
theorem C464_defaults_partial (more : List String) :
    stops (settingsFidelityZero ++ more) fidelityZero = none ∧ stops (settingsSupersonicZero ++ more) supersonicZero = none ∧
      stops (settingsAvl ++ more) avl = none ∧ stops (settingsSu2 ++ more) su2Euler = none := by
  have step : ∀ (settings : List String) (l : List Step), (∀ s ∈ l, ∀ r ∈ readsOf s.2.1 s.2.2, r ∈ settings) →
      stops (settings ++ more) l = none := fun settings l h =>
    (C464_through _ _).mpr fun s hs r hr => List.mem_append_left _ (h s hs r hr)
  exact ⟨step _ _ (by decide), step _ _ (by decide), step _ _ (by decide), step _ _ (by decide)⟩

/-- None of them can be done without: an analysis without a setting that a step reads does not go through. -/
theorem C464_needed (settings : List String) (l : List Step) (s : Step) (hs : s ∈ l) (r : String) (hr : r ∈ readsOf s.2.1 s.2.2) :
    ∃ place, stops (settings.filter (· ≠ r)) l = some place := by
  cases h : stops (settings.filter (· ≠ r)) l with
  | some p => exact ⟨p, rfl⟩
  | none => simpa using (C464_through _ _).mp h s hs r hr

example : ∃ place, stops (settingsAvl.filter (· ≠ "spoiler_drag_increment")) avl = some place :=
  C464_needed settingsAvl avl ("drag.spoiler", "Common.Drag", "spoiler_drag") (by decide) "spoiler_drag_increment" (by decide)

/-- C464 fails for supersonic SU2: with its defaults it stops at compressibility drag, and it goes through exactly when a user adds seven
settings. -/
theorem C464_su2_super_counterexample (more : List String) :
    stops settingsSu2 su2EulerSuper = some "drag.compressibility.total" ∧
      (stops (settingsSu2 ++ more) su2EulerSuper = none ↔
        ∀ r ∈ ["begin_drag_rise_mach_number", "end_drag_rise_mach_number", "peak_mach_number", "transonic_drag_multiplier",
          "volume_wave_drag_scaling", "wave_drag_type", "cross_sectional_area_calculation_type"], r ∈ more) := by
  refine ⟨by decide, ?_⟩
  rw [C464_through]
  simp only [su2EulerSuper, List.mem_cons, List.not_mem_nil, or_false, forall_eq_or_imp, forall_eq, readsOf, settingsSu2, List.mem_append]
  simp
  tauto

/-- C464 fails for OpenVSP wave drag: with its defaults it stops at the parasite drag of the first wing. -/
theorem C464_wave_counterexample : stops settingsOpenVspWaveDrag openVspWaveDrag = some "drag.parasite.wings.wing" := by
  decide

end Verif.Aero.Steps
