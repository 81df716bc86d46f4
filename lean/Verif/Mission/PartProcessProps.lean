import Verif.Mission.PartProcess
import Verif.Mission.ProcessProps

/-!
# C427: a process carried out for each part of a vehicle
-/

namespace Verif.Mission

variable {A G S E R : Type}

/-- Specification: a call whose arguments are already chosen. -/
def chosen (b : A) (f : Call A S E R) : Call Unit S E R := fun _ s => f b s

/-- Specification: the calls to make, part by part and for each part step by step, each with its part. -/
def callsFor (a : A) (steps : List (String × Step (A × G) S E R)) (parts : List (String × G)) :
    List (Path × Call Unit S E R) :=
  parts.flatMap fun tg => (leavesL [tg.1] steps).map fun pf => (pf.1, chosen (a, tg.2) pf.2)

theorem runSeq_chosen (b : A) (l : List (Path × Call A S E R)) (s : S) :
    runSeq () (l.map fun pf => (pf.1, chosen b pf.2)) s = runSeq b l s := by
  induction l generalizing s with
  | nil => rfl
  | cons pf l ih =>
    obtain ⟨p, f⟩ := pf
    simp only [List.map_cons, runSeq, chosen]
    rcases hf : f b s with ⟨s', e | r⟩
    · rfl
    · simp only [ih]

theorem parts_agree (a : A) (steps : List (String × Step (A × G) S E R)) (hd : DistinctL steps)
    (hn : (steps.map (·.1)).Nodup) : ∀ (parts : List (String × G)) (s : S) (acc : List (String × Res R)),
    (parts.map (·.1)).Nodup → (∀ t ∈ parts.map (·.1), t ∉ acc.map (·.1)) →
    AgreesL (parts.map fun tg => (tg.1, Shape.node (shapeL steps))) [] acc (evalParts a steps parts s acc)
      (runSeq () (callsFor a steps parts) s)
  | [], s, acc, _, _ => by simp [evalParts, callsFor, runSeq, AgreesL]
  | (t, g) :: l, s, acc, hp, hacc => by
    have h1 := evalSteps_agrees (a, g) [t] steps s [] hd hn (by simp)
    have hc : callsFor a steps ((t, g) :: l) =
        ((leavesL [t] steps).map fun pf => (pf.1, chosen (a, g) pf.2)) ++ callsFor a steps l := by
      simp [callsFor]
    rw [hc, runSeq_append, runSeq_chosen]
    simp only [evalParts]
    rcases e1 : evalSteps (a, g) steps s [] with ⟨s1, e | r⟩ <;> rw [e1] at h1 <;>
      rcases e2 : runSeq (a, g) (leavesL [t] steps) s with ⟨s2, e' | r'⟩ <;> rw [e2] at h1
    · simpa [AgreesL] using h1
    · simp [AgreesL] at h1
    · simp [AgreesL] at h1
    · simp only [AgreesL] at h1
      obtain ⟨rfl, hr, hs⟩ := h1
      simp only [List.map_cons, List.nodup_cons] at hp
      have ht : t ∉ acc.map (·.1) := hacc t (by simp)
      simp only [putKey_fresh acc t _ ht]
      have hacc' : ∀ u ∈ l.map (·.1), u ∉ (acc ++ [(t, Res.data r)]).map (·.1) := by
        intro u hu hmem
        simp only [List.map_append, List.map_cons, List.map_nil, List.mem_append, List.mem_singleton] at hmem
        rcases hmem with hmem | hmem
        · exact hacc u (by simp only [List.map_cons, List.mem_cons]; exact Or.inr hu) hmem
        · exact hp.1 (hmem ▸ hu)
      have h2 := parts_agree a steps hd hn l s1 (acc ++ [(t, .data r)]) hp.2 hacc'
      rcases e3 : evalParts a steps l s1 (acc ++ [(t, .data r)]) with ⟨s3, e | q⟩ <;> rw [e3] at h2 <;> (try rw [e3]) <;>
        rcases e4 : runSeq () (callsFor a steps l) s1 with ⟨s4, e' | q'⟩ <;> rw [e4] at h2
      · simpa [AgreesL] using h2
      · simp [AgreesL] at h2
      · simp [AgreesL] at h2
      · simp only [AgreesL] at h2 ⊢
        obtain ⟨rfl, hq, hsh⟩ := h2
        simp only [resLeavesL, List.nil_append, rshapeL] at hr hs
        refine ⟨rfl, ?_, ?_⟩
        · rw [hq, resLeavesL_append]
          simp [resLeavesL, resLeaves, hr]
        · rw [hsh, rshapeL_append]
          simp [rshapeL, Res.shape, hs]

/-- C427: the effect is that of calling every step for the first part, then every step for the second,
and so on, each with its own part, until one raises; the exception is passed on. -/
theorem C427_sequential (a : A) (steps : List (String × Step (A × G) S E R)) (parts : List (String × G)) (s : S)
    (hd : (Step.proc steps).Distinct) (hp : (parts.map (·.1)).Nodup) :
    (evalGeometry a steps (.ok parts) s).1 = (runSeq () (callsFor a steps parts) s).1 ∧
      ∀ e, (evalGeometry a steps (.ok parts) s).2 = .error e ↔ (runSeq () (callsFor a steps parts) s).2 = .error e := by
  have := parts_agree a steps hd.2 hd.1 parts s [] hp (by simp)
  simp only [evalGeometry]
  rcases e1 : evalParts a steps parts s [] with ⟨s1, e | r⟩ <;> rw [e1] at this <;>
    rcases e2 : runSeq () (callsFor a steps parts) s with ⟨s2, e' | r'⟩ <;> rw [e2] at this <;> simp_all [AgreesL]

/-- C427: when none raises, the results are filed under the names of the parts, in their order, and below
each are those of the steps for that part. -/
theorem C427_results (a : A) (steps : List (String × Step (A × G) S E R)) (parts : List (String × G)) (s s' : S)
    (rs : List (String × Res R)) (hd : (Step.proc steps).Distinct) (hp : (parts.map (·.1)).Nodup)
    (h : evalGeometry a steps (.ok parts) s = (s', .ok rs)) :
    runSeq () (callsFor a steps parts) s = (s', .ok (resLeavesL [] rs)) ∧
      rshapeL rs = parts.map fun tg => (tg.1, (Step.proc steps).shape) := by
  have := parts_agree a steps hd.2 hd.1 parts s [] hp (by simp)
  simp only [evalGeometry] at h
  rw [h] at this
  rcases e2 : runSeq () (callsFor a steps parts) s with ⟨s2, e' | r'⟩ <;> rw [e2] at this <;>
    simp_all [AgreesL, resLeavesL, rshapeL, Step.shape]

/-- C427: a vehicle that lacks the kind of part raises before anything is done; one that has none of it
gives empty results. -/
theorem C427_none (a : A) (steps : List (String × Step (A × G) S E R)) (s : S) (e : E) :
    evalGeometry a steps (.error e) s = (s, .error e) ∧ evalGeometry a steps (.ok []) s = (s, .ok []) :=
  ⟨rfl, rfl⟩

/-- Two wings and two steps that record their wing and add its area: four calls, wing by wing. -/
example :
    let step (n : String) : Step (Unit × Nat) (List (String × Nat)) String Nat :=
      .leaf none fun a s => (s ++ [(n, a.2)], .ok a.2)
    (evalGeometry () [("friction", step "friction"), ("total", step "total")]
      (.ok [("main", 7), ("tail", 2)]) []).1 =
      [("friction", 7), ("total", 7), ("friction", 2), ("total", 2)] := by
  rfl

end Verif.Mission
