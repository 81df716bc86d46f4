import Verif.Core.Attach
import Verif.Core.AppendProps

/-!
# C419: segments and airfoils attached to parts
-/

namespace Verif.Core

variable {R : Type}

/-- What a caller expects of an accepted part: it stands at the end under a name that was free, the others are as they
were, and it differs at most in its tag. -/
def FiledLast (self s' : Items R) (v v' : Val R) : Prop :=
  ∃ raw t, tagOf v = .ok raw ∧ tagOf v' = .ok t ∧ norm t ∉ self.keys ∧ s'.toList = self.toList ++ [(norm t, v')] ∧
    (v' = v ∨ v' = setTag v t)

theorem plainAttach_filed (self s' : Items R) (v v' : Val R) (h : plainAttach self v = .ok (s', v')) :
    v' = v ∧ ∃ t, tagOf v = .ok t ∧ norm t ∉ self.keys ∧ s'.toList = self.toList ++ [(norm t, v)] := by
  unfold plainAttach at h
  cases ha : append self v none with
  | error e => simp [ha, bind, Except.bind] at h
  | ok s1 =>
    simp only [ha, bind, Except.bind, Except.ok.injEq, Prod.mk.injEq] at h
    obtain ⟨rfl, rfl⟩ := h
    obtain ⟨k, hk, hn, rfl⟩ := append_ok_find _ _ _ _ ha
    cases ht : tagOf v with
    | error e => simp [filedUnder, ht, Except.map] at hk
    | ok t =>
      simp only [filedUnder, ht, Except.map, Except.ok.injEq] at hk
      subst hk
      exact ⟨rfl, t, rfl, hn, toList_set_new _ _ _ hn⟩

theorem completeTag_ok (names : List Key) (v w : Val R) (h : completeTag names v = .ok w) :
    ∃ raw, tagOf v = .ok raw ∧ ((raw ∉ names ∧ w = v)
      ∨ (raw ∈ names ∧ w = setTag v (raw ++ showNat (count names.flatten raw + 1))
        ∧ tagOf w = .ok (raw ++ showNat (count names.flatten raw + 1)))) := by
  unfold completeTag at h
  cases ht : tagOf v with
  | error e => simp [ht, bind, Except.bind] at h
  | ok raw =>
    simp only [ht, bind, Except.bind] at h
    refine ⟨raw, rfl, ?_⟩
    by_cases hm : raw ∈ names
    · rw [if_pos hm] at h
      simp only [Except.ok.injEq] at h
      subst h
      exact .inr ⟨hm, rfl, tagOf_setTag v _ ⟨raw, ht⟩⟩
    · rw [if_neg hm] at h
      simp only [Except.ok.injEq] at h
      exact .inl ⟨hm, h.symm⟩

/-- **C419 (accepted parts).** Plain containers, main wings, rotors and nacelles alike. -/
theorem C419_filed (attributes : List Key) (self s' : Items R) (v v' : Val R)
    (h : plainAttach self v = .ok (s', v') ∨ mainWingAttach self v = .ok (s', v')
      ∨ rotorAttach attributes self v = .ok (s', v') ∨ nacelleAttach self v = .ok (s', v')) :
    FiledLast self s' v v' := by
  have plain : plainAttach self v = .ok (s', v') → FiledLast self s' v v' := by
    intro h
    obtain ⟨rfl, t, ht, hn, hs⟩ := plainAttach_filed _ _ _ _ h
    exact ⟨t, t, ht, ht, hn, hs, .inl rfl⟩
  have named : ∀ names : List Key, (completeTag names v).bind (plainAttach self) = .ok (s', v') →
      FiledLast self s' v v' := by
    intro names h
    cases hc : completeTag names v with
    | error e => simp [hc, Except.bind] at h
    | ok w =>
      simp only [hc, Except.bind] at h
      obtain ⟨rfl, t, ht, hn, hs⟩ := plainAttach_filed _ _ _ _ h
      obtain ⟨raw, hr, hw⟩ := completeTag_ok _ _ _ hc
      refine ⟨raw, t, hr, ht, hn, hs, ?_⟩
      rcases hw with ⟨_, rfl⟩ | ⟨_, hw, ht'⟩
      · exact .inl rfl
      · rw [ht] at ht'
        simp only [Except.ok.injEq] at ht'
        subst ht'
        exact .inr hw
  rcases h with h | h | h | h
  · exact plain h
  · exact named _ h
  · exact named _ h
  · exact plain h

/-- **C419 (main wings).** A segment without capitals and punctuation in its name is accepted if the name is free, and, if
it is taken, whenever the completed name is free. -/
theorem C419_main_wing_partial (self : Items R) (v : Val R) (raw : Key) (ht : tagOf v = .ok raw) (hn : norm raw = raw)
    (hf : raw ∈ self.keys → raw ++ showNat (count self.keys.flatten raw + 1) ∉ self.keys) :
    ∃ s' v', mainWingAttach self v = .ok (s', v') ∧ (raw ∉ self.keys → v' = v)
      ∧ (raw ∈ self.keys → v' = setTag v (raw ++ showNat (count self.keys.flatten raw + 1))) := by
  have plain : ∀ (w : Val R) (t : Key), tagOf w = .ok t → norm t ∉ self.keys →
      ∃ s', plainAttach self w = .ok (s', w) := by
    intro w t hw hk
    have h1 := append_unfold self w none t (by simp [rawKey, hw])
    unfold plainAttach
    rw [h1, if_neg hk]
    exact ⟨_, rfl⟩
  unfold mainWingAttach completeTag
  by_cases hm : raw ∈ self.keys
  · have h2 := norm_tag_digits raw (count self.keys.flatten raw + 1)
    rw [hn] at h2
    obtain ⟨s', hs⟩ := plain _ _ (tagOf_setTag v (raw ++ showNat (count self.keys.flatten raw + 1)) ⟨raw, ht⟩)
      (by rw [h2]; exact hf hm)
    exact ⟨s', _, by simpa [ht, bind, Except.bind, hm] using hs, fun h => absurd hm h, fun _ => rfl⟩
  · obtain ⟨s', hs⟩ := plain v raw ht (by rw [hn]; exact hm)
    exact ⟨s', v, by simpa [ht, bind, Except.bind, hm] using hs, fun _ => rfl, fun h => absurd h hm⟩

/-- Attaching several parts in turn; the first that is refused ends it. -/
def attachAll (f : Items Int → Val Int → Except Err (Items Int × Val Int)) :
    Items Int → List (Val Int) → Except Err (List Key)
  | s, [] => .ok s.keys
  | s, v :: vs => match f s v with
    | .ok (s', _) => attachAll f s' vs
    | .error e => .error e

example : attachAll mainWingAttach .nil [tagged "root" 1, tagged "tip" 2, tagged "root" 3]
    = .ok ["root".toList, "tip".toList, "root2".toList] := by decide

example : attachAll (rotorAttach ["tip_radius".toList]) .nil [tagged "Clark Y" 1, tagged "naca" 2]
    = .ok ["clark_y".toList, "naca".toList] := by decide

/-- **C419 (counterexample, capitals).** The name of a segment with capitals is not completed: a second `Root` is
refused, though a second `root` is not. -/
theorem C419_capital_counterexample :
    attachAll mainWingAttach .nil [tagged "Root" 1, tagged "Root" 2] = .error .keyError
    ∧ attachAll mainWingAttach .nil [tagged "root" 1, tagged "root" 2] = .ok ["root".toList, "root2".toList] := by
  decide

/-- **C419 (counterexample, completed names).** The completed name can be taken. -/
theorem C419_completed_counterexample :
    attachAll mainWingAttach .nil [tagged "s3" 1, tagged "s" 2, tagged "s" 3] = .error .keyError := by
  decide

/-- **C419 (counterexample, rotors).** A rotor looks for the name among its own attributes: for names that are none of
them a second airfoil of the same name is always refused, and an airfoil called as one of them is renamed although no
airfoil has that name. -/
theorem C419_rotor_counterexample :
    (∀ (attributes : List Key) (airfoils s' : Items R) (v v' w : Val R) (t : Key), tagOf v = .ok t → tagOf w = .ok t →
      t ∉ attributes → rotorAttach attributes airfoils v = .ok (s', v') →
      rotorAttach attributes s' w = .error .keyError)
    ∧ attachAll (rotorAttach ["tip_radius".toList, "sections".toList]) .nil [tagged "sections" 1]
      = .ok ["sections2".toList] := by
  refine ⟨?_, by decide⟩
  intro attributes airfoils s' v v' w t hv hw ht h
  have h1 : completeTag attributes v = .ok v := by simp [completeTag, hv, bind, Except.bind, ht]
  have h2 : completeTag attributes w = .ok w := by simp [completeTag, hw, bind, Except.bind, ht]
  simp only [rotorAttach, h1, bind, Except.bind] at h
  obtain ⟨rfl, t', ht', -, hs⟩ := plainAttach_filed _ _ _ _ h
  rw [hv] at ht'
  simp only [Except.ok.injEq] at ht'
  subst ht'
  have hk : norm t ∈ s'.keys := by
    rw [keys_eq_toList, hs]
    simp
  simp only [rotorAttach, h2, bind, Except.bind, plainAttach]
  rw [append_unfold s' w none t (by simp [rawKey, hw]), if_pos hk]

/-- The attributes of the airfoil a nacelle starts with (`Airfoils/Airfoil.py`), without the ones that do not matter. -/
def ownAirfoil : Items Int :=
  .cons "tag".toList (.leaf (.str "Airfoil".toList)) (.cons "coordinate_file".toList (.leaf .none)
    (.cons "NACA_4_series_flag".toList (.leaf (.num 0)) .nil))

/-- **C419 (counterexample, nacelles).** An airfoil appended to a nacelle changes none of the attributes by which the
nacelle's section is drawn: whatever is appended, `Airfoil.coordinate_file` and the rest keep their values. -/
theorem C419_nacelle_counterexample :
    (∀ (own s' : Items R) (v v' w : Val R) (k : Key), nacelleAttach own v = .ok (s', v') → own.find? k = some w →
      s'.find? k = some w)
    ∧ (∃ s' v', nacelleAttach ownAirfoil (tagged "naca" 1) = .ok (s', v')
      ∧ s'.keys = ["tag".toList, "coordinate_file".toList, "NACA_4_series_flag".toList, "naca".toList]) := by
  constructor
  · intro own s' v v' w k h hk
    unfold nacelleAttach plainAttach at h
    cases ha : append own v none with
    | error e => simp [ha, bind, Except.bind] at h
    | ok s1 =>
      simp only [ha, bind, Except.bind, Except.ok.injEq, Prod.mk.injEq] at h
      obtain ⟨rfl, rfl⟩ := h
      obtain ⟨q, -, hn, rfl⟩ := append_ok_find _ _ _ _ ha
      have hq : k ≠ q := by
        rintro rfl
        exact hn ((Items.mem_keys_iff _ _).2 (by simp [hk]))
      first
        | rw [Items.find?_set_ne _ _ _ _ hq, hk]
        | rw [Items.find?_set_ne _ _ _ _ hq.symm, hk]
  · exact ⟨_, _, rfl, by decide⟩

end Verif.Core
