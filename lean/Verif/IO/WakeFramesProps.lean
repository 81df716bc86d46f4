import Verif.IO.WakeFrames
import Mathlib.Tactic.FieldSimp
import Mathlib.Tactic.Ring
import Mathlib.Tactic.Linarith

/-!
# C423: saving the evolution of a wake
-/

namespace Verif.IO
open Real

theorem bladeAngle_eq (c : WakeCase) (hw : c.omega ≠ 0) (i : ℕ) :
    c.bladeAngle i = (c.ito + i) * (2 * π / c.Na) * c.rotation := by
  unfold WakeCase.bladeAngle WakeCase.t0 WakeCase.azi
  generalize 2 * π / (c.Na : ℝ) = d
  field_simp
  push_cast
  ring

theorem wakeLoop_frames (c : WakeCase) : ∀ (n i : ℕ) (r : WakeRotor),
    (wakeLoop c n i r).2 = (List.range' i n).map fun j => (c.bladeAngle j, midpoints (c.blades j))
  | 0, _, _ => rfl
  | n + 1, i, r => by
    rw [List.range'_succ, List.map_cons]
    simp only [wakeLoop]
    rw [wakeLoop_frames c n (i + 1)]

theorem wakeLoop_rotor (c : WakeCase) : ∀ (n i : ℕ) (r : WakeRotor),
    (wakeLoop c (n + 1) i r).1 = ⟨c.bladeAngle (i + n), midpoints (c.blades (i + n))⟩
  | 0, i, r => rfl
  | n + 1, i, r => by
    have := wakeLoop_rotor c n (i + 1) ⟨c.bladeAngle i, midpoints (c.blades i)⟩
    rw [show i + 1 + n = i + (n + 1) by ring] at this
    rw [← this]
    rfl

/-- **C423 (frames).** One frame is written for each azimuthal station; frame `i` has the blade at the offset and `i`
stations further on in the sense of rotation, whatever the speed, with the evaluation points of station `i`. -/
theorem C423_frames (c : WakeCase) (hn : 2 ≤ c.Na) (hw : c.omega ≠ 0) (r : WakeRotor) :
    ∃ r' fs, storeWake c true r = some (r', fs) ∧ fs.length = c.Na
      ∧ ∀ i (h : i < fs.length), fs[i] = ((c.ito + i) * (2 * π / c.Na) * c.rotation, midpoints (c.blades i)) := by
  refine ⟨_, _, by unfold storeWake; rw [if_neg (by omega), if_pos rfl], ?_, ?_⟩
  · rw [wakeLoop_frames]; simp
  · intro i h
    simp only [wakeLoop_frames, List.getElem_map, List.getElem_range', Nat.zero_add, Nat.one_mul]
    rw [bladeAngle_eq c hw]

/-- **C423 (a full turn).** The frame after the last would be the first again, a turn later. -/
theorem C423_turn (c : WakeCase) (hn : 2 ≤ c.Na) (hw : c.omega ≠ 0) (i : ℕ) :
    c.bladeAngle (i + c.Na) = c.bladeAngle i + 2 * π * c.rotation := by
  have : (c.Na : ℝ) ≠ 0 := by
    have : 0 < c.Na := by omega
    exact_mod_cast this.ne'
  rw [bladeAngle_eq c hw, bladeAngle_eq c hw]
  push_cast
  field_simp
  ring

/-- The points between two neighbours lie half way. -/
theorem C423_midpoints : ∀ (l : List ℝ) (i : ℕ) (h : i + 1 < l.length), ∃ h' : i < (midpoints l).length,
    (midpoints l)[i] = (l[i] + l[i + 1]) / 2
  | a :: b :: rest, 0, _ => ⟨by simp [midpoints], by simp [midpoints, add_comm]⟩
  | a :: b :: rest, i + 1, h => by
    obtain ⟨h', e⟩ := C423_midpoints (b :: rest) i (by simpa using h)
    exact ⟨by simpa [midpoints] using h', by simpa [midpoints] using e⟩
  | [a], i, h => by simp at h
  | [], i, h => by simp at h

/-- Without a folder nothing is written and nothing changes. -/
theorem C423_no_folder (c : WakeCase) (hn : 2 ≤ c.Na) (r : WakeRotor) : storeWake c false r = some (r, []) := by
  unfold storeWake
  rw [if_neg (by omega), if_neg (by simp)]

/-- Four stations. -/
noncomputable def exWake : WakeCase := ⟨4, 100, 1, 0, fun i => [0, i + 1, 3]⟩

example : 2 ≤ exWake.Na ∧ exWake.omega ≠ 0 ∧ midpoints (exWake.blades 0) = [1 / 2, 2] := by
  refine ⟨by norm_num [exWake], by norm_num [exWake], ?_⟩
  norm_num [exWake, midpoints]

/-- **C423 (counterexample).** Saving changes the rotor: it is left with the blade angle and the points of the last frame,
so saved twice it starts elsewhere. -/
theorem C423_rotor_counterexample :
    (∀ (c : WakeCase) (r : WakeRotor), 2 ≤ c.Na → c.omega ≠ 0 → ∃ r' fs, storeWake c true r = some (r', fs)
      ∧ r'.startAngle = (c.ito + (c.Na - 1 : ℕ)) * (2 * π / c.Na) * c.rotation
      ∧ r'.points = midpoints (c.blades (c.Na - 1)))
    ∧ ∃ r' fs, storeWake exWake true ⟨0, []⟩ = some (r', fs) ∧ r'.startAngle ≠ 0 := by
  have key : ∀ (c : WakeCase) (r : WakeRotor), 2 ≤ c.Na → c.omega ≠ 0 → ∃ r' fs, storeWake c true r = some (r', fs)
      ∧ r'.startAngle = (c.ito + (c.Na - 1 : ℕ)) * (2 * π / c.Na) * c.rotation
      ∧ r'.points = midpoints (c.blades (c.Na - 1)) := by
    intro c r hn hw
    refine ⟨_, _, by unfold storeWake; rw [if_neg (by omega), if_pos rfl], ?_, ?_⟩
    · obtain ⟨m, hm⟩ : ∃ m, c.Na = m + 1 := ⟨c.Na - 1, by omega⟩
      have := wakeLoop_rotor c m 0 r
      rw [← hm] at this
      rw [this, ← bladeAngle_eq c hw]
      simp [hm]
    · obtain ⟨m, hm⟩ : ∃ m, c.Na = m + 1 := ⟨c.Na - 1, by omega⟩
      have := wakeLoop_rotor c m 0 r
      rw [← hm] at this
      rw [this]
      simp [hm]
  refine ⟨key, ?_⟩
  obtain ⟨r', fs, h1, h2, -⟩ := key exWake ⟨0, []⟩ (by norm_num [exWake]) (by norm_num [exWake])
  refine ⟨r', fs, h1, ?_⟩
  rw [h2]
  norm_num [exWake]

end Verif.IO
