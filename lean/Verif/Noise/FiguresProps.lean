import Verif.Noise.Figures
import Mathlib.Data.List.MinMax
import Mathlib.Tactic.Linarith
import Mathlib.Tactic.NormNum

/-! Proofs for C454 and C455. -/

namespace Verif.Noise.Mic

theorem mapM_map {β γ : Type} (f : β → Option γ) (g : β → γ) (l : List β) (h : ∀ b ∈ l, f b = some (g b)) : l.mapM f = some (l.map g) := by
  induction l with
  | nil => rfl
  | cons b l ih =>
    rw [List.mapM_cons, h b (by simp), ih fun c hc => h c (by simp [hc])]
    rfl

theorem tableRows_full (s : NoiseSeg) (h : s.discharge = true) : tableRows s.levels.length s = some s.levels := by
  unfold tableRows
  rw [mapM_map _ (fun j => s.levels.getD j fun _ => 0)]
  · congr 1
    apply List.ext_getElem
    · simp
    · intro i h1 h2
      simp [List.getD_eq_getElem?_getD, List.getElem?_eq_getElem h2]
  · intro j hj
    have hj' := List.mem_range.mp hj
    rw [if_pos h, List.getElem?_eq_getElem hj']
    simp [List.getD_eq_getElem?_getD, List.getElem?_eq_getElem hj']

/-- C454, in part: with all segments discharging the battery and with the same number of points, the level shown for a microphone is the
highest of the mission there. -/
theorem C454_loudest_partial (segs : List NoiseSeg) (hne : segs ≠ []) (n : ℕ) (hn : 0 < n) (hl : ∀ s ∈ segs, s.levels.length = n)
    (hd : ∀ s ∈ segs, s.discharge = true) (m : ℕ) :
    ∃ v, loudest segs m = some v ∧ (∃ s ∈ segs, ∃ f ∈ s.levels, f m = v) ∧ ∀ s ∈ segs, ∀ f ∈ s.levels, f m ≤ v := by
  obtain ⟨a, l, rfl⟩ := List.exists_cons_of_ne_nil hne
  have hr : (a :: l).mapM (tableRows a.levels.length) = some ((a :: l).map (·.levels)) := by
    apply mapM_map
    intro s hs
    rw [hl a (by simp), ← hl s hs]
    exact tableRows_full s (hd s hs)
  have he : loudest (a :: l) m = ((((a :: l).map (·.levels)).flatten).map (· m)).max? := by
    simp only [loudest, List.head?_cons, Option.bind_eq_bind, Option.bind_some, hr]
  cases hm : ((((a :: l).map (·.levels)).flatten).map (· m)).max? with
  | none =>
    rw [List.max?_eq_none_iff, List.map_eq_nil_iff, List.flatten_eq_nil_iff] at hm
    have h0 := hm a.levels (by simp)
    have := hl a (by simp)
    rw [h0] at this
    simp at this
    omega
  | some v =>
    rw [List.max?_eq_some_iff] at hm
    refine ⟨v, by rw [he, List.max?_eq_some_iff]; exact hm, ?_, ?_⟩
    · obtain ⟨f, hf, hv⟩ := List.mem_map.mp hm.1
      obtain ⟨fs, hfs, hff⟩ := List.mem_flatten.mp hf
      obtain ⟨s, hs, rfl⟩ := List.mem_map.mp hfs
      exact ⟨s, hs, f, hff, hv⟩
    · intro s hs f hf
      exact hm.2 _ (List.mem_map.mpr ⟨f, List.mem_flatten.mpr ⟨s.levels, List.mem_map.mpr ⟨s, hs, rfl⟩, hf⟩, rfl⟩)

example : ∃ v, loudest [⟨true, [fun _ => 50, fun _ => 60]⟩, ⟨true, [fun _ => 70, fun _ => 40]⟩] 0 = some v ∧ 70 ≤ v := by
  obtain ⟨v, h, -, h2⟩ := C454_loudest_partial [⟨true, [fun _ => 50, fun _ => 60]⟩, ⟨true, [fun _ => 70, fun _ => 40]⟩] (by simp) 2
    (by norm_num) (by simp) (by simp) 0
  exact ⟨v, h, h2 ⟨true, [fun _ => 70, fun _ => 40]⟩ (by simp) (fun _ => 70) (by simp)⟩

/-- C454 fails: points of a segment beyond the number of the first segment's are left out, however loud. -/
theorem C454_longer_counterexample (q loud : ℝ) (m : ℕ) :
    loudest [⟨true, [fun _ => q]⟩, ⟨true, [fun _ => q, fun _ => loud]⟩] m = some q := by
  simp [loudest, tableRows, List.range_succ, List.max?]

/-- C454 fails: a segment with fewer points than the first leaves no figure. -/
theorem C454_shorter_counterexample (f g h : ℕ → ℝ) (m : ℕ) : loudest [⟨true, [f, g]⟩, ⟨true, [h]⟩] m = none := by
  simp [loudest, tableRows, List.range_succ]

/-- C454 fails: with a segment in which the battery is charged, microphones that hear nothing above 0 dBA are shown at 0. -/
theorem C454_charging_counterexample (x : ℝ) (hx : x ≤ 0) (f : ℕ → ℝ) (m : ℕ) :
    loudest [⟨true, [fun _ => x]⟩, ⟨false, [f]⟩] m = some 0 := by
  simp [loudest, tableRows, List.range_succ, List.max?, hx]

/-! ### C455 -/

/-- C455, in part: with a mission that starts at the origin, the horizontal axis shows where the microphones are. -/
theorem C455_range_partial (pos0 mic : Pt) (h : pos0.x = 0) : rangeShown pos0 mic * 1852 = mic.x := by
  simp only [rangeShown, relative, h]
  ring

/-- C455 fails: it shows the place relative to the start of the mission. -/
theorem C455_range_counterexample (pos0 mic : Pt) : rangeShown pos0 mic * 1852 = mic.x - pos0.x := by
  simp only [rangeShown, relative]
  ring

/-- C455, in part: an aircraft that stays above the axis is drawn where it is, with its altitude upwards. -/
theorem C455_flight_partial (pos : Pt) (h : pos.y = 0) : flightMark true pos = ⟨pos.x, pos.y, -pos.z⟩ := by
  simp [flightMark, h]

/-- C455 fails: aircraft and ground are drawn to different scales, so that one above a microphone, a mile or more from the origin, is drawn
more than 1800 units away from it; and whatever its course, the aircraft is drawn above the axis. -/
theorem C455_scale_counterexample (pos mic : Pt) (hx : pos.x = mic.x) (h : 1852 ≤ mic.x) :
    1800 < (flightMark true pos).x - (groundMark mic).x ∧ (flightMark true pos).y = 0 := by
  refine ⟨?_, by simp [flightMark]⟩
  simp only [flightMark, groundMark, if_true, hx]
  linarith

example : 1800 < (flightMark true ⟨2000, 300, -100⟩).x - (groundMark ⟨2000, 300, 0⟩).x :=
  (C455_scale_counterexample ⟨2000, 300, -100⟩ ⟨2000, 300, 0⟩ rfl (by norm_num)).1

theorem slice_mid {α : Type} (P X Q : List α) (i j : ℕ) (hi : i = P.length) (hj : j = P.length + X.length) : slice (P ++ (X ++ Q)) i j = X := by
  subst hi hj
  unfold slice
  rw [← List.append_assoc, ← List.length_append, List.take_left, List.drop_left]

/-- Spec: the microphones of a building, side by side. -/
theorem building_some (b : Building) (nx ny nz : ℕ) (l : List Pt) (h : building b nx ny nz = some l) :
    l = (List.range (ny * nz)).map (wallX b (b.x0 - b.l / 2) ny nz) ++ ((List.range (nx * nz)).map (wallY b (b.y0 + b.w / 2) nx nz) ++
      ((List.range (ny * nz)).map (wallX b (b.x0 + b.l / 2) ny nz) ++ ((List.range (nx * nz)).map (wallY b (b.y0 - b.w / 2) nx nz) ++
      (List.range (nx * ny)).map (roof b nx ny)))) := by
  unfold building at h
  split_ifs at h
  simp only [Option.some.injEq] at h
  rw [← h]
  simp only [List.append_assoc]

theorem blocks {α : Type} (ls : List (List α)) (n : ℕ) (h : ∀ l ∈ ls, l.length = n) : ls.flatten.length = ls.length * n := by
  induction ls with
  | nil => simp
  | cons a ls ih =>
    rw [List.flatten_cons, List.length_append, ih fun l hl => h l (by simp [hl]), h a (by simp), List.length_cons]
    ring

/-- C455: whatever the buildings, the surfaces drawn for one of them are made of exactly its own microphones, each at its place. -/
theorem C455_buildings (before after : List (List Pt)) (bs : List Building) (nx ny nz : ℕ) (b : Building) (l : List Pt)
    (hb : building b nx ny nz = some l) (hbefore : ∀ p ∈ before, ∃ c ∈ bs, building c nx ny nz = some p) :
    drawnBuilding ((before ++ l :: after).flatten) before.length b nx ny nz = l := by
  have hlen : ∀ (c : Building) (p : List Pt), building c nx ny nz = some p → p.length = 2 * (nx * nz + ny * nz) + nx * ny := by
    intro c p hp
    rw [building_some c nx ny nz p hp]
    simp
    ring
  have hP : before.flatten.length = before.length * (2 * (nx * nz + ny * nz) + nx * ny) := by
    apply blocks
    intro p hp
    obtain ⟨c, -, hc⟩ := hbefore p hp
    exact hlen c p hc
  have hl := building_some b nx ny nz l hb
  rw [List.flatten_append, List.flatten_cons]
  generalize hPd : before.flatten = P at *
  generalize after.flatten = Q
  generalize hper : 2 * (nx * nz + ny * nz) + nx * ny = per at *
  have hA : ((List.range (ny * nz)).map (wallX b (b.x0 - b.l / 2) ny nz)).map (fun p => (⟨b.x0 - b.l / 2, p.y, p.z⟩ : Pt)) =
      (List.range (ny * nz)).map (wallX b (b.x0 - b.l / 2) ny nz) := by
    rw [List.map_map]; rfl
  have hB : ((List.range (nx * nz)).map (wallY b (b.y0 + b.w / 2) nx nz)).map (fun p => (⟨p.x, b.y0 + b.w / 2, p.z⟩ : Pt)) =
      (List.range (nx * nz)).map (wallY b (b.y0 + b.w / 2) nx nz) := by
    rw [List.map_map]; rfl
  have hC : ((List.range (ny * nz)).map (wallX b (b.x0 + b.l / 2) ny nz)).map (fun p => (⟨b.x0 + b.l / 2, p.y, p.z⟩ : Pt)) =
      (List.range (ny * nz)).map (wallX b (b.x0 + b.l / 2) ny nz) := by
    rw [List.map_map]; rfl
  have hD : ((List.range (nx * nz)).map (wallY b (b.y0 - b.w / 2) nx nz)).map (fun p => (⟨p.x, b.y0 - b.w / 2, p.z⟩ : Pt)) =
      (List.range (nx * nz)).map (wallY b (b.y0 - b.w / 2) nx nz) := by
    rw [List.map_map]; rfl
  have hE : ((List.range (nx * ny)).map (roof b nx ny)).map (fun p => (⟨p.x, p.y, b.h⟩ : Pt)) = (List.range (nx * ny)).map (roof b nx ny) := by
    rw [List.map_map]; rfl
  have lA : ((List.range (ny * nz)).map (wallX b (b.x0 - b.l / 2) ny nz)).length = ny * nz := by simp
  have lB : ((List.range (nx * nz)).map (wallY b (b.y0 + b.w / 2) nx nz)).length = nx * nz := by simp
  have lC : ((List.range (ny * nz)).map (wallX b (b.x0 + b.l / 2) ny nz)).length = ny * nz := by simp
  have lD : ((List.range (nx * nz)).map (wallY b (b.y0 - b.w / 2) nx nz)).length = nx * nz := by simp
  have lE : ((List.range (nx * ny)).map (roof b nx ny)).length = nx * ny := by simp
  generalize (List.range (ny * nz)).map (wallX b (b.x0 - b.l / 2) ny nz) = A at *
  generalize (List.range (nx * nz)).map (wallY b (b.y0 + b.w / 2) nx nz) = B at *
  generalize (List.range (ny * nz)).map (wallX b (b.x0 + b.l / 2) ny nz) = C at *
  generalize (List.range (nx * nz)).map (wallY b (b.y0 - b.w / 2) nx nz) = D at *
  generalize (List.range (nx * ny)).map (roof b nx ny) = E at *
  have hm : (before.length + 1) * per = P.length + (ny * nz + (nx * nz + (ny * nz + (nx * nz + nx * ny)))) := by
    rw [hP, ← hper]; ring
  have s1 : slice (P ++ (l ++ Q)) P.length (P.length + ny * nz) = A := by
    rw [hl]; simp only [List.append_assoc]
    exact slice_mid P A _ _ _ rfl (by rw [lA])
  have s2 : slice (P ++ (l ++ Q)) (P.length + ny * nz) (P.length + ny * nz + nx * nz) = B := by
    have := slice_mid (P ++ A) B (C ++ (D ++ (E ++ Q))) (P.length + ny * nz) (P.length + ny * nz + nx * nz) (by simp [lA]) (by simp [lA, lB])
    rw [hl]; simp only [List.append_assoc] at this ⊢
    exact this
  have s3 : slice (P ++ (l ++ Q)) (P.length + ny * nz + nx * nz) (P.length + ny * nz + nx * nz + ny * nz) = C := by
    have := slice_mid (P ++ (A ++ B)) C (D ++ (E ++ Q)) (P.length + ny * nz + nx * nz) (P.length + ny * nz + nx * nz + ny * nz)
      (by simp [lA, lB]; ring) (by simp [lA, lB, lC]; ring)
    rw [hl]; simp only [List.append_assoc] at this ⊢
    exact this
  have s4 : slice (P ++ (l ++ Q)) (P.length + ny * nz + nx * nz + ny * nz) (P.length + ny * nz + nx * nz + ny * nz + nx * nz) = D := by
    have := slice_mid (P ++ (A ++ (B ++ C))) D (E ++ Q) (P.length + ny * nz + nx * nz + ny * nz)
      (P.length + ny * nz + nx * nz + ny * nz + nx * nz) (by simp [lA, lB, lC]; ring) (by simp [lA, lB, lC, lD]; ring)
    rw [hl]; simp only [List.append_assoc] at this ⊢
    exact this
  have s5 : slice (P ++ (l ++ Q)) (P.length + ny * nz + nx * nz + ny * nz + nx * nz) ((before.length + 1) * per) = E := by
    have := slice_mid (P ++ (A ++ (B ++ (C ++ D)))) E Q (P.length + ny * nz + nx * nz + ny * nz + nx * nz)
      ((before.length + 1) * per) (by simp [lA, lB, lC, lD]; ring) (by rw [hm]; simp [lA, lB, lC, lD, lE]; ring)
    rw [hl]; simp only [List.append_assoc] at this ⊢
    exact this
  simp only [drawnBuilding, hper, ← hP]
  rw [s1, s2, s3, s4, s5, hA, hB, hC, hD, hE, hl]
  simp only [List.append_assoc]

/-- Two houses. -/
example : ∃ l, building ⟨0, 0, 0, 10, 10, 8⟩ 2 2 3 = some l ∧ drawnBuilding (([l] ++ l :: []).flatten) 1 ⟨0, 0, 0, 10, 10, 8⟩ 2 2 3 = l := by
  obtain ⟨l, hl⟩ : ∃ l, building ⟨0, 0, 0, 10, 10, 8⟩ 2 2 3 = some l := by
    unfold building
    rw [if_pos (by unfold fits; rfl)]
    exact ⟨_, rfl⟩
  exact ⟨l, hl, C455_buildings [l] [] [⟨0, 0, 0, 10, 10, 8⟩] 2 2 3 _ l hl (by simpa using hl)⟩

end Verif.Noise.Mic
