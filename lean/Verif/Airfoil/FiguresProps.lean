import Verif.Airfoil.Figures
import Mathlib.Tactic.Linarith
import Mathlib.Tactic.FieldSimp
import Mathlib.Tactic.Ring
import Mathlib.Tactic.NormNum

/-! Properties C457 and C458. -/

namespace Verif.Airfoil.Figures

/-! ### C457 -/

/-- C457, direction and length: every arrow is a tenth of the force per unit of dynamic pressure, which is against the outward normal where
the pressure is above that of the stream. -/
theorem C457_force (x y nx ny cp : ℝ) : (arrow x y nx ny cp).dx = 1 / 10 * (-cp * nx) ∧ (arrow x y nx ny cp).dy = 1 / 10 * (-cp * ny) := by
  unfold arrow
  by_cases h : cp < 0
  · simp only [h, if_true, abs_of_neg h]
    constructor <;> ring
  · simp only [h, if_false, abs_of_nonneg (not_lt.mp h)]
    constructor <;> ring

/-- C457, place: suction starts at the point, pressure ends there. -/
theorem C457_place (x y nx ny cp : ℝ) :
    (cp < 0 → (arrow x y nx ny cp).x = x ∧ (arrow x y nx ny cp).y = y) ∧
    (0 ≤ cp → (arrow x y nx ny cp).x + (arrow x y nx ny cp).dx = x ∧ (arrow x y nx ny cp).y + (arrow x y nx ny cp).dy = y) := by
  unfold arrow
  constructor
  · intro h
    simp [h]
  · intro h
    simp [not_lt.mpr h]

example : (arrow 0 0 0 1 (-2)).dy = 1 / 5 := by rw [(C457_force 0 0 0 1 (-2)).2]; norm_num

/-- The arrow at position `k` of the figure touches the point `(px, py)` with the end that suction and pressure have on the surface. -/
def Touches (a : Arrow) (cp px py : ℝ) : Prop := if cp < 0 then a.x = px ∧ a.y = py else a.x + a.dx = px ∧ a.y + a.dy = py

/-- C457, all arrows: one for each of the pressures, which are one fewer than the points of the contour, with the arrow of pressure `k`
drawn at point `k`. -/
theorem C457_arrows (npanel : ℕ) (c : Case) :
    (arrows npanel c).length = npanel - 1 ∧
    ∀ k a, (arrows npanel c)[k]? = some a →
      a.dx = 1 / 10 * (-c.cp k * c.nx k) ∧ a.dy = 1 / 10 * (-c.cp k * c.ny k) ∧ Touches a (c.cp k) (c.x k) (c.y k) := by
  refine ⟨by simp [arrows], fun k a h => ?_⟩
  simp only [arrows, List.getElem?_map, Option.map_eq_some_iff] at h
  obtain ⟨i, hi, rfl⟩ := h
  have hik : i = k := by
    rw [List.getElem?_eq_some_iff] at hi
    obtain ⟨_, hv⟩ := hi
    simpa using hv.symm
  subst hik
  refine ⟨(C457_force _ _ _ _ _).1, (C457_force _ _ _ _ _).2, ?_⟩
  unfold Touches
  split
  · exact (C457_place _ _ _ _ _).1 ‹_›
  · exact (C457_place _ _ _ _ _).2 (not_lt.mp ‹_›)

example (c : Case) : (arrows 3 c).length = 2 := (C457_arrows 3 c).1

/-- C457 fails for the place of the pressures: with no boundary layer, pressure `k` is that of the panel from point `k` to point `k+1`, and
its arrow touches the contour in the middle of this panel only if the panel has no length. -/
theorem C457_middle_counterexample (npanel : ℕ) (c : Case) (k : ℕ) (a : Arrow) (h : (arrows npanel c)[k]? = some a) :
    Touches a (c.cp k) ((c.x k + c.x (k + 1)) / 2) ((c.y k + c.y (k + 1)) / 2) ↔ c.x k = c.x (k + 1) ∧ c.y k = c.y (k + 1) := by
  have ht := ((C457_arrows npanel c).2 k a h).2.2
  unfold Touches at *
  split at ht
  · rename_i hc
    simp only [hc, if_true]
    rw [ht.1, ht.2]
    constructor <;> rintro ⟨h1, h2⟩ <;> constructor <;> linarith
  · rename_i hc
    simp only [hc, if_false]
    rw [ht.1, ht.2]
    constructor <;> rintro ⟨h1, h2⟩ <;> constructor <;> linarith

theorem round_ne {a b : ℝ} (h : 1 < |a - b|) : round a ≠ round b := by
  intro he
  have h1 := abs_sub_round a
  have h2 := abs_sub_round b
  rw [he] at h1
  rw [abs_le] at h1 h2
  rcases lt_abs.mp h with h3 | h3 <;> linarith [h1.1, h1.2, h2.1, h2.2]

/-- C457, own windows: cases more than a hundredth of a degree or ten thousand in the Reynolds number apart get different windows. -/
theorem C457_windows_partial (a a' re re' : ℝ) (h : 1 / 100 * (Real.pi / 180) < |a - a'| ∨ 10000 < |re - re'|) : window a re ≠ window a' re' := by
  rw [show Real.pi / 180 = degree from rfl] at h
  have hd : 0 < degree := by unfold degree; positivity
  intro he
  simp only [window, Prod.mk.injEq] at he
  rcases h with h | h
  · refine round_ne ?_ he.1
    have : a / degree * 100 - a' / degree * 100 = (a - a') * (100 / degree) := by ring
    rw [this, abs_mul, abs_of_pos (by positivity : 0 < 100 / degree), mul_div_assoc', lt_div_iff₀ hd]
    linarith
  · refine round_ne ?_ he.2
    have : re / 1000000 * 100 - re' / 1000000 * 100 = (re - re') * (1 / 10000) := by ring
    rw [this, abs_mul, abs_of_pos (by norm_num : (0 : ℝ) < 1 / 10000)]
    linarith

example : window 0 1000000 ≠ window 0 3000000 := C457_windows_partial _ _ _ _ (Or.inr (by norm_num))

/-- C457 fails for close cases: at Reynolds numbers 50000 and 54000 the arrows of both are drawn in one window. -/
theorem C457_windows_counterexample (a : ℝ) : window a 50000 = window a 54000 := by
  simp only [window, Prod.mk.injEq, true_and]
  rw [round_eq, round_eq]
  norm_num [Int.floor_eq_iff]

/-! ### C458 -/

/-- C458, polars of files: row `j` shows polar `j`; every angle shown is the angle in degrees, every coefficient as it is, and the label is
the Reynolds number to the nearest whole. -/
theorem C458_files (p : Polars) (j : ℕ) (r : FileRow) (h : (fileRows p)[j]? = some r) :
    (∃ re, p.re[j]? = some re ∧ |r.label * 1000000 - re| ≤ 1 / 2) ∧
    r.lift.map (fun q => (q.1 * (Real.pi / 180), q.2)) = p.aoa.zip (p.cl j) ∧ r.drag.map (fun q => (q.1 * (Real.pi / 180), q.2)) = p.aoa.zip (p.cd j) := by
  rw [show Real.pi / 180 = degree from rfl]
  have hd : degree ≠ 0 := by unfold degree; positivity
  simp only [fileRows, List.getElem?_map, Option.map_eq_some_iff, List.getElem?_zipIdx] at h
  obtain ⟨⟨re, i⟩, ⟨re', hre, hi⟩, rfl⟩ := h
  simp only [Prod.mk.injEq, zero_add] at hi
  obtain ⟨rfl, rfl⟩ := hi
  have hz : ∀ l : List ℝ, ((p.aoa.map (· / degree)).zip l).map (fun q => (q.1 * degree, q.2)) = p.aoa.zip l := by
    intro l
    induction p.aoa generalizing l with
    | nil => simp
    | cons a t ih =>
      cases l with
      | nil => simp
      | cons b l => simp [ih, hd]
  refine ⟨⟨re', hre, ?_⟩, hz _, hz _⟩
  have := abs_sub_round re'
  rw [abs_sub_comm] at this
  simpa using this

theorem C458_files_count (p : Polars) : (fileRows p).length = p.re.length := by simp [fileRows]

example : (fileRows ⟨[1, 2], [0], fun _ => [1], fun _ => [2]⟩).length = 2 := by simp [fileRows]

/-- C458, polars as stored: line `j` shows polar `j` with its Reynolds number, lift against drag, and the ratio of drag to lift wherever
there is lift. What is missing: the angles are not in the unit named at the axes. -/
theorem C458_stored_partial (p : Polars) (j : ℕ) (r : PolarLines) (h : (polarLines p)[j]? = some r) :
    p.re[j]? = some r.label ∧ r.lift.map Prod.snd = (p.aoa.zip (p.cl j)).map Prod.snd ∧ r.drag.map Prod.snd = (p.aoa.zip (p.cd j)).map Prod.snd ∧
    r.polar = (p.cd j).zip (p.cl j) ∧
    ∀ (k : ℕ) (a : ℝ) (q : Option ℝ), r.ratio[k]? = some (a, q) → ∃ cd cl, (p.cd j)[k]? = some cd ∧ (p.cl j)[k]? = some cl ∧
      (q = none ↔ cl = 0) ∧ ∀ v, q = some v → v * cl = cd := by
  simp only [polarLines, List.getElem?_map, Option.map_eq_some_iff, List.getElem?_zipIdx] at h
  obtain ⟨⟨re, i⟩, ⟨re', hre, hi⟩, rfl⟩ := h
  simp only [Prod.mk.injEq, zero_add] at hi
  obtain ⟨rfl, rfl⟩ := hi
  refine ⟨hre, rfl, rfl, rfl, fun k a q hq => ?_⟩
  simp only [List.zip, List.getElem?_zipWith_eq_some] at hq
  obtain ⟨a', q', _, ⟨cd, cl, hcd, hcl, rfl⟩, he⟩ := hq
  simp only [Prod.mk.injEq] at he
  obtain ⟨rfl, rfl⟩ := he
  refine ⟨cd, cl, hcd, hcl, ?_⟩
  unfold dragOverLift
  by_cases h0 : cl = 0
  · simp [h0]
  · simp only [h0, if_false, iff_false, reduceCtorEq, not_false_eq_true, true_and, Option.some.injEq]
    rintro v rfl
    field_simp

example : (polarLines ⟨[1, 2], [0], fun _ => [1], fun _ => [2]⟩).length = 2 := by simp [polarLines]

/-- C458 fails for the polars as stored: under the name of degrees the angles are drawn in radians, so that an angle is right only at zero. -/
theorem C458_unit_counterexample (p : Polars) (j : ℕ) (r : PolarLines) (h : (polarLines p)[j]? = some r) (k : ℕ) (shown c angle : ℝ)
    (hk : r.lift[k]? = some (shown, c)) (ha : p.aoa[k]? = some angle) : shown * (Real.pi / 180) = angle ↔ angle = 0 := by
  rw [show Real.pi / 180 = degree from rfl]
  simp only [polarLines, List.getElem?_map, Option.map_eq_some_iff, List.getElem?_zipIdx] at h
  obtain ⟨⟨re, i⟩, ⟨re', hre, hi⟩, rfl⟩ := h
  simp only [List.zip, List.getElem?_zipWith_eq_some] at hk
  obtain ⟨a, b, h1, _, h3⟩ := hk
  rw [h1] at ha
  simp only [Prod.mk.injEq] at h3
  obtain ⟨rfl, rfl⟩ := h3
  cases ha
  have hd : degree < 1 := by unfold degree; linarith [Real.pi_le_four]
  constructor
  · intro he
    have : angle * (degree - 1) = 0 := by linarith
    rcases mul_eq_zero.mp this with h | h
    · exact h
    · linarith
  · rintro rfl
    ring

/-- C458 fails for the grid: it is seen exactly with an odd number of polars. -/
theorem C458_grid_counterexample (p : Polars) : gridAfter p = true ↔ p.re.length % 2 = 1 := by
  have key : ∀ (l : List ℝ) (b : Bool), l.foldl (fun on _ => !on) b = (if l.length % 2 = 1 then !b else b) := by
    intro l
    induction l with
    | nil => simp
    | cons a t ih =>
      intro b
      rw [List.foldl_cons, ih]
      rcases Nat.mod_two_eq_zero_or_one t.length with h | h
      · have : (t.length + 1) % 2 = 1 := by omega
        simp [h, this]
      · have : (t.length + 1) % 2 = 0 := by omega
        simp [h, this]
  unfold gridAfter
  rw [key]
  split <;> simp_all

end Verif.Airfoil.Figures
