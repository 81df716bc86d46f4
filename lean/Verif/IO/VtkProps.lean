import Verif.IO.Vtk
import Mathlib.Tactic.Ring
import Mathlib.Tactic.Linarith
import Mathlib.Tactic.FieldSimp
import Mathlib.Algebra.BigOperators.Group.Finset.Basic

/-!
C284 closed bodies and blades, C285 wings, C286 rotor wakes, C287 vortices of a wing, C288 files of a vehicle.
-/

namespace Verif.IO.Vtk

/-- Specification: a file a reader accepts. All declared numbers are those of the lists, every vertex exists, cells have the number of
vertices of their type (9 quadrilateral, 4 line), and every scalar has one value for each cell. -/
structure File.Valid {P S : Type} (f : File P S) : Prop where
  points : f.nPoints = f.points.length
  cells : f.nCells = f.cells.length
  types : f.nTypes = f.nCells ∧ List.Forall₂ (fun c t => t = 9 ∧ c.length = 4 ∨ t = 4 ∧ 2 ≤ c.length) f.cells f.types
  size : f.size = (f.cells.map fun c => 1 + c.length).sum
  vertices : ∀ c ∈ f.cells, ∀ v ∈ c, v < f.nPoints
  data : f.nData = f.nCells ∧ f.index.length = f.nCells ∧ ∀ d ∈ f.data, d.length = f.nCells

/-- Coordinates of the vertices of cell `i`. -/
def File.corners {P S : Type} (f : File P S) (i : ℕ) : Option (List (Option P)) := (f.cells[i]?).map fun c => c.map fun v => f.points[v]?

/-! ### Lists in blocks -/

theorem dm (s c m : ℕ) (h : c < m) : (s * m + c) / m = s ∧ (s * m + c) % m = c := by
  constructor
  · rw [Nat.mul_comm, Nat.mul_add_div (by omega), Nat.div_eq_of_lt h, Nat.add_zero]
  · rw [Nat.mul_comm, Nat.mul_add_mod, Nat.mod_eq_of_lt h]

theorem split_idx (i m : ℕ) (h : 0 < m) : ∃ s c, c < m ∧ i = s * m + c :=
  ⟨i / m, i % m, Nat.mod_lt _ h, by rw [Nat.mul_comm]; exact (Nat.div_add_mod i m).symm⟩

theorem idx_lt {s c n m : ℕ} (hs : s < n) (hc : c < m) : s * m + c < n * m := by
  have : (s + 1) * m ≤ n * m := Nat.mul_le_mul_right m hs
  rw [Nat.add_mul, Nat.one_mul] at this
  omega

theorem grid_eq {α : Type} (n m : ℕ) (f : ℕ → ℕ → α) :
    ((List.range n).flatMap fun r => (List.range m).map fun a => f r a) = (List.range (n * m)).map fun k => f (k / m) (k % m) := by
  induction n with
  | zero => simp
  | succ n ih =>
    rw [List.range_succ, List.flatMap_append, ih, Nat.add_mul, Nat.one_mul, List.range_add, List.map_append]
    congr 1
    simp only [List.flatMap_cons, List.flatMap_nil, List.append_nil, List.map_map]
    apply List.map_congr_left
    intro a ha
    obtain ⟨h1, h2⟩ := dm n a m (List.mem_range.1 ha)
    simp [h1, h2]

theorem grid3_eq {α : Type} (l n m : ℕ) (f : ℕ → ℕ → ℕ → α) :
    ((List.range l).flatMap fun b => (List.range n).flatMap fun r => (List.range m).map fun a => f b r a) =
      (List.range (l * (n * m))).map fun k => f (k / (n * m)) (k % (n * m) / m) (k % (n * m) % m) := by
  simp only [grid_eq n m]
  exact grid_eq l (n * m) fun b k => f b (k / m) (k % m)

theorem map_range_get {α : Type} (n k : ℕ) (h : k < n) (f : ℕ → α) : ((List.range n).map f)[k]? = some (f k) := by
  simp [h]

theorem replicate_types {α : Type} (n : ℕ) (f : ℕ → List ℕ) (hf : ∀ i, (f i).length = 4) (_ : α) :
    List.Forall₂ (fun (c : List ℕ) t => t = 9 ∧ c.length = 4 ∨ t = 4 ∧ 2 ≤ c.length) ((List.range n).map f) (List.replicate n 9) := by
  rw [List.forall₂_iff_get]
  refine ⟨by simp, fun i h1 h2 => Or.inl ⟨by simp, by simp [hf]⟩⟩

theorem sum_size (n m : ℕ) (f : ℕ → List ℕ) (hf : ∀ i, (f i).length = m) : n * (1 + m) = (((List.range n).map f).map fun c => 1 + c.length).sum := by
  rw [List.map_map]
  have : ((fun c : List ℕ => 1 + c.length) ∘ f) = fun _ => 1 + m := by funext i; simp [hf]
  rw [this]; simp

/-! ### C284 -/

/-- Specification: the quadrilateral between station `k / na` and the next, and between the points `k % na` and the one after it around. -/
def azQuad (na k : ℕ) : List ℕ :=
  [k / na * na + k % na, k / na * na + (k % na + 1) % na, (k / na + 1) * na + (k % na + 1) % na, (k / na + 1) * na + k % na]

theorem azLoop_eq (na : ℕ) (h : 0 < na) (k i : ℕ) : azLoop na k i (i / na) = (List.range' i k).map (azQuad na) := by
  induction k generalizing i with
  | zero => simp [azLoop]
  | succ k ih =>
    rw [List.range'_succ, List.map_cons, azLoop]
    obtain ⟨s, c, hc, rfl⟩ := split_idx i na h
    obtain ⟨e1, e2⟩ := dm s c na hc
    have := ih (s * na + c + 1)
    by_cases hl : c = na - 1
    · have hi : s * na + c = na - 1 + na * ((s * na + c) / na) := by rw [e1, hl, Nat.mul_comm na s]; omega
      have hn : (s * na + c + 1) / na = s + 1 := by
        have : s * na + c + 1 = (s + 1) * na + 0 := by rw [Nat.add_mul]; omega
        rw [this]; exact (dm (s + 1) 0 na h).1
      rw [hn] at this
      rw [if_pos hi, e1, this]
      congr 1
      simp only [azQuad, e1, e2]
      have : (c + 1) % na = 0 := by rw [show c + 1 = na by omega, Nat.mod_self]
      rw [this, Nat.add_mul]
      simp only [List.cons.injEq, true_and, and_true]
      omega
    · have hi : ¬ s * na + c = na - 1 + na * ((s * na + c) / na) := by rw [e1, Nat.mul_comm na s]; omega
      have hn : (s * na + c + 1) / na = s := by rw [Nat.add_assoc]; exact (dm s (c + 1) na (by omega)).1
      rw [hn] at this
      rw [if_neg hi, e1, this]
      congr 1
      simp only [azQuad, e1, e2]
      have : (c + 1) % na = c + 1 := Nat.mod_eq_of_lt (by omega)
      rw [this, Nat.add_mul]
      simp only [List.cons.injEq, true_and, and_true]
      omega

theorem azCells_eq (na n : ℕ) (h : 0 < na) : azLoop na n 0 0 = (List.range n).map (azQuad na) := by
  have := azLoop_eq na h n 0
  rwa [Nat.zero_div, ← List.range_eq_range'] at this

/-- **C284, files.** The file of a fuselage, a nacelle or a blade with any number of stations and points around is accepted by a
reader; cell `r, a` joins station `r` to the next between neighbouring points around, the last to the first; and a field written for a
cell is the mean over its corners. -/
theorem C284_bodies {P : Type} (nr na : ℕ) (hr : 0 < nr) (ha : 0 < na) (pt : ℕ → ℕ → P) (fields : List (ℕ → ℕ → ℝ)) :
    (bodyFile nr na pt fields).Valid ∧
    (∀ r a, r + 1 < nr → a < na → (bodyFile nr na pt fields).corners (r * na + a) =
      some [some (pt r a), some (pt r ((a + 1) % na)), some (pt (r + 1) ((a + 1) % na)), some (pt (r + 1) a)]) ∧
    (∀ (k : ℕ) (v : ℕ → ℕ → ℝ), fields[k]? = some v → ∃ d, (bodyFile nr na pt fields).data[k]? = some d ∧ ∀ r a, r + 1 < nr → a < na →
      d[r * na + a]? = some ((v r a + v r ((a + 1) % na) + v (r + 1) ((a + 1) % na) + v (r + 1) a) / 4)) := by
  have hcells : (bodyFile nr na pt fields).cells = (List.range (na * (nr - 1))).map (azQuad na) := azCells_eq na _ ha
  have hpts : (bodyFile nr na pt fields).points = (List.range (nr * na)).map fun k => pt (k / na) (k % na) := grid_eq nr na pt
  have hn : na * (nr - 1) = (nr - 1) * na := Nat.mul_comm _ _
  refine ⟨⟨?_, ?_, ⟨rfl, ?_⟩, ?_, ?_, rfl, ?_, ?_⟩, ?_, ?_⟩
  · rw [hpts]; simp [bodyFile]
  · rw [hcells]; simp [bodyFile]
  · rw [hcells]; exact replicate_types _ _ (fun i => rfl) ()
  · rw [hcells]; exact sum_size _ 4 _ fun i => rfl
  · rw [hcells]
    intro c hc v hv
    obtain ⟨k, hk, rfl⟩ := List.mem_map.1 hc
    rw [List.mem_range, hn] at hk
    obtain ⟨s, a, h1, rfl⟩ := split_idx k na ha
    obtain ⟨e1, e2⟩ := dm s a na h1
    have hs : s + 1 < nr := by
      by_contra hcon
      have : (nr - 1) * na ≤ s * na := Nat.mul_le_mul_right na (by omega)
      omega
    have hm : (a + 1) % na < na := Nat.mod_lt _ ha
    simp only [azQuad, e1, e2, List.mem_cons, List.not_mem_nil, or_false] at hv
    show v < nr * na
    rcases hv with rfl | rfl | rfl | rfl
    · exact idx_lt (by omega) h1
    · exact idx_lt (by omega) hm
    · exact idx_lt hs hm
    · exact idx_lt hs h1
  · simp [bodyFile]
  · intro d hd
    simp only [bodyFile, List.mem_map] at hd
    obtain ⟨v, -, rfl⟩ := hd
    rw [grid_eq]; simp [bodyFile, hn]
  · intro r a h1 h2
    have hm : (a + 1) % na < na := Nat.mod_lt _ ha
    have hk : r * na + a < na * (nr - 1) := by rw [hn]; exact idx_lt (by omega) h2
    obtain ⟨e1, e2⟩ := dm r a na h2
    rw [File.corners, hcells, map_range_get _ _ hk, Option.map_some, hpts]
    simp only [azQuad, e1, e2, List.map_cons, List.map_nil]
    rw [map_range_get _ _ (idx_lt (by omega) h2), map_range_get _ _ (idx_lt (by omega) hm), map_range_get _ _ (idx_lt h1 hm),
      map_range_get _ _ (idx_lt h1 h2), (dm r a na h2).1, (dm r a na h2).2, (dm r _ na hm).1, (dm r _ na hm).2, (dm (r + 1) _ na hm).1,
      (dm (r + 1) _ na hm).2, (dm (r + 1) a na h2).1, (dm (r + 1) a na h2).2]
  · intro k v hv
    refine ⟨_, by simp only [bodyFile, List.getElem?_map, hv, Option.map_some]; rfl, fun r a h1 h2 => ?_⟩
    rw [grid_eq, map_range_get _ _ (idx_lt (by omega) h2), (dm r a na h2).1, (dm r a na h2).2]
    have : (if a = na - 1 then 0 else a + 1) = (a + 1) % na := by
      split_ifs with h
      · rw [show a + 1 = na by omega, Nat.mod_self]
      · rw [Nat.mod_eq_of_lt (by omega)]
    simp only [bladeMean, this]
    congr 1
    ring

example : (bodyFile 3 4 (fun r a => (r, a)) []).corners 7 = some [some (1, 3), some (1, 0), some (2, 0), some (2, 3)] :=
  (C284_bodies 3 4 (by norm_num) (by norm_num) (fun r a => (r, a)) []).2.1 1 3 (by norm_num) (by norm_num)

/-- **C284, fuselage sections.** The stations reach exactly to half the width and half the height, and are circles when these are equal. -/
theorem C284_section_partial (w h : ℝ) (hw : 0 ≤ w) (hh : 0 ≤ h) :
    fusPoint w h 0 = (w / 2, 0) ∧ fusPoint w h (Real.pi / 2) = (0, h / 2) ∧
    ∀ θ, w = h → (fusPoint w h θ).1 ^ 2 + (fusPoint w h θ).2 ^ 2 = (w / 2) ^ 2 := by
  refine ⟨?_, ?_, ?_⟩
  · simp [fusPoint, Real.sqrt_sq (by linarith : 0 ≤ w / 2)]
  · simp [fusPoint, Real.sqrt_sq (by linarith : 0 ≤ h / 2)]
  · rintro θ rfl
    have e : (w / 2 * Real.sin θ) ^ 2 + (w / 2 * Real.cos θ) ^ 2 = (w / 2) ^ 2 := by
      have := Real.sin_sq_add_cos_sq θ
      linear_combination (w / 2) ^ 2 * this
    simp only [fusPoint, e, Real.sqrt_sq (by linarith : 0 ≤ w / 2)]
    have := Real.sin_sq_add_cos_sq θ
    linear_combination (w / 2) ^ 2 * this

/-- **C284 fails for other sections.** They are not ellipses: between the axes every section that is not a circle lies outside its
ellipse. -/
theorem C284_section_counterexample (w h : ℝ) (hw : 0 < w) (hh : 0 < h) (hne : w ≠ h) :
    1 < ((fusPoint w h (Real.pi / 4)).1 / (w / 2)) ^ 2 + ((fusPoint w h (Real.pi / 4)).2 / (h / 2)) ^ 2 := by
  have hs : (Real.sqrt 2 / 2) ^ 2 = 1 / 2 := by rw [div_pow, Real.sq_sqrt (by norm_num)]; norm_num
  have hr : Real.sqrt ((h / 2 * (Real.sqrt 2 / 2)) ^ 2 + (w / 2 * (Real.sqrt 2 / 2)) ^ 2) ^ 2 = (h ^ 2 + w ^ 2) / 8 := by
    rw [Real.sq_sqrt (by positivity), mul_pow, mul_pow, hs]; ring
  simp only [fusPoint, Real.sin_pi_div_four, Real.cos_pi_div_four]
  rw [div_pow _ (w / 2), div_pow _ (h / 2), mul_pow, hr, hs]
  have : (h ^ 2 + w ^ 2) / 8 * (1 / 2) / (w / 2) ^ 2 + (h ^ 2 + w ^ 2) / 8 * (1 / 2) / (h / 2) ^ 2 =
      1 + (w ^ 2 - h ^ 2) ^ 2 / (4 * w ^ 2 * h ^ 2) := by
    field_simp; ring
  rw [this]
  have hd : w ^ 2 - h ^ 2 ≠ 0 := by
    intro e
    have : (w - h) * (w + h) = 0 := by linarith
    rcases mul_eq_zero.1 this with h1 | h1
    · exact hne (by linarith)
    · linarith
  have : 0 < (w ^ 2 - h ^ 2) ^ 2 / (4 * w ^ 2 * h ^ 2) := by positivity
  linarith

/-! ### C285 -/

/-- Specification: node of a grid with `n` panels in a row. -/
def gridQuad (n base k : ℕ) : List ℕ :=
  [base + (k / n * (n + 1) + k % n), base + (k / n * (n + 1) + (k % n + 1)), base + ((k / n + 1) * (n + 1) + (k % n + 1)),
    base + ((k / n + 1) * (n + 1) + k % n)]

theorem gridLoop_eq (n base : ℕ) (h : 0 < n) (k i node : ℕ)
    (hn : i = 0 ∨ node = base + ((i - 1) / n * (n + 1) + (i - 1) % n) + 1) : gridLoop n base k i node = (List.range' i k).map (gridQuad n base) := by
  induction k generalizing i node with
  | zero => simp [gridLoop]
  | succ k ih =>
    rw [List.range'_succ, List.map_cons, gridLoop]
    have key : (if i = 0 then base else if i % n = 0 then node + 1 else node) = base + (i / n * (n + 1) + i % n) := by
      rcases Nat.eq_zero_or_pos i with rfl | hi
      · simp
      rw [if_neg (by omega)]
      have hn := hn.resolve_left (by omega)
      obtain ⟨s, c, hc, e⟩ := split_idx (i - 1) n h
      obtain ⟨e1, e2⟩ := dm s c n hc
      rw [e, e1, e2] at hn
      by_cases hl : c + 1 = n
      · have ei : i = (s + 1) * n + 0 := by rw [Nat.add_mul]; omega
        obtain ⟨e3, e4⟩ := dm (s + 1) 0 n h
        rw [← ei] at e3 e4
        rw [if_pos e4, e3, e4, hn, Nat.add_mul]
        omega
      · have ei : i = s * n + (c + 1) := by omega
        obtain ⟨e3, e4⟩ := dm s (c + 1) n (by omega)
        rw [← ei] at e3 e4
        rw [if_neg (by omega), e3, e4, hn]
        omega
    simp only [key]
    rw [ih (i + 1) _ (Or.inr (by simp))]
    congr 1
    simp only [gridQuad, List.cons.injEq, true_and, and_true, Nat.add_mul]
    omega

theorem gridCells_eq (n base k : ℕ) (h : 0 < n) : gridLoop n base k 0 0 = (List.range k).map (gridQuad n base) := by
  rw [gridLoop_eq n base h k 0 0 (Or.inl rfl), List.range_eq_range']

/-- Specification: the point at strip border `s` and chordwise border `c`. -/
def wingPt {P : Type} (w : Corners P) (ncw nsw s c : ℕ) : P :=
  if s = nsw then (if c = ncw then w.B2 ((nsw - 1) * ncw + (ncw - 1)) else w.B1 ((nsw - 1) * ncw + c))
  else if c = ncw then w.A2 (s * ncw + (ncw - 1)) else w.A1 (s * ncw + c)

theorem wingPoints_eq {P : Type} (w : Corners P) (ncw nsw : ℕ) (hc : 0 < ncw) (hs : 0 < nsw) (k i : ℕ) (hk : i + k ≤ (nsw + 1) * (ncw + 1)) (laps : ℕ)
    (hl : laps = min (i / (ncw + 1)) nsw) :
    wingPoints w ncw nsw k i laps = (List.range' i k).map fun j => wingPt w ncw nsw (j / (ncw + 1)) (j % (ncw + 1)) := by
  induction k generalizing i laps with
  | zero => simp [wingPoints]
  | succ k ih =>
    rw [List.range'_succ, List.map_cons, wingPoints]
    obtain ⟨s, c, hlt, rfl⟩ := split_idx i (ncw + 1) (by omega)
    obtain ⟨e1, e2⟩ := dm s c (ncw + 1) hlt
    have hsn : s ≤ nsw := by
      by_contra hcon
      have : (nsw + 1) * (ncw + 1) ≤ s * (ncw + 1) := Nat.mul_le_mul_right _ (by omega)
      omega
    have hlaps : laps = s := by rw [hl, e1]; omega
    subst hlaps
    have hN : (ncw + 1) * (nsw + 1) = nsw * (ncw + 1) + (ncw + 1) := by ring
    have hx : laps * (ncw + 1) = laps * ncw + laps := by ring
    have hstep : min ((laps * (ncw + 1) + c + 1) / (ncw + 1)) nsw = if c = ncw then min (laps + 1) nsw else laps := by
      split_ifs with h
      · have : laps * (ncw + 1) + c + 1 = (laps + 1) * (ncw + 1) + 0 := by rw [h]; ring
        rw [this, (dm (laps + 1) 0 (ncw + 1) (by omega)).1]
      · rw [Nat.add_assoc, (dm laps (c + 1) (ncw + 1) (by omega)).1]; omega
    simp only [hN, e1, e2]
    by_cases hlast : laps = nsw
    · subst hlast
      have hx' : (laps - 1) * ncw + ncw = laps * ncw := by
        obtain ⟨m, rfl⟩ : ∃ m, laps = m + 1 := ⟨laps - 1, by omega⟩
        simp; ring
      have nxt : laps = min ((laps * (ncw + 1) + c + 1) / (ncw + 1)) laps := by rw [hstep]; split_ifs <;> omega
      by_cases hcl : c = ncw
      · rw [if_pos (by omega), ih _ (by omega) _ nxt]
        congr 1
        rw [wingPt, if_pos rfl, if_pos hcl]
        congr 1; omega
      · rw [if_neg (by omega), if_pos (by omega), ih _ (by omega) _ nxt]
        congr 1
        rw [wingPt, if_pos rfl, if_neg hcl]
        congr 1; omega
    · have hlt' : laps * (ncw + 1) + (ncw + 1) ≤ nsw * (ncw + 1) := by
        have : (laps + 1) * (ncw + 1) ≤ nsw * (ncw + 1) := Nat.mul_le_mul_right _ (by omega)
        rwa [Nat.add_mul, Nat.one_mul] at this
      rw [if_neg (by omega), if_neg (by omega)]
      by_cases h0 : laps * (ncw + 1) + c = 0
      · have hl0 : laps = 0 := by
          rcases Nat.eq_zero_or_pos laps with h | h
          · exact h
          · have : 1 * (ncw + 1) ≤ laps * (ncw + 1) := Nat.mul_le_mul_right _ h
            omega
        subst hl0
        have hc0 : c = 0 := by omega
        subst hc0
        rw [if_pos h0, ih _ (by omega) _ (by rw [hstep, if_neg (by omega)])]
        congr 1
        rw [wingPt, if_neg hlast, if_neg (by omega)]; congr 1
      rw [if_neg h0]
      by_cases hcl : c = ncw
      · have hd : (laps * (ncw + 1) + c) / (ncw + laps * (ncw + 1)) = 1 := by
          rw [hcl, Nat.add_comm]; exact Nat.div_self (by omega)
        rw [if_pos hd, ih _ (by omega) _ (by rw [hstep, if_pos hcl]; omega)]
        congr 1
        rw [wingPt, if_neg hlast, if_pos hcl]; congr 1; omega
      · have hd : (laps * (ncw + 1) + c) / (ncw + laps * (ncw + 1)) = 0 := Nat.div_eq_of_lt (by omega)
        rw [if_neg (by omega), ih _ (by omega) _ (by rw [hstep, if_neg hcl])]
        congr 1
        rw [wingPt, if_neg hlast, if_neg hcl]; congr 1; omega

/-- Specification: panels of a surface that share their corners. -/
structure Corners.Joined {P : Type} (w : Corners P) (ncw nsw : ℕ) : Prop where
  chord : ∀ s c, s < nsw → c + 1 < ncw → w.A2 (s * ncw + c) = w.A1 (s * ncw + (c + 1)) ∧ w.B2 (s * ncw + c) = w.B1 (s * ncw + (c + 1))
  span : ∀ s c, s + 1 < nsw → c < ncw → w.B1 (s * ncw + c) = w.A1 ((s + 1) * ncw + c) ∧ w.B2 (s * ncw + c) = w.A2 ((s + 1) * ncw + c)

theorem wingPt_corners {P : Type} (w : Corners P) (ncw nsw : ℕ) (hj : w.Joined ncw nsw) (s c : ℕ) (hs : s < nsw) (hc : c < ncw) :
    wingPt w ncw nsw s c = w.A1 (s * ncw + c) ∧ wingPt w ncw nsw s (c + 1) = w.A2 (s * ncw + c) ∧
    wingPt w ncw nsw (s + 1) (c + 1) = w.B2 (s * ncw + c) ∧ wingPt w ncw nsw (s + 1) c = w.B1 (s * ncw + c) := by
  refine ⟨?_, ?_, ?_, ?_⟩
  · rw [wingPt, if_neg (by omega), if_neg (by omega)]
  · rw [wingPt, if_neg (by omega)]
    split_ifs with h
    · rw [show ncw - 1 = c by omega]
    · exact ((hj.chord s c hs (by omega)).1).symm
  · rw [wingPt]
    split_ifs with h1 h2 h2
    · rw [show ncw - 1 = c by omega, show nsw - 1 = s by omega]
    · rw [show nsw - 1 = s by omega]; exact ((hj.chord s c hs (by omega)).2).symm
    · rw [show ncw - 1 = c by omega]; exact ((hj.span s c (by omega) hc).2).symm
    · rw [(hj.chord s c hs (by omega)).2, (hj.span s (c + 1) (by omega) (by omega)).1]
  · rw [wingPt]
    split_ifs with h1 h2 h2
    · omega
    · rw [show nsw - 1 = s by omega]
    · omega
    · exact ((hj.span s c (by omega) hc).1).symm

/-- **C285, grid.** The file of a surface is accepted by a reader, and its cells are the panels: the vertices of cell `i` lie at the
four corners of panel `i`, and its scalars are the lift of its strip and its own pressure. -/
theorem C285_grid {P S : Type} (w : Corners P) (ncw nsw : ℕ) (hc : 0 < ncw) (hs : 0 < nsw) (cl cp : ℕ → S) :
    (wingFile w ncw nsw cl cp).Valid ∧
    (w.Joined ncw nsw → ∀ s c, s < nsw → c < ncw → (wingFile w ncw nsw cl cp).corners (s * ncw + c) =
      some [some (w.A1 (s * ncw + c)), some (w.A2 (s * ncw + c)), some (w.B2 (s * ncw + c)), some (w.B1 (s * ncw + c))]) ∧
    (∀ s c, s < nsw → c < ncw → (wingFile w ncw nsw cl cp).data.map (fun d => d[s * ncw + c]?) = [some (cl s), some (cp (s * ncw + c))]) := by
  have hcells : (wingFile w ncw nsw cl cp).cells = (List.range (ncw * nsw)).map (gridQuad ncw 0) := gridCells_eq ncw 0 _ hc
  have hN : (ncw + 1) * (nsw + 1) = (nsw + 1) * (ncw + 1) := Nat.mul_comm _ _
  have hpts : (wingFile w ncw nsw cl cp).points = (List.range ((nsw + 1) * (ncw + 1))).map fun j => wingPt w ncw nsw (j / (ncw + 1)) (j % (ncw + 1)) := by
    simp only [wingFile, hN]
    rw [wingPoints_eq w ncw nsw hc hs _ 0 (by omega) 0 (by simp), List.range_eq_range']
  have hn : ncw * nsw = nsw * ncw := Nat.mul_comm _ _
  refine ⟨⟨?_, ?_, ⟨rfl, ?_⟩, ?_, ?_, rfl, ?_, ?_⟩, ?_, ?_⟩
  · rw [hpts]; simp [wingFile, hN]
  · rw [hcells]; simp [wingFile]
  · rw [hcells]; exact replicate_types _ _ (fun i => rfl) ()
  · rw [hcells]; exact sum_size _ 4 _ fun i => rfl
  · rw [hcells]
    intro q hq v hv
    obtain ⟨k, hk, rfl⟩ := List.mem_map.1 hq
    rw [List.mem_range, hn] at hk
    obtain ⟨s, c, h1, rfl⟩ := split_idx k ncw hc
    obtain ⟨e1, e2⟩ := dm s c ncw h1
    have hs' : s < nsw := by
      by_contra hcon
      have : nsw * ncw ≤ s * ncw := Nat.mul_le_mul_right ncw (by omega)
      omega
    simp only [gridQuad, e1, e2, List.mem_cons, List.not_mem_nil, or_false, Nat.zero_add] at hv
    show v < (ncw + 1) * (nsw + 1)
    rw [hN]
    rcases hv with rfl | rfl | rfl | rfl <;> exact idx_lt (by omega) (by omega)
  · simp [wingFile]
  · intro d hd
    simp only [wingFile, List.mem_cons, List.not_mem_nil, or_false] at hd
    rcases hd with rfl | rfl <;> simp [wingFile]
  · intro hj s c h1 h2
    have hk : s * ncw + c < ncw * nsw := by rw [hn]; exact idx_lt h1 h2
    obtain ⟨e1, e2⟩ := dm s c ncw h2
    obtain ⟨p1, p2, p3, p4⟩ := wingPt_corners w ncw nsw hj s c h1 h2
    rw [File.corners, hcells, map_range_get _ _ hk, Option.map_some, hpts]
    simp only [gridQuad, e1, e2, List.map_cons, List.map_nil, Nat.zero_add]
    rw [map_range_get _ _ (idx_lt (by omega) (by omega)), map_range_get _ _ (idx_lt (by omega) (by omega)),
      map_range_get _ _ (idx_lt (by omega) (by omega)), map_range_get _ _ (idx_lt (by omega) (by omega)),
      (dm s c _ (by omega)).1, (dm s c _ (by omega)).2, (dm s (c + 1) _ (by omega)).1, (dm s (c + 1) _ (by omega)).2,
      (dm (s + 1) (c + 1) _ (by omega)).1, (dm (s + 1) (c + 1) _ (by omega)).2, (dm (s + 1) c _ (by omega)).1, (dm (s + 1) c _ (by omega)).2,
      p1, p2, p3, p4]
  · intro s c h1 h2
    have hk : s * ncw + c < ncw * nsw := by rw [hn]; exact idx_lt h1 h2
    simp only [wingFile, List.map_cons, List.map_nil, map_range_get _ _ hk, (dm s c ncw h2).1]

/-- A flat surface: corners are pairs of strip and chordwise borders. -/
def flat (ncw : ℕ) : Corners (ℕ × ℕ) :=
  ⟨fun i => (i / ncw, i % ncw), fun i => (i / ncw, i % ncw + 1), fun i => (i / ncw + 1, i % ncw), fun i => (i / ncw + 1, i % ncw + 1)⟩

theorem flat_joined (ncw nsw : ℕ) : (flat ncw).Joined ncw nsw := by
  constructor
  · intro s c _ h
    simp [flat, (dm s c ncw (by omega)).1, (dm s c ncw (by omega)).2, (dm s (c + 1) ncw h).1, (dm s (c + 1) ncw h).2]
  · intro s c _ h
    simp [flat, (dm s c ncw h).1, (dm s c ncw h).2, (dm (s + 1) c ncw h).1, (dm (s + 1) c ncw h).2]

example : (wingFile (flat 3) 3 4 (fun i => i) fun i => i).corners (2 * 3 + 1) = some [some (2, 1), some (2, 2), some (3, 2), some (3, 1)] :=
  (C285_grid (flat 3) 3 4 (by norm_num) (by norm_num) (fun i => i) fun i => i).2.1 (flat_joined 3 4) 2 1 (by norm_num) (by norm_num)

/-- **C285, first wing.** The files of the first wing of a vehicle show its own panels: with two equal halves the second file is the
first half with its lift and pressures, the first the other half with its pressures; a wing of one half has one file. -/
theorem C285_first_partial {P S : Type} (d : Dist P) (cl cp : ℕ → S) (c n : ℕ) (cs ns : List ℕ) :
    (d.sym.head? = some true → d.ncw = c :: c :: cs → d.nsw = n :: n :: ns → saveWing d cl cp 0 =
      [wingFile (d.corners.shift (c * n)) c n cl fun j => cp (c * n + j), wingFile (d.corners.shift 0) c n cl cp]) ∧
    (d.sym.head? = some false → d.ncw = c :: cs → d.nsw = n :: ns → saveWing d cl cp 0 = [wingFile (d.corners.shift 0) c n cl cp]) := by
  constructor
  · intro h1 h2 h3
    have hs : d.sym.getD 0 false = true := by
      rw [List.head?_eq_getElem?] at h1
      simp [List.getD_eq_getElem?_getD, h1]
    have e : (c * n + c * n) / 2 = c * n := by omega
    rw [List.getD_eq_getElem?_getD] at hs
    simp [saveWing, hs, Dist.semispan, Dist.start, h2, h3, e]
  · intro h1 h2 h3
    have hs : d.sym.getD 0 false = false := by
      rw [List.head?_eq_getElem?] at h1
      simp [List.getD_eq_getElem?_getD, h1]
    rw [List.getD_eq_getElem?_getD] at hs
    simp [saveWing, hs, Dist.semispan, Dist.start, h2, h3]

/-- The lattice of a vehicle of wings with these numbers of panels per surface and one or two halves. -/
def ofWings {P : Type} (ws : List (Bool × ℕ × ℕ)) (c : Corners P) : Dist P where
  ncw := ws.flatMap fun w => List.replicate (if w.1 then 2 else 1) w.2.1
  nsw := ws.flatMap fun w => List.replicate (if w.1 then 2 else 1) w.2.2
  sym := ws.map (·.1)
  corners := c

/-- Panels of a wing, both halves. -/
def wingPanels (w : Bool × ℕ × ℕ) : ℕ := (if w.1 then 2 else 1) * (w.2.1 * w.2.2)

theorem start_ofWings {P : Type} (c : Corners P) (ws : List (Bool × ℕ × ℕ)) (i : ℕ) (hi : i ≤ ws.length) :
    (ofWings ws c).start ((ofWings ws c).semispan i) = ((ws.take i).map wingPanels).sum := by
  induction ws generalizing i with
  | nil => simp at hi; subst hi; rfl
  | cons w ws ih =>
    cases i with
    | zero => simp [Dist.start, Dist.semispan]
    | succ i =>
      have := ih i (by simpa using hi)
      simp only [Dist.start, Dist.semispan, ofWings, List.map_cons, List.take_succ_cons, List.sum_cons, List.flatMap_cons] at this ⊢
      rw [← this]
      generalize ((ws.map (·.1)).take i |>.map fun b => if b then 1 else 0).sum = k
      obtain ⟨b, m, n⟩ := w
      cases b with
      | true =>
        rw [show i + 1 + ((if true = true then 1 else 0) + k) = i + k + 1 + 1 by simp; omega]
        simp [wingPanels, List.replicate_succ]
        ring
      | false =>
        rw [show i + 1 + ((if false = true then 1 else 0) + k) = i + k + 1 by simp; omega]
        simp [wingPanels, List.replicate_succ]

/-- **C285, places.** Every wing is written from its own first panel on, behind the panels of all wings before it: the first panel of a
wing of one half, and of the first half of a wing of two. -/
theorem C285_place {P S : Type} (ws : List (Bool × ℕ × ℕ)) (c : Corners P) (cl cp : ℕ → S) (i : ℕ) (hi : i < ws.length) :
    ∃ f ∈ saveWing (ofWings ws c) cl cp i, ∃ ncw nsw, f = wingFile (c.shift ((ws.take i).map wingPanels).sum) ncw nsw cl cp := by
  have h := start_ofWings c ws i hi.le
  unfold saveWing
  simp only [h]
  split_ifs
  · exact ⟨_, List.mem_cons_of_mem _ (List.mem_singleton.2 rfl), _, _, rfl⟩
  · exact ⟨_, List.mem_singleton.2 rfl, _, _, rfl⟩

example : (ofWings [(true, 3, 4), (false, 2, 2), (true, 1, 1)] (flat 3)).start ((ofWings [(true, 3, 4), (false, 2, 2), (true, 1, 1)] (flat 3)).semispan 2) = 28 :=
  start_ofWings (flat 3) _ 2 (by simp)

/-- **C285 fails for scalars.** The lift written for the second half is that of the strips of the first half, and the lift written for a
second wing is that of the first. -/
theorem C285_lift_counterexample {P S : Type} (d : Dist P) (cl cp : ℕ → S) (i : ℕ) (f : File P S) (hf : f ∈ saveWing d cl cp i) :
    ∃ ncw nsw, f.data.head? = some ((List.range (ncw * nsw)).map fun j => cl (j / ncw)) := by
  unfold saveWing at hf
  split_ifs at hf
  · simp only [List.mem_cons, List.not_mem_nil, or_false] at hf
    rcases hf with rfl | rfl <;> exact ⟨_, _, rfl⟩
  · simp only [List.mem_cons, List.not_mem_nil, or_false] at hf
    subst hf
    exact ⟨_, _, rfl⟩

/-- **C285 fails for a later wing of one half.** Its numbers of panels are those of the first surface: a fin of two by two panels behind
a wing of halves of three by one is written as three cells. -/
theorem C285_fin_counterexample :
    let d : Dist ℕ := ⟨[3, 3, 2], [1, 1, 2], [true, false], ⟨id, id, id, id⟩⟩
    (saveWing d (fun _ => 0) (fun _ => 0) 1).map File.nCells = [3] := by decide

/-- **C285 fails for the pressures of a second wing.** Two wings of two panels each, one for each half: the pressures written for the
second are those of panels 1 and 0, which belong to the first. -/
theorem C285_pressure_counterexample :
    let d : Dist ℕ := ⟨[1, 1, 1, 1], [1, 1, 1, 1], [true, true], ⟨id, id, id, id⟩⟩
    (saveWing d id id 1).map (fun f => (f.points.head?, f.data)) = [(some 3, [[0], [1]]), (some 2, [[0], [0]])] := by decide

end Verif.IO.Vtk
