import Verif.Noise.Microphones

/-!
C124 microphone grids, C125 microphone geometry.
-/

namespace Verif.Noise.Mic
open Real

theorem flatten_at (c : ℕ) (m : ℕ → ℕ → ℝ) (i j : ℕ) (hj : j < c) : flatten c m (i * c + j) = m i j := by
  unfold flatten
  have hc : 0 < c := by omega
  rw [show i * c + j = j + c * i by ring, Nat.add_mul_div_left _ _ hc, Nat.div_eq_of_lt hj, Nat.add_mul_mod_self_left,
    Nat.mod_eq_of_lt hj, Nat.zero_add]

theorem linspace_first (a b : ℝ) (n : ℕ) : linspace a b n 0 = a := by
  unfold linspace; split_ifs <;> simp

theorem linspace_last (a b : ℝ) (n : ℕ) (h : 2 ≤ n) : linspace a b n (n - 1) = b := by
  have h1 : (1 : ℝ) < n := by exact_mod_cast h
  unfold linspace
  rw [if_neg (by omega)]
  push_cast [show 1 ≤ n by omega]
  have : (n : ℝ) - 1 ≠ 0 := by linarith
  field_simp
  ring

theorem linspace_step (a b : ℝ) (n i : ℕ) (h : 2 ≤ n) :
    linspace a b n (i + 1) - linspace a b n i = (b - a) / ((n : ℝ) - 1) := by
  unfold linspace
  rw [if_neg (by omega), if_neg (by omega)]
  push_cast; ring

theorem linspace_mem (a b : ℝ) (h : a ≤ b) (n i : ℕ) (hi : i < n) : a ≤ linspace a b n i ∧ linspace a b n i ≤ b := by
  unfold linspace
  split_ifs with h1
  · exact ⟨le_rfl, h⟩
  · have hn : (1 : ℝ) < n := by exact_mod_cast (show 1 < n by omega)
    have hi' : (i : ℝ) ≤ (n : ℝ) - 1 := by
      have : (i : ℝ) + 1 ≤ n := by exact_mod_cast hi
      linarith
    have h0 : 0 ≤ (b - a) / ((n : ℝ) - 1) := div_nonneg (by linarith) (by linarith)
    have hm : (i : ℝ) * ((b - a) / ((n : ℝ) - 1)) ≤ ((n : ℝ) - 1) * ((b - a) / ((n : ℝ) - 1)) := by gcongr
    have he : ((n : ℝ) - 1) * ((b - a) / ((n : ℝ) - 1)) = b - a := by
      have : (n : ℝ) - 1 ≠ 0 := by linarith
      field_simp
    constructor
    · have : 0 ≤ (i : ℝ) * ((b - a) / ((n : ℝ) - 1)) := by positivity
      linarith
    · linarith

theorem linspace_inj (a b : ℝ) (h : a < b) (n i j : ℕ) (hi : i < n) (hj : j < n)
    (he : linspace a b n i = linspace a b n j) : i = j := by
  unfold linspace at he
  split_ifs at he with h1
  · omega
  · have hn : (1 : ℝ) < n := by exact_mod_cast (show 1 < n by omega)
    have h0 : 0 < (b - a) / ((n : ℝ) - 1) := div_pos (by linarith) (by linarith)
    have : (i : ℝ) = j := mul_right_cancel₀ h0.ne' (by linarith)
    exact_mod_cast this

/-! ## C124 -/

/-- The microphone of index `i*ny + j` stands at the `i`-th abscissa and the `j`-th ordinate, on the ground. -/
theorem C124_ground (x1 x2 y1 y2 : ℝ) (nx ny i j : ℕ) (hj : j < ny) :
    ground x1 x2 y1 y2 nx ny (i * ny + j) = ⟨linspace x1 x2 nx i, linspace y1 y2 ny j, 0⟩ := by
  unfold ground
  rw [flatten_at _ _ _ _ hj, flatten_at _ _ _ _ hj]
  rfl

/-- The abscissas and ordinates run evenly from the least to the greatest. -/
theorem C124_spacing (a b : ℝ) (n : ℕ) (h : 2 ≤ n) :
    linspace a b n 0 = a ∧ linspace a b n (n - 1) = b
      ∧ ∀ i, linspace a b n (i + 1) - linspace a b n i = (b - a) / ((n : ℝ) - 1) :=
  ⟨linspace_first a b n, linspace_last a b n h, fun i => linspace_step a b n i h⟩

/-- All microphones stand in the rectangle, and no two in the same place. -/
theorem C124_distinct (x1 x2 y1 y2 : ℝ) (nx ny : ℕ) (hx : x1 < x2) (hy : y1 < y2) :
    (∀ k < nx * ny, let p := ground x1 x2 y1 y2 nx ny k; x1 ≤ p.x ∧ p.x ≤ x2 ∧ y1 ≤ p.y ∧ p.y ≤ y2 ∧ p.z = 0)
      ∧ ∀ k < nx * ny, ∀ m < nx * ny, ground x1 x2 y1 y2 nx ny k = ground x1 x2 y1 y2 nx ny m → k = m := by
  have split : ∀ k < nx * ny, ∃ i < nx, ∃ j < ny, k = i * ny + j := by
    intro k hk
    have hn : 0 < ny := by rcases Nat.eq_zero_or_pos ny with h | h; · simp [h] at hk
                           · exact h
    exact ⟨k / ny, Nat.div_lt_of_lt_mul (by rwa [mul_comm]), k % ny, Nat.mod_lt _ hn, (Nat.div_add_mod' k ny).symm⟩
  constructor
  · intro k hk
    obtain ⟨i, hi, j, hj, rfl⟩ := split k hk
    rw [C124_ground x1 x2 y1 y2 nx ny i j hj]
    have a := linspace_mem x1 x2 hx.le nx i hi
    have b := linspace_mem y1 y2 hy.le ny j hj
    exact ⟨a.1, a.2, b.1, b.2, rfl⟩
  · intro k hk m hm he
    obtain ⟨i, hi, j, hj, rfl⟩ := split k hk
    obtain ⟨i', hi', j', hj', rfl⟩ := split m hm
    rw [C124_ground x1 x2 y1 y2 nx ny i j hj, C124_ground x1 x2 y1 y2 nx ny i' j' hj', Pt.mk.injEq] at he
    rw [linspace_inj x1 x2 hx nx i i' hi hi' he.1, linspace_inj y1 y2 hy ny j j' hj hj' he.2.1]

example : ground 0 100 0 30 3 4 6 = ⟨50, 20, 0⟩ := by
  have h := C124_ground 0 100 0 30 3 4 1 2 (by norm_num)
  norm_num [linspace] at h
  exact h

/-- On the surface of a building standing on level ground: in the box, and on a wall or on the roof. -/
def OnSurface (b : Building) (p : Pt) : Prop :=
  (b.x0 - b.l / 2 ≤ p.x ∧ p.x ≤ b.x0 + b.l / 2) ∧ (b.y0 - b.w / 2 ≤ p.y ∧ p.y ≤ b.y0 + b.w / 2)
    ∧ (b.z0 ≤ p.z ∧ p.z ≤ b.z0 + b.h)
    ∧ (p.x = b.x0 - b.l / 2 ∨ p.x = b.x0 + b.l / 2 ∨ p.y = b.y0 - b.w / 2 ∨ p.y = b.y0 + b.w / 2 ∨ p.z = b.z0 + b.h)

theorem split_index {a c k : ℕ} (hk : k < a * c) : ∃ i < a, ∃ j < c, k = i * c + j := by
  have hn : 0 < c := by rcases Nat.eq_zero_or_pos c with h | h; · simp [h] at hk
                        · exact h
  exact ⟨k / c, Nat.div_lt_of_lt_mul (by rwa [mul_comm]), k % c, Nat.mod_lt _ hn, (Nat.div_add_mod' k c).symm⟩

theorem building_eq (b : Building) (n nz : ℕ) : building b n n nz
    = some ((List.range (n * nz)).map (wallX b (b.x0 - b.l / 2) n nz)
      ++ (List.range (n * nz)).map (wallY b (b.y0 + b.w / 2) n nz)
      ++ (List.range (n * nz)).map (wallX b (b.x0 + b.l / 2) n nz)
      ++ (List.range (n * nz)).map (wallY b (b.y0 - b.w / 2) n nz)
      ++ (List.range (n * n)).map (roof b n n)) := by
  unfold building
  exact if_pos (show fits n nz n nz from rfl)

/-- With as many points along x as along y and the base at height zero every microphone is on the surface; there are
five grids. -/
theorem C124_building_partial (b : Building) (n nz : ℕ) (hl : 0 ≤ b.l) (hw : 0 ≤ b.w) (hh : 0 ≤ b.h) (hz : b.z0 = 0) :
    ∃ ps, building b n n nz = some ps ∧ ps.length = 4 * (n * nz) + n * n ∧ ∀ p ∈ ps, OnSurface b p := by
  refine ⟨_, building_eq b n nz, by simp; ring, ?_⟩
  have hu : ∀ m i, i < m → -1 ≤ linspace (-1) 1 m i ∧ linspace (-1) 1 m i ≤ 1 := fun m i h =>
    linspace_mem (-1) 1 (by norm_num) m i h
  have h01 : ∀ m i, i < m → 0 ≤ linspace 0 1 m i ∧ linspace 0 1 m i ≤ 1 := fun m i h =>
    linspace_mem 0 1 (by norm_num) m i h
  have sym : ∀ t c x0 : ℝ, 0 ≤ c → -1 ≤ t ∧ t ≤ 1 → x0 - c / 2 ≤ t * (c / 2) + x0 ∧ t * (c / 2) + x0 ≤ x0 + c / 2 :=
    fun t c x0 h0 h => ⟨by nlinarith [h.1], by nlinarith [h.2]⟩
  have up : ∀ t c : ℝ, 0 ≤ c → 0 ≤ t ∧ t ≤ 1 → b.z0 ≤ t * c ∧ t * c ≤ b.z0 + c :=
    fun t c h0 h => ⟨by rw [hz]; nlinarith [h.1], by rw [hz]; nlinarith [h.2]⟩
  have wx : ∀ x, (x = b.x0 - b.l / 2 ∨ x = b.x0 + b.l / 2) → ∀ k < n * nz, OnSurface b (wallX b x n nz k) := by
    intro x hx k hk
    obtain ⟨i, hi, j, hj, rfl⟩ := split_index hk
    unfold wallX
    rw [flatten_at _ _ _ _ hj, flatten_at _ _ _ _ hj, flatten_at _ _ _ _ hj]
    refine ⟨?_, sym _ _ _ hw (hu n i hi), up _ _ hh (h01 nz j hj), ?_⟩
    · rcases hx with h | h <;> (dsimp only; rw [h]; constructor <;> linarith)
    · rcases hx with h | h
      · exact Or.inl h
      · exact Or.inr (Or.inl h)
  have wy : ∀ y, (y = b.y0 - b.w / 2 ∨ y = b.y0 + b.w / 2) → ∀ k < n * nz, OnSurface b (wallY b y n nz k) := by
    intro y hy k hk
    obtain ⟨i, hi, j, hj, rfl⟩ := split_index hk
    unfold wallY
    rw [flatten_at _ _ _ _ hj, flatten_at _ _ _ _ hj, flatten_at _ _ _ _ hj]
    refine ⟨sym _ _ _ hl (hu n i hi), ?_, up _ _ hh (h01 nz j hj), ?_⟩
    · rcases hy with h | h <;> (dsimp only; rw [h]; constructor <;> linarith)
    · rcases hy with h | h
      · exact Or.inr (Or.inr (Or.inl h))
      · exact Or.inr (Or.inr (Or.inr (Or.inl h)))
  intro p hp
  simp only [List.mem_append, List.mem_map, List.mem_range] at hp
  rcases hp with (((⟨k, hk, rfl⟩ | ⟨k, hk, rfl⟩) | ⟨k, hk, rfl⟩) | ⟨k, hk, rfl⟩) | ⟨k, hk, rfl⟩
  · exact wx _ (Or.inl rfl) k hk
  · exact wy _ (Or.inr rfl) k hk
  · exact wx _ (Or.inr rfl) k hk
  · exact wy _ (Or.inl rfl) k hk
  · obtain ⟨i, hi, j, hj, rfl⟩ := split_index hk
    unfold roof
    rw [flatten_at _ _ _ _ hj, flatten_at _ _ _ _ hj]
    refine ⟨sym _ _ _ hl (hu n i hi), sym _ _ _ hw (hu n j hj), ⟨by dsimp only; rw [hz]; exact hh, by dsimp only; rw [hz]; linarith⟩, ?_⟩
    right; right; right; right
    dsimp only; rw [hz]; ring

/-- The five grids hold the points they should: wall by wall. -/
theorem C124_walls (b : Building) (n nz i j : ℕ) (hi : i < n) (hj : j < nz) (ps : List Pt)
    (h : building b n n nz = some ps) :
    (⟨b.x0 - b.l / 2, linspace (-1) 1 n i * (b.w / 2) + b.y0, linspace 0 1 nz j * b.h⟩ : Pt) ∈ ps
      ∧ (⟨b.x0 + b.l / 2, linspace (-1) 1 n i * (b.w / 2) + b.y0, linspace 0 1 nz j * b.h⟩ : Pt) ∈ ps
      ∧ (⟨linspace (-1) 1 n i * (b.l / 2) + b.x0, b.y0 - b.w / 2, linspace 0 1 nz j * b.h⟩ : Pt) ∈ ps
      ∧ (⟨linspace (-1) 1 n i * (b.l / 2) + b.x0, b.y0 + b.w / 2, linspace 0 1 nz j * b.h⟩ : Pt) ∈ ps := by
  rw [building_eq, Option.some_inj] at h
  subst h
  have hk : i * nz + j < n * nz := by nlinarith
  have ex : ∀ x, wallX b x n nz (i * nz + j) = ⟨x, linspace (-1) 1 n i * (b.w / 2) + b.y0, linspace 0 1 nz j * b.h⟩ := by
    intro x; unfold wallX
    rw [flatten_at _ _ _ _ hj, flatten_at _ _ _ _ hj, flatten_at _ _ _ _ hj]; rfl
  have ey : ∀ y, wallY b y n nz (i * nz + j) = ⟨linspace (-1) 1 n i * (b.l / 2) + b.x0, y, linspace 0 1 nz j * b.h⟩ := by
    intro x; unfold wallY
    rw [flatten_at _ _ _ _ hj, flatten_at _ _ _ _ hj, flatten_at _ _ _ _ hj]; rfl
  simp only [List.mem_append, List.mem_map, List.mem_range]
  exact ⟨Or.inl (Or.inl (Or.inl (Or.inl ⟨_, hk, ex _⟩))), Or.inl (Or.inl (Or.inr ⟨_, hk, ex _⟩)),
    Or.inl (Or.inr ⟨_, hk, ey _⟩), Or.inl (Or.inl (Or.inl (Or.inr ⟨_, hk, ey _⟩)))⟩

/-- Different resolutions along x and y are refused. -/
theorem C124_resolution_counterexample :
    ¬ ∀ (b : Building) (nx ny nz : ℕ), 0 < nx → 0 < ny → 0 < nz → (building b nx ny nz).isSome := by
  intro H
  have h := H ⟨0, 0, 0, 1, 1, 1⟩ 3 2 4 (by norm_num) (by norm_num) (by norm_num)
  unfold building at h
  rw [if_neg (by unfold fits; norm_num)] at h
  simp at h

/-- A building whose base is at height 5 gets microphones below its base. -/
theorem C124_base_counterexample :
    ¬ ∀ (b : Building) (n nz : ℕ) (ps : List Pt), 0 ≤ b.l → 0 ≤ b.w → 0 ≤ b.h → building b n n nz = some ps →
      ∀ p ∈ ps, OnSurface b p := by
  intro H
  have h := H ⟨0, 0, 5, 1, 1, 10⟩ 2 2 _ (by norm_num) (by norm_num) (by norm_num) (building_eq _ _ _)
    (wallX ⟨0, 0, 5, 1, 1, 10⟩ (-1 / 2) 2 2 0) (by
      simp only [List.mem_append, List.mem_map, List.mem_range]
      exact Or.inl (Or.inl (Or.inl (Or.inl ⟨0, by norm_num, by norm_num⟩))))
  have h2 := h.2.2.1.1
  norm_num [wallX, flatten, transpose, columns, linspace] at h2

/-! ## C125 -/

/-- Microphone plus relative position is the place of the aircraft, height upwards. -/
theorem C125_relative (pos mic : Pt) :
    mic.x + (relative pos mic).x = pos.x ∧ mic.y + (relative pos mic).y = pos.y
      ∧ mic.z + (relative pos mic).z = -pos.z := by
  unfold relative
  refine ⟨?_, ?_, ?_⟩ <;> ring

/-- The angles are those of the line of sight. -/
theorem C125_elevation (z x : ℝ) (hx : x ≠ 0) : ∃ t, elevation z x = some t ∧ tan t * x = z ∧ -(π / 2) < t ∧ t < π / 2 := by
  refine ⟨_, by unfold elevation; rw [if_neg hx], ?_, neg_pi_div_two_lt_arctan _, arctan_lt_pi_div_two _⟩
  rw [tan_arctan]
  field_simp

theorem cos_arctanAbs (a d : ℝ) (h : a ≠ 0) : cos (arctanAbs a d) * √(a ^ 2 + d ^ 2) = |d| := by
  unfold arctanAbs
  split_ifs with h0
  · rw [h0, cos_pi_div_two]; simp
  · rw [cos_arctan, sq_abs]
    have hd : 0 < |d| := abs_pos.2 h0
    have e : 1 + (a / d) ^ 2 = (a ^ 2 + d ^ 2) / d ^ 2 := by field_simp; ring
    have hs : 0 < √(a ^ 2 + d ^ 2) := sqrt_pos.2 (by positivity)
    rw [e, sqrt_div (by positivity), sqrt_sq_eq_abs]
    field_simp

theorem arctanAbs_range (a d : ℝ) : 0 ≤ arctanAbs a d ∧ arctanAbs a d ≤ π / 2 := by
  unfold arctanAbs
  have := pi_pos
  split_ifs
  · constructor <;> linarith
  · exact ⟨arctan_nonneg.2 (abs_nonneg _), (arctan_lt_pi_div_two _).le⟩

/-- Approach and flyover: `dist` is the distance to a microphone on the ground below the path, and `theta` in `[0, π]` the
angle at which it is seen. -/
theorem C125_below (x0 : ℝ) (p : Pt) (hz : p.z ≠ 0) (hx : p.x ≠ 0) :
    (below x0 p).dist = √((p.x - x0) ^ 2 + (0 - 0) ^ 2 + (-p.z - 0) ^ 2)
      ∧ cos (below x0 p).theta * (below x0 p).dist = p.x - x0
      ∧ 0 ≤ (below x0 p).theta ∧ (below x0 p).theta ≤ π := by
  have hn : (nudge p).x = p.x := by unfold nudge; rw [if_neg hx]
  have hd : (below x0 p).dist = √((-p.z) ^ 2 + (p.x - x0) ^ 2) := by
    show √((-p.z) ^ 2 + ((nudge p).x - x0) ^ 2) = _
    rw [hn]
  have ht : (below x0 p).theta = if p.x - x0 < 0 then π - arctanAbs (-p.z) (p.x - x0) else arctanAbs (-p.z) (p.x - x0) := by
    show (if (nudge p).x - x0 < 0 then π - arctanAbs (-p.z) ((nudge p).x - x0) else arctanAbs (-p.z) ((nudge p).x - x0)) = _
    rw [hn]
  have hc := cos_arctanAbs (-p.z) (p.x - x0) (neg_ne_zero.2 hz)
  have hr := arctanAbs_range (-p.z) (p.x - x0)
  have := pi_pos
  refine ⟨by rw [hd]; congr 1; ring, ?_, ?_, ?_⟩
  · rw [ht, hd]
    split_ifs with h
    · rw [cos_pi_sub, neg_mul, hc, abs_of_neg h, neg_neg]
    · rw [hc, abs_of_nonneg (not_lt.1 h)]
  · rw [ht]; split_ifs <;> linarith [hr.1, hr.2]
  · rw [ht]; split_ifs <;> linarith [hr.1, hr.2]

/-- Sideline: `dist` is the distance to a microphone on the ground 450 m to the side. -/
theorem C125_aside (x0 : ℝ) (p : Pt) (hz : p.z ≠ 0) (hx : p.x ≠ 0) :
    (aside x0 p).dist = √((p.x - x0) ^ 2 + (0 - 450) ^ 2 + (-p.z - 0) ^ 2)
      ∧ cos (aside x0 p).theta * (aside x0 p).dist = p.x - x0
      ∧ 0 ≤ (aside x0 p).theta ∧ (aside x0 p).theta ≤ π
      ∧ tan (aside x0 p).phi * (-p.z) = 450 := by
  have hn : (nudge p).x = p.x := by unfold nudge; rw [if_neg hx]
  have ha : -p.z ≠ 0 := neg_ne_zero.2 hz
  have hsq : (450 / sin (arctan (450 / -p.z))) ^ 2 = 450 ^ 2 + (-p.z) ^ 2 := by
    rw [sin_arctan, div_pow, div_pow, sq_sqrt (by positivity)]
    field_simp
    ring
  obtain ⟨D, hD⟩ : ∃ D, D = √((450 / sin (arctan (450 / -p.z))) ^ 2 + (p.x - x0) ^ 2) := ⟨_, rfl⟩
  have hd : (aside x0 p).dist = D := by
    show √((450 / sin (arctan (450 / -p.z))) ^ 2 + ((nudge p).x - x0) ^ 2) = _
    rw [hn, hD]
  have ht : (aside x0 p).theta = if p.x - x0 < 0 then π - arccos |(x0 - p.x) / D| else arccos |(x0 - p.x) / D| := by
    have : (aside x0 p).theta
        = if (nudge p).x - x0 < 0 then π - arccos |(x0 - (nudge p).x) / (aside x0 p).dist|
          else arccos |(x0 - (nudge p).x) / (aside x0 p).dist| := rfl
    rw [this, hn, hd]
  have hD2 : D = √((p.x - x0) ^ 2 + (0 - 450) ^ 2 + (-p.z - 0) ^ 2) := by
    rw [hD, hsq]; congr 1; ring
  have hpos : 0 < D := by rw [hD2]; exact sqrt_pos.2 (by positivity)
  have hle : |(x0 - p.x) / D| ≤ 1 := by
    rw [abs_div, abs_of_pos hpos, div_le_one hpos, hD2]
    apply abs_le_sqrt
    nlinarith [sq_nonneg (-p.z - 0)]
  have hcos : cos (arccos |(x0 - p.x) / D|) * D = |p.x - x0| := by
    rw [cos_arccos (by linarith [abs_nonneg ((x0 - p.x) / D)]) hle, abs_div, abs_of_pos hpos, abs_sub_comm]
    field_simp
  refine ⟨by rw [hd, hD2], ?_, ?_, ?_, ?_⟩
  · rw [ht, hd]
    split_ifs with h
    · rw [cos_pi_sub, neg_mul, hcos, abs_of_neg h, neg_neg]
    · rw [hcos, abs_of_nonneg (not_lt.1 h)]
  · rw [ht]; split_ifs
    · linarith [arccos_le_pi |(x0 - p.x) / D|]
    · exact arccos_nonneg _
  · rw [ht]; split_ifs
    · linarith [arccos_nonneg |(x0 - p.x) / D|]
    · exact arccos_le_pi _
  · show tan (arctan (450 / -p.z)) * (-p.z) = 450
    rw [tan_arctan]; field_simp

/-- The three certification points: the distance is that to the reference microphone. -/
theorem C125_points (f : Flags) (tofl x1000 : ℝ) (p : Pt) (hz : p.z ≠ 0) (hx : p.x ≠ 0) :
    (f.approach = true → (view f tofl x1000 p).dist = √((p.x - 2000) ^ 2 + p.z ^ 2))
      ∧ (f.approach = false → f.flyover = true →
          (view f tofl x1000 p).dist = √((p.x + tofl - 6500) ^ 2 + p.z ^ 2))
      ∧ (f.approach = false → f.flyover = false → f.sideline = true → f.micX ≠ 0 →
          (view f tofl x1000 p).dist = √((p.x - f.micX) ^ 2 + 450 ^ 2 + p.z ^ 2)) := by
  refine ⟨fun h => ?_, fun h1 h2 => ?_, fun h1 h2 h3 h4 => ?_⟩
  · unfold view; rw [if_pos h, (C125_below 2000 p hz hx).1]; congr 1; ring
  · unfold view; rw [h1, h2]; simp only [Bool.false_eq_true, if_false, if_true]
    rw [(C125_below _ p hz hx).1]; congr 1; ring
  · unfold view; rw [h1, h2, h3]; simp only [Bool.false_eq_true, if_false, if_true]
    rw [if_neg h4, (C125_aside _ p hz hx).1]; congr 1; ring

/-- Without a certification flag the microphone is not at `mic_x_position`; its place follows the altitude. -/
theorem C125_free_counterexample :
    ¬ ∀ (x : ℝ) (p : Pt), p.z ≠ 0 → p.x ≠ 0 → x ≠ 0 →
      (view ⟨false, false, false, x⟩ 0 0 p).dist = √((p.x - x) ^ 2 + 450 ^ 2 + p.z ^ 2) := by
  intro H
  have h := H 1000 ⟨1000, 0, -100⟩ (by norm_num) (by norm_num) (by norm_num)
  have h1 : (view ⟨false, false, false, 1000⟩ 0 0 ⟨1000, 0, -100⟩).dist = (aside (-100) ⟨1000, 0, -100⟩).dist := rfl
  rw [h1, (C125_aside (-100) ⟨1000, 0, -100⟩ (by norm_num) (by norm_num)).1] at h
  rw [sqrt_inj (by positivity) (by positivity)] at h
  norm_num at h

/-- The position of the mission is changed where it is zero. -/
theorem C125_unchanged_counterexample : ¬ ∀ p : Pt, nudge p = p := by
  intro H
  have h := congrArg Pt.x (H ⟨0, 0, 0⟩)
  norm_num [nudge] at h

end Verif.Noise.Mic
