import Verif.Vlm.Body
/-
C396: the plate of a fuselage.  C397: the plates of nacelles.
-/

namespace Verif.Vlm

open Real Verif.Num

/-- The angle of a station. -/
theorem station_angle (n i : ℕ) (hi : i ≤ n) :
    0 < (2 * ((n : ℝ) + 1 - i) - 1) / (2 * (2 * n + 1)) * π ∧ (2 * ((n : ℝ) + 1 - i) - 1) / (2 * (2 * n + 1)) * π ≤ π / 2 := by
  have h : (i : ℝ) ≤ n := by exact_mod_cast hi
  have h0 : (0 : ℝ) ≤ i := by positivity
  have hn : (0 : ℝ) ≤ n := by positivity
  have hd : (0 : ℝ) < 2 * (2 * n + 1) := by positivity
  have e : (2 * ((n : ℝ) + 1 - i) - 1) / (2 * (2 * n + 1)) ≤ 1 / 2 := by rw [div_le_div_iff₀ hd (by norm_num)]; linarith
  refine ⟨mul_pos (div_pos (by linarith) hd) pi_pos, ?_⟩
  calc _ ≤ 1 / 2 * π := by apply mul_le_mul_of_nonneg_right e pi_pos.le
    _ = π / 2 := by ring

/-- **C396, stations.** The stations start in the plane of symmetry of the body and go outwards, all of them inside its half width. -/
theorem C396_stations (half : ℝ) (h : 0 < half) (n : ℕ) : bodyStation half n 0 = 0 ∧
    (∀ i j, i < j → j ≤ n → bodyStation half n i < bodyStation half n j) ∧ ∀ i ≤ n, 0 ≤ bodyStation half n i ∧ bodyStation half n i < half := by
  have h0 : bodyStation half n 0 = 0 := by
    unfold bodyStation
    have : (2 * ((n : ℝ) + 1 - (0 : ℕ)) - 1) / (2 * (2 * n + 1)) * π = π / 2 := by push_cast; field_simp; ring
    rw [this, cos_pi_div_two, mul_zero]
  refine ⟨h0, ?_, ?_⟩
  · intro i j hij hj
    unfold bodyStation
    apply mul_lt_mul_of_pos_left _ h
    have ai := station_angle n i (by omega)
    have aj := station_angle n j hj
    apply cos_lt_cos_of_nonneg_of_le_pi aj.1.le (by linarith [pi_pos])
    apply mul_lt_mul_of_pos_right _ pi_pos
    have hl : (i : ℝ) < j := by exact_mod_cast hij
    exact div_lt_div_of_pos_right (by linarith) (by positivity)
  · intro i hi
    have a := station_angle n i hi
    unfold bodyStation
    refine ⟨mul_nonneg h.le (cos_nonneg_of_neg_pi_div_two_le_of_le (by linarith [pi_pos]) a.2), ?_⟩
    have : cos ((2 * ((n : ℝ) + 1 - i) - 1) / (2 * (2 * n + 1)) * π) < 1 := by
      have := cos_lt_cos_of_nonneg_of_le_pi le_rfl (by linarith [pi_pos]) a.1
      rwa [cos_zero] at this
    nlinarith

theorem npInterp_neg (l : List (ℝ × ℝ)) (x : ℝ) : npInterp (l.map fun p => (p.1, -p.2)) x = -npInterp l x := by
  induction l with
  | nil => simp [npInterp]
  | cons p l ih =>
    cases l with
    | nil => simp [npInterp]
    | cons q l =>
      simp only [List.map_cons, npInterp] at ih ⊢
      split_ifs
      · rfl
      · ring
      · exact ih

/-- **C396, exponent.** The exponent of the outline lies between that of a wedge and that of an ellipse, and falls with the fineness. -/
theorem C396_exponent : (∀ f, 1 ≤ bodyExponent f ∧ bodyExponent f ≤ 2) ∧ Antitone bodyExponent ∧
    (∀ f ≤ 1, bodyExponent f = 2) ∧ bodyExponent 1.57 = 1.5 ∧ bodyExponent 3.2 = 1.2 ∧ ∀ f, 8 ≤ f → bodyExponent f = 1 := by
  have hr : Rising [((1 : ℝ), (0 : ℝ)), (1.57, 1 / 3), (3.2, 2 / 3), (8, 1)] := by
    unfold Rising; norm_num [List.pairwise_cons]
  have hn : Rising [((0 : ℝ), (-2 : ℝ)), (1 / 3, -1.5), (2 / 3, -1.2), (1, -1)] := by
    unfold Rising; norm_num [List.pairwise_cons]
  have he : ∀ f, bodyExponent f = -npInterp [((0 : ℝ), (-2 : ℝ)), (1 / 3, -1.5), (2 / 3, -1.2), (1, -1)]
      (npInterp [((1 : ℝ), (0 : ℝ)), (1.57, 1 / 3), (3.2, 2 / 3), (8, 1)] f) := by
    intro f
    have := npInterp_neg [((0 : ℝ), (2 : ℝ)), (1 / 3, 1.5), (2 / 3, 1.2), (1, 1)] (npInterp [((1 : ℝ), (0 : ℝ)), (1.57, 1 / 3), (3.2, 2 / 3), (8, 1)] f)
    simp only [List.map_cons, List.map_nil] at this
    rw [this, neg_neg]
    rfl
  refine ⟨fun f => ?_, fun f g hfg => ?_, fun f hf => ?_, ?_, ?_, fun f hf => ?_⟩
  · rw [he]
    have h1 := npInterp_ge_head _ _ hn (npInterp [((1 : ℝ), (0 : ℝ)), (1.57, 1 / 3), (3.2, 2 / 3), (8, 1)] f)
    have h2 := npInterp_le_last _ hn (-1) (npInterp [((1 : ℝ), (0 : ℝ)), (1.57, 1 / 3), (3.2, 2 / 3), (8, 1)] f)
      (by simp only [List.mem_cons, List.not_mem_nil, or_false]; rintro p (rfl | rfl | rfl | rfl) <;> norm_num) (by simp)
    simp only at h1
    exact ⟨by linarith, by linarith⟩
  · rw [he, he]
    exact neg_le_neg (npInterp_mono _ hn (npInterp_mono _ hr hfg))
  · unfold bodyExponent
    have : npInterp [((1 : ℝ), (0 : ℝ)), (1.57, 1 / 3), (3.2, 2 / 3), (8, 1)] f = 0 := by simp only [npInterp, if_pos hf]
    rw [this]; simp [npInterp]
  · unfold bodyExponent
    norm_num [npInterp]
  · unfold bodyExponent
    norm_num [npInterp]
  · unfold bodyExponent
    have : npInterp [((1 : ℝ), (0 : ℝ)), (1.57, 1 / 3), (3.2, 2 / 3), (8, 1)] f = 1 := by
      simp only [npInterp]
      rw [if_neg (by linarith), if_neg (by norm_num; linarith), if_neg (by norm_num; linarith), if_neg (by norm_num; linarith), if_neg (by norm_num; linarith)]
      split_ifs <;> linarith
    rw [this]; norm_num [npInterp]

theorem endPart_range (p len u : ℝ) (hp : 1 ≤ p) (hl : 0 ≤ len) (hu : |u| ≤ 1) : 0 ≤ endPart p len u ∧ endPart p len u ≤ len := by
  have h1 : |u| ^ p ≤ 1 := rpow_le_one (abs_nonneg _) hu (by linarith)
  have h2 : 0 ≤ |u| ^ p := rpow_nonneg (abs_nonneg _) _
  have h3 : 0 ≤ (1 - |u| ^ p) ^ (1 / p) := rpow_nonneg (by linarith) _
  have h4 : (1 - |u| ^ p) ^ (1 / p) ≤ 1 := rpow_le_one (by linarith) (by linarith) (by positivity)
  exact ⟨mul_nonneg h3 hl, by unfold endPart; nlinarith⟩

theorem endPart_zero (p len : ℝ) (hp : 1 ≤ p) : endPart p len 0 = len := by
  unfold endPart
  rw [abs_zero, zero_rpow (by linarith), sub_zero, one_rpow, one_mul]

theorem endPart_anti (p len u w : ℝ) (hp : 1 ≤ p) (hl : 0 ≤ len) (h0 : 0 ≤ u) (huw : u ≤ w) (hw : w ≤ 1) : endPart p len w ≤ endPart p len u := by
  unfold endPart
  apply mul_le_mul_of_nonneg_right _ hl
  rw [abs_of_nonneg h0, abs_of_nonneg (h0.trans huw)]
  have h1 : w ^ p ≤ 1 := rpow_le_one (h0.trans huw) hw (by linarith)
  have h2 : u ^ p ≤ w ^ p := rpow_le_rpow h0 huw (by linarith)
  exact rpow_le_rpow (by linarith) (by linarith) (by positivity)

/-- The point of the outline lies on the curve `(x/len)^p + |u|^p = 1`. -/
theorem endPart_curve (p u : ℝ) (hp : 1 ≤ p) (hu : |u| ≤ 1) : (endPart p 1 u) ^ p + |u| ^ p = 1 := by
  have h1 : |u| ^ p ≤ 1 := rpow_le_one (abs_nonneg _) hu (by linarith)
  unfold endPart
  rw [mul_one, ← rpow_mul (by linarith), one_div_mul_cancel (by linarith), rpow_one]
  ring

/-- A fuselage of positive width, with nose, cabin and tail. -/
structure FusIn.WF (f : FusIn) : Prop where
  width : 0 < f.width
  nose : 0 ≤ f.nose
  tail : 0 ≤ f.tail
  cabin : f.nose + f.tail ≤ f.total

/-- **C396, outline.** The plate in the middle has the length of the fuselage; outwards every section begins later and is shorter; none
reaches beyond nose or tail, and all contain the cabin. -/
theorem C396_outline (f : FusIn) (hf : f.WF) (n : ℕ) :
    (fusSlice f n 0).x = 0 ∧ (fusSlice f n 0).chord = f.total ∧
    (∀ i ≤ n, 0 ≤ (fusSlice f n i).x ∧ (fusSlice f n i).x ≤ f.nose ∧ f.total - f.tail ≤ (fusSlice f n i).x + (fusSlice f n i).chord ∧
      (fusSlice f n i).x + (fusSlice f n i).chord ≤ f.total) ∧
    ∀ i j, i ≤ j → j ≤ n → (fusSlice f n i).x ≤ (fusSlice f n j).x ∧ (fusSlice f n j).chord ≤ (fusSlice f n i).chord := by
  obtain ⟨hw, hn, ht, hc⟩ := hf
  have hh : 0 < f.width * 0.5 := by positivity
  obtain ⟨s0, s1, s2⟩ := C396_stations _ hh n
  obtain ⟨e1, -⟩ := C396_exponent
  have p1 := (e1 f.finenessNose).1
  have p2 := (e1 f.finenessTail).1
  have hu : ∀ i ≤ n, 0 ≤ bodyStation (f.width * 0.5) n i / (f.width * 0.5) ∧ bodyStation (f.width * 0.5) n i / (f.width * 0.5) ≤ 1 := fun i hi =>
    ⟨div_nonneg (s2 i hi).1 hh.le, (div_le_one hh).2 (s2 i hi).2.le⟩
  have hr : ∀ p len, 1 ≤ p → 0 ≤ len → ∀ i ≤ n, 0 ≤ endPart p len (bodyStation (f.width * 0.5) n i / (f.width * 0.5)) ∧
      endPart p len (bodyStation (f.width * 0.5) n i / (f.width * 0.5)) ≤ len := fun p len hp hl i hi =>
    endPart_range p len _ hp hl (by rw [abs_of_nonneg (hu i hi).1]; exact (hu i hi).2)
  refine ⟨?_, ?_, fun i hi => ?_, fun i j hij hj => ?_⟩
  · simp only [fusSlice]; rw [s0, zero_div, endPart_zero _ _ p1, sub_self]
  · simp only [fusSlice]; rw [s0, zero_div, endPart_zero _ _ p1, endPart_zero _ _ p2]; ring
  · have a := hr _ _ p1 hn i hi
    have b := hr _ _ p2 ht i hi
    simp only [fusSlice]
    refine ⟨by linarith [a.2], by linarith [a.1], by linarith [b.1], by linarith [b.2]⟩
  · have hm : bodyStation (f.width * 0.5) n i / (f.width * 0.5) ≤ bodyStation (f.width * 0.5) n j / (f.width * 0.5) := by
      apply div_le_div_of_nonneg_right _ hh.le
      rcases hij.eq_or_lt with rfl | hlt
      · exact le_rfl
      · exact (s1 i j hlt hj).le
    have a := endPart_anti _ f.nose _ _ p1 hn (hu i (hij.trans hj)).1 hm (hu j hj).2
    have b := endPart_anti _ f.tail _ _ p2 ht (hu i (hij.trans hj)).1 hm (hu j hj).2
    simp only [fusSlice]
    exact ⟨by linarith, by linarith⟩

/-- **C396, tiling.** The panels of a plate lie behind one another from the leading to the trailing edge and beside one another from strip to
strip; the bound vortex is at a quarter and the control point at three quarters of each panel, halfway between the sides. -/
theorem C396_tiling (s : ℕ → Slice) (ox oy : ℝ) (m i j : ℕ) (hm : 0 < m) :
    let p := platePanel s ox oy m i
    (p 0).a1 = ((s i).x + ox, (s i).y + oy) ∧ (p (m - 1)).a2 = ((s i).x + (s i).chord + ox, (s i).y + oy) ∧
    (p (j + 1)).a1 = (p j).a2 ∧ (p (j + 1)).b1 = (p j).b2 ∧
    (platePanel s ox oy m (i + 1) j).a1 = (p j).b1 ∧ (platePanel s ox oy m (i + 1) j).a2 = (p j).b2 ∧
    (platePanel s ox oy m (i + 1) j).ah = (p j).bh ∧ (platePanel s ox oy m (i + 1) j).ac = (p j).bc ∧
    (p j).ah = (0.75 : ℝ) • (p j).a1 + (0.25 : ℝ) • (p j).a2 ∧ (p j).ac = (0.25 : ℝ) • (p j).a1 + (0.75 : ℝ) • (p j).a2 ∧
    (p j).bh = (0.75 : ℝ) • (p j).b1 + (0.25 : ℝ) • (p j).b2 ∧ (p j).bc = (0.25 : ℝ) • (p j).b1 + (0.75 : ℝ) • (p j).b2 ∧
    (p j).ch = (0.5 : ℝ) • ((p j).ah + (p j).bh) ∧ (p j).c = (0.5 : ℝ) • ((p j).ac + (p j).bc) := by
  intro p
  have hm' : (m : ℝ) ≠ 0 := by positivity
  have hl : ((m - 1 : ℕ) : ℝ) = m - 1 := by rw [Nat.cast_sub hm]; simp
  refine ⟨?_, ?_, ?_, ?_, rfl, rfl, rfl, rfl, ?_, ?_, ?_, ?_, ?_, ?_⟩ <;>
    (simp only [p, platePanel, Prod.smul_mk, Prod.mk_add_mk, Prod.mk.injEq, smul_eq_mul, hl]; push_cast) <;>
    exact ⟨by field_simp; ring, by first | trivial | ring⟩

/-- **C396, area.** The area of a half is that of its trapezes, at most the half width times the length. -/
theorem C396_area (f : FusIn) (hf : f.WF) (n : ℕ) : 0 ≤ plateArea (fusSlice f n) n ∧ plateArea (fusSlice f n) n ≤ f.total * bodyStation (f.width * 0.5) n n := by
  obtain ⟨-, -, o3, -⟩ := C396_outline f hf n
  have hh : 0 < f.width * 0.5 := by have := hf.width; positivity
  obtain ⟨s0, s1, s2⟩ := C396_stations _ hh n
  have hc : ∀ i ≤ n, 0 ≤ (fusSlice f n i).chord ∧ (fusSlice f n i).chord ≤ f.total := fun i hi => by
    obtain ⟨a, b, c, d⟩ := o3 i hi
    have := hf.cabin
    exact ⟨by linarith, by linarith⟩
  have hy : ∀ i, (fusSlice f n i).y = bodyStation (f.width * 0.5) n i := fun _ => rfl
  have key : ∀ k ≤ n, 0 ≤ plateArea (fusSlice f n) k ∧ plateArea (fusSlice f n) k ≤ f.total * bodyStation (f.width * 0.5) n k := by
    intro k
    induction k with
    | zero => intro _; simp [plateArea, s0]
    | succ k ih =>
      intro hk
      obtain ⟨i1, i2⟩ := ih (by omega)
      have e : plateArea (fusSlice f n) (k + 1) = plateArea (fusSlice f n) k +
          ((fusSlice f n k).chord + (fusSlice f n (k + 1)).chord) / 2 * (bodyStation (f.width * 0.5) n (k + 1) - bodyStation (f.width * 0.5) n k) := by
        unfold plateArea
        rw [List.range_succ, List.map_append, List.sum_append]
        simp [hy]
      have d := s1 k (k + 1) (by omega) hk
      have a := hc k (by omega)
      have b := hc (k + 1) hk
      rw [e]
      refine ⟨add_nonneg i1 (mul_nonneg (by linarith) (by linarith)), ?_⟩
      nlinarith
  exact key n le_rfl

/-- **C396, false in general.** The plate does not have the width of the body: the outermost station is short of the half width by the factor
`cos (π / (2 (2 n + 1)))`; with one strip to a side more than an eighth is missing. -/
theorem C396_width_counterexample : (∀ half : ℝ, 0 < half → ∀ n, bodyStation half n n = half * cos (π / (2 * (2 * n + 1))) ∧ bodyStation half n n < half) ∧
    ∀ half : ℝ, 0 < half → bodyStation half 1 1 < 0.875 * half := by
  have h1 : ∀ half : ℝ, ∀ n : ℕ, bodyStation half n n = half * cos (π / (2 * (2 * n + 1))) := by
    intro half n
    unfold bodyStation
    congr 2
    field_simp
    ring
  refine ⟨fun half h n => ⟨h1 half n, ((C396_stations half h n).2.2 n le_rfl).2⟩, fun half h => ?_⟩
  rw [h1]
  have : π / (2 * (2 * ((1 : ℕ) : ℝ) + 1)) = π / 6 := by push_cast; ring
  rw [this, cos_pi_div_six]
  have h3 : √3 < 1.74 := by
    rw [sqrt_lt' (by norm_num)]; norm_num
  nlinarith

/-! ### Nacelles -/

/-- The half plates of a body at `oy`: the intervals of `y` covered. -/
def firstHalf (oy w y : ℝ) : Prop := oy ≤ y ∧ y ≤ oy + w
def secondHalf (oy w y : ℝ) : Prop := firstHalf oy w (-y)

/-- **C397, nacelle.** A nacelle is a rectangle of its length; its second half is the mirror image of the first in the plane of symmetry
of the vehicle, at the same `x`. -/
theorem C397_nacelle (c : NacIn) (m n i j : ℕ) (hm : 0 < m) :
    let p := platePanel (nacSlice c n) c.ox c.oy m i j
    p.a1 = (c.ox + c.length / m * j, bodyStation (c.width * 0.5) n i + c.oy) ∧
    p.b2 = (c.ox + c.length / m * (j + 1), bodyStation (c.width * 0.5) n (i + 1) + c.oy) ∧
    p.c = (c.ox + c.length / m * (j + 0.75), (bodyStation (c.width * 0.5) n i + bodyStation (c.width * 0.5) n (i + 1)) / 2 + c.oy) ∧
    p.flip.c = (p.c.1, -p.c.2) ∧ p.flip.ah = (p.ah.1, -p.ah.2) ∧ p.flip.bh = (p.bh.1, -p.bh.2) ∧ p.flip.flip = p ∧
    plateArea (nacSlice c n) n = c.length * bodyStation (c.width * 0.5) n n := by
  intro p
  have hm' : (m : ℝ) ≠ 0 := by positivity
  refine ⟨?_, ?_, ?_, rfl, rfl, rfl, ?_, ?_⟩
  · simp only [p, platePanel, nacSlice, Prod.mk.injEq]; exact ⟨by ring, trivial⟩
  · simp only [p, platePanel, nacSlice, Prod.mk.injEq]; exact ⟨by ring, trivial⟩
  · simp only [p, platePanel, nacSlice, Prod.mk.injEq]; exact ⟨by field_simp; ring, by ring⟩
  · simp [PlatePoints.flip, flip]
  · have s0 : bodyStation (c.width * 0.5) n 0 = 0 := by
      unfold bodyStation
      have : (2 * ((n : ℝ) + 1 - (0 : ℕ)) - 1) / (2 * (2 * n + 1)) * π = π / 2 := by push_cast; field_simp; ring
      rw [this, cos_pi_div_two, mul_zero]
    have key : ∀ k, plateArea (nacSlice c n) k = c.length * (bodyStation (c.width * 0.5) n k - bodyStation (c.width * 0.5) n 0) := by
      intro k
      induction k with
      | zero => simp [plateArea]
      | succ k ih =>
        have e : plateArea (nacSlice c n) (k + 1) = plateArea (nacSlice c n) k +
            c.length * (bodyStation (c.width * 0.5) n (k + 1) - bodyStation (c.width * 0.5) n k) := by
          unfold plateArea
          rw [List.range_succ, List.map_append, List.sum_append]
          simp [nacSlice]
        rw [e, ih]; ring
    rw [key, s0, sub_zero]

/-- **C397, mean width.** Segments give the mean of their widths, unless there is only one. -/
theorem C397_width (c : NacIn) : (c.widths.length ≤ 1 → c.width = c.diameter) ∧
    (1 < c.widths.length → (∀ w ∈ c.widths, w = c.diameter) → c.width = c.diameter) := by
  refine ⟨fun h => by rw [NacIn.width, if_neg (by omega)], fun h hw => ?_⟩
  rw [NacIn.width, if_pos h]
  have : c.widths = List.replicate c.widths.length c.diameter := List.eq_replicate_iff.2 ⟨rfl, hw⟩
  have hs : c.widths.sum = c.widths.length * c.diameter := by
    conv_lhs => rw [this]
    rw [List.sum_replicate, nsmul_eq_mul]
  rw [hs, mul_div_cancel_left₀]
  have : 0 < c.widths.length := by omega
  positivity

/-- **C397, pairs.** Two nacelles on either side of the vehicle, each with its own place, give two complete plates, one
about each of them. -/
theorem C397_pair_partial (oy w y : ℝ) (hw : 0 ≤ w) :
    (firstHalf oy w y ∨ secondHalf oy w y ∨ firstHalf (-oy) w y ∨ secondHalf (-oy) w y) ↔ (|y - oy| ≤ w ∨ |y + oy| ≤ w) := by
  unfold secondHalf firstHalf
  rw [abs_le, abs_le]
  constructor
  · rintro (⟨a, b⟩ | ⟨a, b⟩ | ⟨a, b⟩ | ⟨a, b⟩)
    · left; constructor <;> linarith
    · right; constructor <;> linarith
    · right; constructor <;> linarith
    · left; constructor <;> linarith
  · rintro (⟨a, b⟩ | ⟨a, b⟩)
    · rcases le_total oy y with h | h
      · left; constructor <;> linarith
      · right; right; right; constructor <;> linarith
    · rcases le_total (-oy) y with h | h
      · right; right; left; constructor <;> linarith
      · right; left; constructor <;> linarith

/-- **C397, false in general.** A body off the plane of symmetry is cut in half: one half lies on its outer side, the other half on the other
side of the vehicle, where there may be nothing. -/
theorem C397_single_counterexample : ∃ c : NacIn, 0 < c.length ∧ 0 < c.width ∧
    (∀ m n i j : ℕ, 0 < m → i ≤ n → c.oy ≤ (platePanel (nacSlice c n) c.ox c.oy m i j).a1.2 ∧
      (platePanel (nacSlice c n) c.ox c.oy m i j).flip.a1.2 ≤ -c.oy) ∧ 0 < c.oy := by
  have hw : (NacIn.mk 10 5 (-1) 4 2 []).width = 2 := by simp [NacIn.width]
  refine ⟨⟨10, 5, -1, 4, 2, []⟩, by norm_num, by rw [hw]; norm_num, fun m n i j hm hi => ?_, by norm_num⟩
  have := ((C396_stations (2 * 0.5) (by norm_num) n).2.2 i hi).1
  simp only [platePanel, nacSlice, PlatePoints.flip, flip, hw]
  constructor <;> linarith

example : (FusIn.mk 0 0 0 2 3 10 2 1.5 2).WF := ⟨by norm_num, by norm_num, by norm_num, by norm_num⟩
example : (fusSlice (FusIn.mk 0 0 0 2 3 10 2 1.5 2) 4 0).chord = 10 := (C396_outline _ ⟨by norm_num, by norm_num, by norm_num, by norm_num⟩ 4).2.1
example : (NacIn.mk 0 5 0 4 2 [1, 3]).width = 2 := by norm_num [NacIn.width]
example : firstHalf 5 1 5.5 ∧ ¬ firstHalf 5 1 4.5 := by unfold firstHalf; norm_num

end Verif.Vlm
