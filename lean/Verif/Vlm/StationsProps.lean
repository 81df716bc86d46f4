import Verif.Vlm.Stations
import Mathlib.Tactic

/-!
# Properties of the discretization (C206-C209)
-/

namespace Verif.Vlm

/-! ### Settings and stations -/

/-- Specification: all given, as positive numbers. -/
def Given (a b : Option ℕ) : Prop := (∃ n, a = some n ∧ 0 < n) ∧ (∃ n, b = some n ∧ 0 < n)
/-- Specification: neither given. -/
def Absent (a b : Option ℕ) : Prop := (a = none ∨ a = some 0) ∧ (b = none ∨ b = some 0)

theorem truthy_iff (a : Option ℕ) : truthy a = true ↔ ∃ n, a = some n ∧ 0 < n := by
  cases a with
  | none => simp [truthy]
  | some n => simp [truthy, Nat.pos_iff_ne_zero]

theorem truthy_not (a : Option ℕ) : truthy a = false ↔ (a = none ∨ a = some 0) := by
  cases a with
  | none => simp [truthy]
  | some n => simp [truthy]

/-- **C206.** The numbers of vortices are accepted exactly when they are given completely in one of the two ways and not
at all in the other; the numbers used are those given. -/
theorem C206_counts (c : Counts) (r : Option ℕ × Option ℕ × Option ℕ × Option ℕ) :
    resolveCounts c = some r ↔
      (Given c.swGlobal c.cwGlobal ∧ Absent c.swWing c.cwWing ∧ Absent c.swFuse c.cwFuse ∧
        r = (c.swGlobal, c.cwGlobal, c.swGlobal, c.cwGlobal)) ∨
      (Absent c.swGlobal c.cwGlobal ∧ Given c.swWing c.cwWing ∧ Given c.swFuse c.cwFuse ∧
        r = (c.swWing, c.cwWing, c.swFuse, c.cwFuse)) := by
  unfold Given Absent resolveCounts
  simp only [← truthy_iff, ← truthy_not]
  cases h1 : truthy c.swGlobal <;> cases h2 : truthy c.cwGlobal <;> cases h3 : truthy c.swWing <;>
    cases h4 : truthy c.cwWing <;> cases h5 : truthy c.swFuse <;> cases h6 : truthy c.cwFuse <;>
    simp [eq_comm]

/-- **C206.** Both spacings run strictly outward from the root to the tip. -/
theorem C206_spacing (span : ℝ) (n : ℕ) (hs : 0 < span) (hn : 0 < n) :
    linearStation span n 0 = 0 ∧ linearStation span n n = span ∧
    cosineStation span n 0 = 0 ∧ cosineStation span n n = span ∧
    (∀ i j, i < j → j ≤ n → linearStation span n i < linearStation span n j ∧
      cosineStation span n i < cosineStation span n j) := by
  have hn' : (0 : ℝ) < n := by exact_mod_cast hn
  have hn1 : (0 : ℝ) < (n : ℝ) + 1 := by linarith
  have harg : ∀ i : ℕ, ((n + 1 : ℝ) - (n + 1) * i / n) * (Real.pi / 2) / (n + 1)
      = (Real.pi / 2) * (1 - i / n) := by
    intro i; field_simp
  refine ⟨?_, ?_, ?_, ?_, ?_⟩
  · unfold linearStation; simp
  · unfold linearStation; field_simp
  · unfold cosineStation; rw [harg]; simp
  · unfold cosineStation; rw [harg, div_self hn'.ne']; simp
  · intro i j hij hj
    have hij' : (i : ℝ) < j := by exact_mod_cast hij
    have hj' : (j : ℝ) ≤ n := by exact_mod_cast hj
    have hi0 : (0 : ℝ) ≤ i := by positivity
    constructor
    · unfold linearStation
      rw [div_lt_div_iff_of_pos_right hn']
      exact mul_lt_mul_of_pos_left hij' hs
    · unfold cosineStation
      rw [harg, harg]
      apply mul_lt_mul_of_pos_left _ hs
      have hp := Real.pi_pos
      have h1 : (i : ℝ) / n < j / n := by rw [div_lt_div_iff_of_pos_right hn']; exact hij'
      have h2 : (j : ℝ) / n ≤ 1 := by rw [div_le_one hn']; exact hj'
      have h3 : (0 : ℝ) ≤ i / n := by positivity
      apply Real.cos_lt_cos_of_nonneg_of_le_pi_div_two
      · apply mul_nonneg (by linarith); linarith
      · nlinarith
      · apply mul_lt_mul_of_pos_left _ (by linarith); linarith

/-! ### Moving stations onto breaks -/

theorem nearest_spec (st : List (ℝ × Bool)) (y : ℝ) :
    (nearest st y = none → ∀ p ∈ st, p.2 = true) ∧
    (∀ i d, nearest st y = some (i, d) → ∃ l r v, st = l ++ (v, false) :: r ∧ l.length = i ∧
      d = |v - y| ∧ ∀ p ∈ st, p.2 = false → d ≤ |p.1 - y|) := by
  induction st with
  | nil => simp [nearest]
  | cons a t ih =>
    obtain ⟨v, m⟩ := a
    obtain ⟨ih1, ih2⟩ := ih
    unfold nearest
    cases hn : nearest t y with
    | none =>
      have hall := ih1 hn
      cases m with
      | true =>
        simp only [if_true]
        refine ⟨fun _ p hp => ?_, by simp⟩
        rcases List.mem_cons.1 hp with h | h
        · rw [h]
        · exact hall p h
      | false =>
        simp only [Bool.false_eq_true, if_false]
        refine ⟨by simp, ?_⟩
        intro i d h
        simp only [Option.some.injEq, Prod.mk.injEq] at h
        obtain ⟨hi, hd⟩ := h
        refine ⟨[], t, v, rfl, hi, hd.symm, ?_⟩
        intro p hp hpf
        rcases List.mem_cons.1 hp with h | h
        · rw [h, ← hd]
        · rw [hall p h] at hpf; exact absurd hpf (by simp)
    | some q =>
      obtain ⟨i0, d0⟩ := q
      obtain ⟨l, r, v0, hst, hlen, hd0, hmin⟩ := ih2 i0 d0 hn
      simp only
      by_cases hc : m = false ∧ |v - y| ≤ d0
      · rw [if_pos hc]
        refine ⟨by simp, ?_⟩
        intro i d h
        simp only [Option.some.injEq, Prod.mk.injEq] at h
        obtain ⟨hi, hd⟩ := h
        refine ⟨[], t, v, by simp [hc.1], hi, hd.symm, ?_⟩
        intro p hp hpf
        rcases List.mem_cons.1 hp with h | h
        · rw [h, ← hd]
        · rw [← hd]; exact le_trans hc.2 (hmin p h hpf)
      · rw [if_neg hc]
        refine ⟨by simp, ?_⟩
        intro i d h
        simp only [Option.some.injEq, Prod.mk.injEq] at h
        obtain ⟨hi, hd⟩ := h
        refine ⟨(v, m) :: l, r, v0, by rw [hst]; rfl, by simp [hlen, hi], by rw [← hd, hd0], ?_⟩
        intro p hp hpf
        rcases List.mem_cons.1 hp with h | h
        · subst h
          simp only at hpf ⊢
          rw [← hd]
          by_contra hcon
          exact hc ⟨hpf, (not_le.1 hcon).le⟩
        · rw [← hd]; exact hmin p h hpf

/-- State of the loop after the coordinates `done` have been processed. -/
structure SnapInv (n : ℕ) (st : List (ℝ × Bool)) (done : List ℝ) : Prop where
  len : st.length = n
  nodup : (st.map Prod.fst).Nodup
  moved : ((st.filter (·.2)).map Prod.fst).Perm done

theorem snapStep_inv (n : ℕ) (st : List (ℝ × Bool)) (done : List ℝ) (y : ℝ) (h : SnapInv n st done)
    (hlt : done.length < n) (hy : y ∉ done) : SnapInv n (snapStep st y) (y :: done) := by
  obtain ⟨s1, s2⟩ := nearest_spec st y
  cases hn : nearest st y with
  | none =>
    exfalso
    have hall := s1 hn
    have hf : st.filter (·.2) = st := List.filter_eq_self.2 (fun p hp => hall p hp)
    have := h.moved.length_eq
    rw [hf, List.length_map, h.len] at this
    omega
  | some q =>
    obtain ⟨i, d⟩ := q
    obtain ⟨l, r, v, hst, hlen, hd, hmin⟩ := s2 i d hn
    have hstep : snapStep st y = l ++ (y, true) :: r := by
      unfold snapStep
      rw [hn]
      simp only
      rw [hst, ← hlen]
      simp
    have hnd := h.nodup
    have hmv := h.moved
    have hlen0 := h.len
    rw [hstep]
    rw [hst] at hnd hmv hlen0 hmin
    have hyother : ∀ p, p ∈ l ++ r → p.1 ≠ y := by
      intro p hp hpy
      have hpst : p ∈ l ++ (v, false) :: r := by
        rcases List.mem_append.1 hp with h | h
        · exact List.mem_append_left _ h
        · exact List.mem_append_right _ (List.mem_cons_of_mem _ h)
      cases hp2 : p.2 with
      | true =>
        apply hy
        have : p.1 ∈ ((l ++ (v, false) :: r).filter (·.2)).map Prod.fst :=
          List.mem_map.2 ⟨p, List.mem_filter.2 ⟨hpst, hp2⟩, rfl⟩
        rw [← hpy]
        exact hmv.mem_iff.1 this
      | false =>
        have h0 := hmin p hpst hp2
        rw [hpy, sub_self, abs_zero, hd] at h0
        have hv : v = y := by
          have := abs_nonpos_iff.1 h0
          linarith
        -- then v and p.1 coincide although they are at different places
        have : ((l ++ (v, false) :: r).map Prod.fst).Nodup := hnd
        rw [List.map_append, List.map_cons] at this
        have hnm := (List.nodup_middle.1 this)
        rw [List.nodup_cons] at hnm
        apply hnm.1
        show v ∈ _
        rw [hv, ← hpy, ← List.map_append]
        exact List.mem_map.2 ⟨p, hp, rfl⟩
    refine ⟨?_, ?_, ?_⟩
    · simpa using hlen0
    · rw [List.map_append, List.map_cons] at hnd ⊢
      rw [List.nodup_middle, List.nodup_cons] at hnd ⊢
      refine ⟨?_, hnd.2⟩
      intro hcon
      rw [← List.map_append] at hcon
      obtain ⟨p, hp, hpy⟩ := List.mem_map.1 hcon
      exact hyother p hp hpy
    · rw [List.filter_append, List.map_append] at hmv ⊢
      simp only [List.filter_cons, Bool.false_eq_true, if_false, if_true, List.map_cons] at hmv ⊢
      exact (List.perm_middle).trans (List.Perm.cons y hmv)

theorem snap_fold_inv (n : ℕ) (req : List ℝ) (st : List (ℝ × Bool)) (done : List ℝ) (h : SnapInv n st done)
    (hle : done.length + req.length ≤ n) (hnd : (done ++ req).Nodup) :
    ∃ done', done'.Perm (done ++ req) ∧ SnapInv n (req.foldl snapStep st) done' := by
  induction req generalizing st done with
  | nil => exact ⟨done, by simp, h⟩
  | cons y t ih =>
    have hy : y ∉ done := by
      intro hc
      rw [List.nodup_append] at hnd
      exact hnd.2.2 y hc y (by simp) rfl
    have h' := snapStep_inv n st done y h (by simp at hle; omega) hy
    have hnd' : ((y :: done) ++ t).Nodup := by
      have := (List.nodup_middle).1 hnd
      simpa using this
    obtain ⟨d', p, q⟩ := ih (snapStep st y) (y :: done) h' (by simp at hle ⊢; omega) hnd'
    refine ⟨d', p.trans ?_, q⟩
    simpa using (List.perm_middle (a := y) (l₁ := done) (l₂ := t)).symm

/-- **C207.** Whenever there are at least as many stations as required coordinates (the check made before) every
required coordinate becomes a station, the number of stations does not change, and no two stations coincide: every strip
has a positive width, and the error for missed breaks cannot occur. -/
theorem C207_breaks_captured (stations required : List ℝ) (hlen : required.length ≤ stations.length)
    (hs : stations.Nodup) (hr : required.Nodup) :
    ∃ ys, snap stations required = some ys ∧ ys.length = stations.length ∧ ys.Pairwise (· < ·) ∧
      ∀ y ∈ required, y ∈ ys := by
  have h0 : SnapInv stations.length (stations.map fun v => (v, false)) [] := by
    refine ⟨by simp, ?_, ?_⟩
    · rw [List.map_map]
      have : (Prod.fst ∘ fun v : ℝ => (v, false)) = id := rfl
      rw [this, List.map_id]; exact hs
    · have : (stations.map fun v => (v, false)).filter (·.2) = [] := by
        rw [List.filter_eq_nil_iff]
        intro p hp
        obtain ⟨v, _, hv⟩ := List.mem_map.1 hp
        rw [← hv]; simp
      rw [this]; simp
  obtain ⟨done, hperm, hinv⟩ := snap_fold_inv stations.length required _ [] h0 (by simpa using hlen) (by simpa using hr)
  obtain ⟨st, hst⟩ : ∃ st, st = required.foldl snapStep (stations.map fun v => (v, false)) := ⟨_, rfl⟩
  rw [← hst] at hinv
  obtain ⟨ys, hys⟩ : ∃ ys, ys = (st.map Prod.fst).insertionSort (· ≤ ·) := ⟨_, rfl⟩
  have hyperm : ys.Perm (st.map Prod.fst) := by rw [hys]; exact List.perm_insertionSort _ _
  have hmem : ∀ y ∈ required, y ∈ ys := by
    intro y hy
    have h1 : y ∈ done := hperm.mem_iff.2 (by simpa using hy)
    have h2 := hinv.moved.mem_iff.2 h1
    obtain ⟨p, hp, hpy⟩ := List.mem_map.1 h2
    exact hyperm.mem_iff.2 (List.mem_map.2 ⟨p, (List.mem_filter.1 hp).1, hpy⟩)
  refine ⟨ys, ?_, ?_, ?_, hmem⟩
  · unfold snap
    simp only
    rw [← hst, ← hys, if_pos hmem]
  · rw [hyperm.length_eq, List.length_map, hinv.len]
  · have hsort : ys.Pairwise (· ≤ ·) := by rw [hys]; exact List.pairwise_insertionSort _ _
    have hnd : ys.Nodup := hyperm.nodup_iff.2 hinv.nodup
    exact (hsort.and hnd).imp (fun h => lt_of_le_of_ne h.1 h.2)

/-- **C207.** When there are exactly as many stations as required coordinates (control surfaces) the stations are the
required coordinates. -/
theorem C207_control_surface_stations (stations required : List ℝ) (hlen : required.length = stations.length)
    (hs : stations.Nodup) (hr : required.Nodup) (ys : List ℝ) (h : snap stations required = some ys) :
    ys.Perm required := by
  obtain ⟨zs, hz, hl, hp, hm⟩ := C207_breaks_captured stations required hlen.le hs hr
  rw [h] at hz
  simp only [Option.some.injEq] at hz
  subst hz
  have hsub : required.Subperm ys := hr.subperm hm
  exact (hsub.perm_of_length_le (by rw [hl, hlen])).symm

/-- Three stations, a break at 0.6 between root and tip. -/
example : ∃ ys, snap [0, 1 / 2, 1] [0, 3 / 5, 1] = some ys ∧ ys.Perm [0, 3 / 5, 1] := by
  have hs : ([0, 1 / 2, 1] : List ℝ).Nodup := by norm_num
  have hr : ([0, 3 / 5, 1] : List ℝ).Nodup := by norm_num
  obtain ⟨ys, h, _⟩ := C207_breaks_captured [0, 1 / 2, 1] [0, 3 / 5, 1] (by simp) hs hr
  exact ⟨ys, h, C207_control_surface_stations _ _ (by simp) hs hr ys h⟩

/-! ### Strips -/

/-- Specification.  Area of a strip: trapezoid. -/
noncomputable def StripGeom.area (s : StripGeom) : ℝ := (s.ca + s.cb) / 2 * (s.yb - s.ya)

/-- Chord integral from the inner break. -/
noncomputable def chordInt (b0 b1 : Break) (y : ℝ) : ℝ :=
  (y - b0.y) * b0.chord + (b1.chord - b0.chord) / (b1.y - b0.y) * (y - b0.y) ^ 2 / 2

theorem area_eq (b0 b1 : Break) (ya yb : ℝ) :
    StripGeom.area ⟨ya, yb, chordAt b0 b1 ya, chordAt b0 b1 yb, b0, b1⟩
      = chordInt b0 b1 yb - chordInt b0 b1 ya := by
  unfold StripGeom.area chordAt chordInt
  simp only
  ring

theorem stripLoop_spec (ys : List ℝ) (ya : ℝ) (b0 b1 : Break) (rest : List Break)
    (hys : (ya :: ys).Pairwise (· < ·))
    (hbr : ((b0 :: b1 :: rest).map Break.y).Pairwise (· < ·))
    (hin : b0.y ≤ ya) (hlt : ya < b1.y)
    (hall : ∀ b ∈ b1 :: rest, b.y ∈ ys)
    (hlast : ∀ y ∈ ys, ∃ b ∈ b1 :: rest, y ≤ b.y) :
    ∃ l, stripLoop ya ys (b0 :: b1 :: rest) = some l ∧ l.length = ys.length ∧
      (∀ s ∈ l, s.inner.y ≤ s.ya ∧ s.ya < s.yb ∧ s.yb ≤ s.outer.y) ∧
      (l.map StripGeom.area).sum = sectionAreas (b0 :: b1 :: rest) - chordInt b0 b1 ya := by
  induction ys generalizing ya b0 b1 rest with
  | nil => have := hall b1 (by simp); simp at this
  | cons yb t ih =>
    have hyab : ya < yb := (List.pairwise_cons.1 hys).1 yb (by simp)
    have hyt : (yb :: t).Pairwise (· < ·) := (List.pairwise_cons.1 hys).2
    have hbt : ((b1 :: rest).map Break.y).Pairwise (· < ·) := (List.pairwise_cons.1 hbr).2
    have hb01 : b0.y < b1.y := (List.pairwise_cons.1 hbr).1 b1.y (by simp)
    have hble : yb ≤ b1.y := by
      have := hall b1 (by simp)
      rcases List.mem_cons.1 this with h | h
      · exact h.ge
      · exact ((List.pairwise_cons.1 hyt).1 _ h).le
    by_cases he : yb = b1.y
    · -- the strip ends on the break
      cases rest with
      | nil =>
        have ht : t = [] := by
          by_contra hne
          obtain ⟨z, hz⟩ := List.exists_mem_of_ne_nil t hne
          obtain ⟨b, hb, hzb⟩ := hlast z (by simp [hz])
          have hzy := (List.pairwise_cons.1 hyt).1 z hz
          simp only [List.mem_singleton] at hb
          rw [hb, ← he] at hzb
          linarith
        subst ht
        refine ⟨[⟨ya, yb, chordAt b0 b1 ya, chordAt b0 b1 yb, b0, b1⟩], ?_, rfl, ?_, ?_⟩
        · simp [stripLoop]
        · intro s hs
          simp only [List.mem_singleton] at hs
          subst hs
          exact ⟨hin, hyab, hble⟩
        · simp only [List.map_cons, List.map_nil, List.sum_cons, List.sum_nil, add_zero]
          rw [area_eq, he]
          unfold sectionAreas sectionAreas chordInt
          have h : b1.y - b0.y ≠ 0 := by linarith
          field_simp
          ring
      | cons b2 rest' =>
        have hb12 : b1.y < b2.y := (List.pairwise_cons.1 hbt).1 b2.y (by simp)
        obtain ⟨l, h1, h2, h3, h4⟩ := ih yb b1 b2 rest' hyt hbt he.ge (by rw [he]; exact hb12)
          (by
            intro b hb
            have hm := hall b (List.mem_cons_of_mem _ hb)
            rcases List.mem_cons.1 hm with h | h
            · exfalso
              have : b1.y < b.y := (List.pairwise_cons.1 hbt).1 b.y (List.mem_map.2 ⟨b, hb, rfl⟩)
              rw [h, he] at this; linarith
            · exact h)
          (by
            intro y hy
            obtain ⟨b, hb, hyb⟩ := hlast y (by simp [hy])
            rcases List.mem_cons.1 hb with h | h
            · exact ⟨b2, by simp, by rw [h] at hyb; linarith⟩
            · exact ⟨b, h, hyb⟩)
        refine ⟨⟨ya, yb, chordAt b0 b1 ya, chordAt b0 b1 yb, b0, b1⟩ :: l, ?_, ?_, ?_, ?_⟩
        · unfold stripLoop
          rw [if_pos he, h1]; rfl
        · simp [h2]
        · intro s hs
          rcases List.mem_cons.1 hs with h | h
          · subst h; exact ⟨hin, hyab, hble⟩
          · exact h3 s h
        · rw [List.map_cons, List.sum_cons, h4, area_eq, he]
          have e : sectionAreas (b0 :: b1 :: b2 :: rest')
              = (1 / 2) * (b0.chord + b1.chord) * (b1.y - b0.y) + sectionAreas (b1 :: b2 :: rest') := rfl
          rw [e]
          have hz : chordInt b1 b2 b1.y = 0 := by unfold chordInt; simp
          rw [hz]
          unfold chordInt
          have h : b1.y - b0.y ≠ 0 := by linarith
          field_simp
          ring
    · have hlt' : yb < b1.y := lt_of_le_of_ne hble he
      obtain ⟨l, h1, h2, h3, h4⟩ := ih yb b0 b1 rest hyt hbr (by linarith) hlt'
        (by
          intro b hb
          have hm := hall b hb
          rcases List.mem_cons.1 hm with h | h
          · exfalso
            have hge : b1.y ≤ b.y := by
              rcases List.mem_cons.1 hb with h' | h'
              · rw [h']
              · exact ((List.pairwise_cons.1 hbt).1 b.y (List.mem_map.2 ⟨b, h', rfl⟩)).le
            linarith
          · exact h)
        (by intro y hy; exact hlast y (by simp [hy]))
      refine ⟨⟨ya, yb, chordAt b0 b1 ya, chordAt b0 b1 yb, b0, b1⟩ :: l, ?_, ?_, ?_, ?_⟩
      · unfold stripLoop
        rw [if_neg he, h1]; rfl
      · simp [h2]
      · intro s hs
        rcases List.mem_cons.1 hs with h | h
        · subst h; exact ⟨hin, hyab, hble⟩
        · exact h3 s h
      · rw [List.map_cons, List.sum_cons, h4, area_eq]; ring

/-- **C208.** For every strictly increasing set of stations from the root break to the tip break that contains all breaks,
the strip loop succeeds with one strip per interval, every strip lies between two neighbouring breaks, and the areas of
the strips add up to the area of the wing: nothing overlaps, nothing is left out. -/
theorem C208_strips_tile (ys : List ℝ) (b0 b1 : Break) (rest : List Break)
    (hys : (b0.y :: ys).Pairwise (· < ·))
    (hbr : ((b0 :: b1 :: rest).map Break.y).Pairwise (· < ·))
    (hall : ∀ b ∈ b1 :: rest, b.y ∈ ys)
    (hlast : ∀ y ∈ ys, ∃ b ∈ b1 :: rest, y ≤ b.y) :
    ∃ l, stripLoop b0.y ys (b0 :: b1 :: rest) = some l ∧ l.length = ys.length ∧
      (∀ s ∈ l, s.inner.y ≤ s.ya ∧ s.ya < s.yb ∧ s.yb ≤ s.outer.y) ∧
      (l.map StripGeom.area).sum = sectionAreas (b0 :: b1 :: rest) := by
  have hb01 : b0.y < b1.y := (List.pairwise_cons.1 hbr).1 b1.y (by simp)
  obtain ⟨l, h1, h2, h3, h4⟩ := stripLoop_spec ys b0.y b0 b1 rest hys hbr le_rfl hb01 hall hlast
  refine ⟨l, h1, h2, h3, ?_⟩
  rw [h4]
  unfold chordInt
  simp

/-- The chord on a strip runs between the chords of the two breaks. -/
theorem C208_chord_between (b0 b1 : Break) (y : ℝ) (h0 : b0.y ≤ y) (h1 : y ≤ b1.y) (h : b0.y < b1.y) :
    min b0.chord b1.chord ≤ chordAt b0 b1 y ∧ chordAt b0 b1 y ≤ max b0.chord b1.chord ∧
    chordAt b0 b1 b0.y = b0.chord ∧ chordAt b0 b1 b1.y = b1.chord := by
  have hp : 0 < b1.y - b0.y := by linarith
  obtain ⟨t, ht⟩ : ∃ t, t = (y - b0.y) / (b1.y - b0.y) := ⟨_, rfl⟩
  have ht0 : 0 ≤ t := by rw [ht]; apply div_nonneg <;> linarith
  have ht1 : t ≤ 1 := by rw [ht, div_le_one hp]; linarith
  have e : chordAt b0 b1 y = (1 - t) * b0.chord + t * b1.chord := by
    rw [ht]; unfold chordAt; field_simp; ring
  refine ⟨?_, ?_, ?_, ?_⟩
  · rw [e]
    have a1 := min_le_left b0.chord b1.chord
    have a2 := min_le_right b0.chord b1.chord
    nlinarith
  · rw [e]
    have a1 := le_max_left b0.chord b1.chord
    have a2 := le_max_right b0.chord b1.chord
    nlinarith
  · unfold chordAt; simp
  · unfold chordAt; field_simp; ring

example : ∃ l, stripLoop 0 [1, 2, 3] [⟨0, 4⟩, ⟨2, 2⟩, ⟨3, 1⟩] = some l ∧ (l.map StripGeom.area).sum = 15 / 2 := by
  obtain ⟨l, h1, _, _, h4⟩ := C208_strips_tile [1, 2, 3] ⟨0, 4⟩ ⟨2, 2⟩ [⟨3, 1⟩] (by norm_num) (by norm_num)
    (by simp) (by
      intro y hy
      refine ⟨⟨3, 1⟩, by simp, ?_⟩
      simp only [List.mem_cons, List.not_mem_nil, or_false] at hy
      rcases hy with h | h | h <;> rw [h] <;> norm_num)
  refine ⟨l, h1, ?_⟩
  rw [h4]
  unfold sectionAreas sectionAreas sectionAreas
  norm_num

/-! ### Twist -/

/-- Specification.  Squared distance. -/
def dist2 (p q : ℝ × ℝ) : ℝ := (p.1 - q.1) ^ 2 + (p.2 - q.2) ^ 2

theorem twistPoint_dist (tw px pz x z x' z' : ℝ) :
    dist2 (twistPoint tw px pz x z z) (twistPoint tw px pz x' z' z') = dist2 (x, z) (x', z') := by
  unfold dist2 twistPoint
  have h := Real.sin_sq_add_cos_sq tw
  simp only
  linear_combination ((x - x') ^ 2 + (z - z') ^ 2) * h

/-- **C208 (partial).** Twist turns the corners and the vortex of a panel edge rigidly about the leading edge, also the
control line if the wing has no camber there.  Missing: the control line of cambered wings. -/
theorem C208_twist_partial (tw px pz : ℝ) (a1 ah ac a2 : ℝ × ℝ) :
    dist2 (twistEdgeA tw px pz a1 ah ac a2).1 (twistEdgeA tw px pz a1 ah ac a2).2.1 = dist2 a1 ah ∧
    dist2 (twistEdgeA tw px pz a1 ah ac a2).1 (twistEdgeA tw px pz a1 ah ac a2).2.2.2 = dist2 a1 a2 ∧
    dist2 (twistEdgeA tw px pz a1 ah ac a2).2.1 (twistEdgeA tw px pz a1 ah ac a2).2.2.2 = dist2 ah a2 ∧
    dist2 (twistEdgeA tw px pz a1 ah ac a2).1 (px, pz) = dist2 a1 (px, pz) ∧
    (ac.2 = a2.2 →
      dist2 (twistEdgeA tw px pz a1 ah ac a2).1 (twistEdgeA tw px pz a1 ah ac a2).2.2.1 = dist2 a1 ac) := by
  refine ⟨twistPoint_dist _ _ _ _ _ _ _, twistPoint_dist _ _ _ _ _ _ _, twistPoint_dist _ _ _ _ _ _ _, ?_, ?_⟩
  · have h := Real.sin_sq_add_cos_sq tw
    unfold dist2 twistEdgeA twistPoint
    simp only
    linear_combination ((a1.1 - px) ^ 2 + (a1.2 - pz) ^ 2) * h
  · intro hz
    unfold twistEdgeA
    simp only
    rw [← hz]
    exact twistPoint_dist _ _ _ _ _ _ _

/-- On a cambered section the control line is displaced: the `x` formula uses the height of the trailing corner (inner
edge) or of the leading corner (outer edge).  With the section twisted by 90 degrees the error is the whole difference in
height. -/
theorem C208_twist_counterexample (px pz : ℝ) (p1 ph pc p2 : ℝ × ℝ) :
    (twistEdgeA (Real.pi / 2) px pz p1 ph pc p2).2.2.1.1
      = (twistPoint (Real.pi / 2) px pz pc.1 pc.2 pc.2).1 + (p2.2 - pc.2) ∧
    (twistEdgeB (Real.pi / 2) px pz p1 ph pc p2).2.2.1.1
      = (twistPoint (Real.pi / 2) px pz pc.1 pc.2 pc.2).1 + (p1.2 - pc.2) := by
  unfold twistEdgeA twistEdgeB twistPoint
  simp only [Real.cos_pi_div_two, Real.sin_pi_div_two]
  constructor <;> ring

/-! ### Merging of span breaks -/

/-- Strictly decreasing span fractions (the accumulator is kept in reverse). -/
def Desc (acc : List SpanBreak) : Prop := (acc.map SpanBreak.frac).Pairwise (· > ·)

theorem addBreak_desc (acc : List SpanBreak) (b : SpanBreak) (h : Desc acc)
    (hb : ∀ a ∈ acc, a.frac ≤ b.frac) :
    Desc (addBreak acc b) ∧ (∀ x, x ∈ (addBreak acc b).map SpanBreak.frac ↔
      x = b.frac ∨ x ∈ acc.map SpanBreak.frac) := by
  cases acc with
  | nil => unfold addBreak Desc; simp
  | cons a t =>
    unfold addBreak
    simp only
    by_cases hc : a.frac < b.frac
    · rw [if_pos hc]
      constructor
      · unfold Desc at h ⊢
        rw [List.map_cons, List.pairwise_cons]
        refine ⟨?_, h⟩
        intro x hx
        rw [List.map_cons] at hx
        rcases List.mem_cons.1 hx with h' | h'
        · rw [h']; exact hc
        · rw [List.map_cons] at h
          have h2 : a.frac > x := (List.pairwise_cons.1 h).1 x h'
          show b.frac > x
          linarith
      · intro x; simp
    · rw [if_neg hc]
      have hab : a.frac = b.frac := le_antisymm (hb a (by simp)) (not_lt.1 hc)
      constructor
      · unfold Desc at h ⊢
        simpa [superimpose] using h
      · intro x
        simp only [List.map_cons, superimpose, List.mem_cons]
        rw [hab]; tauto

theorem addBreak_bound (acc : List SpanBreak) (b : SpanBreak) (m : ℝ)
    (ha : ∀ a ∈ acc, a.frac ≤ m) (hb : b.frac ≤ m) : ∀ a ∈ addBreak acc b, a.frac ≤ m := by
  cases acc with
  | nil => unfold addBreak; simpa using hb
  | cons a t =>
    unfold addBreak
    simp only
    split
    · intro x hx
      rcases List.mem_cons.1 hx with h | h
      · rw [h]; exact hb
      · exact ha x h
    · intro x hx
      rcases List.mem_cons.1 hx with h | h
      · rw [h]; exact ha a (by simp)
      · exact ha x (by simp [h])

/-- Sorted input lists (step 1 of the merge). -/
def SortedFrac (l : List SpanBreak) : Prop := l.Pairwise (fun a b => a.frac ≤ b.frac)

/-- Specification.  Slot `k` is taken at span fraction `x` by one of the breaks of the list. -/
def Taken (k : Fin 4) (x : ℝ) (l : List SpanBreak) : Prop := ∃ a ∈ l, a.frac = x ∧ a.ids k ≠ -1

theorem taken_cons (k : Fin 4) (x : ℝ) (b : SpanBreak) (l : List SpanBreak) :
    Taken k x (b :: l) ↔ (b.frac = x ∧ b.ids k ≠ -1) ∨ Taken k x l := by
  unfold Taken; simp

theorem taken_add (k : Fin 4) (x : ℝ) (acc : List SpanBreak) (b : SpanBreak)
    (hb : ∀ a ∈ acc, a.frac ≤ b.frac) :
    Taken k x (addBreak acc b) ↔ (b.frac = x ∧ b.ids k ≠ -1) ∨ Taken k x acc := by
  cases acc with
  | nil => unfold addBreak; exact taken_cons k x b []
  | cons a t =>
    unfold addBreak
    simp only
    by_cases hc : a.frac < b.frac
    · rw [if_pos hc]; exact taken_cons k x b (a :: t)
    · rw [if_neg hc]
      have hab : a.frac = b.frac := le_antisymm (hb a (by simp)) (not_lt.1 hc)
      rw [taken_cons, taken_cons]
      unfold superimpose
      simp only
      rw [← hab]
      by_cases hi : a.ids k = -1
      · simp [hi]
      · simp only [hi, if_false]
        tauto

theorem or_perm1 (p a l t s : Prop) : (p ∨ a) ∨ l ∨ t ∨ s ↔ a ∨ (p ∨ l) ∨ t ∨ s := by tauto
theorem or_perm2 (p a l t s : Prop) : (p ∨ a) ∨ l ∨ t ∨ s ↔ a ∨ l ∨ (p ∨ t) ∨ s := by tauto
theorem or_perm3 (p a l t s : Prop) : (p ∨ a) ∨ l ∨ t ∨ s ↔ a ∨ l ∨ t ∨ (p ∨ s) := by tauto

theorem merge3_spec (fuel : ℕ) (L T S acc : List SpanBreak) (hL : SortedFrac L) (hT : SortedFrac T)
    (hS : SortedFrac S) (hacc : Desc acc)
    (hbound : ∀ a ∈ acc, ∀ b, b ∈ L ∨ b ∈ T ∨ b ∈ S → a.frac ≤ b.frac)
    (hfuel : L.length + T.length + S.length < fuel) :
    ∃ r, merge3 fuel L T S acc = some r ∧ (r.map SpanBreak.frac).Pairwise (· < ·) ∧
      (∀ x, x ∈ r.map SpanBreak.frac ↔
        x ∈ acc.map SpanBreak.frac ∨ x ∈ L.map SpanBreak.frac ∨ x ∈ T.map SpanBreak.frac ∨
          x ∈ S.map SpanBreak.frac) ∧
      ∀ k x, Taken k x r ↔ Taken k x acc ∨ Taken k x L ∨ Taken k x T ∨ Taken k x S := by
  induction fuel generalizing L T S acc with
  | zero => omega
  | succ n ih =>
    unfold merge3
    by_cases h0 : headFrac L = ⊤ ∧ headFrac T = ⊤ ∧ headFrac S = ⊤
    · rw [if_pos h0]
      have hl : L = [] := by cases L with | nil => rfl | cons b l => exact absurd h0.1 (by simp [headFrac])
      have ht : T = [] := by cases T with | nil => rfl | cons b l => exact absurd h0.2.1 (by simp [headFrac])
      have hs : S = [] := by cases S with | nil => rfl | cons b l => exact absurd h0.2.2 (by simp [headFrac])
      refine ⟨acc.reverse, rfl, ?_, ?_, ?_⟩
      · rw [List.map_reverse, List.pairwise_reverse]; exact hacc
      · intro x; rw [hl, ht, hs, List.map_reverse]; simp
      · intro k x; rw [hl, ht, hs]; unfold Taken; simp
    · rw [if_neg h0]
      have hmin : ∀ (A B : List SpanBreak) (a : SpanBreak), SortedFrac B →
          ((a.frac : WithTop ℝ) ≤ headFrac B) → ∀ b ∈ B, a.frac ≤ b.frac := by
        intro A B a hB hle b hb
        cases B with
        | nil => simp at hb
        | cons c t =>
          have hac : a.frac ≤ c.frac := by simpa [headFrac] using hle
          rcases List.mem_cons.1 hb with h | h
          · rw [h]; exact hac
          · exact le_trans hac ((List.pairwise_cons.1 hB).1 b h)
      by_cases h1 : headFrac L ≤ headFrac T ∧ headFrac L ≤ headFrac S
      · rw [if_pos h1]
        cases L with
        | nil =>
          exfalso; apply h0
          simp only [headFrac, top_le_iff] at h1
          exact ⟨rfl, h1.1, h1.2⟩
        | cons b L' =>
          simp only
          have hbL : ∀ c ∈ L', b.frac ≤ c.frac := (List.pairwise_cons.1 hL).1
          have hbT := hmin [] T b hT h1.1
          have hbS := hmin [] S b hS h1.2
          have hab : ∀ a ∈ acc, a.frac ≤ b.frac := fun a ha => hbound a ha b (Or.inl (by simp))
          obtain ⟨d1, d2⟩ := addBreak_desc acc b hacc hab
          obtain ⟨r, r1, r2, r3, r4⟩ := ih L' T S (addBreak acc b) (List.pairwise_cons.1 hL).2 hT hS d1
            (by
              intro a ha c hc
              refine le_trans (addBreak_bound acc b b.frac hab le_rfl a ha) ?_
              rcases hc with h | h | h
              · exact hbL c h
              · exact hbT c h
              · exact hbS c h)
            (by simp at hfuel; omega)
          refine ⟨r, r1, r2, ?_, ?_⟩
          · intro x
            rw [r3, d2]
            simp only [List.map_cons, List.mem_cons]
            exact or_perm1 _ _ _ _ _
          · intro k x
            rw [r4, taken_add k x acc b hab, taken_cons]
            exact or_perm1 _ _ _ _ _
      · rw [if_neg h1]
        by_cases h2 : headFrac T ≤ headFrac L ∧ headFrac T ≤ headFrac S
        · rw [if_pos h2]
          cases T with
          | nil =>
            exfalso; apply h0
            simp only [headFrac, top_le_iff] at h2
            exact ⟨h2.1, rfl, h2.2⟩
          | cons b T' =>
            simp only
            have hbT : ∀ c ∈ T', b.frac ≤ c.frac := (List.pairwise_cons.1 hT).1
            have hbL := hmin [] L b hL h2.1
            have hbS := hmin [] S b hS h2.2
            have hab : ∀ a ∈ acc, a.frac ≤ b.frac := fun a ha => hbound a ha b (Or.inr (Or.inl (by simp)))
            obtain ⟨d1, d2⟩ := addBreak_desc acc b hacc hab
            obtain ⟨r, r1, r2, r3, r4⟩ := ih L T' S (addBreak acc b) hL (List.pairwise_cons.1 hT).2 hS d1
              (by
                intro a ha c hc
                refine le_trans (addBreak_bound acc b b.frac hab le_rfl a ha) ?_
                rcases hc with h | h | h
                · exact hbL c h
                · exact hbT c h
                · exact hbS c h)
              (by simp at hfuel; omega)
            refine ⟨r, r1, r2, ?_, ?_⟩
            · intro x
              rw [r3, d2]
              simp only [List.map_cons, List.mem_cons]
              exact or_perm2 _ _ _ _ _
            · intro k x
              rw [r4, taken_add k x acc b hab, taken_cons]
              exact or_perm2 _ _ _ _ _
        · rw [if_neg h2]
          have h3 : headFrac S ≤ headFrac L ∧ headFrac S ≤ headFrac T := by
            rcases le_total (headFrac L) (headFrac T) with a | a <;>
              rcases le_total (headFrac L) (headFrac S) with b | b <;>
              rcases le_total (headFrac T) (headFrac S) with c | c
            · exact absurd ⟨a, b⟩ h1
            · exact absurd ⟨a, b⟩ h1
            · exact ⟨b, le_trans b a⟩
            · exact ⟨b, c⟩
            · exact absurd ⟨a, c⟩ h2
            · exact ⟨le_trans c a, c⟩
            · exact absurd ⟨a, c⟩ h2
            · exact ⟨b, c⟩
          rw [if_pos h3]
          cases S with
          | nil =>
            exfalso; apply h0
            simp only [headFrac, top_le_iff] at h3
            exact ⟨h3.1, h3.2, rfl⟩
          | cons b S' =>
            simp only
            have hbS : ∀ c ∈ S', b.frac ≤ c.frac := (List.pairwise_cons.1 hS).1
            have hbL := hmin [] L b hL h3.1
            have hbT := hmin [] T b hT h3.2
            have hab : ∀ a ∈ acc, a.frac ≤ b.frac := fun a ha => hbound a ha b (Or.inr (Or.inr (by simp)))
            obtain ⟨d1, d2⟩ := addBreak_desc acc b hacc hab
            obtain ⟨r, r1, r2, r3, r4⟩ := ih L T S' (addBreak acc b) hL hT (List.pairwise_cons.1 hS).2 d1
              (by
                intro a ha c hc
                refine le_trans (addBreak_bound acc b b.frac hab le_rfl a ha) ?_
                rcases hc with h | h | h
                · exact hbL c h
                · exact hbT c h
                · exact hbS c h)
              (by simp at hfuel; omega)
            refine ⟨r, r1, r2, ?_, ?_⟩
            · intro x
              rw [r3, d2]
              simp only [List.map_cons, List.mem_cons]
              exact or_perm3 _ _ _ _ _
            · intro k x
              rw [r4, taken_add k x acc b hab, taken_cons]
              exact or_perm3 _ _ _ _ _

/-- **C209.** For sorted lists of slat, flap and segment breaks the merge ends without error; the result has strictly
increasing span fractions (no section of zero width), contains exactly the fractions of the inputs, and a control surface
slot is taken exactly where one of the inputs takes it. -/
theorem C209_merge (L T S : List SpanBreak) (hL : SortedFrac L) (hT : SortedFrac T) (hS : SortedFrac S)
    (fuel : ℕ) (hfuel : L.length + T.length + S.length < fuel) :
    ∃ r, merge3 fuel L T S [] = some r ∧ (r.map SpanBreak.frac).Pairwise (· < ·) ∧
      (∀ x, x ∈ r.map SpanBreak.frac ↔
        x ∈ L.map SpanBreak.frac ∨ x ∈ T.map SpanBreak.frac ∨ x ∈ S.map SpanBreak.frac) ∧
      ∀ k x, Taken k x r ↔ Taken k x L ∨ Taken k x T ∨ Taken k x S := by
  obtain ⟨r, h1, h2, h3, h4⟩ := merge3_spec fuel L T S [] hL hT hS (by unfold Desc; simp) (by simp) hfuel
  refine ⟨r, h1, h2, fun x => ?_, fun k x => ?_⟩
  · rw [h3]; simp
  · rw [h4]; unfold Taken; simp

/-- **C209.** Coincident breaks keep what either of them knows: a slot is empty after superposition only if it was empty
in both, and the cut always belongs to the control surface whose identifier is kept. -/
theorem C209_superimpose (a b : SpanBreak) (k : Fin 4) :
    ((superimpose a b).ids k = -1 ↔ a.ids k = -1 ∧ b.ids k = -1) ∧
    (((superimpose a b).ids k = a.ids k ∧ (superimpose a b).cuts k = a.cuts k ∧ a.ids k ≠ -1) ∨
     ((superimpose a b).ids k = b.ids k ∧ (superimpose a b).cuts k = b.cuts k ∧ a.ids k = -1)) := by
  unfold superimpose
  by_cases h : a.ids k = -1
  · simp [h]
  · simp [h]

/-- Superposition does not depend on grouping. -/
theorem C209_superimpose_assoc (a b c : SpanBreak) :
    superimpose (superimpose a b) c = superimpose a (superimpose b c) := by
  unfold superimpose
  simp only [SpanBreak.mk.injEq, true_and]
  constructor
  · funext k; by_cases h : a.ids k = -1 <;> simp [h]
  · funext k; by_cases h : a.ids k = -1 <;> simp [h]

example : SortedFrac [⟨0, fun _ => -1, fun _ => 0⟩, ⟨1, fun _ => -1, fun _ => 0⟩] := by
  unfold SortedFrac; simp


/-- **C208, the other points of an edge.** Corners and vortex are turned about the pivot without a change of their distance to it,
on both edges. -/
theorem C208_corners (tw px pz : ℝ) (p1 ph pc p2 : ℝ × ℝ) :
    let d := fun p : ℝ × ℝ => (p.1 - px) ^ 2 + (p.2 - pz) ^ 2
    (d (twistEdgeA tw px pz p1 ph pc p2).1 = d p1 ∧ d (twistEdgeA tw px pz p1 ph pc p2).2.1 = d ph
      ∧ d (twistEdgeA tw px pz p1 ph pc p2).2.2.2 = d p2)
    ∧ (d (twistEdgeB tw px pz p1 ph pc p2).1 = d p1 ∧ d (twistEdgeB tw px pz p1 ph pc p2).2.1 = d ph
      ∧ d (twistEdgeB tw px pz p1 ph pc p2).2.2.2 = d p2) := by
  have h := Real.sin_sq_add_cos_sq tw
  have k : ∀ p : ℝ × ℝ, ((twistPoint tw px pz p.1 p.2 p.2).1 - px) ^ 2 + ((twistPoint tw px pz p.1 p.2 p.2).2 - pz) ^ 2
      = (p.1 - px) ^ 2 + (p.2 - pz) ^ 2 := by
    intro p
    unfold twistPoint
    dsimp only
    linear_combination ((p.1 - px) ^ 2 + (p.2 - pz) ^ 2) * h
  exact ⟨⟨k p1, k ph, k p2⟩, ⟨k p1, k ph, k p2⟩⟩

end Verif.Vlm
