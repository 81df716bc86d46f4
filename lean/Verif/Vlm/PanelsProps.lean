import Verif.Vlm.Panels
/-
C386: points of a panel.  C387: neighbouring strips share their edge.  C388: the two halves of a symmetric wing.
C389: mirror image of a fin.  C390: breaks made for control surfaces.  C391: control surfaces fill their cuts.
-/

namespace Verif.Vlm

open Real Verif.Num

/-- A straight camber line. -/
def Flat (b : Brk) : Prop := ∀ p ∈ b.camber, p.2 = 0

theorem npInterp_zero (l : List (ℝ × ℝ)) (h : ∀ p ∈ l, p.2 = 0) (x : ℝ) : npInterp l x = 0 := by
  induction l with
  | nil => rfl
  | cons p l ih =>
    cases l with
    | nil => simpa [npInterp] using h p (by simp)
    | cons q l =>
      simp only [npInterp]
      rw [h p (by simp), h q (by simp), ih fun r hr => h r (List.mem_cons_of_mem _ hr)]
      split_ifs <;> simp

theorem camberAt_flat (k : Option Ctrl) (b0 b1 : Brk) (h : Flat b0) (y xs : ℝ) : camberAt k b0 b1 y xs = 0 := by
  unfold camberAt
  refine npInterp_zero _ ?_ _
  intro p hp
  cases k with
  | none =>
    simp only [camberTable, List.mem_map] at hp
    obtain ⟨q, hq, rfl⟩ := hp
    simp [h q hq]
  | some c =>
    simp only [camberTable, List.mem_map] at hp
    obtain ⟨q, hq, rfl⟩ := hp
    simp [h q hq]

/-- A surface without camber: a straight line through the leading edge, turned by the twist. -/
theorem localPoint_flat (k : Option Ctrl) (b0 b1 : Brk) (h : Flat b0) (y xs xz : ℝ) :
    localPoint k b0 b1 y xs xz =
      ((pivot k b0 b1 y).1 + cos (twistY b0 b1 y) * (b0.xoff + (y - b0.y) * tan b0.sweep + xs - (pivot k b0 b1 y).1),
       (pivot k b0 b1 y).2 - sin (twistY b0 b1 y) * (b0.xoff + (y - b0.y) * tan b0.sweep + xs - (pivot k b0 b1 y).1)) := by
  have hz : ∀ x, heightAt k b0 b1 y x = (pivot k b0 b1 y).2 := by
    intro x
    unfold heightAt
    rw [camberAt_flat k b0 b1 h]
    cases k <;> simp [pivot]
  unfold localPoint twistPoint
  simp only [hz, sub_self, mul_zero, add_zero]

/-- **C386, chord.** The panels of a strip follow one another from the one cut to the other without gap or overlap,
and are equally long. -/
theorem C386_chord (f : WingFrame) (s : ℝ) (k : Option Ctrl) (b0 b1 : Brk) (n : ℕ) (hn : 0 < n) (ya yb : ℝ) (j : ℕ) :
    (panel f s k b0 b1 n ya yb j).a2 = (panel f s k b0 b1 n ya yb (j + 1)).a1 ∧
    (panel f s k b0 b1 n ya yb j).b2 = (panel f s k b0 b1 n ya yb (j + 1)).b1 ∧
    (∀ y, edgeX b0 b1 n y 0 = b0.le * chordY b0 b1 y ∧ edgeX b0 b1 n y n = b0.te * chordY b0 b1 y ∧
      edgeX b0 b1 n y (j + 1) - edgeX b0 b1 n y j = panelLen b0 b1 n y) := by
  have hn' : (n : ℝ) ≠ 0 := by exact_mod_cast hn.ne'
  refine ⟨rfl, rfl, fun y => ⟨?_, ?_, ?_⟩⟩
  · simp [edgeX]
  · simp [edgeX, hn']
  · simp only [panelLen, edgeX]
    push_cast
    field_simp
    ring

/-- **C386, vortex and control line.** On a surface without camber, however twisted, swept or inclined, the vortex lies
a quarter and the control line three quarters of the way from the front to the rear edge of the panel. -/
theorem C386_quarter_partial (f : WingFrame) (s : ℝ) (k : Option Ctrl) (b0 b1 : Brk) (h : Flat b0) (n : ℕ) (hn : 0 < n)
    (ya yb : ℝ) (j : ℕ) :
    let p := panel f s k b0 b1 n ya yb j
    p.ah = p.a1 + (1 / 4 : ℝ) • (p.a2 - p.a1) ∧ p.ac = p.a1 + (3 / 4 : ℝ) • (p.a2 - p.a1) ∧
    p.bh = p.b1 + (1 / 4 : ℝ) • (p.b2 - p.b1) ∧ p.bc = p.b1 + (3 / 4 : ℝ) • (p.b2 - p.b1) := by
  have e : ∀ y, edgeX b0 b1 n y (j + 1) = edgeX b0 b1 n y j + panelLen b0 b1 n y := by
    intro y
    have := ((C386_chord f s k b0 b1 n hn ya yb j).2.2 y).2.2
    linarith
  have key : ∀ (y x d q xz : ℝ), surfacePoint f s k b0 b1 y (x + d * q) xz =
      surfacePoint f s k b0 b1 y x x + q • (surfacePoint f s k b0 b1 y (x + d) (x + d) - surfacePoint f s k b0 b1 y x x) := by
    intro y x d q xz
    simp only [surfacePoint, localPoint_flat k b0 b1 h]
    generalize twistY b0 b1 y = tw
    unfold place
    split_ifs
    · refine Prod.ext ?_ (Prod.ext ?_ ?_) <;> simp <;> ring
    · refine Prod.ext ?_ (Prod.ext ?_ ?_) <;> simp <;> ring
  simp only [panel]
  refine ⟨?_, ?_, ?_, ?_⟩
  · rw [e, show (0.25 : ℝ) = 1 / 4 by norm_num]; exact key _ _ _ _ _
  · rw [e, show (0.75 : ℝ) = 3 / 4 by norm_num]; exact key _ _ _ _ _
  · rw [e, show (0.25 : ℝ) = 1 / 4 by norm_num]; exact key _ _ _ _ _
  · rw [e, show (0.75 : ℝ) = 3 / 4 by norm_num]; exact key _ _ _ _ _

/-- **C386, middle.** Where in addition the twist does not change along the section, the points in the middle are half
way between the ends. -/
theorem C386_middle_partial (f : WingFrame) (s : ℝ) (k : Option Ctrl) (b0 b1 : Brk) (h : Flat b0) (ht : b0.twist = b1.twist)
    (n : ℕ) (ya yb : ℝ) (j : ℕ) :
    let p := panel f s k b0 b1 n ya yb j
    p.ch = (1 / 2 : ℝ) • (p.ah + p.bh) ∧ p.c = (1 / 2 : ℝ) • (p.ac + p.bc) := by
  have htw : ∀ y, twistY b0 b1 y = b0.twist := by intro y; simp [twistY, ht]
  have key : ∀ q xz xz' xz'' : ℝ,
      surfacePoint f s k b0 b1 (yb - (yb - ya) / 2) (edgeX b0 b1 n (yb - (yb - ya) / 2) j + panelLen b0 b1 n (yb - (yb - ya) / 2) * q) xz =
      (1 / 2 : ℝ) • (surfacePoint f s k b0 b1 ya (edgeX b0 b1 n ya j + panelLen b0 b1 n ya * q) xz' +
        surfacePoint f s k b0 b1 yb (edgeX b0 b1 n yb j + panelLen b0 b1 n yb * q) xz'') := by
    intro q xz xz' xz''
    simp only [surfacePoint, localPoint_flat k b0 b1 h, htw]
    have hx : ∀ y, edgeX b0 b1 n y j + panelLen b0 b1 n y * q =
        ((b0.le + (b0.te - b0.le) * (j / n)) + (b0.le + (b0.te - b0.le) * (n / n) - (b0.le + (b0.te - b0.le) * ((0 : ℕ) / n))) / n * q) * chordY b0 b1 y := by
      intro y; simp only [panelLen, edgeX]; ring
    simp only [hx]
    generalize ((b0.le + (b0.te - b0.le) * (j / n)) + (b0.le + (b0.te - b0.le) * (n / n) - (b0.le + (b0.te - b0.le) * ((0 : ℕ) / n))) / n * q) = m
    have hpx : ∃ u v : ℝ, ∀ y, (pivot k b0 b1 y).1 = u + y * v := by
      cases k with
      | none => exact ⟨b0.xoff - b0.y * tan b0.sweep, tan b0.sweep, fun y => by simp only [pivot]; ring⟩
      | some c =>
        cases hs : c.slat with
        | true => exact ⟨b0.xoff - b0.y * tan b0.sweep, tan b0.sweep, fun y => by simp only [pivot, hs, if_true]; ring⟩
        | false =>
          refine ⟨b0.xoff - b0.y * tan b0.sweep - (1 - c.cf) * ((b0.chord - b0.y * ((b1.chord - b0.chord) / (b1.y - b0.y))) / c.cf),
            tan b0.sweep - (1 - c.cf) * ((b1.chord - b0.chord) / (b1.y - b0.y) / c.cf), fun y => ?_⟩
          simp only [pivot, hs, Bool.false_eq_true, if_false, chordY]
          ring
    have hpz : ∀ y, (pivot k b0 b1 y).2 = b0.zoff + (y - b0.y) * tan b0.dih := by intro y; cases k <;> rfl
    obtain ⟨u, v, hu⟩ := hpx
    simp only [hu, hpz, chordY]
    generalize (b1.chord - b0.chord) / (b1.y - b0.y) = r
    unfold place
    split_ifs
    · refine Prod.ext ?_ (Prod.ext ?_ ?_) <;> simp <;> ring
    · refine Prod.ext ?_ (Prod.ext ?_ ?_) <;> simp <;> ring
  simp only [panel]
  exact ⟨key _ _ _ _, key _ _ _ _⟩

/-- A section of constant chord. -/
noncomputable def box (y twist : ℝ) (t : List (ℝ × ℝ)) : Brk := ⟨y, 1, twist, 0, 0, 0, 0, 0, 1, t⟩

/-- A cambered section: the two ends of the control line do not have the same `x`, though nothing changes along
the span (a right angle of twist shows it best). -/
theorem C386_control_counterexample :
    let p := panel ⟨0, 0, 0, false⟩ 1 none (box 0 (π / 2) [(0, 0), (1, 1)]) (box 1 (π / 2) [(0, 0), (1, 1)]) 1 0 1 0
    p.ac.1 = 1 ∧ p.bc.1 = 0 ∧ p.c.1 = 3 / 4 := by
  norm_num [panel, surfacePoint, place, localPoint, twistPoint, twistY, pivot, heightAt, camberAt, camberTable, npInterp,
    box, edgeX, panelLen, chordY]

example : Flat (box 0 0.3 [(0, 0), (1, 0)]) := by
  intro p hp
  simp only [box, List.mem_cons, List.not_mem_nil, or_false] at hp
  rcases hp with rfl | rfl <;> rfl

/-! ### C387 -/

/-- Two neighbouring breaks fit together: the leading edge of the outer one is where that of the inner one leads. -/
structure Adj (b0 b1 : Brk) : Prop where
  x : b1.xoff = b0.xoff + (b1.y - b0.y) * tan b0.sweep
  z : b1.zoff = b0.zoff + (b1.y - b0.y) * tan b0.dih
  cut0 : b0.le = 0 ∧ b0.te = 1
  cut1 : b1.le = 0 ∧ b1.te = 1

theorem mkBrks_head (cRoot half x z : ℝ) (a : Seg) (l : List Seg) :
    (mkBrks cRoot half x z (a :: l))[0]? = some (a.brk cRoot half x z) := by
  cases l <;> rfl

theorem mkBrks_adj (cRoot half : ℝ) (segs : List Seg) : ∀ (x z : ℝ) (i : ℕ) (b0 b1 : Brk),
    (mkBrks cRoot half x z segs)[i]? = some b0 → (mkBrks cRoot half x z segs)[i + 1]? = some b1 → Adj b0 b1 := by
  induction segs with
  | nil => intro x z i b0 b1 h; simp [mkBrks] at h
  | cons a l ih =>
    cases l with
    | nil => intro x z i b0 b1 _ h; simp [mkBrks] at h
    | cons b l =>
      intro x z i b0 b1 h0 h1
      cases i with
      | zero =>
        simp only [mkBrks, List.getElem?_cons_succ] at h0 h1
        rw [mkBrks_head] at h1
        simp only [List.getElem?_cons_zero, Option.some.injEq] at h0 h1
        subst h0 h1
        exact ⟨by simp only [Seg.brk]; ring, by simp only [Seg.brk]; ring, ⟨rfl, rfl⟩, ⟨rfl, rfl⟩⟩
      | succ i =>
        simp only [mkBrks, List.getElem?_cons_succ] at h0 h1
        exact ih _ _ i b0 b1 h0 h1

/-- **C387.** Two strips next to each other have the edge between them in common: corners and vortex end of the inner
one are those of the outer one, within a section of the wing for any airfoil, and across a segment where the
airfoil stays the same. -/
theorem C387_shared_partial (f : WingFrame) (s : ℝ) (cRoot half : ℝ) (segs : List Seg) (i : ℕ) (b0 b1 b2 : Brk)
    (h0 : (mkBrks cRoot half 0 0 segs)[i]? = some b0) (h1 : (mkBrks cRoot half 0 0 segs)[i + 1]? = some b1)
    (hy : b0.y ≠ b1.y) (hc : b0.camber = b1.camber)
    (hv : f.vertical = true → inverted b0 = inverted b1) (n : ℕ) (ya yc : ℝ) (j : ℕ) :
    let p := panel f s none b0 b1 n ya b1.y j
    let q := panel f s none b1 b2 n b1.y yc j
    p.b1 = q.a1 ∧ p.bh = q.ah ∧ p.b2 = q.a2 := by
  have ha := mkBrks_adj cRoot half segs 0 0 i b0 b1 h0 h1
  have hd : b1.y - b0.y ≠ 0 := sub_ne_zero.2 hy.symm
  have hch : chordY b0 b1 b1.y = b1.chord := by unfold chordY; field_simp; ring
  have hch' : chordY b1 b2 b1.y = b1.chord := by simp [chordY]
  have htw : twistY b0 b1 b1.y = b1.twist := by unfold twistY; field_simp; ring
  have htw' : twistY b1 b2 b1.y = b1.twist := by simp [twistY]
  have hp : ∀ xs, surfacePoint f s none b0 b1 b1.y xs xs = surfacePoint f s none b1 b2 b1.y xs xs := by
    intro xs
    have hl : localPoint none b0 b1 b1.y xs xs = localPoint none b1 b2 b1.y xs xs := by
      simp only [localPoint, heightAt, pivot, camberAt, camberTable, hch, hch', htw, htw', hc, sub_self, zero_mul, add_zero,
        ← ha.x, ← ha.z]
    simp only [surfacePoint, hl]
    unfold place
    split_ifs with h
    · rw [hv h]
    · rfl
  have he : ∀ j, edgeX b0 b1 n b1.y j = edgeX b1 b2 n b1.y j := by
    intro j; simp only [edgeX, hch, hch', ha.cut0.1, ha.cut0.2, ha.cut1.1, ha.cut1.2]
  have hl : panelLen b0 b1 n b1.y = panelLen b1 b2 n b1.y := by simp only [panelLen, he]
  simp only [panel, he, hl, hp, and_self]

/-- Within a section: whatever airfoil, cuts and control surface. -/
theorem C387_section (f : WingFrame) (s : ℝ) (k : Option Ctrl) (b0 b1 : Brk) (n : ℕ) (ya yb yc : ℝ) (j : ℕ) :
    let p := panel f s k b0 b1 n ya yb j
    let q := panel f s k b0 b1 n yb yc j
    p.b1 = q.a1 ∧ p.bh = q.ah ∧ p.b2 = q.a2 := ⟨rfl, rfl, rfl⟩

/-- Where the airfoil changes from one segment to the next there is a step: the airfoil of the inner end is used
for the whole of a section. -/
theorem C387_airfoil_counterexample : ∃ segs : List Seg, ∃ b0 b1 b2 : Brk,
    mkBrks 1 2 0 0 segs = [b0, b1, b2] ∧
    (panel ⟨0, 0, 0, false⟩ 1 none b0 b1 1 0 b1.y 0).b2 ≠ (panel ⟨0, 0, 0, false⟩ 1 none b1 b2 1 b1.y 2 0).a2 := by
  refine ⟨[⟨0, 1, 0, 0, 0, [(0, 0), (1, 0)]⟩, ⟨1 / 2, 1, 0, 0, 0, [(0, 0), (1, 1)]⟩, ⟨1, 1, 0, 0, 0, [(0, 0), (1, 1)]⟩], _, _, _, rfl, ?_⟩
  intro h
  have := congrArg (fun p => p.2.2) h
  norm_num [panel, surfacePoint, place, localPoint, twistPoint, twistY, pivot, heightAt, camberAt, camberTable, npInterp,
    Seg.brk, edgeX, chordY] at this

example : ∃ b0 b1 b2 : Brk, mkBrks 3 5 0 0
    [⟨0, 1, 0.1, 0.2, 0.3, [(0, 0), (1, 0)]⟩, ⟨1 / 2, 0.8, 0, 0.1, 0.4, [(0, 0), (1, 0)]⟩, ⟨1, 0.5, 0, 0, 0, []⟩] = [b0, b1, b2] ∧
    b0.y ≠ b1.y ∧ b0.camber = b1.camber :=
  ⟨_, _, _, rfl, by norm_num [Seg.brk], rfl⟩

/-! ### C388 -/

/-- The mirror images in the plane of symmetry and in the horizontal plane. -/
def mirrorY (p : ℝ × ℝ × ℝ) : ℝ × ℝ × ℝ := (p.1, -p.2.1, p.2.2)
def mirrorZ (p : ℝ × ℝ × ℝ) : ℝ × ℝ × ℝ := (p.1, p.2.1, -p.2.2)

/-- **C388.** The second half of a symmetric wing is the mirror image of the first, point by point: in the plane of
symmetry, or for a wing standing upright in the horizontal plane through the nose. -/
theorem C388_symmetric (f : WingFrame) (k : Option Ctrl) (b0 b1 : Brk) (n : ℕ) (ya yb : ℝ) (j : ℕ) :
    let m := if f.vertical then mirrorZ else mirrorY
    let p := panel f 1 k b0 b1 n ya yb j
    let q := panel f (-1) k b0 b1 n ya yb j
    q.a1 = m p.a1 ∧ q.ah = m p.ah ∧ q.ac = m p.ac ∧ q.a2 = m p.a2 ∧ q.b1 = m p.b1 ∧ q.bh = m p.bh ∧ q.bc = m p.bc ∧
    q.b2 = m p.b2 ∧ q.ch = m p.ch ∧ q.c = m p.c := by
  intro m
  have key : ∀ y xs xz, surfacePoint f (-1) k b0 b1 y xs xz = m (surfacePoint f 1 k b0 b1 y xs xz) := by
    intro y xs xz
    simp only [surfacePoint, place, m]
    split_ifs
    · refine Prod.ext rfl (Prod.ext rfl ?_)
      simp only [mirrorZ]; ring
    · refine Prod.ext rfl (Prod.ext ?_ rfl)
      simp only [mirrorY]; ring
  simp only [panel, key, and_self]

/-- On the root of a wing in the plane of symmetry the two halves meet. -/
example (k : Option Ctrl) (b0 b1 : Brk) (n : ℕ) (yb : ℝ) (j : ℕ) :
    (panel ⟨3, 0, 1, false⟩ (-1) k b0 b1 n 0 yb j).a1 = (panel ⟨3, 0, 1, false⟩ 1 k b0 b1 n 0 yb j).a1 := by
  simp [panel, surfacePoint, place]

/-! ### C389 -/

/-- The breaks of the mirrored fin. -/
def mirrorBrk (b : Brk) : Brk := { b with dih := b.dih * -1, zoff := -b.zoff }

theorem mkBrks_mirror (cRoot half : ℝ) (segs : List Seg) : ∀ x z : ℝ,
    mkBrks cRoot half x (-z) (segs.map mirrorSeg) = (mkBrks cRoot half x z segs).map mirrorBrk := by
  induction segs with
  | nil => intro x z; rfl
  | cons a l ih =>
    cases l with
    | nil => intro x z; rfl
    | cons b l =>
      intro x z
      have e : -z + (b.frac - a.frac) * half * tan (a.dih * -1) = -(z + (b.frac - a.frac) * half * tan a.dih) := by
        rw [show a.dih * -1 = -a.dih by ring, Real.tan_neg]; ring
      have := ih (x + (b.frac - a.frac) * half * tan a.sweep) (z + (b.frac - a.frac) * half * tan a.dih)
      simp only [List.map_cons] at this
      simp only [List.map_cons, mkBrks]
      refine List.cons_eq_cons.2 ⟨rfl, ?_⟩
      rw [← this]
      congr 1

/-- **C389.** Without twist and camber the fin returned is the mirror image of the fin, point by point, for any number
of segments less than a right angle inclined. -/
theorem C389_fin_partial (f : WingFrame) (hf : f.vertical = true) (s cRoot half : ℝ) (segs : List Seg)
    (hs : ∀ a ∈ segs, a.twist = 0 ∧ (∀ p ∈ a.camber, p.2 = 0) ∧ -(π / 2) < a.dih ∧ a.dih < π / 2) (i : ℕ) (b0 b1 : Brk)
    (h0 : (mkBrks cRoot half 0 0 segs)[i]? = some b0) (h1 : (mkBrks cRoot half 0 0 segs)[i + 1]? = some b1) :
    ∃ c0 c1, (mkBrks cRoot half 0 0 (segs.map mirrorSeg))[i]? = some c0 ∧
      (mkBrks cRoot half 0 0 (segs.map mirrorSeg))[i + 1]? = some c1 ∧
      ∀ y xs xz, surfacePoint (mirrorFrame f) s none c0 c1 y xs xz = mirrorY (surfacePoint f s none b0 b1 y xs xz) := by
  have hm := mkBrks_mirror cRoot half segs 0 0
  rw [neg_zero] at hm
  have hmem : ∀ (segs : List Seg) (x z : ℝ) (b : Brk), b ∈ mkBrks cRoot half x z segs →
      ∃ a ∈ segs, b.twist = a.twist ∧ b.camber = a.camber ∧ b.dih = a.dih := by
    intro segs
    induction segs with
    | nil => intro x z b h; simp [mkBrks] at h
    | cons a l ih =>
      cases l with
      | nil =>
        intro x z b h
        simp only [mkBrks, List.mem_singleton] at h
        subst h
        exact ⟨a, by simp, rfl, rfl, rfl⟩
      | cons c l =>
        intro x z b h
        simp only [mkBrks, List.mem_cons] at h
        rcases h with rfl | h
        · exact ⟨a, by simp, rfl, rfl, rfl⟩
        · obtain ⟨d, hd, r⟩ := ih _ _ b h
          exact ⟨d, List.mem_cons_of_mem _ hd, r⟩
  obtain ⟨a0, ha0, ht0, hc0, hd0⟩ := hmem _ _ _ b0 (List.mem_of_getElem? h0)
  obtain ⟨a1, ha1, ht1, -, -⟩ := hmem _ _ _ b1 (List.mem_of_getElem? h1)
  refine ⟨mirrorBrk b0, mirrorBrk b1, by rw [hm, List.getElem?_map, h0]; rfl, by rw [hm, List.getElem?_map, h1]; rfl, ?_⟩
  intro y xs xz
  have hfl : Flat b0 := by intro p hp; rw [hc0] at hp; exact (hs a0 ha0).2.1 p hp
  have hfl' : Flat (mirrorBrk b0) := hfl
  have htw : twistY b0 b1 y = 0 := by simp [twistY, ht0, ht1, (hs a0 ha0).1, (hs a1 ha1).1]
  have htw' : twistY (mirrorBrk b0) (mirrorBrk b1) y = 0 := htw
  have hi : inverted b0 = 1 := by rw [inverted, hd0, if_pos (hs a0 ha0).2.2.2]
  have hi' : inverted (mirrorBrk b0) = 1 := by
    rw [inverted, if_pos]
    simp only [mirrorBrk, hd0]
    linarith [(hs a0 ha0).2.2.1]
  have htan : tan (b0.dih * -1) = -tan b0.dih := by rw [show b0.dih * -1 = -b0.dih by ring, Real.tan_neg]
  simp only [surfacePoint, localPoint_flat none _ _ hfl, localPoint_flat none _ _ hfl', htw, htw', hi, hi', place, hf, if_true,
    mirrorFrame, mirrorY, pivot, sin_zero, zero_mul, sub_zero]
  simp only [mirrorBrk, htan]
  refine Prod.ext rfl (Prod.ext ?_ rfl)
  ring

/-- A twisted fin: the mirrored one is twisted the same way about its own leading edge, not the mirrored way. -/
theorem C389_twist_counterexample : ∃ segs : List Seg, ∃ b0 b1 c0 c1 : Brk,
    mkBrks 1 1 0 0 segs = [b0, b1] ∧ mkBrks 1 1 0 0 (segs.map mirrorSeg) = [c0, c1] ∧
    (surfacePoint ⟨0, 0, 0, true⟩ 1 none b0 b1 0 1 1).2.1 = -1 ∧
    (surfacePoint (mirrorFrame ⟨0, 0, 0, true⟩) 1 none c0 c1 0 1 1).2.1 = -1 := by
  refine ⟨[⟨0, 1, π / 2, 0, 0, []⟩, ⟨1, 1, π / 2, 0, 0, []⟩], _, _, _, _, rfl, rfl, ?_, ?_⟩
  · norm_num [surfacePoint, place, localPoint, twistPoint, twistY, pivot, heightAt, camberAt, camberTable, npInterp, Seg.brk]
  · norm_num [surfacePoint, place, localPoint, twistPoint, twistY, pivot, heightAt, camberAt, camberTable, npInterp, Seg.brk,
      mirrorSeg, mirrorFrame]

/-- Twice mirrored is as it was, deflections included (the sign is 1 or -1). -/
theorem C389_twice (f : WingFrame) (a : Seg) (d sign : ℝ) (hs : sign = 1 ∨ sign = -1) :
    mirrorFrame (mirrorFrame f) = f ∧ mirrorSeg (mirrorSeg a) = a ∧ mirrorDeflection (mirrorDeflection d sign) sign = d := by
  refine ⟨?_, ?_, ?_⟩
  · simp [mirrorFrame]
  · simp [mirrorSeg]
  · rcases hs with rfl | rfl <;> simp [mirrorDeflection]

/-- A surface that is deflected the same way on both sides of a symmetric wing is deflected the opposite way about the axis of the
mirrored fin, one that is deflected the opposite way (a rudder) the same way. -/
theorem C389_deflection (d : ℝ) : mirrorDeflection d 1 = -d ∧ mirrorDeflection d (-1) = d := by
  constructor <;> simp [mirrorDeflection]

example : ∀ a ∈ ([⟨0, 1, 0, 0.2, 0.5, []⟩, ⟨1, 0.6, 0, 0, 0, []⟩] : List Seg),
    a.twist = 0 ∧ (∀ p ∈ a.camber, p.2 = 0) ∧ -(π / 2) < a.dih ∧ a.dih < π / 2 := by
  have := Real.two_le_pi
  intro a ha
  simp only [List.mem_cons, List.not_mem_nil, or_false] at ha
  rcases ha with rfl | rfl <;> refine ⟨rfl, by simp, by norm_num; linarith, by norm_num; linarith⟩

/-! ### C390 -/

theorem between_eq {A B : Brk} {fa fb : ℝ} (h : fa < fb) (g : Brk → ℝ) {x : ℝ} (h0 : fa ≤ x) (h1 : x ≤ fb) :
    between A B fa fb g x = g A + (x - fa) * ((g B - g A) / (fb - fa)) := by
  have hd : fb - fa ≠ 0 := by linarith
  unfold between
  simp only [npInterp]
  split_ifs with h2 h3
  · have : x = fa := le_antisymm h2 h0
    subst this; ring
  · ring
  · have : x = fb := le_antisymm h1 (not_lt.1 h3)
    subst this; field_simp; ring

/-- The break of a control surface in its section, in coordinates. -/
theorem ctlBreak_eq {A B : Brk} {fa fb half cf x : ℝ} (hA : A.y = fa * half) (hB : B.y = fb * half) (hh : half ≠ 0) (h : fa < fb)
    (hc : cf ≠ 0) (h0 : fa ≤ x) (h1 : x ≤ fb) :
    ctlBreak A B fa fb half cf x = { A with
      y := x * half
      chord := chordY A B (x * half)
      twist := twistY A B (x * half)
      xoff := A.xoff + (x * half - A.y) * ((B.xoff - A.xoff) / (B.y - A.y))
      zoff := A.zoff + (x * half - A.y) * ((B.zoff - A.zoff) / (B.y - A.y)) } := by
  have hd : fb - fa ≠ 0 := by linarith
  have key : ∀ u v : ℝ, u + (x - fa) * ((v - u) / (fb - fa)) = u + (x * half - A.y) * ((v - u) / (B.y - A.y)) := by
    intro u v
    rw [hA, hB, show fb * half - fa * half = (fb - fa) * half by ring, show x * half - fa * half = (x - fa) * half by ring]
    field_simp
  simp only [ctlBreak, between_eq h _ h0 h1, key, chordY, twistY]
  rw [mul_div_assoc, div_self hc, mul_one]

/-- **C390.** A break made for a control surface leaves the wing as it was: inboard of it and outboard of it every point
of the surface is the one of the section without the break. -/
theorem C390_same_surface (f : WingFrame) (s : ℝ) (A B : Brk) (hAB : Adj A B) {fa fb half cf x : ℝ} (hA : A.y = fa * half)
    (hB : B.y = fb * half) (hh : 0 < half) (hc : 0 < cf) (h0 : fa < x) (h1 : x < fb) (y xs xz : ℝ) :
    surfacePoint f s none A (ctlBreak A B fa fb half cf x) y xs xz = surfacePoint f s none A B y xs xz ∧
    surfacePoint f s none (ctlBreak A B fa fb half cf x) B y xs xz = surfacePoint f s none A B y xs xz := by
  have hlt : fa < fb := h0.trans h1
  rw [ctlBreak_eq hA hB hh.ne' hlt hc.ne' h0.le h1.le]
  have hd : B.y - A.y ≠ 0 := by rw [hA, hB, ← sub_mul]; exact mul_ne_zero (by linarith) hh.ne'
  have hd1 : x * half - A.y ≠ 0 := by rw [hA, ← sub_mul]; exact mul_ne_zero (by linarith) hh.ne'
  have hd2 : B.y - x * half ≠ 0 := by rw [hB, ← sub_mul]; exact mul_ne_zero (by linarith) hh.ne'
  have hx : (B.xoff - A.xoff) / (B.y - A.y) = tan A.sweep := by rw [hAB.x]; field_simp; ring
  have hz : (B.zoff - A.zoff) / (B.y - A.y) = tan A.dih := by rw [hAB.z]; field_simp; ring
  rw [hx, hz]
  generalize x * half = yc at *
  constructor
  · have hch : chordY A { A with y := yc, chord := chordY A B yc, twist := twistY A B yc, xoff := A.xoff + (yc - A.y) * tan A.sweep, zoff := A.zoff + (yc - A.y) * tan A.dih } y = chordY A B y := by
      simp only [chordY]; field_simp; ring
    have htw : twistY A { A with y := yc, chord := chordY A B yc, twist := twistY A B yc, xoff := A.xoff + (yc - A.y) * tan A.sweep, zoff := A.zoff + (yc - A.y) * tan A.dih } y = twistY A B y := by
      simp only [twistY]; field_simp; ring
    simp only [surfacePoint, localPoint, heightAt, camberAt, pivot, hch, htw]
  · have hch : chordY { A with y := yc, chord := chordY A B yc, twist := twistY A B yc, xoff := A.xoff + (yc - A.y) * tan A.sweep, zoff := A.zoff + (yc - A.y) * tan A.dih } B y = chordY A B y := by
      simp only [chordY]; field_simp; ring
    have htw : twistY { A with y := yc, chord := chordY A B yc, twist := twistY A B yc, xoff := A.xoff + (yc - A.y) * tan A.sweep, zoff := A.zoff + (yc - A.y) * tan A.dih } B y = twistY A B y := by
      simp only [twistY]; field_simp; ring
    have e1 : ∀ t : ℝ, A.xoff + (yc - A.y) * t + (y - yc) * t = A.xoff + (y - A.y) * t := by intro t; ring
    have e2 : ∀ t : ℝ, A.zoff + (yc - A.y) * t + (y - yc) * t = A.zoff + (y - A.y) * t := by intro t; ring
    simp only [surfacePoint, localPoint, heightAt, camberAt, pivot, hch, htw, e1, e2, inverted]

example : Adj ⟨0, 2, 0.1, 0.1, 0.3, 0, 0, 0, 1, []⟩ ⟨5, 1, 0, 0, 0, 5 * tan 0.3, 5 * tan 0.1, 0, 1, []⟩ :=
  ⟨by simp, by simp, ⟨rfl, rfl⟩, ⟨rfl, rfl⟩⟩

/-! ### C391 -/

theorem npInterp_affine (l : List (ℝ × ℝ)) {α : ℝ} (hα : 0 < α) (β γ x : ℝ) :
    npInterp (l.map fun p => (α * p.1 + β, γ * p.2)) (α * x + β) = γ * npInterp l x := by
  induction l with
  | nil => simp [npInterp]
  | cons p l ih =>
    cases l with
    | nil => simp [npInterp]
    | cons q l =>
      have c1 : α * x + β ≤ α * p.1 + β ↔ x ≤ p.1 := by constructor <;> intro h <;> nlinarith
      have c2 : α * x + β < α * q.1 + β ↔ x < q.1 := by constructor <;> intro h <;> nlinarith
      simp only [List.map_cons] at ih ⊢
      simp only [npInterp, c1, c2]
      split_ifs with h1 h2
      · rfl
      · have hd : q.1 - p.1 ≠ 0 := by push Not at h1; linarith
        rw [show α * q.1 + β - (α * p.1 + β) = α * (q.1 - p.1) by ring, show α * x + β - (α * p.1 + β) = α * (x - p.1) by ring]
        field_simp
      · exact ih

/-- The chord fraction of the wing at the fraction `t` of the chord of a control surface. -/
noncomputable def wingFraction (c : Ctl) (t : ℝ) : ℝ := if c.slat then c.cf * t else 1 - c.cf + c.cf * t

theorem camber_ctl (c : Ctl) (hc : 0 < c.cf) (l : List (ℝ × ℝ)) {chord : ℝ} (hch : 0 < chord) (t : ℝ) :
    npInterp (camberTable (some ⟨c.slat, c.cf⟩) l (chord * c.cf)) (t * (chord * c.cf)) =
      npInterp (camberTable none l chord) (wingFraction c t * chord) := by
  have e0 := npInterp_affine l hch 0 chord (wingFraction c t)
  have hleft : (l.map fun p => (chord * p.1 + 0, chord * p.2)) = camberTable none l chord := by
    simp only [camberTable]
    refine List.map_congr_left fun p _ => ?_
    rw [add_zero, mul_comm chord, mul_comm chord]
  rw [hleft, add_zero, mul_comm chord (wingFraction c t)] at e0
  rw [e0]
  have e1 := npInterp_affine l hch (-(if c.slat then 0 else (1 - c.cf) * chord)) chord (wingFraction c t)
  have hright : (l.map fun p => (chord * p.1 + -(if c.slat then 0 else (1 - c.cf) * chord), chord * p.2)) =
      camberTable (some ⟨c.slat, c.cf⟩) l (chord * c.cf) := by
    simp only [camberTable]
    refine List.map_congr_left fun p _ => ?_
    cases c.slat
    · simp only [Bool.false_eq_true, if_false]
      refine Prod.ext ?_ ?_
      · field_simp; ring
      · field_simp
    · simp only [if_true]
      refine Prod.ext ?_ ?_
      · field_simp; ring
      · field_simp
  rw [hright] at e1
  rw [← e1]
  congr 1
  unfold wingFraction
  cases c.slat
  · simp only [Bool.false_eq_true, if_false]; ring
  · simp only [if_true]; ring

theorem tan_ctlSweep (a b : Seg) {cRoot span half : ℝ} (symm : Bool) (c : Ctl) (hh : half = if symm then span / 2 else span)
    (hhp : 0 < half) (hab : a.frac < b.frac) (hra : 0 < a.rootPercent * cRoot) (hrb : 0 ≤ b.rootPercent * cRoot) :
    tan (ctlSweep a b cRoot span symm c) = tan a.sweep + (if c.slat then 0 else 1 - c.cf) *
      ((b.rootPercent * cRoot - a.rootPercent * cRoot) / (b.frac * half - a.frac * half)) := by
  unfold ctlSweep Verif.Stability.convertSweepSegments
  generalize (if c.slat then (0 : ℝ) else 1 - c.cf) = m
  by_cases h0 : (0 : ℝ) = m
  · rw [if_pos h0, ← h0]; ring
  · rw [if_neg h0]
    simp only [if_true]
    rw [Real.tan_arctan]
    have hs : (if symm then span else span * 2) = 2 * half := by rw [hh]; cases symm <;> simp <;> ring
    rw [hs]
    generalize a.rootPercent * cRoot = r at *
    generalize b.rootPercent * cRoot = t at *
    have h1 : b.frac - a.frac ≠ 0 := by linarith
    have h2 : r + t ≠ 0 := by linarith
    have h3 := hra.ne'
    have h4 := hhp.ne'
    rw [show b.frac * half - a.frac * half = (b.frac - a.frac) * half by ring]
    field_simp
    ring

/-- **C391.** A control surface that is not deflected fills its cut exactly: every point of it is the point of the uncut
wing at the same station and the corresponding part of the chord, with sweep, dihedral, twist and camber,
for both halves of a symmetric wing and for upright wings (inclined less than a right angle). -/
theorem C391_fills_partial (f : WingFrame) (s : ℝ) (a b : Seg) (cRoot span half x0 z0 : ℝ) (symm : Bool) (c : Ctl)
    (hh : half = if symm then span / 2 else span) (hhp : 0 < half) (hab : a.frac < b.frac)
    (hra : 0 < a.rootPercent * cRoot) (hrb : 0 ≤ b.rootPercent * cRoot)
    (hc : 0 < c.cf) (hs0 : a.frac ≤ c.start) (hs1 : c.start < c.stop) (hs2 : c.stop ≤ b.frac)
    (hv : f.vertical = true → a.dih < π / 2) (y t : ℝ) (A B : Brk) (hA : A = a.brk cRoot half x0 z0)
    (hB : B = b.brk cRoot half (x0 + (b.frac - a.frac) * half * tan a.sweep) (z0 + (b.frac - a.frac) * half * tan a.dih))
    (hch : 0 < chordY A B (c.start * half + y)) :
    surfacePoint (ctlFrame f A B a.frac b.frac half c) s (some ⟨c.slat, c.cf⟩)
      (ctlBrks A B a b cRoot span half symm c).1 (ctlBrks A B a b cRoot span half symm c).2 y
      (t * chordY (ctlBrks A B a b cRoot span half symm c).1 (ctlBrks A B a b cRoot span half symm c).2 y)
      (t * chordY (ctlBrks A B a b cRoot span half symm c).1 (ctlBrks A B a b cRoot span half symm c).2 y) =
    surfacePoint f s none A B (c.start * half + y) (wingFraction c t * chordY A B (c.start * half + y))
      (wingFraction c t * chordY A B (c.start * half + y)) := by
  have hst : c.start ≤ b.frac := (hs1.trans_le hs2).le
  have hsp : a.frac ≤ c.stop := hs0.trans hs1.le
  have hAy : A.y = a.frac * half := by rw [hA]; rfl
  have hBy : B.y = b.frac * half := by rw [hB]; rfl
  have hd : b.frac - a.frac ≠ 0 := by linarith
  have hd' : c.stop - c.start ≠ 0 := by linarith
  have hh' := hhp.ne'
  have hlin : ∀ u v x : ℝ, u + (x - a.frac) * ((v - u) / (b.frac - a.frac)) = u + (x * half - A.y) * ((v - u) / (B.y - A.y)) := by
    intro u v x
    rw [hAy, hBy, show b.frac * half - a.frac * half = (b.frac - a.frac) * half by ring, show x * half - a.frac * half = (x - a.frac) * half by ring]
    field_simp
  -- chord, twist and slopes of the control surface
  have hchord : chordY (ctlBrks A B a b cRoot span half symm c).1 (ctlBrks A B a b cRoot span half symm c).2 y =
      chordY A B (c.start * half + y) * c.cf := by
    simp only [ctlBrks, chordY, between_eq hab _ hs0 hst, between_eq hab _ hsp hs2, hlin]
    generalize (B.chord - A.chord) / (B.y - A.y) = r
    field_simp
    ring
  have htwist : twistY (ctlBrks A B a b cRoot span half symm c).1 (ctlBrks A B a b cRoot span half symm c).2 y =
      twistY A B (c.start * half + y) := by
    simp only [ctlBrks, twistY, between_eq hab _ hs0 hst, between_eq hab _ hsp hs2, hlin]
    generalize (B.twist - A.twist) / (B.y - A.y) = r
    field_simp
    ring
  have hcr : (B.chord - A.chord) / (B.y - A.y) =
      (b.rootPercent * cRoot - a.rootPercent * cRoot) / (b.frac * half - a.frac * half) := by rw [hA, hB]; rfl
  have hsw := tan_ctlSweep a b symm c hh hhp hab hra hrb
  rw [← hcr] at hsw
  have hxs : (B.xoff - A.xoff) / (B.y - A.y) = tan a.sweep := by
    rw [hA, hB]; simp only [Seg.brk]
    rw [show b.frac * half - a.frac * half = (b.frac - a.frac) * half by ring]; field_simp; ring
  have hzs : (B.zoff - A.zoff) / (B.y - A.y) = tan a.dih := by
    rw [hA, hB]; simp only [Seg.brk]
    rw [show b.frac * half - a.frac * half = (b.frac - a.frac) * half by ring]; field_simp; ring
  have hAs : A.sweep = a.sweep := by rw [hA]; rfl
  have hAd : A.dih = a.dih := by rw [hA]; rfl
  have hxo : between A B a.frac b.frac Brk.xoff c.start = A.xoff + (c.start * half - A.y) * tan a.sweep := by
    rw [between_eq hab _ hs0 hst, hlin, hxs]
  have hzo : between A B a.frac b.frac Brk.zoff c.start = A.zoff + (c.start * half - A.y) * tan a.dih := by
    rw [between_eq hab _ hs0 hst, hlin, hzs]
  have hco : between A B a.frac b.frac Brk.chord c.start = A.chord + (c.start * half - A.y) * ((B.chord - A.chord) / (B.y - A.y)) := by
    rw [between_eq hab _ hs0 hst, hlin]
  have hcam := camber_ctl c hc A.camber hch t
  -- the point in the axes of the two wings
  have hx : (localPoint (some ⟨c.slat, c.cf⟩) (ctlBrks A B a b cRoot span half symm c).1 (ctlBrks A B a b cRoot span half symm c).2 y
      (t * (chordY A B (c.start * half + y) * c.cf)) (t * (chordY A B (c.start * half + y) * c.cf))).1 +
      (between A B a.frac b.frac Brk.xoff c.start + (if c.slat then 0 else (1 - c.cf) * between A B a.frac b.frac Brk.chord c.start)) =
      (localPoint none A B (c.start * half + y) (wingFraction c t * chordY A B (c.start * half + y))
        (wingFraction c t * chordY A B (c.start * half + y))).1 := by
    simp only [localPoint, twistPoint, heightAt, camberAt, htwist, pivot, hchord]
    rw [show (ctlBrks A B a b cRoot span half symm c).1.camber = A.camber from rfl, hcam]
    rw [show (ctlBrks A B a b cRoot span half symm c).1.sweep = ctlSweep a b cRoot span symm c from rfl,
      show (ctlBrks A B a b cRoot span half symm c).1.xoff = 0 from rfl, show (ctlBrks A B a b cRoot span half symm c).1.zoff = 0 from rfl,
      show (ctlBrks A B a b cRoot span half symm c).1.y = 0 from rfl, show (ctlBrks A B a b cRoot span half symm c).1.dih = A.dih from rfl,
      hsw, hxo, hco, hAs]
    generalize npInterp (camberTable none A.camber (chordY A B (c.start * half + y))) (wingFraction c t * chordY A B (c.start * half + y)) = zc
    generalize twistY A B (c.start * half + y) = tw
    rw [mul_div_assoc, div_self hc.ne', mul_one]
    unfold wingFraction chordY
    generalize (B.chord - A.chord) / (B.y - A.y) = r
    cases c.slat
    · simp only [Bool.false_eq_true, if_false]; ring
    · simp only [if_true]; ring
  have hz : (localPoint (some ⟨c.slat, c.cf⟩) (ctlBrks A B a b cRoot span half symm c).1 (ctlBrks A B a b cRoot span half symm c).2 y
      (t * (chordY A B (c.start * half + y) * c.cf)) (t * (chordY A B (c.start * half + y) * c.cf))).2 +
      between A B a.frac b.frac Brk.zoff c.start =
      (localPoint none A B (c.start * half + y) (wingFraction c t * chordY A B (c.start * half + y))
        (wingFraction c t * chordY A B (c.start * half + y))).2 := by
    simp only [localPoint, twistPoint, heightAt, camberAt, htwist, pivot, hchord]
    rw [show (ctlBrks A B a b cRoot span half symm c).1.camber = A.camber from rfl, hcam]
    rw [show (ctlBrks A B a b cRoot span half symm c).1.sweep = ctlSweep a b cRoot span symm c from rfl,
      show (ctlBrks A B a b cRoot span half symm c).1.xoff = 0 from rfl, show (ctlBrks A B a b cRoot span half symm c).1.zoff = 0 from rfl,
      show (ctlBrks A B a b cRoot span half symm c).1.y = 0 from rfl, show (ctlBrks A B a b cRoot span half symm c).1.dih = A.dih from rfl,
      hsw, hzo, hAs, hAd]
    generalize npInterp (camberTable none A.camber (chordY A B (c.start * half + y))) (wingFraction c t * chordY A B (c.start * half + y)) = zc
    generalize twistY A B (c.start * half + y) = tw
    rw [mul_div_assoc, div_self hc.ne', mul_one]
    unfold wingFraction chordY
    generalize (B.chord - A.chord) / (B.y - A.y) = r
    cases c.slat
    · simp only [Bool.false_eq_true, if_false]; ring
    · simp only [if_true]; ring
  rw [hchord]
  simp only [surfacePoint, place]
  rw [show (ctlFrame f A B a.frac b.frac half c).vertical = f.vertical from rfl]
  cases hvert : f.vertical with
  | true =>
    have hi : inverted A = 1 := by rw [inverted, hAd, if_pos (hv hvert)]
    have hi' : inverted (ctlBrks A B a b cRoot span half symm c).1 = 1 := by
      rw [inverted, show (ctlBrks A B a b cRoot span half symm c).1.dih = A.dih from rfl, hAd, if_pos (hv hvert)]
    simp only [if_true, ctlFrame, hvert, hi, hi']
    refine Prod.ext ?_ (Prod.ext ?_ ?_)
    · rw [← hx]; simp only; ring
    · rw [← hz]; simp only; ring
    · simp only; ring
  | false =>
    simp only [Bool.false_eq_true, if_false, ctlFrame, hvert]
    refine Prod.ext ?_ (Prod.ext ?_ ?_)
    · rw [← hx]; simp only; ring
    · simp only; ring
    · rw [← hz]; simp only; ring

/-- The break where a control surface ends lies on the leading edge that begins at its first break, with its sweep and dihedral. -/
theorem C391_breaks (A B : Brk) (a b : Seg) (cRoot span half : ℝ) (symm : Bool) (c : Ctl) :
    let p := ctlBrks A B a b cRoot span half symm c
    p.2.y - p.1.y = half * (c.stop - c.start) ∧ p.2.xoff = p.1.xoff + (p.2.y - p.1.y) * tan p.1.sweep ∧
      p.2.zoff = p.1.zoff + (p.2.y - p.1.y) * tan A.dih := by
  simp [ctlBrks]

/-- On a fin pointing down (inclined by more than a right angle) the rudder is put above the fin: the fin is at
height -1 where its rudder begins, the rudder begins at +1. -/
theorem C391_down_counterexample : ∃ a b : Seg, ∃ c : Ctl, ∃ A B : Brk,
    mkBrks 1 2 0 0 [a, b] = [A, B] ∧ a.frac ≤ c.start ∧ c.start < c.stop ∧ c.stop ≤ b.frac ∧
    (surfacePoint ⟨0, 0, 0, true⟩ 1 none A B 1 0 0).2.2 = -1 ∧
    (surfacePoint (ctlFrame ⟨0, 0, 0, true⟩ A B a.frac b.frac 2 c) 1 (some ⟨false, c.cf⟩)
      (ctlBrks A B a b 1 2 2 false c).1 (ctlBrks A B a b 1 2 2 false c).2 0 0 0).2.2 = 1 := by
  have hp := Real.pi_pos
  have h1 : ¬ π < π / 2 := by linarith
  have h2 : π / 2 < π := by linarith
  refine ⟨⟨0, 1, 0, π, 0, []⟩, ⟨1, 1, 0, π, 0, []⟩, ⟨1 / 2, 1, 1 / 4, false⟩, _, _, rfl, by norm_num, by norm_num, by norm_num, ?_, ?_⟩
  · simp only [surfacePoint, place, inverted, Seg.brk, h1, h2, if_true, if_false]; norm_num
  · simp only [surfacePoint, place, inverted, Seg.brk, ctlBrks, ctlFrame, h1, h2, if_true, if_false]; norm_num

example : ∃ a b : Seg, ∃ c : Ctl, a.frac < b.frac ∧ 0 < a.rootPercent * 3 ∧ 0 ≤ b.rootPercent * 3 ∧ 0 < c.cf ∧ a.frac ≤ c.start ∧
    c.start < c.stop ∧ c.stop ≤ b.frac :=
  ⟨⟨0, 1, 0.1, 0.1, 0.5, []⟩, ⟨0.6, 0.5, 0, 0.1, 0.5, []⟩, ⟨0.2, 0.5, 0.3, false⟩, by norm_num⟩

end Verif.Vlm
