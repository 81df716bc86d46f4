import Mathlib.Data.Nat.Digits.Lemmas
import Verif.Avl.Deck
import Verif.Avl.GeometryProps

/-!
What AVL is told to compute, and what becomes of its answers.
-/

namespace Verif.Avl

open Real
open scoped Classical

/-- Rounding to four decimals. -/
structure Rounds (rnd : ℝ → ℝ) : Prop where
  close : ∀ x, |rnd x - x| ≤ 0.00005
  zero : rnd 0 = 0

/-! ### C310: the conditions of a run -/

/-- **C310 (part).**  For each condition AVL holds the requested angle of attack in degrees, or the
requested lift, and the requested roll and pitch rates, to four decimals; for a trimmed aircraft also the
requested sideslip in degrees.  What is missing: the sideslip of an untrimmed aircraft
(`C310_sideslip_counterexample`) and the speed (`C310_speed_counterexample`). -/
theorem C310_told_partial (rnd : ℝ → ℝ) (hr : Rounds rnd) (trim : Bool) (c : Cond) :
    (c.cl = none → ∃ v, (told rnd trim c).hold = .alpha v ∧ |v - c.aoa * 180 / π| ≤ 0.00005) ∧
    (∀ cl, c.cl = some cl → ∃ v, (told rnd trim c).hold = .lift v ∧ |v - cl| ≤ 0.00005) ∧
    |(told rnd trim c).roll - c.roll| ≤ 0.00005 ∧
    |(told rnd trim c).pitch - c.pitch| ≤ 0.00005 ∧
    |(told rnd trim c).mach - c.mach| ≤ 0.00005 ∧
    (trim = true → (told rnd trim c).beta = c.beta * 180 / π) := by
  have hd : ∀ a, deg a = a * 180 / π := by intro a; unfold deg; field_simp
  have h0 : ∀ x : ℝ, |x - x| ≤ 0.00005 := by intro x; simp; norm_num
  cases trim
  · refine ⟨?_, ?_, hr.close _, hr.close _, hr.close _, by simp⟩
    · intro h
      refine ⟨rnd (deg c.aoa), by simp [told, deck, runCase, toCase, h], ?_⟩
      rw [← hd]
      exact hr.close _
    · intro cl h
      exact ⟨rnd cl, by simp [told, deck, runCase, toCase, h], hr.close _⟩
  · refine ⟨?_, ?_, ?_, ?_, hr.close _, ?_⟩
    · intro h
      refine ⟨deg c.aoa, by simp [told, deck, toCase, h], ?_⟩
      rw [← hd]
      exact h0 _
    · intro cl h
      by_cases hp : 0 < cl
      · exact ⟨cl, by simp [told, deck, toCase, h, hp], h0 _⟩
      · exact ⟨rnd cl, by simp [told, deck, runCase, toCase, h, hp], hr.close _⟩
    · by_cases h : c.roll = 0
      · have := hr.close c.roll
        simpa [told, deck, toCase, runCase, h] using this
      · have := h0 c.roll
        simpa [told, deck, toCase, h] using this
    · by_cases h : c.pitch = 0
      · have := hr.close c.pitch
        simpa [told, deck, toCase, runCase, h] using this
      · have := h0 c.pitch
        simpa [told, deck, toCase, h] using this
    · intro _
      rw [← hd]
      by_cases h : deg c.beta = 0
      swap
      · simp [told, deck, toCase, h]
      · have hb : c.beta = 0 := by
          unfold deg at h
          have : (π / 180 : ℝ) ≠ 0 := by positivity
          exact (div_eq_zero_iff.1 h).resolve_right this
        simp [told, deck, toCase, runCase, hb, hr.zero, deg]

example : Rounds id := ⟨by intro x; simp; norm_num, rfl⟩

/-- **C310: an untrimmed aircraft is run at the sideslip in radians, read as degrees.**  With 90 degrees
of sideslip AVL is told little more than one and a half (here: less than 2.1). -/
theorem C310_sideslip_counterexample (rnd : ℝ → ℝ) (hr : Rounds rnd) (c : Cond) (hb : c.beta = π / 2) :
    (told rnd false c).beta < 2.1 ∧ c.beta * 180 / π = 90 := by
  have h := hr.close c.beta
  rw [abs_le] at h
  have hπ := pi_le_four
  constructor
  · simp only [told, deck, runCase, toCase, Bool.false_eq_true, if_false]
    rw [hb] at *
    norm_num at *
    linarith
  · rw [hb]
    field_simp
    norm_num

example : ∃ c : Cond, c.beta = π / 2 := ⟨⟨0, π / 2, none, 0, 0, 0.2, 68⟩, rfl⟩

/-- **C310: AVL is always told that the speed is zero.** -/
theorem C310_speed_counterexample (rnd : ℝ → ℝ) (hr : Rounds rnd) (trim : Bool) (c : Cond) :
    (told rnd trim c).velocity = 0 := by
  cases trim <;> simp [told, deck, runCase, toCase, hr.zero]

/-! ### C311: the mass -/

/-- **C311 (part).**  The mass file holds the mass of the aircraft, or its maximum takeoff mass, when only
one of the two is given. -/
theorem C311_mass_partial (m : ℝ) : fileMass m 0 = some m ∧ fileMass 0 m = some m := by
  unfold fileMass
  constructor
  · by_cases h : m = 0 <;> simp [h]
  · simp

/-- **C311: a vehicle with both masses cannot be analysed, one with neither is given a mass of zero.** -/
theorem C311_mass_counterexample (m mto : ℝ) :
    (fileMass m mto = none ↔ m ≠ 0 ∧ mto ≠ 0) ∧ fileMass 0 0 = some 0 := by
  unfold fileMass
  constructor
  · by_cases h : m = 0 <;> by_cases h' : mto = 0 <;> simp [h, h']
  · simp

/-! ### C312: deflections reach the surfaces they are meant for -/

/-- AVL's number of a control surface is the place of its first mention in the geometry file: surface `i`
is mentioned before surface `j` when each section that mentions `j` is preceded by, or is, a section that
mentions `i`. -/
def MentionedBefore (secs : List Sec) (i j : ℕ) : Prop :=
  ∀ (k : ℕ) (sec : Sec), secs[k]? = some sec → (∃ c ∈ sec.controls, c.order = j) →
    ∃ (k' : ℕ) (sec' : Sec), k' ≤ k ∧ secs[k']? = some sec' ∧ ∃ c ∈ sec'.controls, c.order = i

theorem mem_controls_order (w : Wing) (semi : ℝ) (p : Panel) (y : ℝ) (j : ℕ) :
    (∃ c ∈ (surfaceSection w semi p y).controls, c.order = j) ↔ ∃ s, w.surfaces[j]? = some s ∧
      (semi * s.start = y ∨ y = semi * s.stop ∨ semi * s.start < y ∧ y < semi * s.stop) := by
  simp only [surfaceSection, controlsAt_mem]
  constructor
  · rintro ⟨c, ⟨s, i, h1, h2, rfl⟩, rfl⟩
    exact ⟨s, h1, h2⟩
  · rintro ⟨s, h1, h2⟩
    exact ⟨ctrl s j, ⟨s, j, h1, h2, rfl⟩, rfl⟩

/-- **C312 (part).**  On a wing whose control surfaces are listed from the inside out and all begin on one
panel, AVL meets them in the order in which the deck sets their deflections.  What is missing: other
orders (`C312_order_counterexample`). -/
theorem C312_order_partial (w : Wing) (semi : ℝ) (p : Panel)
    (hlist : w.surfaces.Pairwise fun s t => semi * s.start ≤ semi * t.start)
    (hend : ∀ s ∈ w.surfaces, semi * s.start ≤ semi * s.stop)
    (hin : ∀ s ∈ w.surfaces, semi * p.rootLoc ≤ semi * s.start ∧ semi * s.start < semi * p.tipLoc)
    (i j : ℕ) (hij : i < j) (hj : j < w.surfaces.length) :
    MentionedBefore (((stations w semi p).sort (· ≤ ·)).map (surfaceSection w semi p)) i j := by
  intro k sec hk hsec
  rw [List.getElem?_map, Option.map_eq_some_iff] at hk
  obtain ⟨y, hy, rfl⟩ := hk
  obtain ⟨t, ht, hy'⟩ := (mem_controls_order w semi p y j).1 hsec
  have hi : i < w.surfaces.length := hij.trans hj
  have hs : w.surfaces[i]? = some w.surfaces[i] := List.getElem?_eq_getElem hi
  set s := w.surfaces[i] with hsdef
  have htj : w.surfaces[j] = t := by
    rw [List.getElem?_eq_getElem hj] at ht; simpa using ht
  have hst : semi * s.start ≤ semi * t.start := by
    rw [← htj]; exact (List.pairwise_iff_getElem.1 hlist) i j hi hj hij
  have hty : semi * t.start ≤ y := by
    rcases hy' with h | h | h
    · exact h.le
    · rw [h]; exact hend t (List.mem_of_getElem? ht)
    · exact h.1.le
  have hmem : semi * s.start ∈ stations w semi p := by
    rw [mem_stations]
    exact ⟨⟨s, List.getElem_mem hi, Or.inl rfl⟩, hin s (List.getElem_mem hi)⟩
  rw [← Finset.mem_sort (· ≤ ·)] at hmem
  obtain ⟨k', hk', hk2⟩ := List.getElem_of_mem hmem
  refine ⟨k', surfaceSection w semi p (semi * s.start), ?_, ?_, ?_⟩
  · by_contra hlt
    rw [not_le] at hlt
    have hkl : k < ((stations w semi p).sort (· ≤ ·)).length := hlt.trans hk'
    have := (List.pairwise_iff_getElem.1 (Finset.sortedLT_sort (stations w semi p)).pairwise) k k'
      hkl hk' hlt
    have hyk : ((stations w semi p).sort (· ≤ ·))[k] = y := by
      rw [List.getElem?_eq_getElem hkl] at hy; simpa using hy
    rw [hyk, hk2] at this
    linarith
  · rw [List.getElem?_map, List.getElem?_eq_getElem hk', hk2]; rfl
  · exact (mem_controls_order w semi p _ i).2 ⟨s, hs, Or.inl rfl⟩

/-- **C312: what the deck sets.**  The `k`-th deflection of the deck is that of the `k`-th control surface
of the vehicle, in degrees to four decimals. -/
theorem C312_deflections (rnd : ℝ → ℝ) (hr : Rounds rnd) (wings : List (List Surf)) :
    List.Forall₂ (fun v (s : Surf) => |v - s.deflection * 180 / π| ≤ 0.00005)
      (deflections rnd wings) (wings.flatMap id) := by
  rw [deflections, List.forall₂_map_left_iff, List.forall₂_same]
  intro s _
  have hd : deg s.deflection = s.deflection * 180 / π := by unfold deg; field_simp
  rw [← hd]
  exact hr.close _

/-- **C312: otherwise deflections go to the wrong surface.**  A wing that lists its aileron (60% to 90%)
before its flap (10% to 50%): the geometry file mentions the flap first, so that AVL's first control
variable, to which the deck gives the deflection of the aileron, is the flap. -/
theorem C312_order_counterexample :
    ∃ (w : Wing) (p : Panel) (a f : Surf), w.surfaces = [a, f] ∧ a.kind = .aileron ∧ f.kind = .flap ∧
      ¬ MentionedBefore (((stations w 1 p).sort (· ≤ ·)).map (surfaceSection w 1 p)) 0 1 ∧
      ∀ rnd, deflections rnd [w.surfaces] = [rnd (deg a.deflection), rnd (deg f.deflection)] := by
  let a : Surf := ⟨.aileron, 0.6, 0.9, 0.25, 0.1⟩
  let f : Surf := ⟨.flap, 0.1, 0.5, 0.25, 0.4⟩
  let w : Wing := ⟨2, true, false, 1, 1, 1, 0, 0, 0, 0, some 0, ⟨0, 0, 0⟩, [a, f]⟩
  let p : Panel := ⟨1, 1, 0, 1, 0, 0, 0, 0, ⟨0, 0, 0⟩⟩
  refine ⟨w, p, a, f, rfl, rfl, rfl, ?_, fun rnd => rfl⟩
  intro h
  have hmin : ∀ y ∈ stations w 1 p, (0.1 : ℝ) ≤ y := by
    intro y hy
    rw [mem_stations] at hy
    obtain ⟨⟨s, hs, hy⟩, -⟩ := hy
    simp only [w, List.mem_cons, List.not_mem_nil, or_false] at hs
    rcases hs with rfl | rfl <;> rcases hy with hy | hy <;> simp only [a, f] at hy <;> rw [hy] <;> norm_num
  have hmem : (0.1 : ℝ) ∈ (stations w 1 p).sort (· ≤ ·) := by
    rw [Finset.mem_sort, mem_stations]
    refine ⟨⟨f, by simp [w], Or.inl ?_⟩, ?_⟩
    · simp [f]
    · simp only [p]; norm_num
  obtain ⟨k, hk, hk2⟩ := List.getElem_of_mem hmem
  obtain ⟨k', sec', hle, hsec', c, hc, hc0⟩ := h k (surfaceSection w 1 p 0.1)
    (by rw [List.getElem?_map, List.getElem?_eq_getElem hk, hk2]; rfl)
    ((mem_controls_order w 1 p 0.1 1).2 ⟨f, rfl, Or.inl (by simp [f])⟩)
  rw [List.getElem?_map, Option.map_eq_some_iff] at hsec'
  obtain ⟨y, hy, rfl⟩ := hsec'
  obtain ⟨s, hs, hy'⟩ := (mem_controls_order w 1 p y 0).1 ⟨c, hc, hc0⟩
  have hsa : s = a := by simpa [w] using hs.symm
  subst hsa
  have hk'l : k' < ((stations w 1 p).sort (· ≤ ·)).length := lt_of_le_of_lt hle hk
  have hyk : ((stations w 1 p).sort (· ≤ ·))[k'] = y := by
    rw [List.getElem?_eq_getElem hk'l] at hy; simpa using hy
  have hyle : y ≤ 0.1 := by
    rcases hle.lt_or_eq with hlt | heq
    · have := (List.pairwise_iff_getElem.1 (Finset.sortedLT_sort (stations w 1 p)).pairwise) k' k
        hk'l hk hlt
      rw [hyk, hk2] at this
      exact this.le
    · subst heq
      rw [hyk] at hk2
      exact hk2.le
  simp only [a] at hy'
  norm_num at hy' hyle
  rcases hy' with h | h | h
  · rw [← h] at hyle; norm_num at hyle
  · rw [h] at hyle; norm_num at hyle
  · linarith [h.1]

/-! ### C313: results -/

theorem pad4_value (n : ℕ) : Nat.ofDigits 10 (pad4 n).reverse = n := by
  simp only [pad4, List.reverse_append, List.reverse_reverse, List.reverse_replicate,
    Nat.ofDigits_append, Nat.ofDigits_replicate_zero, mul_zero, add_zero, Nat.ofDigits_digits]

theorem pad4_inj {m n : ℕ} (h : pad4 m = pad4 n) : m = n := by
  rw [← pad4_value m, h, pad4_value]

theorem pad4_length {n : ℕ} (h : n < 10000) : (pad4 n).length = 4 := by
  have : (Nat.digits 10 n).length ≤ 4 := by
    rw [Nat.digits_length_le_iff (by norm_num)]
    simpa using h
  simp only [pad4, List.length_append, List.length_replicate, List.length_reverse]
  omega

theorem caseTag_inj {b i j : ℕ} (h : caseTag b i = caseTag b j) : i = j := by
  simp only [caseTag, List.append_cancel_left_eq] at h
  exact pad4_inj h

theorem lookup_cases {α : Type} (batch n : ℕ) (f : ℕ → α) (i : ℕ) (hi : i < n) :
    List.lookup (caseTag batch (i + 1)) ((List.range n).map fun k => (caseTag batch (k + 1), f k)) =
      some (f i) := by
  suffices h : ∀ l : List ℕ, i ∈ l → List.lookup (caseTag batch (i + 1))
      (l.map fun k => (caseTag batch (k + 1), f k)) = some (f i) from h _ (List.mem_range.2 hi)
  intro l hl
  induction l with
  | nil => simp at hl
  | cons a l ih =>
    rw [List.map_cons, List.lookup_cons]
    by_cases h : caseTag batch (i + 1) = caseTag batch (a + 1)
    · have : i = a := by have := caseTag_inj h; omega
      subst this
      simp
    · have hne : (caseTag batch (i + 1) == caseTag batch (a + 1)) = false := by simp [h]
      rw [hne]
      refine ih ?_
      rcases List.mem_cons.1 hl with rfl | hl
      · exact absurd rfl h
      · exact hl

/-- **C313.**  The results come back one row for each angle of attack and in their order, in each of the
first 9999 batches of an analysis. -/
theorem C313_rows {α : Type} (batch n : ℕ) (hb : batch < 10000) (hn : 0 < n) (f : ℕ → α) :
    rows ((List.range n).map fun k => (caseTag batch (k + 1), f k)) = some ((List.range n).map f) := by
  obtain ⟨m, rfl⟩ : ∃ m, n = m + 1 := ⟨n - 1, by omega⟩
  have htake : ∀ i, (caseTag batch i).take 4 = pad4 batch := by
    intro i
    rw [caseTag, List.append_assoc, List.take_append_of_le_length (by rw [pad4_length hb]),
      List.take_of_length_le (by rw [pad4_length hb])]
  have hhead : ∀ l : List (List ℕ × α), l = (List.range (m + 1)).map
      (fun k => (caseTag batch (k + 1), f k)) → rows l = (List.range l.length).mapM fun i =>
        l.lookup (caseTag batch (i + 1)) := by
    intro l hl
    cases l with
    | nil => simp at hl
    | cons p l =>
      rw [List.range_succ_eq_map, List.map_cons] at hl
      injection hl with h1 h2
      subst h1
      simp only [rows, htake]
      rfl
  rw [hhead _ rfl, List.length_map, List.length_range]
  have : ∀ l : List ℕ, (∀ i ∈ l, i < m + 1) →
      (l.mapM fun i => List.lookup (caseTag batch (i + 1))
        ((List.range (m + 1)).map fun k => (caseTag batch (k + 1), f k))) = some (l.map f) := by
    intro l hl
    induction l with
    | nil => rfl
    | cons a l ih =>
      rw [List.mapM_cons, lookup_cases _ _ _ _ (hl a (by simp)), ih fun i hi => hl i (by simp [hi])]
      rfl
  exact this _ fun i hi => List.mem_range.1 hi

example : ∃ batch n : ℕ, batch < 10000 ∧ 0 < n := ⟨1, 6, by norm_num, by norm_num⟩

/-- **C313 (part): the lift of the wings.**  Each wing gets the whole lift coefficient times its area over
the reference area; the wings together carry the whole lift exactly when their areas add up to the
reference area. -/
theorem C313_lift_partial (cl sref : ℝ) (areas : List ℝ) (hs : sref ≠ 0) (hcl : cl ≠ 0) :
    ((areas.map fun a => wingLift cl a sref).sum = cl ↔ areas.sum = sref) := by
  have h : (areas.map fun a => wingLift cl a sref).sum = cl * (areas.sum / sref) := by
    induction areas with
    | nil => simp
    | cons a l ih => rw [List.map_cons, List.sum_cons, ih, List.sum_cons, wingLift]; ring
  rw [h]
  constructor
  · intro h'
    have : areas.sum / sref = 1 := by
      have := mul_left_cancel₀ hcl (h'.trans (mul_one cl).symm)
      exact this
    rwa [div_eq_one_iff_eq hs] at this
  · intro h'
    rw [h', div_self hs, mul_one]

/-- **C313: with a tail the wings carry more than the aircraft.** -/
theorem C313_lift_counterexample : ∃ (cl sref : ℝ) (areas : List ℝ), areas.head? = some sref ∧
    (areas.map fun a => wingLift cl a sref).sum = 1.3 * cl ∧ cl = 1 := by
  refine ⟨1, 100, [100, 30], rfl, ?_, rfl⟩
  norm_num [wingLift]

/-! ### C314: the stability analysis -/

/-- **C314 (part): training files.**  The moment coefficient and its two derivatives read back from a
saved training file are those that were saved; the neutral point (`C314_neutral_counterexample`) is not. -/
theorem C314_saved_partial (c : Column) : ∃ d, loadedRow (savedRow c) = some d ∧ d.cm = c.cm ∧
    d.cmAlpha = c.cmAlpha ∧ d.cnBeta = c.cnBeta := ⟨_, rfl, rfl, rfl, rfl⟩

/-- **C314: the neutral point is lost.**  Read back from a saved training file it is the derivative of the
yawing moment; it survives exactly when the two happen to be equal. -/
theorem C314_neutral_counterexample (c : Column) :
    loadedRow (savedRow c) = some c ↔ c.np = c.cnBeta := by
  cases c
  simp [loadedRow, savedRow, eq_comm]

/-- **C314 (part): the static margin.**  Of the three numbers reported for a condition the first is the
static margin: positive when the centre of gravity lies ahead of the neutral point.  What is missing: the
other two (`C314_margin_counterexample`). -/
theorem C314_margin_partial (np : ℝ) (cg : Pt) (mac : ℝ) (hm : 0 < mac) :
    ∃ m rest, staticMargin np cg mac = m :: rest ∧ m * mac = np - cg.x ∧ (0 < m ↔ cg.x < np) := by
  refine ⟨_, _, rfl, div_mul_cancel₀ _ hm.ne', ?_⟩
  rw [div_pos_iff_of_pos_right hm, sub_pos]

/-- **C314: two of the three numbers are not static margins.**  A centre of gravity one metre behind the
neutral point gives one negative and two positive numbers. -/
theorem C314_margin_counterexample : ∃ (np : ℝ) (cg : Pt) (mac a b c : ℝ),
    staticMargin np cg mac = [a, b, c] ∧ np < cg.x ∧ a < 0 ∧ 0 < b ∧ 0 < c := by
  refine ⟨10, ⟨11, 0, 0⟩, 2, _, _, _, rfl, ?_, ?_, ?_, ?_⟩ <;> norm_num

end Verif.Avl
