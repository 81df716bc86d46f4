import Verif.Vsp.Wing
import Mathlib.Analysis.Real.Pi.Bounds
import Mathlib.Tactic.Linarith
import Mathlib.Tactic.Positivity
import Mathlib.Tactic.FieldSimp
import Mathlib.Tactic.Ring
import Mathlib.Tactic.NormNum
import Mathlib.Algebra.BigOperators.Intervals

/-!
Properties of the OpenVSP interface for wings (C315 to C318).
-/

namespace Verif.Vsp

open Real

theorem unitDeg_pos : 0 < unitDeg := by unfold unitDeg; positivity

/-! ### C315: sections -/

theorem convertSweep_self (s loc ar taper : ℝ) (h1 : -(π / 2) < s) (h2 : s < π / 2) :
    convertSweep s loc loc ar taper = s := by
  simp only [convertSweep]
  rw [tan_arctan, add_sub_cancel_right, arctan_tan h1 h2]

theorem readRot_zero : readRot 0 = 0 := by
  unfold readRot; norm_num

/-- **C315**: a horizontal wing of `n ≥ 3` segments from its root to its tip, written to OpenVSP and read
back, has the span locations, chords and twists of every segment and the dihedral and sweep of every panel
it had, if OpenVSP reports as projected span the sum over both sides of the panels' projected spans. -/
theorem C315_sections_partial (w : VWing) (segs : ℕ → VSeg) (n : ℕ) (hn : 3 ≤ n) (total : ℝ)
    (aspect taper : ℕ → ℝ) (hw : w.vertical = false) (hspan : w.span ≠ 0) (hroot : w.root ≠ 0)
    (h0 : (segs 0).loc = 0) (h1 : (segs (n - 1)).loc = 1) (hc : (segs 0).chord = 1)
    (hd : ∀ j : ℕ, j + 1 < n → cos (segs j).dihedral ≠ 0)
    (hs : ∀ j : ℕ, j + 1 < n → -(π / 2) < (segs j).sweep ∧ (segs j).sweep < π / 2)
    (htot : total = sides w.symmetric * ∑ k ∈ Finset.range (n - 1),
      (writeX w segs n (k + 1)).span * cos ((writeX w segs n (k + 1)).dihedral * unitDeg)) :
    (∀ j : ℕ, j < n →
      let r := readSeg w.symmetric 1 (writeRot w) 0 total aspect taper (writeX w segs n) n j
      r.loc = (segs j).loc ∧ r.chord = (segs j).chord ∧ r.twist = (segs j).twist) ∧
    (∀ j : ℕ, j + 1 < n →
      let r := readSeg w.symmetric 1 (writeRot w) 0 total aspect taper (writeX w segs n) n j
      r.dihedral = (segs j).dihedral ∧ r.sweep = (segs j).sweep) := by
  have hu := unitDeg_pos.ne'
  have hrot : writeRot w = 0 := by simp [writeRot, hw]
  have hdih : ∀ k : ℕ, (writeX w segs n (k + 1)).dihedral * unitDeg = (segs k).dihedral := by
    intro k; simp [writeX, hw, hu]
  have hrd : ∀ k : ℕ, readDihedral 0 (writeX w segs n) (k + 1) = (segs k).dihedral := by
    intro k; rw [readDihedral, hdih, readRot_zero, add_zero]
  set semi : ℝ := if w.symmetric then w.span / 2 else w.span with hsemi
  have hpanel : ∀ k : ℕ, k + 1 < n → (writeX w segs n (k + 1)).span * cos (segs k).dihedral =
      semi * (segs (k + 1)).loc - semi * (segs k).loc := by
    intro k hk
    have := hd k hk
    simp only [writeX, Nat.add_sub_cancel, div_mul_cancel₀ _ hu]
    rw [← hsemi]; field_simp
  have hsum : ∀ j : ℕ, j < n → projSum 1 0 (writeX w segs n) j = semi * (segs j).loc := by
    intro j hj
    unfold projSum
    have : ∀ k ∈ Finset.range j, (writeX w segs n (k + 1)).span * 1 *
        cos (readDihedral 0 (writeX w segs n) (k + 1)) =
        semi * (segs (k + 1)).loc - semi * (segs k).loc := by
      intro k hk
      rw [Finset.mem_range] at hk
      rw [hrd, mul_one, hpanel k (by omega)]
    rw [Finset.sum_congr rfl this, Finset.sum_range_sub (fun k => semi * (segs k).loc), h0]; ring
  have htot' : total = sides w.symmetric * semi := by
    rw [htot]
    have : ∀ k ∈ Finset.range (n - 1), (writeX w segs n (k + 1)).span *
        cos ((writeX w segs n (k + 1)).dihedral * unitDeg) =
        semi * (segs (k + 1)).loc - semi * (segs k).loc := by
      intro k hk
      rw [Finset.mem_range] at hk
      rw [hdih, hpanel k (by omega)]
    rw [Finset.sum_congr rfl this, Finset.sum_range_sub (fun k => semi * (segs k).loc), h0, h1]; ring
  have hsides : sides w.symmetric ≠ 0 := by unfold sides; split_ifs <;> norm_num
  have hsemi0 : semi ≠ 0 := by
    rw [hsemi]; split_ifs
    · exact div_ne_zero hspan two_ne_zero
    · exact hspan
  constructor
  · intro j hj
    refine ⟨?_, ?_, ?_⟩
    · show projSum 1 (writeRot w) (writeX w segs n) j / (total * 1 / sides w.symmetric) = _
      rw [hrot, hsum j hj, htot']; field_simp
    · show (if j + 1 ≠ n then (writeX w segs n (j + 1)).root else (writeX w segs n (n - 1)).tip) * 1 /
        ((writeX w segs n 1).root * 1) = _
      have hr1 : (writeX w segs n 1).root = w.root := by simp [writeX, hc]
      rw [hr1]
      split_ifs with h
      · simp only [writeX, Nat.add_sub_cancel]; field_simp
      · have : j = n - 1 := by omega
        simp only [writeX, this]; field_simp
    · show (writeX w segs n j).twist * unitDeg + 0 * unitDeg = _
      simp [writeX, hu]
  · intro j hj
    refine ⟨?_, ?_⟩
    · show readDihedral (writeRot w) (writeX w segs n) (j + 1) = _
      rw [hrot, hrd]
    · show convertSweep ((writeX w segs n (j + 1)).sweep * unitDeg) (writeX w segs n (j + 1)).sweepLoc 0.25
        (2 * aspect (j + 1)) (taper (j + 1)) = _
      have : (writeX w segs n (j + 1)).sweep * unitDeg = (segs j).sweep := by simp [writeX, hu]
      rw [this]
      show convertSweep _ 0.25 0.25 _ _ = _
      exact convertSweep_self _ _ _ _ (hs j hj).1 (hs j hj).2

/-- **C315**, refuted for thickness: every section between the root and the tip comes back with the
thickness of the segment inboard of it. -/
theorem C315_thickness_counterexample (w : VWing) (segs : ℕ → VSeg) (n j : ℕ) (hj : 1 ≤ j)
    (hjn : j + 1 < n) (units xrot yrot total : ℝ) (aspect taper : ℕ → ℝ) :
    (readSeg w.symmetric units xrot yrot total aspect taper (writeX w segs n) n j).tc =
      (segs (j - 1)).tc := by
  show (writeX w segs n j).tc = _
  simp only [writeX]
  rw [if_neg (by omega), if_neg (by omega)]

/-- **C315**, refuted for vertical wings: every panel comes back with its dihedral reversed. -/
theorem C315_vertical_counterexample (w : VWing) (segs : ℕ → VSeg) (n j : ℕ) (hw : w.vertical = true)
    (units yrot total : ℝ) (aspect taper : ℕ → ℝ) :
    (readSeg w.symmetric units (writeRot w) yrot total aspect taper (writeX w segs n) n j).dihedral =
      -(segs j).dihedral := by
  show readDihedral (writeRot w) (writeX w segs n) (j + 1) = _
  have hu := unitDeg_pos.ne'
  have h90 : readRot 90 = 0 := by
    unfold readRot
    rw [if_pos (by norm_num)]; norm_num
  simp [readDihedral, writeX, writeRot, hw, hu, h90]

/-- A tapered wing of three segments and 10 m span. -/
noncomputable example : ∃ (w : VWing) (segs : ℕ → VSeg), w.vertical = false ∧ w.span ≠ 0 ∧ w.root ≠ 0 ∧
    (segs 0).loc = 0 ∧ (segs (3 - 1)).loc = 1 ∧ (segs 0).chord = 1 ∧
    (∀ j : ℕ, j + 1 < 3 → cos (segs j).dihedral ≠ 0) ∧
    (∀ j : ℕ, j + 1 < 3 → -(π / 2) < (segs j).sweep ∧ (segs j).sweep < π / 2) := by
  refine ⟨⟨10, true, false, 2, 0.12⟩, fun j => ⟨j / 2, 1 - j / 4, 0, 0.1, 0.2, 0.12⟩, rfl, by norm_num,
    by norm_num, by norm_num, by norm_num, by norm_num, ?_, ?_⟩
  · intro j _
    have := pi_gt_three
    exact (cos_pos_of_mem_Ioo ⟨by norm_num; linarith, by norm_num; linarith⟩).ne'
  · intro j _
    have := pi_gt_three
    constructor <;> norm_num <;> linarith

/-! ### C316: control surfaces -/

theorem lastIdx_spec (p : ℕ → Bool) (n i : ℕ) (h : lastIdx p n = some i) :
    i < n ∧ p i = true ∧ ∀ j, i < j → j < n → p j = false := by
  induction n with
  | zero => simp [lastIdx] at h
  | succ n ih =>
    rw [lastIdx] at h
    split_ifs at h with hp
    · have : n = i := by simpa using h
      subst this
      exact ⟨by omega, hp, fun j h1 h2 => by omega⟩
    · obtain ⟨h1, h2, h3⟩ := ih h
      refine ⟨by omega, h2, fun j hj1 hj2 => ?_⟩
      rcases Nat.lt_succ_iff_lt_or_eq.mp hj2 with h | h
      · exact h3 j hj1 h
      · subst h; simpa using hp

theorem lastIdx_none (p : ℕ → Bool) (n : ℕ) : lastIdx p n = none ↔ ∀ j, j < n → p j = false := by
  induction n with
  | zero => simp [lastIdx]
  | succ n ih =>
    rw [lastIdx]
    split_ifs with hp
    · simp only [false_iff, not_forall]
      exact ⟨n, by omega, by simp [hp]⟩
    · rw [ih]
      constructor
      · intro h j hj
        rcases Nat.lt_succ_iff_lt_or_eq.mp hj with h' | h'
        · exact h j h'
        · subst h'; simpa using hp
      · intro h j hj; exact h j (by omega)

theorem firstIdx_spec (p : ℕ → Bool) (n i : ℕ) (h : firstIdx p n = some i) :
    i < n ∧ p i = true ∧ ∀ j, j < i → p j = false := by
  unfold firstIdx at h
  rw [List.find?_range_eq_some] at h
  obtain ⟨h1, h2, h3⟩ := h
  exact ⟨by simpa using h2, h1, fun j hj => by simpa using h3 j hj⟩

theorem firstIdx_none (p : ℕ → Bool) (n : ℕ) : firstIdx p n = none ↔ ∀ j, j < n → p j = false := by
  unfold firstIdx
  rw [List.find?_eq_none]
  simp

theorem pyGet_nat {α : Type} (l : List α) (i : ℕ) : pyGet l (i : ℤ) = l[i]? := by
  simp [pyGet]

theorem getD_eq (b : List ℝ) (i : ℕ) (h : i < b.length) : b.getD i 0 = b[i] := by
  simp [List.getD_eq_getElem?_getD, List.getElem?_eq_getElem h]

theorem toU_nat (b : List ℝ) (i : ℕ) (x : ℝ) (h : i + 1 < b.length) :
    toU b i x = some (uScale b * ((x - b[i]) / (b[i + 1] - b[i])) + (i + 1) * uScale b) := by
  have e : ((i : ℤ) + 1) = ((i + 1 : ℕ) : ℤ) := by push_cast; ring
  unfold toU
  rw [e, pyGet_nat, pyGet_nat, List.getElem?_eq_getElem h, List.getElem?_eq_getElem (by omega)]
  simp

theorem uScale_pos (b : List ℝ) : 0 < uScale b := by
  unfold uScale
  have : (0 : ℝ) ≤ b.length := Nat.cast_nonneg _
  have : (0 : ℝ) < (b.length - 1 : ℝ) + 2 := by linarith
  positivity

theorem fromU_panel (b : List ℝ) (i : ℕ) (r : ℝ) (h : i + 1 < b.length) (h0 : 0 ≤ r) (h1 : r < 1) :
    fromU b (uScale b * r + (i + 1) * uScale b) = some (r * (b[i + 1] - b[i]) + b[i]) := by
  have hs := uScale_pos b
  have hu : (uScale b * r + (i + 1) * uScale b) / uScale b = r + ((i + 1 : ℤ) : ℝ) := by
    push_cast; field_simp
  have hf : ⌊r + ((i + 1 : ℤ) : ℝ)⌋ - 1 = (i : ℤ) := by
    rw [Int.floor_add_intCast, Int.floor_eq_zero_iff.mpr ⟨h0, h1⟩]; ring
  have e : ((i : ℤ) + 1) = ((i + 1 : ℕ) : ℤ) := by push_cast; ring
  unfold fromU
  simp only [hu, hf]
  rw [e, pyGet_nat, pyGet_nat, List.getElem?_eq_getElem h, List.getElem?_eq_getElem (by omega)]
  simp

/-- Writing and reading a point of panel `i` that is not the tip gives it back. -/
theorem roundTrip (b : List ℝ) (hb : b.Pairwise (· < ·)) (i : ℕ) (h : i + 1 < b.length) (x : ℝ)
    (hlo : b[i] ≤ x) (hhi : x ≤ b[i + 1]) (hlast : ∀ y ∈ b.getLast?, x < y) :
    (toU b i x).bind (fromU b) = some x := by
  have hlt : b[i] < b[i + 1] := List.pairwise_iff_getElem.mp hb i (i + 1) (by omega) h (by omega)
  rw [toU_nat b i x h]
  have hd : 0 < b[i + 1] - b[i] := by linarith
  show fromU b _ = _
  rcases hhi.lt_or_eq with hx | hx
  · rw [fromU_panel b i _ h (div_nonneg (by linarith) hd.le) ((div_lt_one hd).mpr (by linarith))]
    congr 1
    field_simp; ring
  · have h2 : i + 1 + 1 < b.length := by
      by_contra hcon
      have hl : b.getLast? = some b[i + 1] := by
        rw [List.getLast?_eq_getElem?]
        have : b.length - 1 = i + 1 := by omega
        rw [this, List.getElem?_eq_getElem h]
      have := hlast _ (by rw [hl]; rfl)
      linarith
    have := fromU_panel b (i + 1) 0 h2 le_rfl one_pos
    rw [hx, div_self hd.ne']
    have e : uScale b * 1 + ((i : ℝ) + 1) * uScale b =
        uScale b * 0 + (((i + 1 : ℕ) : ℝ) + 1) * uScale b := by push_cast; ring
    rw [e, this]; simp

/-- **C316**: a control surface that starts outboard of the root and ends inboard of the tip comes back
with the span fractions it had, for any sequence of wing breaks. -/
theorem C316_surface_partial (b : List ℝ) (hb : b.Pairwise (· < ·)) (s e : ℝ)
    (hs0 : ∀ y ∈ b.head?, y < s) (he0 : ∀ y ∈ b.head?, y < e) (hs1 : ∀ y ∈ b.getLast?, s < y)
    (he1 : ∀ y ∈ b.getLast?, e < y) (hne : b ≠ []) (hs : 0 ≤ s) (hs' : s ≤ 1) (he : 0 ≤ e)
    (he' : e ≤ 1) :
    ∃ us ue, writeSurface b s e = some (us, ue) ∧ readSurface b us ue = some (s, e) := by
  have hpos : 0 < b.length := List.length_pos_iff.mpr hne
  have hhead : b.head? = some b[0] := by
    rw [List.head?_eq_getElem?, List.getElem?_eq_getElem hpos]
  have hlast : b.getLast? = some (b[b.length - 1]'(by omega)) := by
    rw [List.getLast?_eq_getElem?, List.getElem?_eq_getElem (by omega)]
  have hmono : ∀ i j (hi : i < b.length) (hj : j < b.length), i < j → b[i] < b[j] := fun i j hi hj hij =>
    List.pairwise_iff_getElem.mp hb i j hi hj hij
  -- the start
  have hstart : ∃ us, writeStart b s = some us ∧ fromU b us = some s := by
    cases hl : lastIdx (fun i => decide (b.getD i 0 < s)) b.length with
    | none =>
      rw [lastIdx_none] at hl
      have h0 := hl 0 hpos
      have h0' := hs0 b[0] (by rw [hhead]; rfl)
      rw [getD_eq b 0 hpos] at h0
      exact absurd h0' (by simpa using h0)
    | some i =>
      obtain ⟨h1, h2, h3⟩ := lastIdx_spec _ _ _ hl
      rw [getD_eq b i h1] at h2
      have h2 : b[i] < s := by simpa using h2
      have h4 : i + 1 < b.length := by
        by_contra hcon
        have : b.length - 1 = i := by omega
        have hl' := hs1 b[i] (by rw [hlast]; simp [this])
        linarith
      have h5 := h3 (i + 1) (by omega) h4
      rw [getD_eq b (i + 1) h4] at h5
      have h5 : s ≤ b[i + 1] := by simpa using h5
      have hr := roundTrip b hb i h4 s h2.le h5 hs1
      obtain ⟨u, hu1, hu2⟩ := Option.bind_eq_some_iff.mp hr
      refine ⟨u, ?_, hu2⟩
      unfold writeStart
      rw [hl]; exact hu1
  have hend : ∃ ue, writeEnd b e = some ue ∧ fromU b ue = some e := by
    cases hl : firstIdx (fun i => decide (e ≤ b.getD i 0)) b.length with
    | none =>
      rw [firstIdx_none] at hl
      have h0 := hl (b.length - 1) (by omega)
      have h0' := he1 (b[b.length - 1]'(by omega)) (by rw [hlast]; rfl)
      rw [getD_eq b _ (by omega)] at h0
      have h0 : b[b.length - 1]'(by omega) < e := by simpa using h0
      linarith
    | some i =>
      obtain ⟨h1, h2, h3⟩ := firstIdx_spec _ _ _ hl
      rw [getD_eq b i h1] at h2
      have h2 : e ≤ b[i] := by simpa using h2
      have hi0 : i ≠ 0 := by
        rintro rfl
        have := he0 b[0] (by rw [hhead]; rfl)
        linarith
      obtain ⟨k, rfl⟩ := Nat.exists_eq_succ_of_ne_zero hi0
      have h5 := h3 k (by omega)
      rw [getD_eq b k (by omega)] at h5
      have h5 : b[k] < e := by simpa using h5
      have hr := roundTrip b hb k h1 e h5.le h2 he1
      obtain ⟨u, hu1, hu2⟩ := Option.bind_eq_some_iff.mp hr
      refine ⟨u, ?_, hu2⟩
      unfold writeEnd
      rw [hl]
      show toU b (((k + 1 : ℕ) : ℤ) - 1) e = _
      rw [show (((k + 1 : ℕ) : ℤ) - 1) = (k : ℤ) by push_cast; ring]
      exact hu1
  obtain ⟨us, h1, h2⟩ := hstart
  obtain ⟨ue, h3, h4⟩ := hend
  refine ⟨us, ue, ?_, ?_⟩
  · unfold writeSurface; rw [h1, h3]; rfl
  · unfold readSurface
    rw [h2, h4]
    show (if max s 0 > 1 ∨ min e 1 < 0 then none else some (max s 0, min e 1)) = _
    rw [max_eq_left hs, min_eq_left he', if_neg]
    rintro (h | h) <;> linarith

/-- **C316**, refuted at the root: no control surface that starts at the wing root can be written. -/
theorem C316_root_counterexample (b : List ℝ) (s e : ℝ) (h : ∀ y ∈ b, s ≤ y) :
    writeSurface b s e = none := by
  have : lastIdx (fun i => decide (b.getD i 0 < s)) b.length = none := by
    rw [lastIdx_none]
    intro j hj
    rw [getD_eq b j hj]
    simpa using h _ (List.getElem_mem hj)
  unfold writeSurface writeStart
  rw [this]; rfl

/-- **C316**, in OpenVSP: an end inside a panel is at the same fraction of that panel, the panels and the two end caps having equal extents in OpenVSP's
parameter. -/
theorem C316_parameter (b : List ℝ) (hb : b.Pairwise (· < ·)) (i : ℕ) (h : i + 1 < b.length) (f : ℝ) (h0 : 0 < f) (h1 : f < 1) :
    writeStart b (b[i] + f * (b[i + 1] - b[i])) = some ((i + 1 + f) / ((b.length : ℝ) + 1)) ∧
      writeEnd b (b[i] + f * (b[i + 1] - b[i])) = some ((i + 1 + f) / ((b.length : ℝ) + 1)) := by
  have hmono : ∀ i j (hi : i < b.length) (hj : j < b.length), i < j → b[i] < b[j] := fun i j hi hj hij =>
    List.pairwise_iff_getElem.mp hb i j hi hj hij
  have hle : ∀ i j (hi : i < b.length) (hj : j < b.length), i ≤ j → b[i] ≤ b[j] := fun i j hi hj hij => by
    rcases Nat.lt_or_eq_of_le hij with h | h
    · exact (hmono i j hi hj h).le
    · subst h; exact le_rfl
  have hd : 0 < b[i + 1] - b[i] := sub_pos.2 (hmono i (i + 1) (by omega) h (by omega))
  have hlo : b[i] < b[i] + f * (b[i + 1] - b[i]) := by nlinarith
  have hhi : b[i] + f * (b[i + 1] - b[i]) < b[i + 1] := by nlinarith
  have hU : toU b i (b[i] + f * (b[i + 1] - b[i])) = some ((i + 1 + f) / ((b.length : ℝ) + 1)) := by
    rw [toU_nat b i _ h]
    congr 1
    have e : (b[i] + f * (b[i + 1] - b[i]) - b[i]) / (b[i + 1] - b[i]) = f := by
      rw [add_sub_cancel_left, mul_div_cancel_right₀ _ hd.ne']
    rw [e]
    unfold uScale
    rw [show (b.length - 1 : ℝ) + 2 = b.length + 1 by ring]
    ring
  generalize b[i] + f * (b[i + 1] - b[i]) = x at *
  constructor
  · have hl : lastIdx (fun k => decide (b.getD k 0 < x)) b.length = some i := by
      cases hc : lastIdx (fun k => decide (b.getD k 0 < x)) b.length with
      | none =>
        rw [lastIdx_none] at hc
        have := hc i (by omega)
        rw [getD_eq b i (by omega)] at this
        simp only [decide_eq_false_iff_not] at this
        exact absurd hlo this
      | some k =>
        obtain ⟨k1, k2, k3⟩ := lastIdx_spec _ _ _ hc
        congr 1
        by_contra hne
        rcases Nat.lt_or_gt_of_ne hne with h2 | h2
        · have := k3 i h2 (by omega)
          rw [getD_eq b i (by omega)] at this
          simp only [decide_eq_false_iff_not] at this
          exact this hlo
        · rw [getD_eq b k k1] at k2
          have := hle (i + 1) k h k1 h2
          have := of_decide_eq_true k2
          linarith
    unfold writeStart
    rw [hl]
    exact hU
  · have hl : firstIdx (fun k => decide (x ≤ b.getD k 0)) b.length = some (i + 1) := by
      cases hc : firstIdx (fun k => decide (x ≤ b.getD k 0)) b.length with
      | none =>
        rw [firstIdx_none] at hc
        have := hc (i + 1) h
        rw [getD_eq b (i + 1) h] at this
        simp only [decide_eq_false_iff_not] at this
        exact absurd hhi.le this
      | some k =>
        obtain ⟨k1, k2, k3⟩ := firstIdx_spec _ _ _ hc
        congr 1
        by_contra hne
        rcases Nat.lt_or_gt_of_ne hne with h2 | h2
        · rw [getD_eq b k k1] at k2
          have := hle k i k1 (by omega) (by omega)
          have := of_decide_eq_true k2
          linarith
        · have := k3 (i + 1) h2
          rw [getD_eq b (i + 1) h] at this
          simp only [decide_eq_false_iff_not] at this
          exact this hhi.le
    unfold writeEnd
    rw [hl]
    show toU b (((i + 1 : ℕ) : ℤ) - 1) x = _
    rw [show (((i + 1 : ℕ) : ℤ) - 1) = (i : ℤ) by push_cast; ring]
    exact hU

/-- The middle of the outer of two panels. -/
example : writeStart [0, 0.4, 1] 0.7 = some ((1 + 1 + 0.5) / (3 + 1)) := by
  have := (C316_parameter [0, 0.4, 1] (by norm_num) 1 (by norm_num) 0.5 (by norm_num) (by norm_num)).1
  norm_num at this ⊢
  exact this

/-- **C316**, refuted at the tip: a control surface that ends at the tip is written, but cannot be read. -/
theorem C316_tip_counterexample : ∃ us ue, writeSurface [0, 1] (1 / 2) 1 = some (us, ue) ∧
    readSurface [0, 1] us ue = none := by
  refine ⟨1 / 2, 2 / 3, ?_, ?_⟩
  · have h1 : lastIdx (fun i => decide (([0, 1] : List ℝ).getD i 0 < 1 / 2)) 2 = some 0 := by
      norm_num [lastIdx]
    have h2 : firstIdx (fun i => decide ((1 : ℝ) ≤ ([0, 1] : List ℝ).getD i 0)) 2 = some 1 := by
      simp [firstIdx, List.range_succ]
    have h3 : toU [0, 1] ((0 : ℕ) : ℤ) (1 / 2) = some (1 / 2) := by
      rw [toU_nat _ _ _ (by simp)]; norm_num [uScale]
    have h4 : toU [0, 1] (((1 : ℕ) : ℤ) - 1) 1 = some (2 / 3) := by
      rw [show (((1 : ℕ) : ℤ) - 1) = ((0 : ℕ) : ℤ) by norm_num, toU_nat _ _ _ (by simp)]
      norm_num [uScale]
    unfold writeSurface writeStart writeEnd
    simp only [List.length_cons, List.length_nil, zero_add, Nat.reduceAdd]
    rw [h1, h2]
    show (do let us ← toU [0, 1] ((0 : ℕ) : ℤ) (1 / 2); let ue ← toU [0, 1] (((1 : ℕ) : ℤ) - 1) 1
             some (us, ue)) = _
    rw [h3, h4]; rfl
  · have h1 : fromU [0, 1] (2 / 3) = none := by
      have hf : ⌊(2 / 3 : ℝ) / uScale [0, 1]⌋ = 2 := by
        have : (2 / 3 : ℝ) / uScale [0, 1] = ((2 : ℤ) : ℝ) := by norm_num [uScale]
        rw [this, Int.floor_intCast]
      unfold fromU
      simp only [hf]
      rfl
    unfold readSurface
    rw [h1]
    cases fromU [0, 1] (1 / 2) <;> rfl

/-- **C316**, refuted for the root cap: a surface that starts in the cap of an unsegmented wing is not
rejected; the nearer its start to the symmetry plane, the nearer the tip it is taken to start. -/
theorem C316_cap_counterexample (u : ℝ) (h0 : 0 ≤ u) (h1 : u < 1 / 3) :
    fromU [0, 1] u = some (1 - 3 * u) := by
  have hs : uScale [0, 1] = 1 / 3 := by norm_num [uScale]
  have hf : ⌊u / uScale [0, 1]⌋ = 0 := by
    rw [hs, Int.floor_eq_zero_iff]
    constructor
    · positivity
    · rw [div_lt_one (by norm_num)]; exact h1
  unfold fromU
  rw [hs] at hf
  simp only [hs, hf]
  have a : pyGet ([0, 1] : List ℝ) (0 - 1 + 1) = some 0 := rfl
  have c : pyGet ([0, 1] : List ℝ) (0 - 1) = some 1 := rfl
  rw [a, c]
  show some _ = some _
  congr 1
  push_cast; ring

/-- A flap from 20 % to 60 % of a wing with a break at 40 %. -/
example : ([0, 0.4, 1] : List ℝ).Pairwise (· < ·) ∧ (∀ y ∈ ([0, 0.4, 1] : List ℝ).head?, y < 0.2) ∧
    (∀ y ∈ ([0, 0.4, 1] : List ℝ).getLast?, (0.6 : ℝ) < y) := by
  refine ⟨by norm_num, ?_, ?_⟩
  · intro y hy
    have : y = 0 := by simpa using hy.symm
    rw [this]; norm_num
  · intro y hy
    have : y = 1 := by simpa using hy.symm
    rw [this]; norm_num

/-! ### C317: fuel tanks -/

/-- `t` lies at the fraction `f` of panel `i`. -/
def Within (b : List ℝ) (i : ℕ) (f t : ℝ) : Prop :=
  ∃ lo hi : ℝ, b[i]? = some lo ∧ b[i + 1]? = some hi ∧ 0 ≤ f ∧ f < 1 ∧ t = lo + f * (hi - lo)

/-- **C317**: a tank trim inside the wing is sent to the same fraction of the same panel, panels having
equal extents in OpenVSP's parameter. -/
theorem C317_trim (b : List ℝ) (hb : b.Pairwise (· < ·)) (t : ℝ) (h0 : ∀ y ∈ b.head?, y ≤ t)
    (h1 : ∀ y ∈ b.getLast?, t < y) (hne : b ≠ []) :
    ∃ i f, Within b i f t ∧ trim b t = some (((i : ℝ) + f) / ((b.length : ℝ) - 1)) := by
  have hpos : 0 < b.length := List.length_pos_iff.mpr hne
  have hhead : b.head? = some b[0] := by
    rw [List.head?_eq_getElem?, List.getElem?_eq_getElem hpos]
  have hlast : b.getLast? = some (b[b.length - 1]'(by omega)) := by
    rw [List.getLast?_eq_getElem?, List.getElem?_eq_getElem (by omega)]
  cases hl : firstIdx (fun i => decide (t < b.getD i 0)) b.length with
  | none =>
    rw [firstIdx_none] at hl
    have hc := hl (b.length - 1) (by omega)
    have hc' := h1 (b[b.length - 1]'(by omega)) (by rw [hlast]; rfl)
    rw [getD_eq b _ (by omega)] at hc
    exact absurd hc' (by simpa using hc)
  | some i =>
    obtain ⟨hi, h2, h3⟩ := firstIdx_spec _ _ _ hl
    rw [getD_eq b i hi] at h2
    have h2 : t < b[i] := by simpa using h2
    have hi0 : i ≠ 0 := by
      rintro rfl
      have := h0 b[0] (by rw [hhead]; rfl)
      linarith
    obtain ⟨k, rfl⟩ := Nat.exists_eq_succ_of_ne_zero hi0
    have h5 := h3 k (by omega)
    rw [getD_eq b k (by omega)] at h5
    have h5 : b[k] ≤ t := by simpa using h5
    have hk : k < b.length := by omega
    have hlt : b[k] < b[k + 1] := List.pairwise_iff_getElem.mp hb k (k + 1) hk hi (by omega)
    have hd : 0 < b[k + 1] - b[k] := by linarith
    have h2' : t < b[k + 1] := h2
    refine ⟨k, (t - b[k]) / (b[k + 1] - b[k]), ⟨b[k], b[k + 1], List.getElem?_eq_getElem hk,
      List.getElem?_eq_getElem hi, div_nonneg (by linarith) hd.le, (div_lt_one hd).mpr (by linarith), ?_⟩,
      ?_⟩
    · field_simp; ring
    · unfold trim
      rw [hl]
      have e : (((k + 1 : ℕ) : ℤ) - 1) = (k : ℤ) := by push_cast; ring
      have hv : ∀ m : ℕ, m < b.length →
          pyGet ((List.range b.length).map fun k : ℕ => (k : ℝ) / ((b.length : ℝ) - 1)) (m : ℤ) =
            some ((m : ℝ) / ((b.length : ℝ) - 1)) := by
        intro m hm
        rw [pyGet_nat]; simp [hm]
      show (do
        let hi ← pyGet b ((k + 1 : ℕ) : ℤ)
        let lo ← pyGet b (((k + 1 : ℕ) : ℤ) - 1)
        let vhi ← pyGet ((List.range b.length).map fun k : ℕ => (k : ℝ) / ((b.length : ℝ) - 1))
          ((k + 1 : ℕ) : ℤ)
        let vlo ← pyGet ((List.range b.length).map fun k : ℕ => (k : ℝ) / ((b.length : ℝ) - 1))
          (((k + 1 : ℕ) : ℤ) - 1)
        some (vlo + (vhi - vlo) * ((t - lo) / (hi - lo)))) = _
      rw [e, hv _ hi, hv _ hk, pyGet_nat, pyGet_nat, List.getElem?_eq_getElem hi,
        List.getElem?_eq_getElem hk]
      show some _ = some _
      congr 1
      push_cast
      ring

/-- **C317**: trims keep their order, and stay in the wing. -/
theorem C317_order (b : List ℝ) (hb : b.Pairwise (· < ·)) (t t' : ℝ) (h0 : ∀ y ∈ b.head?, y ≤ t)
    (h1 : ∀ y ∈ b.getLast?, t' < y) (hne : b ≠ []) (htt : t < t') :
    ∃ v v', trim b t = some v ∧ trim b t' = some v' ∧ 0 ≤ v ∧ v < v' ∧ v' < 1 := by
  obtain ⟨i, f, ⟨lo, hi, hlo, hhi, hf0, hf1, rfl⟩, he⟩ :=
    C317_trim b hb t h0 (fun y hy => htt.trans (h1 y hy)) hne
  obtain ⟨j, g, ⟨lo', hi', hlo', hhi', hg0, hg1, rfl⟩, he'⟩ :=
    C317_trim b hb t' (fun y hy => (h0 y hy).trans htt.le) h1 hne
  obtain ⟨a1, rfl⟩ := List.getElem?_eq_some_iff.mp hlo
  obtain ⟨a2, rfl⟩ := List.getElem?_eq_some_iff.mp hhi
  obtain ⟨a3, rfl⟩ := List.getElem?_eq_some_iff.mp hlo'
  obtain ⟨a4, rfl⟩ := List.getElem?_eq_some_iff.mp hhi'
  have hmono : ∀ i j (hi : i < b.length) (hj : j < b.length), i < j → b[i] < b[j] := fun i j hi hj hij =>
    List.pairwise_iff_getElem.mp hb i j hi hj hij
  have hle : ∀ i j (hi : i < b.length) (hj : j < b.length), i ≤ j → b[i] ≤ b[j] := by
    intro i j hi hj hij
    rcases hij.lt_or_eq with h | h
    · exact (hmono i j hi hj h).le
    · subst h; exact le_rfl
  have hlen : (2 : ℝ) ≤ b.length := by
    have : 2 ≤ b.length := by omega
    exact_mod_cast this
  have hden : (0 : ℝ) < (b.length : ℝ) - 1 := by linarith
  have h4 : (j : ℝ) + 1 ≤ (b.length : ℝ) - 1 := by
    have : (j : ℝ) + 1 + 1 ≤ b.length := by exact_mod_cast a4
    linarith
  have hdi := hmono i (i + 1) a1 a2 (by omega)
  have hdj := hmono j (j + 1) a3 a4 (by omega)
  refine ⟨_, _, he, he', by positivity, ?_, ?_⟩
  · rw [div_lt_div_iff_of_pos_right hden]
    rcases lt_trichotomy i j with h | h | h
    · have : (i : ℝ) + 1 ≤ j := by exact_mod_cast h
      linarith
    · subst h
      have : f < g := by
        by_contra hcon
        push Not at hcon
        nlinarith
      linarith
    · exfalso
      have := hle (j + 1) i a4 a1 (by omega)
      nlinarith
  · rw [div_lt_one hden]; linarith

/-- **C317**: without fuselages a tank is written with both ends where they were asked for. -/
theorem C317_tank_partial (b : List ℝ) (hb : b.Pairwise (· < ·)) (tmin tmax : ℝ) (h0 : ∀ y ∈ b.head?, y ≤ tmin)
    (h1 : ∀ y ∈ b.getLast?, tmax < y) (hne : b ≠ []) (h : tmin ≤ tmax) :
    ∃ i f j g, Within b i f tmin ∧ Within b j g tmax ∧
      writeTank 0 b tmin tmax = some (((i : ℝ) + f) / ((b.length : ℝ) - 1), ((j : ℝ) + g) / ((b.length : ℝ) - 1)) := by
  obtain ⟨i, f, hi, ei⟩ := C317_trim b hb tmin h0 (fun y hy => lt_of_le_of_lt h (h1 y hy)) hne
  obtain ⟨j, g, hj, ej⟩ := C317_trim b hb tmax (fun y hy => (h0 y hy).trans h) h1 hne
  refine ⟨i, f, j, g, hi, hj, ?_⟩
  unfold writeTank
  rw [if_neg (by simp), ei, ej]
  rfl

/-- **C317**, refuted: a tank that extends to the wing tip cannot be written. -/
theorem C317_tip_counterexample (fuselages : ℕ) (b : List ℝ) (tmin tmax : ℝ) (h : ∀ y ∈ b, y ≤ tmax) :
    writeTank fuselages b tmin tmax = none := by
  have hl : firstIdx (fun i => decide (tmax < b.getD i 0)) b.length = none := by
    rw [firstIdx_none]
    intro j hj
    rw [getD_eq b j hj]
    simpa using h _ (List.getElem_mem hj)
  unfold writeTank
  split_ifs
  · rfl
  · unfold trim
    rw [hl]; rfl

/-- **C317**, refuted: no wing tank of a vehicle with a fuselage can be written. -/
theorem C317_fuselage_counterexample (n : ℕ) (b : List ℝ) (tmin tmax : ℝ) :
    writeTank (n + 1) b tmin tmax = none := by
  unfold writeTank; rw [if_pos (by omega)]

/-- A tank from 10 % to 60 % of a wing with a break at 40 %. -/
example : ([0, 0.4, 1] : List ℝ).Pairwise (· < ·) ∧ (∀ y ∈ ([0, 0.4, 1] : List ℝ).head?, y ≤ 0.1) ∧
    (∀ y ∈ ([0, 0.4, 1] : List ℝ).getLast?, (0.6 : ℝ) < y) ∧ (0.1 : ℝ) < 0.6 := by
  refine ⟨by norm_num, ?_, ?_, by norm_num⟩
  · intro y hy
    have : y = 0 := by simpa using hy.symm
    rw [this]; norm_num
  · intro y hy
    have : y = 1 := by simpa using hy.symm
    rw [this]; norm_num

/-! ### C318: sweeps -/

/-- The offset in the flow direction, over one semispan, of the line at chord fraction `loc` of a trapezoid
with root and tip chords `cr`, `ct` whose leading edge recedes by `dx`. -/
noncomputable def lineOffset (dx cr ct loc : ℝ) : ℝ := (dx + loc * ct) - loc * cr

/-- **C318**: on the trapezoid of the given aspect ratio and taper, the converted sweep is that of the line
at the new chord fraction. -/
theorem C318_geometry (sweep loc newLoc cr ct b dx : ℝ) (hb : 0 < b) (hcr : 0 < cr) (hct : 0 ≤ ct)
    (hs : tan sweep = lineOffset dx cr ct loc / (b / 2)) :
    tan (convertSweep sweep loc newLoc (b ^ 2 / (b * (cr + ct) / 2)) (ct / cr)) =
      lineOffset dx cr ct newLoc / (b / 2) := by
  simp only [convertSweep]
  rw [tan_arctan, tan_arctan, hs]
  have : 0 < cr + ct := by linarith
  unfold lineOffset
  have h2 : (1 + ct / cr) = (cr + ct) / cr := by field_simp
  have h3 : (1 - ct / cr) = (cr - ct) / cr := by field_simp
  rw [h2, h3]
  field_simp
  ring

/-- **C318**: converting in two steps is converting in one, and converting back gives the sweep back. -/
theorem C318_compose (s a b c ar taper : ℝ) :
    convertSweep (convertSweep s a b ar taper) b c ar taper = convertSweep s a c ar taper := by
  unfold convertSweep
  simp only [tan_arctan]
  congr 1
  ring

theorem C318_back (s a b ar taper : ℝ) (h1 : -(π / 2) < s) (h2 : s < π / 2) :
    convertSweep (convertSweep s a b ar taper) b a ar taper = s := by
  rw [C318_compose, convertSweep_self s a ar taper h1 h2]

/-- **C318**: on a tapered wing the sweep falls with the chord fraction. -/
theorem C318_mono (s a b c ar taper : ℝ) (har : 0 < ar) (ht0 : 0 ≤ taper) (ht : taper < 1) (hbc : b < c) :
    convertSweep s a c ar taper < convertSweep s a b ar taper := by
  unfold convertSweep
  apply arctan_strictMono
  simp only [tan_arctan]
  have h1 : 0 < 1 - taper := by linarith
  have h2 : 0 < ar * (1 + taper) := by positivity
  have : 4 * b * (1 - taper) / (ar * (1 + taper)) < 4 * c * (1 - taper) / (ar * (1 + taper)) := by
    rw [div_lt_div_iff_of_pos_right h2]; nlinarith
  linarith

/-- A quarter chord sweep of 0.5 rad on a wing of span 10, chords 2 and 1. -/
example : ∃ dx : ℝ, tan (0.5 : ℝ) = lineOffset dx 2 1 0.25 / (10 / 2) :=
  ⟨5 * tan 0.5 + 0.25, by unfold lineOffset; ring⟩

end Verif.Vsp
