import Verif.Airfoil.Coordinates
import Mathlib.Tactic.Linarith

namespace Verif.Airfoil

/-- A line that holds a point. -/
def Holds (l : List Char) (q : ℚ × ℚ) : Prop := words l ≠ [] ∧ pointOf (words l) = some q

theorem readBlocks_lower (ls : List (List Char)) (qs : List (ℚ × ℚ)) (h : List.Forall₂ Holds ls qs) :
    readBlocks false ls = some ([], qs) := by
  induction h with
  | nil => rfl
  | cons h _ ih => simp [readBlocks, h.1, h.2, ih]

theorem readBlocks_upper (us ls : List (List Char)) (ps qs : List (ℚ × ℚ)) (b : List Char) (hb : words b = [])
    (hu : List.Forall₂ Holds us ps) (hl : List.Forall₂ Holds ls qs) :
    readBlocks true (us ++ b :: ls) = some (ps, qs) := by
  induction hu with
  | nil => simp [readBlocks, hb, readBlocks_lower ls qs hl]
  | cons h _ ih => simp [readBlocks, h.1, h.2, ih]

/-- **C220.** A file with a name that does not begin with a digit, the numbers of points, an empty line, the upper points, an
empty line and the lower points is read as exactly these points, in their order, however many there are. -/
theorem C220_blocks (name counts e b : List Char) (us ls : List (List Char)) (ps qs : List (ℚ × ℚ)) (n : ℚ)
    (hname : ∀ c, name.head? = some c → parseFloat [c] = none)
    (hcount : (words counts).head?.bind parseFloat = some n) (hn : 2 ≤ n) (hb : words b = [])
    (hu : List.Forall₂ Holds us ps) (hl : List.Forall₂ Holds ls qs) :
    readSection (name :: counts :: e :: (us ++ b :: ls)) = some (ps, qs) := by
  have h1 : (some name).bind (fun l : List Char => l.head?.bind fun c => parseFloat [c]) = none := by
    cases hh : name.head? with
    | none => simp [hh]
    | some c => simp [hh, hname c hh]
  have h2 : formatFlag counts = some n := by unfold formatFlag; rw [hcount]
  unfold readSection
  simp only [List.head?_cons, h1, List.getElem?_cons_succ, List.getElem?_cons_zero, Option.bind_some, h2]
  rw [if_pos (by norm_num; linarith)]
  exact readBlocks_upper us ls ps qs b hb hu hl

/-- A small file of this kind. -/
example : readSection ["NACA".toList, " 2. 2.".toList, [], "0. 0.".toList, "1. 0.01".toList, [], "0. 0.".toList, "1 -1e-2".toList]
    = some ([(0, 0), (1, 1 / 100)], [(0, 0), (1, -1 / 100)]) := by decide +kernel

/-- A line of the other format: its first word, and the point. -/
def Shows (l : List Char) (q : List Char × ℚ × ℚ) : Prop :=
  (bareWords l).head? = some q.1 ∧ parseFloat q.1 = some q.2.1 ∧ pointOf (bareWords l) = some q.2

theorem readRound_lower (ls : List (List Char)) (qs : List (List Char × ℚ × ℚ)) (h : List.Forall₂ Shows ls qs)
    (hx : ∀ q ∈ qs, q.2.1 ≠ 0) : readRound false ls = some ([], qs.map Prod.snd) := by
  induction h with
  | nil => rfl
  | @cons l q ls qs h _ ih =>
    have := ih (fun q hq => hx q (List.mem_cons_of_mem _ hq))
    have h0 := hx q List.mem_cons_self
    simp [readRound, h.1, h.2.1, h.2.2, this, h0]

/-- Consecutive first words of a list of points never increase as words. -/
def Falling (ps : List (List Char × ℚ × ℚ)) : Prop := List.IsChain (fun a b => ¬ wordLt a.1 b.1) ps

theorem falling_tail {a : List Char × ℚ × ℚ} {ps : List (List Char × ℚ × ℚ)} (h : Falling (a :: ps)) : Falling ps := by
  unfold Falling at *
  cases ps with
  | nil => simp
  | cons b ps => rw [List.isChain_cons_cons] at h; exact h.2

/-- **C221.** A file that runs round the section, from the trailing edge along the upper surface to a leading edge at station
zero and back along the lower surface, is read as the two surfaces from the leading edge on, both with the leading edge, provided
the stations of the upper surface fall when compared as words. -/
theorem C221_round_with_nose_partial (us ls : List (List Char)) (nose : List Char) (ps qs : List (List Char × ℚ × ℚ))
    (wn : List Char) (yn : ℚ) (hu : List.Forall₂ Shows us ps) (hn : Shows nose (wn, 0, yn)) (hl : List.Forall₂ Shows ls qs)
    (hpx : ∀ q ∈ ps, 0 < q.2.1) (hqx : ∀ q ∈ qs, 0 < q.2.1) (hf : Falling ps) :
    (readRound true (us ++ nose :: ls)).map (fun s => (s.1.reverse, s.2)) =
      some ((0, yn) :: (ps.map Prod.snd).reverse, (0, yn) :: qs.map Prod.snd) := by
  have key : readRound true (us ++ nose :: ls) = some (ps.map Prod.snd ++ [(0, yn)], (0, yn) :: qs.map Prod.snd) := by
    have hlow := readRound_lower ls qs hl (fun q hq => (hqx q hq).ne')
    induction hu with
    | nil => simp [readRound, hn.1, hn.2.1, hn.2.2, hlow]
    | @cons l q us' ps' h ht ih =>
      have ih' := ih (fun q hq => hpx q (List.mem_cons_of_mem _ hq)) (falling_tail hf)
      have h0 := (hpx q List.mem_cons_self).ne'
      rw [List.cons_append, readRound]
      simp only [h.1, h.2.1, h.2.2, Option.bind_some, h0, if_false, if_true]
      cases ht with
      | nil =>
        simp only [List.nil_append, List.head?_cons, Option.bind_some, hn.1, hn.2.1]
        simp only [List.nil_append] at ih'
        rw [ih']
        split <;> simp [ih']
      | @cons l' q' us'' ps'' h' ht' =>
        have hlt : ¬ wordLt q.1 q'.1 := by
          unfold Falling at hf
          rw [List.isChain_cons_cons] at hf
          exact hf.1
        simp only [List.cons_append, List.head?_cons, Option.bind_some, h'.1, if_neg hlt]
        rw [List.cons_append] at ih'
        rw [ih']
        simp
  rw [key]
  simp

/-- **C221.** The same without a point at station zero: the surfaces change after the last upper point, where the stations begin
to rise. -/
theorem C221_round_partial (us ls : List (List Char)) (ps qs : List (List Char × ℚ × ℚ)) (a b : List Char × ℚ × ℚ)
    (la lb : List Char) (hu : List.Forall₂ Shows us ps) (hla : Shows la a) (hlb : Shows lb b) (hl : List.Forall₂ Shows ls qs)
    (hpx : ∀ q ∈ ps ++ [a], 0 < q.2.1) (hqx : ∀ q ∈ b :: qs, 0 < q.2.1) (hf : Falling (ps ++ [a])) (hab : wordLt a.1 b.1) :
    (readRound true (us ++ la :: lb :: ls)).map (fun s => (s.1.reverse, s.2)) =
      some (((ps ++ [a]).map Prod.snd).reverse, (b :: qs).map Prod.snd) := by
  have key : readRound true (us ++ la :: lb :: ls) = some ((ps ++ [a]).map Prod.snd, (b :: qs).map Prod.snd) := by
    have hlow := readRound_lower (lb :: ls) (b :: qs) (List.Forall₂.cons hlb hl) (fun q hq => (hqx q hq).ne')
    have hb0 : 0 < b.2.1 := hqx b List.mem_cons_self
    induction hu with
    | nil =>
      have ha0 : a.2.1 ≠ 0 := (hpx a (by simp)).ne'
      rw [List.nil_append, readRound]
      simp [hla.1, hla.2.1, hla.2.2, ha0, hlb.1, hlb.2.1, hab, not_le.mpr hb0, hlow]
    | @cons l q us' ps' h ht ih =>
      have ih' := ih (fun q hq => hpx q (by simp only [List.cons_append]; exact List.mem_cons_of_mem _ hq)) (falling_tail hf)
      have h0 : q.2.1 ≠ 0 := (hpx q (by simp)).ne'
      rw [List.cons_append, readRound]
      simp only [h.1, h.2.1, h.2.2, Option.bind_some, h0, if_false, if_true]
      unfold Falling at hf
      cases ht with
      | nil =>
        simp only [List.nil_append, List.cons_append] at hf ih' ⊢
        rw [List.isChain_cons_cons] at hf
        simp only [List.head?_cons, Option.bind_some, hla.1, if_neg hf.1]
        rw [ih']
        simp
      | @cons l' q' us'' ps'' h' ht' =>
        simp only [List.cons_append] at hf ih' ⊢
        rw [List.isChain_cons_cons] at hf
        simp only [List.head?_cons, Option.bind_some, h'.1, if_neg hf.1]
        rw [ih']
        simp
  rw [key]
  simp

/-- **C221.** Such a file is read that way behind a name that does not begin with a digit, and without any name when the file
begins with the digit one. -/
theorem C221_file (name l : List Char) (rest : List (List Char)) (x : ℚ)
    (hl : (words l).head?.bind parseFloat = some x) (hx : x ≤ 1.01) :
    ((∀ c, name.head? = some c → parseFloat [c] = none) →
      readSection (name :: l :: rest) = (readRound true (l :: rest)).map fun s => (s.1.reverse, s.2)) ∧
    (l.head? = some '1' → readSection (l :: rest) = (readRound true (l :: rest)).map fun s => (s.1.reverse, s.2)) := by
  constructor
  · intro hname
    have h1 : (some name).bind (fun l : List Char => l.head?.bind fun c => parseFloat [c]) = none := by
      cases hh : name.head? with
      | none => simp [hh]
      | some c => simp [hh, hname c hh]
    have h2 : formatFlag l = some x := by unfold formatFlag; rw [hl]
    unfold readSection
    simp only [List.head?_cons, h1, List.getElem?_cons_succ, List.getElem?_cons_zero, Option.bind_some, h2, List.drop_succ_cons,
      List.drop_zero]
    rw [if_neg (not_lt.mpr hx)]
  · intro h1
    have h2 : (some l).bind (fun l : List Char => l.head?.bind fun c => parseFloat [c]) = some 1 := by
      simp only [Option.bind_some, h1]
      decide +kernel
    unfold readSection
    simp only [List.head?_cons, h2, if_true]

/-- A section with header, and one without a point at station zero. -/
example : readSection ["NACA".toList, "1.00 0.01".toList, "0.50, 0.05".toList, "0.00 0.00".toList, "0.50 -.05".toList, "1.00 0.00".toList]
    = some ([(0, 0), (1 / 2, 1 / 20), (1, 1 / 100)], [(0, 0), (1 / 2, -1 / 20), (1, 0)]) := by decide +kernel
example : readSection ["1.00 0.01".toList, "0.50 0.05".toList, "0.01 0.02".toList, "0.03 -.02".toList, "1.00 0.00".toList]
    = some ([(1 / 100, 1 / 50), (1 / 2, 1 / 20), (1, 1 / 100)], [(3 / 100, -1 / 50), (1, 0)]) := by decide +kernel

/-- **C221, commas.** When the first word of the second line is not a number because a comma follows it, the number before the comma
decides: `1.00,0.01` behind a name begins a round of points, `61.,61.` two blocks. -/
theorem C221_comma (w rest : List Char) (x : ℚ) (hw : parseFloat w = some x) (hc : ',' ∉ w) (hb : ∀ c ∈ w, isBlank c = false)
    (hn : (words (w ++ ',' :: rest)).head?.bind parseFloat = none) : formatFlag (w ++ ',' :: rest) = some x := by
  unfold formatFlag
  rw [hn]
  have h1 : w.filter (fun c => !isBlank c) = w := List.filter_eq_self.2 fun c h => by simp [hb c h]
  have h2 : isBlank ',' = false := by decide
  rw [List.filter_append, h1, List.filter_cons_of_pos (by simp [h2])]
  have h3 : ∀ (a t : List Char), ',' ∉ a → ((a ++ ',' :: t).splitOnP (· = ',')).head? = some a := by
    intro a t ha
    induction a with
    | nil => simp [List.splitOnP_cons]
    | cons c a ih =>
      have hne : c ≠ ',' := fun e => ha (by simp [e])
      have := ih (fun e => ha (List.mem_cons_of_mem _ e))
      rw [List.cons_append, List.splitOnP_cons]
      simp only [hne, decide_false, Bool.false_eq_true, if_false]
      generalize (a ++ ',' :: t).splitOnP (· = ',') = L at *
      cases L with
      | nil => simp at this
      | cons y L => simp_all
  rw [h3 w _ hc]
  exact hw

example : formatFlag "61.,61.".toList = some 61 ∧ (words "61.,61.".toList).head?.bind parseFloat = none := by decide +kernel

/-- **C221, counterexample.** Stations in scientific notation are compared as words: `9.5e-01` is taken to be larger than
`1.0e+00`, and all points after the first one, upper ones included, are put on the lower surface. -/
theorem C221_scientific_counterexample :
    readSection ["NACA".toList, "1.0e+00 0.0".toList, "9.5e-01 0.1".toList, "5.0e-01 0.2".toList, "0.0 0.0".toList, "1.0e+00 -0.1".toList]
      = some ([(0, 0), (1, 0)], [(95 / 100, 1 / 10), (1 / 2, 1 / 5), (0, 0), (1, -1 / 10)]) := by decide +kernel

/-- **C221, counterexample.** A name that begins with a digit is not taken for a name: whatever follows, the file cannot be read
when the digit is not one. -/
theorem C221_digit_name_counterexample (c : Char) (v : ℚ) (name : List Char) (rest : List (List Char))
    (hc : parseFloat [c] = some v) (hv : v ≠ 1) : readSection ((c :: name) :: rest) = none := by
  simp [readSection, hc, hv]

/-- The characters meant are the digits, `2` for one. -/
example : parseFloat ['2'] = some 2 := by decide +kernel

/-- **C221, counterexample.** An empty line at the end of a file of the second format raises an exception. -/
theorem C221_trailing_line_counterexample (up : Bool) (us : List (List Char)) (b : List Char) (hb : bareWords b = []) :
    readRound up (us ++ [b]) = none := by
  induction us generalizing up with
  | nil => simp [readRound, hb]
  | cons l us ih =>
    rw [List.cons_append, readRound]
    simp only [Option.bind_eq_none_iff, ih, Option.map_none]
    intro w _ x _ q _
    split
    · rfl
    · split
      · simp only [Option.bind_eq_none_iff]
        intro nl _ nw _
        split
        · simp
        · rfl
      · rfl

/-- **C222.** When both surfaces have the same stations, every thickness is the distance of the surfaces at a station, and every
station counts. -/
theorem C222_thickness_partial (s : Surfaces) (h : s.1.map Prod.fst = s.2.map Prod.fst) (t : ℚ) :
    t ∈ thicknesses s ↔ ∃ (i : ℕ) (x yu yl : ℚ), s.1[i]? = some (x, yu) ∧ s.2[i]? = some (x, yl) ∧ t = yu - yl := by
  have hi : ∀ i : ℕ, (s.1[i]?).map Prod.fst = (s.2[i]?).map Prod.fst := by
    intro i
    rw [← List.getElem?_map, ← List.getElem?_map, h]
  unfold thicknesses
  rw [List.mem_iff_getElem?]
  constructor
  · rintro ⟨i, hi'⟩
    rw [List.getElem?_zipWith] at hi'
    have := hi i
    cases h1 : s.1[i]? with
    | none => rw [h1] at hi'; simp at hi'
    | some a =>
      cases h2 : s.2[i]? with
      | none => rw [h1, h2] at hi'; simp at hi'
      | some b =>
        rw [h1, h2] at hi' this
        simp at hi' this
        exact ⟨i, a.1, a.2, b.2, h1, by rw [h2, this], hi'.symm⟩
  · rintro ⟨i, x, yu, yl, h1, h2, rfl⟩
    exact ⟨i, by rw [List.getElem?_zipWith, h1, h2]⟩

/-- **C222, counterexample.** Points are paired by index, not by station: a wedge that is 0.2 thick at half the chord, with points
of both surfaces there, is reported to be 0.15 thick. -/
theorem C222_pairing_counterexample :
    let s : Surfaces := ([(0, 0), (1 / 4, 1 / 20), (1 / 2, 1 / 10), (1, 0)], [(0, 0), (1 / 2, -1 / 10), (3 / 4, -1 / 20), (1, 0)])
    (1 / 2, 1 / 10) ∈ s.1 ∧ (1 / 2, -1 / 10) ∈ s.2 ∧ ∀ t ∈ thicknesses s, t ≤ 3 / 20 := by decide +kernel

/-- **C222, double stations.** Dropping the first points of a section with a double station keeps the pairing of the surfaces: the
thicknesses are those at the other stations. -/
theorem C222_double (s : Surfaces) :
    thicknesses (dropDouble s) = (if (s.1.map Prod.fst).Nodup then thicknesses s else (thicknesses s).tail) ∧
    (s.1.map Prod.fst = s.2.map Prod.fst → (dropDouble s).1.map Prod.fst = (dropDouble s).2.map Prod.fst) := by
  unfold dropDouble
  split_ifs with h
  · exact ⟨rfl, id⟩
  · refine ⟨?_, fun e => ?_⟩
    · obtain ⟨a, b⟩ := s
      cases a <;> cases b <;> simp [thicknesses]
    · simp only [List.map_tail, e]

example : thicknesses (dropDouble ([(0, 1), (0, 2), (1, 3)], [(0, 0), (0, 0), (1, 1)])) = [2, 2] := by decide +kernel

end Verif.Airfoil
