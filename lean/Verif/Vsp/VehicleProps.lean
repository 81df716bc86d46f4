import Verif.Vsp.Vehicle
import Mathlib.Tactic.Linarith
import Mathlib.Tactic.Ring
import Mathlib.Tactic.FieldSimp
import Mathlib.Tactic.NormNum
import Mathlib.Tactic.Positivity

/-! Mesh sources (C362), measured areas (C363), rotors read (C364), models written (C365), Mach slices (C366). -/

namespace Verif.Vsp.Vehicle

open Real

/-! ### C362 -/

/-- Chord at station `i` of a wing that is unsegmented or has its first segment at the root; the last is the tip. -/
noncomputable def station (w : MWing) (i : ℕ) : ℝ :=
  match w.segs with
  | [] => if i = 0 then w.root else w.tip
  | s :: l => match (s :: l)[i]? with
    | some t => w.root * t.chord
    | none => w.tip

/-- Settings of the panel outboard of station `i`. -/
def setting (w : MWing) (i : ℕ) : Option Custom :=
  match w.segs with
  | [] => w.custom
  | s :: l => ((s :: l)[i]?).bind MSeg.custom

/-- Number of panels. -/
def panels (w : MWing) : ℕ := max 1 w.segs.length

/-- Size and radius asked for at the inner and the outer end of a panel: those of its settings, otherwise one and twenty per
cent of the chords there. -/
noncomputable def sizes (w : MWing) (i : ℕ) : (ℝ × ℝ) × (ℝ × ℝ) :=
  match setting w i with
  | some c => ((c.innerLen, c.innerRad), (c.outerLen, c.outerRad))
  | none => ((0.01 * station w i, 0.2 * station w i), (0.01 * station w (i + 1), 0.2 * station w (i + 1)))

/-- Size and radius at the trailing edge: the same, unless the settings say that the trailing edge does not match. -/
noncomputable def sizesTE (w : MWing) (i : ℕ) : (ℝ × ℝ) × (ℝ × ℝ) :=
  if (setting w i).bind Custom.te = some false then
    ((0.01 * station w i, 0.2 * station w i), (0.01 * station w (i + 1), 0.2 * station w (i + 1)))
  else sizes w i

/-- A source along the span over panel `i` of `n`, at `w`. -/
noncomputable def along (n i : ℕ) (w : ℝ) (s : (ℝ × ℝ) × (ℝ × ℝ)) : Source :=
  ⟨s.1.1, s.1.2, (i + 1) / (n + 2), w, s.2.1, s.2.2, (i + 2) / (n + 2), w⟩

/-- The sources wanted: along leading and trailing edge of every panel, and one along the tip chord. -/
noncomputable def wanted (w : MWing) : List Source :=
  (List.range (panels w)).flatMap (fun i => [along (panels w) i (1 / 2) (sizes w i), along (panels w) i 0 (sizesTE w i)]) ++
  [⟨(sizesTE w (panels w - 1)).2.1, (sizesTE w (panels w - 1)).2.2, (panels w + 1) / (panels w + 2), 0,
    (sizes w (panels w - 1)).2.1, (sizes w (panels w - 1)).2.2, (panels w + 1) / (panels w + 2), 1 / 2⟩]

theorem foldlM_acc {σ τ : Type} (step : σ × List τ → ℕ → Option (σ × List τ)) (f : ℕ → σ) (g : ℕ → List τ) :
    ∀ (l : List ℕ) (st : σ × List τ), (∀ i ∈ l, ∀ st, step st i = some (f i, st.2 ++ g i)) →
      (l.foldlM step st).map Prod.snd = some (st.2 ++ l.flatMap g) := by
  intro l
  induction l with
  | nil => intro st _; simp
  | cons i l ih =>
    intro st h
    rw [List.foldlM_cons, h i List.mem_cons_self]
    simp only [Option.bind_eq_bind, Option.bind_some]
    rw [ih _ fun j hj => h j (List.mem_cons_of_mem i hj)]
    simp

theorem addSegment_eq (w : MWing) (i n : ℕ) (tip : Bool) :
    addSegment (station w i) (station w (i + 1)) i n (setting w i).isSome tip (setting w i) =
      some ([along n i (1 / 2) (sizes w i), along n i 0 (sizesTE w i)] ++
        if tip then [⟨(sizesTE w i).2.1, (sizesTE w i).2.2, (i + 2) / (n + 2), 0, (sizes w i).2.1, (sizes w i).2.2, (i + 2) / (n + 2), 1 / 2⟩]
        else []) := by
  have e2 : (i : ℝ) + 1 + 1 = i + 2 := by ring
  unfold addSegment sizesTE sizes
  cases hs : setting w i with
  | none => simp [lines, along, e2]
  | some c =>
    obtain ⟨a, b, c, d, te⟩ := c
    rcases te with _ | _ | _ <;> simp [lines, along, e2]

/-- A wing without segments, or with two or more of which the first is at the root, gets exactly the sources wanted, whatever
was meshed before.  Missing: a first segment off the root (`C362_base_counterexample`, `C362_stale_counterexample`) and a
single segment (`C362_tip_counterexample`). -/
theorem C362_sources_partial (w : MWing) (flag : Option Bool)
    (h : w.segs = [] ∨ ∃ s t l, w.segs = s :: t :: l ∧ s.pos = 0) :
    (w.sources flag).map Prod.snd = some (wanted w) := by
  have hn : w.secs = panels w := by
    unfold MWing.secs panels
    rcases h with h | ⟨s, t, l, h, h0⟩
    · simp [h]
    · have hb : ¬ w.base := by simp [MWing.base, h, h0]
      simp [h, hb]
  have hp : 0 < panels w := by unfold panels; omega
  have key : ∀ i < panels w, ∀ fl, w.sec fl i =
      some ⟨station w i, station w (i + 1), some (setting w i).isSome, decide (i + 1 = panels w), setting w i⟩ := by
    intro i hi fl
    rcases h with h | ⟨s, t, l, h, h0⟩
    · have hp1 : panels w = 1 := by simp [panels, h]
      have hi0 : i = 0 := by omega
      have hb : w.base := by simp [MWing.base, h]
      subst hi0
      unfold MWing.sec
      simp only [hb, and_self, if_true, h, station, setting, hp1]
      simp
    · have hb : ¬ w.base := by simp [MWing.base, h, h0]
      have hp2 : panels w = l.length + 2 := by simp [panels, h]
      unfold MWing.sec
      rw [hn, hp2]
      rw [hp2] at hi
      by_cases hi0 : i = 0
      · subst hi0
        simp [hb, h, station, setting]
      · simp only [hi0, false_and, if_false, hb, Nat.sub_zero]
        have hlt : i < (s :: t :: l).length := by simp; omega
        have e : (s :: t :: l)[i]? = some (s :: t :: l)[i] := List.getElem?_eq_getElem hlt
        by_cases hi1 : i < l.length + 2 - 1
        · have hlt' : i + 1 < (s :: t :: l).length := by simp; omega
          have e' : (s :: t :: l)[i + 1]? = some (s :: t :: l)[i + 1] := List.getElem?_eq_getElem hlt'
          have hne : ¬ i + 1 = l.length + 2 := by omega
          simp only [hi1, if_true, h, station, setting, e, e', hne, decide_false]
          rfl
        · have heq : i + 1 = l.length + 2 := by omega
          have e' : (s :: t :: l)[i + 1]? = none := by
            apply List.getElem?_eq_none
            simp
            omega
          simp only [hi1, if_false, h, station, setting, e, e', decide_eq_true heq]
          rfl
  unfold MWing.sources
  rw [hn, foldlM_acc _ (fun i => some (setting w i).isSome)
    (fun i => [along (panels w) i (1 / 2) (sizes w i), along (panels w) i 0 (sizesTE w i)] ++
        if decide (i + 1 = panels w) then [⟨(sizesTE w i).2.1, (sizesTE w i).2.2, (i + 2) / (panels w + 2), 0, (sizes w i).2.1, (sizes w i).2.2, (i + 2) / (panels w + 2), 1 / 2⟩]
        else [])]
  · obtain ⟨m, hm⟩ : ∃ m, panels w = m + 1 := ⟨panels w - 1, by omega⟩
    unfold wanted
    rw [hm, List.range_succ, List.flatMap_append, List.flatMap_append, List.nil_append, List.append_assoc]
    congr 2
    · apply List.flatMap_congr
      intro i hi
      have : ¬ i + 1 = m + 1 := by have := List.mem_range.1 hi; omega
      rw [decide_eq_false this]
      simp
    · simp
      ring
  · intro i hi st
    rw [key i (List.mem_range.1 hi) st.1]
    simp only [Option.bind_eq_bind, Option.bind_some]
    rw [addSegment_eq]
    rfl

/-- A wing with two panels: five sources, of which the second panel starts where the first ends. -/
example : ((⟨[⟨0, 1, none⟩, ⟨1 / 2, 1 / 2, none⟩], 4, 1, none⟩ : MWing).sources none).map (fun r => r.2.map fun s => (s.u1, s.u2)) =
    some [(1 / 4, 2 / 4), (1 / 4, 2 / 4), (2 / 4, 3 / 4), (2 / 4, 3 / 4), (3 / 4, 3 / 4)] := by
  have h := C362_sources_partial ⟨[⟨0, 1, none⟩, ⟨1 / 2, 1 / 2, none⟩], 4, 1, none⟩ none (Or.inr ⟨_, _, _, rfl, rfl⟩)
  have e : ∀ x : Option (Option Bool × List Source), x.map (fun r => r.2.map fun s => (s.u1, s.u2)) =
      (x.map Prod.snd).map fun r => r.map fun s => (s.u1, s.u2) := by
    intro x; cases x <;> rfl
  rw [e, h]
  have hp : panels ⟨[⟨0, 1, none⟩, ⟨1 / 2, 1 / 2, none⟩], 4, 1, none⟩ = 2 := rfl
  simp only [wanted, hp, Option.map_some, List.range_succ, List.range_zero, List.nil_append, List.flatMap_append, List.flatMap_cons,
    List.flatMap_nil, List.append_nil, List.map_append, List.map_cons, List.map_nil, along]
  norm_num

/-- A wing whose first segment is off the root raises if nothing was meshed before. -/
theorem C362_base_counterexample (w : MWing) (s : MSeg) (l : List MSeg) (h : w.segs = s :: l) (h0 : s.pos ≠ 0) :
    w.sources none = none := by
  have hb : w.base := by simp [MWing.base, h, h0]
  have hn : w.secs = l.length + 1 + 1 := by simp [MWing.secs, h, hb]
  unfold MWing.sources
  rw [hn, List.range_succ_eq_map, List.foldlM_cons]
  simp [MWing.sec, hb, h]

/-- After a wing with settings of its own it takes that wing's flag, and raises as it has no settings itself. -/
theorem C362_stale_counterexample (w : MWing) (s : MSeg) (l : List MSeg) (h : w.segs = s :: l) (h0 : s.pos ≠ 0) (hs : s.custom = none)
    (hl : l = []) : (w.sources (some false)).isSome ∧ w.sources (some true) = none := by
  have hb : w.base := by simp [MWing.base, h, h0]
  have hn : w.secs = 2 := by simp [MWing.secs, h, hb, hl]
  constructor
  · unfold MWing.sources
    rw [hn, List.range_succ, List.range_succ]
    simp [MWing.sec, hb, h, hs, addSegment, hl, hn]
  · unfold MWing.sources
    rw [hn, List.range_succ, List.range_succ]
    simp [MWing.sec, hb, h, hs, addSegment]

/-- A single segment at the root: no source along the tip chord. -/
theorem C362_tip_counterexample (w : MWing) (s : MSeg) (h : w.segs = [s]) (h0 : s.pos = 0) (hs : s.custom = none) :
    ∃ l, (w.sources none).map Prod.snd = some l ∧ ∀ src ∈ l, src.u1 < src.u2 := by
  have hb : ¬ w.base := by simp [MWing.base, h, h0]
  have hn : w.secs = 1 := by simp [MWing.secs, h, hb]
  refine ⟨_, by
    unfold MWing.sources
    rw [hn, List.range_succ]
    simp [MWing.sec, hb, h, hs, addSegment, hn, lines]
    rfl, ?_⟩
  intro src hsrc
  simp only [List.mem_cons, List.not_mem_nil, or_false] at hsrc
  rcases hsrc with rfl | rfl <;> norm_num

/-! ### C363 -/

/-- Lines before the first blank one. -/
def block : List Line → List (String × ℝ)
  | [] => []
  | none :: _ => []
  | some r :: ls => r :: block ls

/-- Sum of the values of a name. -/
noncomputable def total (tag : String) (rows : List (String × ℝ)) : ℝ := ((rows.filter (·.1 = tag)).map Prod.snd).sum

theorem measure_eq (tag : String) : ∀ (file : List Line) (m : Option ℝ), measure tag file m =
    if (block file).filter (·.1 = tag) = [] then m else some (m.getD 0 + total tag (block file)) := by
  intro file
  induction file with
  | nil => intro m; simp [measure, block]
  | cons x ls ih =>
    intro m
    rcases x with _ | ⟨t, x⟩
    · simp [measure, block]
    · have hb : block (some (t, x) :: ls) = (t, x) :: block ls := rfl
      simp only [measure]
      rw [ih, hb]
      by_cases h : t = tag
      · simp only [h, if_true, List.filter_cons, decide_true, total, List.map_cons, List.sum_cons, reduceCtorEq, if_false, Option.getD_some]
        by_cases h2 : List.filter (fun x => decide (x.1 = tag)) (block ls) = []
        · rw [if_pos h2, h2]
          cases m <;> simp
        · rw [if_neg h2]
          cases m <;> simp <;> ring
      · have e : List.filter (fun r : String × ℝ => decide (r.1 = tag)) ((t, x) :: block ls) =
            List.filter (fun r => decide (r.1 = tag)) (block ls) := List.filter_cons_of_neg (by simpa using h)
        rw [if_neg h]
        unfold total
        rw [e]

open Classical in
/-- The value of a name is the sum over its lines before the first blank one; a name without lines has none. -/
theorem C363_measure (tag : String) (file : List Line) :
    measure tag file none = if ∃ x, (tag, x) ∈ block file then some (total tag (block file)) else none := by
  rw [measure_eq]
  have h : ((block file).filter (·.1 = tag) = []) ↔ ¬ ∃ x, (tag, x) ∈ block file := by
    rw [List.filter_eq_nil_iff]
    constructor
    · rintro h ⟨x, hx⟩
      exact h _ hx (by simp)
    · rintro h ⟨t, x⟩ hx ht
      simp only [decide_eq_true_eq] at ht
      subst ht
      exact h ⟨x, hx⟩
  by_cases hx : ∃ x, (tag, x) ∈ block file
  · rw [if_neg (fun c => (h.1 c) hx), if_pos hx]
    simp
  · rw [if_pos (h.2 hx), if_neg hx]

example : measure "wing" [some ("wing", 3), some ("fuselage", 5), some ("wing", 4), none, some ("wing", 100)] none = some 7 := by
  rw [C363_measure, if_pos ⟨3, by simp [block]⟩]
  simp [block, total]
  norm_num

theorem wetted_cons (u : ℝ) (file : List Line) (g : Geom) (gs : List Geom) : wetted u file (g :: gs) =
    (measure g.name file none).bind fun a => (wetted u file gs).map fun r => List.replicate g.copies (a * u ^ 2) ++ r := by
  unfold wetted
  rw [List.mapM_cons]
  cases measure g.name file none with
  | none => simp
  | some a =>
    simp only [Option.map_some, Option.bind_eq_bind, Option.bind_some, Option.pure_def]
    cases gs.mapM fun g => (measure g.name file none).map fun a => List.replicate g.copies (a * u ^ 2) <;> simp

/-- With distinct names and no mirrored fuselage the wetted areas of the components add up to the area measured under their
names, in the units of the file squared.  Missing: mirrored fuselages (`C363_mirror_counterexample`). -/
theorem C363_wetted_partial (u : ℝ) (file : List Line) (gs : List Geom) (h1 : ∀ g ∈ gs, g.copies = 1)
    (hd : (gs.map Geom.name).Nodup) (hm : ∀ g ∈ gs, ∃ x, (g.name, x) ∈ block file) :
    ∃ as, wetted u file gs = some as ∧ as.length = gs.length ∧
      as.sum = u ^ 2 * (((block file).filter fun r => r.1 ∈ gs.map Geom.name).map Prod.snd).sum := by
  induction gs with
  | nil => exact ⟨[], by simp [wetted], rfl, by simp⟩
  | cons g gs ih =>
    rw [List.map_cons, List.nodup_cons] at hd
    obtain ⟨as, h, hl, hs⟩ := ih (fun q hq => h1 q (List.mem_cons_of_mem g hq)) hd.2 (fun q hq => hm q (List.mem_cons_of_mem g hq))
    refine ⟨total g.name (block file) * u ^ 2 :: as, ?_, by simp [hl], ?_⟩
    · rw [wetted_cons, C363_measure, if_pos (hm g List.mem_cons_self), h, h1 g List.mem_cons_self]
      simp
    · rw [List.sum_cons, hs]
      have smap : ∀ (r : String × ℝ) (rows : List (String × ℝ)), ((r :: rows).map Prod.snd).sum = r.2 + (rows.map Prod.snd).sum :=
        fun r rows => by simp
      have : ∀ rows : List (String × ℝ), ((rows.filter fun r => r.1 ∈ (g :: gs).map Geom.name).map Prod.snd).sum =
          total g.name rows + ((rows.filter fun r => r.1 ∈ gs.map Geom.name).map Prod.snd).sum := by
        intro rows
        induction rows with
        | nil => simp [total]
        | cons r rows ihr =>
          unfold total at ihr ⊢
          by_cases hg : r.1 = g.name
          · have hn : r.1 ∉ gs.map Geom.name := by rw [hg]; exact hd.1
            have hin : r.1 ∈ (g :: gs).map Geom.name := by simp [hg]
            rw [List.filter_cons_of_pos (by simpa using hin), List.filter_cons_of_pos (by simpa using hg),
              List.filter_cons_of_neg (by simpa using hn), smap, smap, ihr]
            ring
          · by_cases hn : r.1 ∈ gs.map Geom.name
            · have hin : r.1 ∈ (g :: gs).map Geom.name := List.mem_cons_of_mem _ hn
              rw [List.filter_cons_of_pos (by simpa using hin), List.filter_cons_of_neg (by simpa using hg),
                List.filter_cons_of_pos (by simpa using hn), smap, smap, ihr]
              ring
            · have hin : r.1 ∉ (g :: gs).map Geom.name := by
                rw [List.map_cons, List.mem_cons]; tauto
              rw [List.filter_cons_of_neg (by simpa using hin), List.filter_cons_of_neg (by simpa using hg),
                List.filter_cons_of_neg (by simpa using hn), ihr]
      rw [this]
      ring

example : ∃ as, wetted 2 [some ("w", 3), some ("f", 5), some ("w", 4)] [⟨"w", 1⟩, ⟨"f", 1⟩] = some as ∧ as.length = 2 ∧ as.sum = 48 := by
  obtain ⟨as, h1, h2, h3⟩ := C363_wetted_partial 2 [some ("w", 3), some ("f", 5), some ("w", 4)] [⟨"w", 1⟩, ⟨"f", 1⟩]
    (by simp) (by simp) (by
      intro g hg
      simp only [List.mem_cons, List.not_mem_nil, or_false] at hg
      rcases hg with rfl | rfl
      · exact ⟨3, by simp [block]⟩
      · exact ⟨5, by simp [block]⟩)
  refine ⟨as, h1, by simpa using h2, ?_⟩
  rw [h3]
  simp [block]
  norm_num

/-- A mirrored fuselage, of which the tool measures both sides, gives two fuselages with the area of both each. -/
theorem C363_mirror_counterexample (a : ℝ) : wetted 1 [some ("f", a), some ("f", a)] [⟨"f", 2⟩] = some [2 * a, 2 * a] := by
  rw [wetted_cons, C363_measure, if_pos ⟨a, by simp [block]⟩]
  simp [block, total, wetted, List.replicate]
  ring

/-! ### C364 -/

/-- The rotors of the aircraft: one for each geometry and its mirror image if it has one. -/
def physical (gs : List RGeom) : List Rotor :=
  gs.map (fun g => ⟨g.name, g.y⟩) ++ (gs.filter (·.sym)).map fun g => ⟨g.name, -g.y⟩

theorem flatMap_rotors_perm (gs : List RGeom) : (gs.flatMap RGeom.rotors).Perm (physical gs) := by
  induction gs with
  | nil => simp [physical]
  | cons g gs ih =>
    unfold physical at ih ⊢
    cases hs : g.sym
    · simp [RGeom.rotors, hs]
      exact ih
    · simp only [RGeom.rotors, hs, if_true, List.flatMap_cons, List.map_cons, List.filter_cons, List.cons_append, List.nil_append]
      apply List.Perm.cons
      refine (List.Perm.cons _ ih).trans ?_
      exact List.perm_middle.symm

open Classical in
/-- Without a given network, or with one of the two kinds known, it gets every rotor of the aircraft once, counted right; in a
lift and cruise network the rotors turned up by 70 degrees or more lift and the others drive.  Missing: other networks
(`C364_network_counterexample`). -/
theorem C364_rotors_partial (given : Option String) (gs : List RGeom)
    (h : ∀ t ∈ given, t = "Lift_Cruise" ∨ t = "Battery_Propeller") :
    let n := network given gs
    (n.lift ++ n.prop).Perm (physical gs) ∧ n.propCount = some n.prop.length ∧
    (n.tag = "Lift_Cruise" → n.liftCount = some n.lift.length ∧ n.lift.Perm (physical (gs.filter fun g => 70 ≤ g.rot)) ∧
      n.prop.Perm (physical (gs.filter fun g => g.rot < 70))) ∧
    (n.tag = "Lift_Cruise" ∨ n.tag = "Battery_Propeller" ∧ n.lift = []) := by
  have hl : ∀ g : RGeom, g.isLift ↔ 70 ≤ g.rot := by
    intro g
    unfold RGeom.isLift
    have : (0 : ℝ) < π / 180 := by positivity
    exact mul_le_mul_iff_left₀ this
  have hf : (gs.filter fun g => decide g.isLift) = gs.filter fun g => decide (70 ≤ g.rot) := by
    apply List.filter_congr
    intro g _
    simp [hl]
  have hf' : (gs.filter fun g => decide ¬ g.isLift) = gs.filter fun g => decide (g.rot < 70) := by
    apply List.filter_congr
    intro g _
    simp [hl]
  have hall : ((gs.filter fun g => decide g.isLift).flatMap RGeom.rotors ++ (gs.filter fun g => decide ¬ g.isLift).flatMap RGeom.rotors).Perm
      (physical gs) := by
    refine List.Perm.trans ?_ (flatMap_rotors_perm gs)
    rw [← List.flatMap_append]
    apply List.Perm.flatMap_right
    have := List.filter_append_perm (fun g : RGeom => decide g.isLift) gs
    simpa using this
  have htag : ∀ (b : Prop) [Decidable b], given.getD (if b then "Lift_Cruise" else "Battery_Propeller") = "Lift_Cruise" ∨
      given.getD (if b then "Lift_Cruise" else "Battery_Propeller") = "Battery_Propeller" := by
    intro b _
    cases given with
    | none => by_cases hb : b <;> simp [hb]
    | some t => simpa using h t rfl
  intro n
  rcases htag (0 < ((gs.filter fun g => decide g.isLift).flatMap RGeom.rotors).length ∧
    0 < ((gs.filter fun g => decide ¬ g.isLift).flatMap RGeom.rotors).length) with ht | ht
  · have e : n = ⟨"Lift_Cruise", (gs.filter fun g => decide g.isLift).flatMap RGeom.rotors,
        (gs.filter fun g => decide ¬ g.isLift).flatMap RGeom.rotors, some ((gs.filter fun g => decide g.isLift).flatMap RGeom.rotors).length,
        some ((gs.filter fun g => decide ¬ g.isLift).flatMap RGeom.rotors).length⟩ := by
      simp only [n, network]
      rw [ht]
      simp
    rw [e]
    refine ⟨hall, rfl, fun _ => ⟨rfl, ?_, ?_⟩, Or.inl rfl⟩
    · show List.Perm (List.flatMap _ _) _
      rw [hf]
      exact flatMap_rotors_perm _
    · show List.Perm (List.flatMap _ _) _
      rw [hf']
      exact flatMap_rotors_perm _
  · have e : n = ⟨"Battery_Propeller", [], (gs.filter fun g => decide g.isLift).flatMap RGeom.rotors ++
        (gs.filter fun g => decide ¬ g.isLift).flatMap RGeom.rotors, none,
        some (((gs.filter fun g => decide g.isLift).flatMap RGeom.rotors).length + ((gs.filter fun g => decide ¬ g.isLift).flatMap RGeom.rotors).length)⟩ := by
      simp only [n, network]
      rw [ht]
      simp
    rw [e]
    refine ⟨by simpa using hall, by simp, fun h => by simp at h, Or.inr ⟨rfl, rfl⟩⟩

example : (network none [⟨"p", 0, true, 3⟩, ⟨"r", 90, false, 0⟩]).tag = "Lift_Cruise" ∨
    (network none [⟨"p", 0, true, 3⟩, ⟨"r", 90, false, 0⟩]).tag = "Battery_Propeller" ∧
    (network none [⟨"p", 0, true, 3⟩, ⟨"r", 90, false, 0⟩]).lift = [] :=
  (C364_rotors_partial none [⟨"p", 0, true, 3⟩, ⟨"r", 90, false, 0⟩] (by simp)).2.2.2

open Classical in
/-- With both kinds of rotors the network is a lift and cruise one; with one kind it is a battery and propeller one. -/
theorem C364_kind (gs : List RGeom) :
    (network none gs).tag = if (∃ g ∈ gs, 70 ≤ g.rot) ∧ (∃ g ∈ gs, g.rot < 70) then "Lift_Cruise" else "Battery_Propeller" := by
  have hl : ∀ g : RGeom, g.isLift ↔ 70 ≤ g.rot := by
    intro g
    unfold RGeom.isLift
    have : (0 : ℝ) < π / 180 := by positivity
    exact mul_le_mul_iff_left₀ this
  have hlen : ∀ p : RGeom → Prop, 0 < ((gs.filter fun g => decide (p g)).flatMap RGeom.rotors).length ↔ ∃ g ∈ gs, p g := by
    intro p
    rw [List.length_pos_iff, Ne, List.flatMap_eq_nil_iff]
    constructor
    · intro h
      by_contra hc
      apply h
      intro g hg
      exact absurd ⟨g, (List.mem_filter.1 hg).1, by simpa using (List.mem_filter.1 hg).2⟩ hc
    · rintro ⟨g, hg, hp⟩ h
      have := h g (List.mem_filter.2 ⟨hg, by simpa using hp⟩)
      simp [RGeom.rotors] at this
  have e1 := hlen RGeom.isLift
  have e2 := hlen fun g => ¬ g.isLift
  simp only [hl, not_le] at e1 e2
  simp only [network, Option.getD_none, hl, not_le]
  by_cases h : (∃ g ∈ gs, 70 ≤ g.rot) ∧ (∃ g ∈ gs, g.rot < 70)
  · have hc := And.intro (e1.2 h.1) (e2.2 h.2)
    simp only [hc, h, and_self, if_true]
  · have hc : ¬ (_ ∧ _) := fun c => h (And.imp e1.1 e2.1 c)
    simp only [hc, h, if_false, if_true, String.reduceEq]

/-- A network with any other tag, given by the user, gets no rotors. -/
theorem C364_network_counterexample (gs : List RGeom) :
    (network (some "Solar") gs).lift = [] ∧ (network (some "Solar") gs).prop = [] := by
  simp [network]

/-! ### C365 -/

theorem writeWings_verbose (b : Bool) (ws : List String) : writeWings true b ws = some (ws.map .wing) := by
  induction ws generalizing b with
  | nil => rfl
  | cons w ws ih => simp [writeWings, ih]

/-- With messages on, every wing, nacelle and fuselage is written once, in this order.  Missing: messages off
(`C365_quiet_counterexample`). -/
theorem C365_write_partial (wings nacelles fuselages : List String) :
    write true wings nacelles fuselages = some (wings.map .wing ++ nacelles.map .nacelle ++ fuselages.map .fuselage) := by
  unfold write
  rw [writeWings_verbose]
  rfl

example : write true ["main_wing", "tail"] [] ["body"] = some [.wing "main_wing", .wing "tail", .fuselage "body"] := by decide

/-- With messages off wings are left out, and a main wing raises. -/
theorem C365_quiet_counterexample (wings nacelles fuselages : List String) :
    write false wings nacelles fuselages =
      if "main_wing" ∈ wings then none else some (nacelles.map .nacelle ++ fuselages.map .fuselage) := by
  have h : writeWings false false wings = if "main_wing" ∈ wings then none else some [] := by
    induction wings with
    | nil => rfl
    | cons w ws ih =>
      by_cases hw : w = "main_wing"
      · simp [writeWings, hw]
      · simp only [writeWings, hw, Bool.or_false, decide_false, Bool.false_and, Bool.false_eq_true, if_false, ih, List.mem_cons]
        have : ("main_wing" = w) = False := by simp; exact fun c => hw c.symm
        simp only [this, false_or]
        by_cases hm : "main_wing" ∈ ws <;> simp [hm]
  unfold write
  rw [h]
  by_cases hm : "main_wing" ∈ wings <;> simp [hm]

/-! ### C366 -/

/-- At zero angle of attack the slicing planes touch the Mach cone: the sine of their angle to the x axis, which is the x
component of the unit normal, is one over the Mach number; an angle of attack turns them by that angle. -/
theorem C366_plane (m aoa : ℝ) (hm : 1 ≤ m) :
    (normal m aoa).1 ^ 2 + (normal m aoa).2 ^ 2 = 1 ∧ (normal m 0).1 = 1 / m ∧ 0 ≤ (normal m 0).2 ∧
    (normal m aoa).1 = cos aoa * (normal m 0).1 - sin aoa * (normal m 0).2 ∧
    (normal m aoa).2 = sin aoa * (normal m 0).1 + cos aoa * (normal m 0).2 := by
  have hx : 1 / m ≤ 1 := by rw [div_le_one (by linarith)]; exact hm
  have hx0 : (0 : ℝ) ≤ 1 / m := by positivity
  refine ⟨?_, ?_, ?_, ?_, ?_⟩
  · simp only [normal]
    rw [add_comm]
    exact sin_sq_add_cos_sq _
  · simp only [normal, rotY, add_zero, cos_pi_div_two_sub, machAngle]
    exact sin_arcsin (by linarith) hx
  · simp only [normal, rotY, add_zero, sin_pi_div_two_sub, machAngle]
    exact cos_arcsin_nonneg _
  · simp only [normal, rotY, add_zero]
    rw [cos_add]
    ring
  · simp only [normal, rotY, add_zero]
    rw [sin_add]
    ring

/-- The area of a slice is that seen along the x axis, and at zero angle of attack a slice with its centre on the axis is placed
where its plane cuts the axis; all slices are returned but for a last one without area.  Missing: slices with centres off the
axis (`C366_place_counterexample`). -/
theorem C366_slices_partial (m a x : ℝ) (hm : 1 ≤ m) (found : List (ℝ × ℝ × ℝ)) (hf : found ≠ []) (hz : ∀ s ∈ found, 0 < s.1) :
    sliceAt m 0 a x 0 = (x, a / m) ∧ slices m 0 found = some (found.map fun s => sliceAt m 0 s.1 s.2.1 s.2.2) ∧
    slices m 0 (found ++ [(0, x, 0)]) = some (found.map fun s => sliceAt m 0 s.1 s.2.1 s.2.2) := by
  have hc := (C366_plane m 0 hm).2.1
  simp only [normal] at hc
  refine ⟨?_, ?_, ?_⟩
  · simp [sliceAt, hc]
    ring
  · unfold slices
    obtain ⟨l, b, rfl⟩ := (List.eq_nil_or_concat' found).resolve_left hf
    have hb := hz b (by simp)
    have : ¬ (sliceAt m 0 b.1 b.2.1 b.2.2).2 = 0 := by
      simp only [sliceAt, hc]
      have : 0 < b.1 * (1 / m) := by positivity
      exact this.ne'
    simp [this]
  · unfold slices
    simp [sliceAt]

/-- At Mach two a slice whose centre is one metre above the axis is placed 0.58 m behind the centre; its plane cuts the axis
1.73 m behind. -/
theorem C366_place_counterexample (a : ℝ) :
    let p := (sliceAt 2 0 a 0 1).1
    p = 1 / √3 ∧ (normal 2 0).1 * (√3 - 0) + (normal 2 0).2 * (0 - 1) = 0 ∧
    (normal 2 0).1 * (p - 0) + (normal 2 0).2 * (0 - 1) ≠ 0 := by
  have h2 : machAngle 2 = π / 6 := by
    unfold machAngle
    rw [← sin_pi_div_six]
    exact arcsin_sin (by linarith [pi_pos]) (by linarith [pi_pos])
  have hs : (√3 : ℝ) ^ 2 = 3 := by rw [sq_sqrt (by norm_num)]
  have hs0 : (0 : ℝ) < √3 := by positivity
  have hp : (sliceAt 2 0 a 0 1).1 = 1 / √3 := by simp [sliceAt, h2]
  have hn1 : (normal 2 0).1 = 1 / 2 := by simp [normal, rotY, h2, cos_pi_div_two_sub]
  have hn2 : (normal 2 0).2 = √3 / 2 := by simp [normal, rotY, h2, sin_pi_div_two_sub]
  intro p
  refine ⟨hp, ?_, ?_⟩
  · rw [hn1, hn2]
    ring
  · simp only [p]
    rw [hp, hn1, hn2]
    intro h
    field_simp at h
    nlinarith

end Verif.Vsp.Vehicle
