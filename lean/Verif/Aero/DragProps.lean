import Verif.Aero.Drag
import Mathlib.Tactic.Positivity
import Mathlib.Tactic.Linarith
import Mathlib.Tactic.NormNum
import Mathlib.Tactic.FieldSimp
import Mathlib.Analysis.Real.Pi.Bounds

/-!
C131 parasite drag build-up, C132 induced drag, C134 total drag and excrescences.
-/

namespace Verif.Aero
open Real

/-! ## C131 -/

theorem put_same (d : Breakdown) (t : String) (e : Entry) : put d t e t = some e := by simp [put]

theorem put_other {d : Breakdown} {t s : String} (e : Entry) (h : s ≠ t) : put d t e s = d s := by simp [put, h]

theorem record_out (ps : List Part) (d : Breakdown) (s : String) (h : s ∉ ps.map Part.tag) : record ps d s = d s := by
  induction ps generalizing d with
  | nil => rfl
  | cons p ps ih =>
    simp only [List.map_cons, List.mem_cons, not_or] at h
    rw [record, ih _ h.2, put_other _ h.1]

theorem record_in (ps : List Part) (d : Breakdown) (hn : (ps.map Part.tag).Nodup) :
    ∀ p ∈ ps, record ps d p.tag = some p.entry := by
  induction ps generalizing d with
  | nil => simp
  | cons q ps ih =>
    simp only [List.map_cons, List.nodup_cons] at hn
    intro p hp
    rcases List.mem_cons.1 hp with rfl | hp
    · rw [record, record_out _ _ _ hn.1, put_same]
    · exact ih _ hn.2 p hp

theorem scaleAll_spec (S : ℝ) (ps : List Part) (d : Breakdown) (t : ℝ) (hn : (ps.map Part.tag).Nodup)
    (hd : ∀ p ∈ ps, d p.tag = some p.entry) :
    ∃ d', scaleAll S ps d t = some (d', t + (ps.map fun p => p.entry.cd * p.area / S).sum)
      ∧ (∀ p ∈ ps, d' p.tag = some { p.entry with cd := p.entry.cd * p.area / S })
      ∧ ∀ s, s ∉ ps.map Part.tag → d' s = d s := by
  induction ps generalizing d t with
  | nil => exact ⟨d, by simp [scaleAll], by simp, by simp⟩
  | cons q ps ih =>
    simp only [List.map_cons, List.nodup_cons] at hn
    have hq := hd q List.mem_cons_self
    have hrest : ∀ p ∈ ps, put d q.tag { q.entry with cd := q.entry.cd * q.area / S } p.tag = some p.entry := by
      intro p hp
      rw [put_other]
      · exact hd p (List.mem_cons_of_mem _ hp)
      · intro e
        exact hn.1 (e ▸ List.mem_map_of_mem hp)
    obtain ⟨d', e1, e2, e3⟩ := ih (put d q.tag { q.entry with cd := q.entry.cd * q.area / S })
      (t + q.entry.cd * q.area / S) hn.2 hrest
    refine ⟨d', ?_, ?_, ?_⟩
    · rw [scaleAll, hq]
      simp only [e1, List.map_cons, List.sum_cons, Option.some.injEq, Prod.mk.injEq, true_and]
      ring
    · intro p hp
      rcases List.mem_cons.1 hp with rfl | hp
      · rw [e3 _ hn.1, put_same]
      · exact e2 p hp
    · intro s hs
      simp only [List.map_cons, List.mem_cons, not_or] at hs
      rw [e3 s hs.2, put_other _ hs.1]

theorem pylonSum_eq (f : Entry → ℝ) (d : Breakdown) (ps : List Part) (hd : ∀ p ∈ ps, d p.tag = some p.entry) :
    pylonSum f d ps = some (ps.map fun p => f p.entry).sum := by
  induction ps with
  | nil => rfl
  | cons p ps ih =>
    rw [pylonSum, hd p List.mem_cons_self, ih fun q hq => hd q (List.mem_cons_of_mem _ hq)]
    simp

theorem pylonDrag_eq (S : ℝ) (d : Breakdown) (ps : List Part) (hd : ∀ p ∈ ps, d p.tag = some p.entry) :
    pylonDrag S d ps = some (ps.map fun p => 0.2 * p.entry.cd * (p.area / S)).sum := by
  induction ps with
  | nil => rfl
  | cons p ps ih =>
    rw [pylonDrag, hd p List.mem_cons_self, ih fun q hq => hd q (List.mem_cons_of_mem _ hq)]
    simp

/-- With distinct tags none of which is `pylon`: what the breakdown holds after the parasite drag has been computed. -/
theorem parasite_spec (S : ℝ) (n : ℕ) (others nacelles : List Part) (hn0 : n ≠ 0)
    (hn : ((others ++ nacelles).map Part.tag).Nodup) (hp : "pylon" ∉ (others ++ nacelles).map Part.tag) :
    ∃ d t, parasite S n others nacelles = some (d, t)
      ∧ t = ((others ++ nacelles).map fun p => p.entry.cd * p.area / S).sum
          + (nacelles.map fun p => 0.2 * p.entry.cd * (p.area / S)).sum
      ∧ (∀ p ∈ others ++ nacelles, d p.tag = some { p.entry with cd := p.entry.cd * p.area / S })
      ∧ d "pylon" = some ⟨(nacelles.map fun p => 0.2 * p.entry.cd * (p.area / S)).sum,
          (nacelles.map fun p => 0.2 * p.entry.wetted).sum, S,
          (nacelles.map fun p => p.entry.cf).sum / n, (nacelles.map fun p => p.entry.kComp).sum / n,
          (nacelles.map fun p => p.entry.kReyn).sum / n, (nacelles.map fun p => p.entry.k).sum / n⟩ := by
  obtain ⟨d0, hd0⟩ : ∃ d0, d0 = record (others ++ nacelles) (fun _ => none) := ⟨_, rfl⟩
  have hin : ∀ p ∈ others ++ nacelles, d0 p.tag = some p.entry := by
    rw [hd0]; exact record_in _ _ hn
  have hnac : ∀ p ∈ nacelles, d0 p.tag = some p.entry := fun p h => hin p (List.mem_append_right _ h)
  obtain ⟨e, he⟩ : ∃ e : Entry, e = ⟨(nacelles.map fun p => 0.2 * p.entry.cd * (p.area / S)).sum,
          (nacelles.map fun p => 0.2 * p.entry.wetted).sum, S,
          (nacelles.map fun p => p.entry.cf).sum / n, (nacelles.map fun p => p.entry.kComp).sum / n,
          (nacelles.map fun p => p.entry.kReyn).sum / n, (nacelles.map fun p => p.entry.k).sum / n⟩ := ⟨_, rfl⟩
  have h1 : pylon S n nacelles d0 = some (put d0 "pylon" e) := by
    unfold pylon
    rw [if_neg hn0, pylonDrag_eq S d0 nacelles hnac]
    simp only [pylonSum_eq _ d0 nacelles hnac, Option.bind_eq_bind, Option.bind_some, he]
    rfl
  have hin' : ∀ p ∈ others ++ nacelles, put d0 "pylon" e p.tag = some p.entry := by
    intro p h
    have hne : p.tag ≠ "pylon" := fun x => hp (x ▸ List.mem_map_of_mem h)
    rw [put_other _ hne]
    exact hin p h
  obtain ⟨d', e1, e2, e3⟩ := scaleAll_spec S (others ++ nacelles) (put d0 "pylon" e) 0 hn hin'
  have hpy : d' "pylon" = some e := by rw [e3 _ hp, put_same]
  refine ⟨d', _, ?_, rfl, e2, by rw [hpy, he]⟩
  unfold parasite
  rw [← hd0, h1]
  simp only [Option.bind_eq_bind, Option.bind_some, parasiteTotal, e1, Option.map_some, hpy, zero_add]
  rw [he]

theorem sum_div (l : List Part) (S : ℝ) (f : Part → ℝ) : (l.map fun p => f p / S).sum = (l.map f).sum / S := by
  induction l with
  | nil => simp
  | cons a l ih => simp only [List.map_cons, List.sum_cons, ih]; ring

/-- Drag area: the total coefficient times the vehicle's area is the sum of the drag areas of the parts and a fifth of
those of the nacelles. -/
theorem C131_total (S : ℝ) (n : ℕ) (others nacelles : List Part) (hS : S ≠ 0) (hn0 : n ≠ 0)
    (hn : ((others ++ nacelles).map Part.tag).Nodup) (hp : "pylon" ∉ (others ++ nacelles).map Part.tag) :
    ∃ d t, parasite S n others nacelles = some (d, t)
      ∧ t * S = (others.map fun p => p.entry.cd * p.area).sum + 1.2 * (nacelles.map fun p => p.entry.cd * p.area).sum := by
  obtain ⟨d, t, h, ht, -, -⟩ := parasite_spec S n others nacelles hn0 hn hp
  refine ⟨d, t, h, ?_⟩
  have e1 := sum_div (others ++ nacelles) S fun p => p.entry.cd * p.area
  have e2 : (nacelles.map fun p => 0.2 * p.entry.cd * (p.area / S)).sum
      = 0.2 * (nacelles.map fun p => p.entry.cd * p.area).sum / S := by
    clear hn hp h ht e1
    induction nacelles with
    | nil => simp
    | cons a l ih => simp only [List.map_cons, List.sum_cons, ih]; ring
  rw [ht, e1, e2, List.map_append, List.sum_append]
  field_simp
  ring

/-- The coefficients left in the breakdown refer to the vehicle's area and add up to the total; nothing else of an entry
changes. -/
theorem C131_entries (S : ℝ) (n : ℕ) (others nacelles : List Part) (hn0 : n ≠ 0)
    (hn : ((others ++ nacelles).map Part.tag).Nodup) (hp : "pylon" ∉ (others ++ nacelles).map Part.tag) :
    ∃ d t, parasite S n others nacelles = some (d, t)
      ∧ (((others ++ nacelles).map Part.tag ++ ["pylon"]).map fun s => (d s).elim 0 Entry.cd).sum = t
      ∧ ∀ p ∈ others ++ nacelles, d p.tag = some { p.entry with cd := p.entry.cd * p.area / S } := by
  obtain ⟨d, t, h, ht, h1, h2⟩ := parasite_spec S n others nacelles hn0 hn hp
  refine ⟨d, t, h, ?_, h1⟩
  rw [List.map_append, List.sum_append, List.map_map]
  have e : ((others ++ nacelles).map ((fun s => (d s).elim 0 Entry.cd) ∘ Part.tag))
      = (others ++ nacelles).map fun p => p.entry.cd * p.area / S := by
    apply List.map_congr_left
    intro p hp
    simp [h1 p hp]
  rw [e, ht]
  simp [h2]

example : ∃ d t, parasite 100 1 [⟨"main_wing", 90, ⟨0.006, 180, 90, 0.003, 1, 1, 1.3⟩⟩]
    [⟨"nacelle", 4, ⟨0.04, 20, 4, 0.002, 1, 1, 1.2⟩⟩] = some (d, t) ∧ t * 100 = 0.732 := by
  obtain ⟨d, t, h, ht⟩ := C131_total 100 1 [⟨"main_wing", 90, ⟨0.006, 180, 90, 0.003, 1, 1, 1.3⟩⟩]
    [⟨"nacelle", 4, ⟨0.04, 20, 4, 0.002, 1, 1, 1.2⟩⟩] (by norm_num) (by norm_num) (by decide) (by decide)
  exact ⟨d, t, h, by rw [ht]; norm_num⟩

/-- Two parts under one tag: the total is not the sum of the parts. -/
theorem C131_total_counterexample : ¬ ∀ (S : ℝ) (n : ℕ) (others nacelles : List Part), S ≠ 0 → n ≠ 0 →
    ∃ d t, parasite S n others nacelles = some (d, t)
      ∧ t * S = (others.map fun p => p.entry.cd * p.area).sum
        + 1.2 * (nacelles.map fun p => p.entry.cd * p.area).sum := by
  intro H
  obtain ⟨d, t, h, ht⟩ := H 100 1 [⟨"body", 80, ⟨0.01, 160, 80, 0, 1, 1, 1⟩⟩, ⟨"body", 10, ⟨0.1, 90, 10, 0, 1, 1, 1⟩⟩] []
    (by norm_num) (by norm_num)
  have : parasite 100 1 [⟨"body", 80, ⟨0.01, 160, 80, 0, 1, 1, 1⟩⟩, ⟨"body", 10, ⟨0.1, 90, 10, 0, 1, 1, 1⟩⟩] []
      = some (d, t) := h
  have hp : ("pylon" : String) ≠ "body" := by decide
  simp only [parasite, pylon, record, List.append_nil, pylonDrag, pylonSum, one_ne_zero, if_false,
    Option.bind_eq_bind, Option.bind_some, Option.pure_def, parasiteTotal, scaleAll, put, if_true, hp, hp.symm,
    Option.map_some, Option.some.injEq, Prod.mk.injEq] at this
  rw [← this.2] at ht
  norm_num at ht

/-- Pylons: friction, factors are the averages over the nacelles where there are as many networks as nacelles. -/
theorem C131_pylon_partial (S : ℝ) (others nacelles : List Part) (hne : nacelles ≠ [])
    (hn : ((others ++ nacelles).map Part.tag).Nodup) (hp : "pylon" ∉ (others ++ nacelles).map Part.tag) :
    ∃ d t e, parasite S nacelles.length others nacelles = some (d, t) ∧ d "pylon" = some e
      ∧ e.ref = S ∧ e.wetted = 0.2 * (nacelles.map fun p => p.entry.wetted).sum
      ∧ e.k * nacelles.length = (nacelles.map fun p => p.entry.k).sum
      ∧ e.cf * nacelles.length = (nacelles.map fun p => p.entry.cf).sum
      ∧ e.kComp * nacelles.length = (nacelles.map fun p => p.entry.kComp).sum
      ∧ e.kReyn * nacelles.length = (nacelles.map fun p => p.entry.kReyn).sum := by
  have h0 : nacelles.length ≠ 0 := by simpa using hne
  obtain ⟨d, t, h, -, -, h2⟩ := parasite_spec S nacelles.length others nacelles h0 hn hp
  have hc : (nacelles.length : ℝ) ≠ 0 := by exact_mod_cast h0
  refine ⟨d, t, _, h, h2, rfl, ?_, ?_, ?_, ?_, ?_⟩
  · dsimp only
    clear hne hn hp h0 h h2 hc
    induction nacelles with
    | nil => simp
    | cons a l ih => simp only [List.map_cons, List.sum_cons, ih]; ring
  all_goals
    dsimp only
    field_simp

/-- Two nacelles on one network: the form factor of the pylons is twice that of either nacelle. -/
theorem C131_pylon_counterexample : ¬ ∀ (S : ℝ) (n : ℕ) (others nacelles : List Part), n ≠ 0 → nacelles ≠ [] →
    ((others ++ nacelles).map Part.tag).Nodup → "pylon" ∉ (others ++ nacelles).map Part.tag →
    ∃ d t e, parasite S n others nacelles = some (d, t) ∧ d "pylon" = some e
      ∧ e.k * nacelles.length = (nacelles.map fun p => p.entry.k).sum := by
  intro H
  have hn : ((([] : List Part) ++ ([⟨"n1", 4, ⟨0.04, 20, 4, 0.002, 1, 1, 1.2⟩⟩, ⟨"n2", 4, ⟨0.04, 20, 4, 0.002, 1, 1, 1.2⟩⟩] : List Part)).map
    Part.tag).Nodup := by decide
  have hp : "pylon" ∉ (([] : List Part) ++ ([⟨"n1", 4, ⟨0.04, 20, 4, 0.002, 1, 1, 1.2⟩⟩, ⟨"n2", 4, ⟨0.04, 20, 4, 0.002, 1, 1, 1.2⟩⟩] : List Part)).map
    Part.tag := by decide
  obtain ⟨d, t, e, h, he, hk⟩ := H 100 1 [] _ one_ne_zero (by simp) hn hp
  obtain ⟨d', t', h', -, -, h2⟩ := parasite_spec 100 1 [] _ one_ne_zero hn hp
  rw [h] at h'
  have hd : d = d' := (Prod.mk.inj (Option.some.inj h')).1
  rw [← hd, he] at h2
  have := Option.some.inj h2
  rw [this] at hk
  norm_num at hk

/-! ## C132 -/

theorem mainAR_spec (f : IWing → ℝ) (ws : List IWing) (r : ℝ × ℝ) :
    (mainAR f ws r = r ∧ ∀ w ∈ ws, f w ≤ r.1)
      ∨ ∃ a w b, ws = a ++ w :: b ∧ mainAR f ws r = (f w, w.ar) ∧ r.1 < f w ∧ (∀ v ∈ a, f v < f w) ∧ ∀ v ∈ b, f v ≤ f w := by
  induction ws generalizing r with
  | nil => exact Or.inl ⟨rfl, by simp⟩
  | cons w ws ih =>
    rw [mainAR]
    split_ifs with h
    · rcases ih (f w, w.ar) with ⟨e, hl⟩ | ⟨a, v, b, e1, e2, e3, e4, e5⟩
      · exact Or.inr ⟨[], w, ws, rfl, e, h, by simp, hl⟩
      · refine Or.inr ⟨w :: a, v, b, by rw [e1]; rfl, e2, h.trans e3, ?_, e5⟩
        intro x hx
        rcases List.mem_cons.1 hx with rfl | hx
        · exact e3
        · exact e4 x hx
    · rcases ih r with ⟨e, hl⟩ | ⟨a, v, b, e1, e2, e3, e4, e5⟩
      · refine Or.inl ⟨e, ?_⟩
        intro x hx
        rcases List.mem_cons.1 hx with rfl | hx
        · exact not_lt.1 h
        · exact hl x hx
      · refine Or.inr ⟨w :: a, v, b, by rw [e1]; rfl, e2, e3, ?_, e5⟩
        intro x hx
        rcases List.mem_cons.1 hx with rfl | hx
        · exact lt_of_le_of_lt (not_lt.1 h) e3
        · exact e4 x hx

/-- The aspect ratio is that of the first wing of largest area. -/
theorem C132_main (f : IWing → ℝ) (ws : List IWing) (hpos : ∃ w ∈ ws, 0 < f w) :
    ∃ a w b, ws = a ++ w :: b ∧ (mainAR f ws (0, 0.01)).2 = w.ar ∧ (∀ v ∈ a, f v < f w) ∧ ∀ v ∈ b, f v ≤ f w := by
  rcases mainAR_spec f ws (0, 0.01) with ⟨-, hl⟩ | ⟨a, w, b, e1, e2, -, e4, e5⟩
  · obtain ⟨w, hw, h⟩ := hpos
    exact absurd (hl w hw) (not_le.2 h)
  · exact ⟨a, w, b, e1, by rw [e2], e4, e5⟩

/-- Induced drag, aspect ratio, Oswald factor and lift coefficient fit together, whichever is given. -/
theorem C132_oswald (K : ℝ) (eOsw eSpan : Option ℝ) (CL CDi S : ℝ) (ws : List IWing)
    (hpos : ∃ w ∈ ws, 0 < w.s) (har : ∀ w ∈ ws, 0 < w.ar) (hsa : ∀ w ∈ ws, w.s = w.area)
    (he : ∀ e, eOsw = some e → 0 < e) (ht : eOsw = none → (induced K eOsw eSpan CL CDi S ws).total ≠ 0) :
    ∃ a w b, ws = a ++ w :: b ∧ (∀ v ∈ a, v.area < w.area) ∧ (∀ v ∈ b, v.area ≤ w.area)
      ∧ π * w.ar * (induced K eOsw eSpan CL CDi S ws).oswald * (induced K eOsw eSpan CL CDi S ws).total = CL ^ 2 := by
  have hpi := pi_pos
  cases eOsw with
  | none =>
    obtain ⟨a, w, b, e1, e2, e3, e4⟩ := C132_main IWing.s ws hpos
    have hw : w ∈ ws := by rw [e1]; simp
    have ha : ∀ v ∈ a, v ∈ ws := fun v hv => by rw [e1]; simp [hv]
    have hb : ∀ v ∈ b, v ∈ ws := fun v hv => by rw [e1]; simp [hv]
    refine ⟨a, w, b, e1, ?_, ?_, ?_⟩
    · intro v hv; rw [← hsa v (ha v hv), ← hsa w hw]; exact e3 v hv
    · intro v hv; rw [← hsa v (hb v hv), ← hsa w hw]; exact e4 v hv
    · have h := ht rfl
      have hr := (har w hw).ne'
      unfold induced at h ⊢
      dsimp only at h ⊢
      rw [e2]
      generalize (ws.map fun w => K * w.cdp * w.cl ^ 2 * (w.s / S)).sum
        + (ws.map fun w => wingInviscid eSpan w * (w.s / S)).sum = t at h ⊢
      field_simp
  | some e =>
    obtain ⟨a, w, b, e1, e2, e3, e4⟩ := C132_main IWing.area ws (by
      obtain ⟨w, hw, h⟩ := hpos
      exact ⟨w, hw, by rw [← hsa w hw]; exact h⟩)
    have hw : w ∈ ws := by rw [e1]; simp
    refine ⟨a, w, b, e1, e3, e4, ?_⟩
    have h := (he e rfl).ne'
    have hr := (har w hw).ne'
    unfold induced
    dsimp only
    rw [e2]
    field_simp

example : ∃ (a : List IWing) (w : IWing) (b : List IWing),
    ([⟨8, 100, 100, 0.5, 0.01, 0.006⟩, ⟨5, 25, 25, 0.1, 0.001, 0.007⟩] : List IWing) = a ++ w :: b
    ∧ (∀ v ∈ a, v.area < w.area) ∧ (∀ v ∈ b, v.area ≤ w.area)
    ∧ π * w.ar * (induced 0.38 (some 0.8) none 0.5 0.009 100
        [⟨8, 100, 100, 0.5, 0.01, 0.006⟩, ⟨5, 25, 25, 0.1, 0.001, 0.007⟩]).oswald
      * (induced 0.38 (some 0.8) none 0.5 0.009 100
        [⟨8, 100, 100, 0.5, 0.01, 0.006⟩, ⟨5, 25, 25, 0.1, 0.001, 0.007⟩]).total = 0.5 ^ 2 :=
  C132_oswald 0.38 (some 0.8) none 0.5 0.009 100 _ ⟨_, List.mem_cons_self, by norm_num⟩
    (by simp) (by simp) (by simp; norm_num) (by simp)

/-- Given an Oswald factor, or no span efficiency and the wings' inviscid drag adding up to the vehicle's: total is
inviscid plus viscous. -/
theorem C132_parts_partial (K : ℝ) (eOsw eSpan : Option ℝ) (CL CDi S : ℝ) (ws : List IWing)
    (h : eOsw = none → eSpan = none ∧ CDi = (ws.map fun w => w.cdi * (w.s / S)).sum) :
    (induced K eOsw eSpan CL CDi S ws).total
      = (induced K eOsw eSpan CL CDi S ws).inviscid + (induced K eOsw eSpan CL CDi S ws).viscous := by
  cases eOsw with
  | none =>
    obtain ⟨rfl, h2⟩ := h rfl
    rw [induced]
    dsimp only [wingInviscid]
    rw [h2]; ring
  | some e => rw [induced]; ring

/-- With a span efficiency the inviscid drag reported for the vehicle stays what it was: the parts no longer add up. -/
theorem C132_parts_counterexample : ¬ ∀ (K e CL CDi S : ℝ) (ws : List IWing), 0 < S → 0 < e →
    CDi = (ws.map fun w => w.cdi * (w.s / S)).sum →
    (induced K none (some e) CL CDi S ws).total
      = (induced K none (some e) CL CDi S ws).inviscid + (induced K none (some e) CL CDi S ws).viscous := by
  intro H
  have := H 0.38 0.9 0.5 1 100 [⟨8, 100, 100, 0.5, 1, 0.006⟩] (by norm_num) (by norm_num) (by norm_num)
  simp only [induced, wingInviscid, List.map_cons, List.map_nil, List.sum_cons, List.sum_nil] at this
  have hp := pi_gt_three
  have : (0.5 : ℝ) ^ 2 / (π * 8 * 0.9) = 1 := by linarith
  rw [div_eq_one_iff_eq (by positivity)] at this
  linarith

/-- The span efficiency is the Oswald factor of a single wing without viscous part. -/
theorem C132_span (e CL CDi S : ℝ) (w : IWing) (hS : 0 < S) (he : 0 < e) (har : 0 < w.ar) (hs : w.s = S) (hcl : w.cl = CL)
    (h0 : CL ≠ 0) : (induced 0 none (some e) CL CDi S [w]).oswald = e
      ∧ (induced 0 none (some e) CL CDi S [w]).inviscidWings = [CL ^ 2 / (π * w.ar * e)] := by
  have hp := pi_pos
  constructor
  · unfold induced
    simp only [mainAR, wingInviscid, List.map_cons, List.map_nil, List.sum_cons, List.sum_nil, hs, hcl]
    rw [if_pos hS]
    dsimp only
    field_simp
    ring
  · simp [induced, wingInviscid, hcl]

example : (induced 0 none (some 0.9) 0.5 0.01 100 [⟨8, 100, 100, 0.5, 0.01, 0.006⟩]).oswald = 0.9 :=
  (C132_span 0.9 0.5 0.01 100 _ (by norm_num) (by norm_num) (by norm_num) rfl rfl (by norm_num)).1

/-- The viscous part: for coefficients that refer to each wing's own area it would be the sum of
`K·cdp·cl²` weighted by area. It gets the coefficients already referred to the vehicle's area, so it is that sum only for
wings as large as the reference area. -/
theorem C132_viscous_partial (K CL CDi S : ℝ) (eSpan : Option ℝ) (ws : List IWing) (own : IWing → ℝ)
    (hp : ∀ w ∈ ws, w.cdp = own w * w.s / S) (hs : ∀ w ∈ ws, w.s = S) :
    (induced K none eSpan CL CDi S ws).viscous * S = (ws.map fun w => K * own w * w.cl ^ 2 * w.s).sum := by
  rw [induced]
  dsimp only
  induction ws with
  | nil => simp
  | cons w ws ih =>
    simp only [List.map_cons, List.sum_cons, add_mul]
    rw [ih (fun v hv => hp v (List.mem_cons_of_mem _ hv)) (fun v hv => hs v (List.mem_cons_of_mem _ hv)),
      hp w List.mem_cons_self, hs w List.mem_cons_self]
    field_simp

/-- A tail a fifth of the reference area: a fifth of its viscous lift-dependent drag. -/
theorem C132_viscous_counterexample : ¬ ∀ (K CL CDi S : ℝ) (ws : List IWing) (own : IWing → ℝ), 0 < S →
    (∀ w ∈ ws, w.cdp = own w * w.s / S) →
    (induced K none none CL CDi S ws).viscous * S = (ws.map fun w => K * own w * w.cl ^ 2 * w.s).sum := by
  intro H
  have := H 0.38 0.5 0.01 100 [⟨5, 20, 20, 0.5, 0.01, 0.0014⟩] (fun _ => 0.007) (by norm_num)
    (by simp; norm_num)
  simp only [induced, wingInviscid, List.map_cons, List.map_nil, List.sum_cons, List.sum_nil] at this
  norm_num at this

/-! ## C134 -/

/-- The aircraft's drag: trimmed sum of the four parts, increment and spoilers, over one plus the adjustment. -/
theorem C134_total (par ind comp misc factor incr spoiler adj : ℝ) (h : 0 < 1 + adj) :
    ∃ cd, aircraftDrag par ind comp misc factor incr spoiler adj = some cd
      ∧ cd * (1 + adj) = factor * (par + ind + comp + misc) + incr + spoiler := by
  unfold aircraftDrag totalAircraft trimmed untrimmed
  rw [if_neg h.ne']
  exact ⟨_, rfl, by rw [div_mul_cancel₀ _ h.ne']; ring⟩

/-- The adjustment multiplies the lift to drag ratio by exactly one plus itself. -/
theorem C134_ratio (par ind comp misc factor incr spoiler adj CL cd0 : ℝ) (h : 0 < 1 + adj)
    (h0 : aircraftDrag par ind comp misc factor incr spoiler 0 = some cd0) (hcd : cd0 ≠ 0) :
    ∃ cd, aircraftDrag par ind comp misc factor incr spoiler adj = some cd ∧ CL / cd = CL / cd0 * (1 + adj) := by
  obtain ⟨c0, e0, f0⟩ := C134_total par ind comp misc factor incr spoiler 0 (by norm_num)
  obtain ⟨c, e, f⟩ := C134_total par ind comp misc factor incr spoiler adj h
  rw [h0] at e0
  have := Option.some.inj e0
  subst this
  have hc : c = cd0 / (1 + adj) := by
    rw [eq_div_iff h.ne']; linarith
  refine ⟨c, e, ?_⟩
  rw [hc]; field_simp

example : ∃ cd, aircraftDrag 0.02 0.01 0.001 0.001 1.02 0 0 0.1 = some cd
    ∧ (0.5 : ℝ) / cd = 0.5 / (1.02 * 0.032) * (1 + 0.1) :=
  C134_ratio 0.02 0.01 0.001 0.001 1.02 0 0 0.1 0.5 (1.02 * 0.032) (by norm_num)
    (by unfold aircraftDrag totalAircraft trimmed untrimmed; norm_num) (by norm_num)

/-- More of any part, of the increment or of the spoilers is more drag. -/
theorem C134_monotone (par ind comp misc incr spoiler par' ind' comp' misc' incr' spoiler' factor adj : ℝ)
    (h : 0 < 1 + adj) (hf : 0 < factor) (h1 : par ≤ par') (h2 : ind ≤ ind') (h3 : comp ≤ comp') (h4 : misc ≤ misc')
    (h5 : incr ≤ incr') (h6 : spoiler ≤ spoiler') :
    ∃ a b, aircraftDrag par ind comp misc factor incr spoiler adj = some a
      ∧ aircraftDrag par' ind' comp' misc' factor incr' spoiler' adj = some b ∧ a ≤ b
      ∧ (a = b → par = par' ∧ ind = ind' ∧ comp = comp' ∧ misc = misc' ∧ incr = incr' ∧ spoiler = spoiler') := by
  obtain ⟨a, ea, fa⟩ := C134_total par ind comp misc factor incr spoiler adj h
  obtain ⟨b, eb, fb⟩ := C134_total par' ind' comp' misc' factor incr' spoiler' adj h
  have hle : factor * (par + ind + comp + misc) ≤ factor * (par' + ind' + comp' + misc') := by
    apply mul_le_mul_of_nonneg_left _ hf.le; linarith
  refine ⟨a, b, ea, eb, ?_, ?_⟩
  · by_contra hc
    nlinarith [not_le.1 hc]
  · intro e
    rw [e, fb] at fa
    have hs : factor * (par' + ind' + comp' + misc') = factor * (par + ind + comp + misc) := by linarith
    have hs' := mul_left_cancel₀ hf.ne' hs
    refine ⟨?_, ?_, ?_, ?_, ?_, ?_⟩ <;> linarith

/-- Refused only where the adjustment takes the denominator to zero. -/
theorem C134_refused (par ind comp misc factor incr spoiler adj : ℝ) :
    aircraftDrag par ind comp misc factor incr spoiler adj = none ↔ adj = -1 := by
  unfold aircraftDrag totalAircraft
  split_ifs with h
  · exact ⟨fun _ => by linarith, fun _ => rfl⟩
  · exact ⟨fun h' => by simp at h', fun h' => absurd (by rw [h']; ring) h⟩

/-- Excrescences: positive and growing with the wetted area up to 1800 m² of wetted area (before the ten per cent). -/
theorem C134_excrescence_partial (S : ℝ) (o o' : List ℝ) (n n' : List (ℝ × ℕ)) (hS : 0 < S)
    (h0 : 0 ≤ o.sum + (n.map fun x => x.1 * (x.2 : ℝ)).sum)
    (hlt : o.sum + (n.map fun x => x.1 * (x.2 : ℝ)).sum < o'.sum + (n'.map fun x => x.1 * (x.2 : ℝ)).sum)
    (h1 : o'.sum + (n'.map fun x => x.1 * (x.2 : ℝ)).sum ≤ 1800) :
    0 < excrescence S o n ∧ excrescence S o n < excrescence S o' n' := by
  unfold excrescence totalWetted excrescenceArea
  generalize o.sum + (n.map fun x => x.1 * (x.2 : ℝ)).sum = s at *
  generalize o'.sum + (n'.map fun x => x.1 * (x.2 : ℝ)).sum = s' at *
  constructor
  · apply div_pos _ hS
    nlinarith
  · apply div_lt_div_of_pos_right _ hS
    nlinarith

example : 0 < excrescence 120 [250, 390] [(22, 2)] ∧ excrescence 120 [250, 390] [(22, 2)] < excrescence 120 [250, 400] [(22, 2)] :=
  C134_excrescence_partial 120 _ _ _ _ (by norm_num) (by norm_num) (by norm_num) (by norm_num)

/-- Beyond, it falls and becomes negative. -/
theorem C134_excrescence_counterexample : ¬ ∀ (S : ℝ) (o : List ℝ) (n : List (ℝ × ℕ)), 0 < S → (∀ x ∈ o, 0 ≤ x) →
    (∀ x ∈ n, 0 ≤ x.1) → 0 ≤ excrescence S o n := by
  intro H
  have := H 500 [4000] [] (by norm_num) (by simp) (by simp)
  simp only [excrescence, totalWetted, excrescenceArea, List.map_nil, List.sum_cons, List.sum_nil] at this
  norm_num at this

/-- A nacelle placed `k` times counts `k` times in the excrescences; in the windmilling drag (and in the parasite drag,
which sees one entry per tag) once. -/
theorem C134_origins (S w : ℝ) (k : ℕ) (o : List ℝ) (n : List (ℝ × ℕ)) :
    excrescence S o ((w, k) :: n) = excrescence S o (List.replicate k (w, 1) ++ n) := by
  unfold excrescence totalWetted
  have e : (((w, k) :: n).map fun x : ℝ × ℕ => x.1 * (x.2 : ℝ)).sum
      = ((List.replicate k (w, 1) ++ n).map fun x : ℝ × ℕ => x.1 * (x.2 : ℝ)).sum := by
    simp [mul_comm]
  rw [e]

theorem C134_origins_counterexample : ¬ ∀ (S w : ℝ) (k : ℕ) (n : List (ℝ × ℕ)), 0 < S → 0 < w →
    windmilling S ((w, k) :: n) = windmilling S (List.replicate k (w, 1) ++ n) := by
  intro H
  have := H 100 20 2 [] (by norm_num) (by norm_num)
  simp only [windmilling, List.replicate, List.map_cons, List.map_nil, List.sum_cons, List.sum_nil, List.append_nil] at this
  norm_num at this

/-- Windmilling drag is proportional to the nacelles' wetted area; the supersonic miscellaneous drag is positive and
grows with every nacelle. -/
theorem C134_windmilling (S : ℝ) (hS : S ≠ 0) (n m : List (ℝ × ℕ)) :
    windmilling S n * S = 0.007274 * (n.map Prod.fst).sum
      ∧ windmilling S (n ++ m) = windmilling S n + windmilling S m := by
  unfold windmilling
  constructor
  · field_simp
  · rw [List.map_append, List.sum_append]; ring

theorem C134_misc_super (S d : ℝ) (ds : List ℝ) (hS : 0 < S) (hd : 0 < d) (hds : ∀ x ∈ ds, 0 ≤ x) :
    0 < miscSuper S ds ∧ miscSuper S ds < miscSuper S (d :: ds) := by
  have hp := pi_pos
  unfold miscSuper
  have h : 0 ≤ (ds.map fun d => 0.5 / 12 * π * d * 0.2 / S).sum := by
    apply List.sum_nonneg
    intro x hx
    obtain ⟨y, hy, rfl⟩ := List.mem_map.1 hx
    have := hds y hy
    positivity
  have h6 : 0 < 0.006 / S := by positivity
  refine ⟨by linarith, ?_⟩
  simp only [List.map_cons, List.sum_cons]
  have : 0 < 0.5 / 12 * π * d * 0.2 / S := by positivity
  linarith

end Verif.Aero
