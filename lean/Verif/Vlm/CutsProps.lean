import Verif.Vlm.Cuts
/-
C400: cuts of control surfaces across other breaks.
-/

namespace Verif.Vlm

/-- What is wanted: inside a surface both sides of a break have its cut, at its ends the side within. -/
noncomputable def wantedBreak (S : List CutSurface) (nominal f : ℝ) : EdgeBreak where
  frac := f
  ibId := ((pick S fun c => c.s < f ∧ f ≤ c.e).map (·.id)).getD (-1)
  obId := ((pick S fun c => c.s ≤ f ∧ f < c.e).map (·.id)).getD (-1)
  ibCut := ((pick S fun c => c.s < f ∧ f ≤ c.e).map (·.cut)).getD nominal
  obCut := ((pick S fun c => c.s ≤ f ∧ f < c.e).map (·.cut)).getD nominal

/-- Surfaces of one edge: numbered from zero, each with its own number, and beside one another. -/
structure Beside (S : List CutSurface) : Prop where
  pos : ∀ c ∈ S, 0 ≤ c.id ∧ c.s < c.e
  ids : ∀ c ∈ S, ∀ d ∈ S, c.id = d.id → c = d
  apart : ∀ c ∈ S, ∀ d ∈ S, c ≠ d → c.e ≤ d.s ∨ d.e ≤ c.s

variable {S : List CutSurface}

open Classical in
theorem find_one (p : CutSurface → Prop) (c : CutSurface) (hc : c ∈ S) (hp : p c) (hu : ∀ d ∈ S, p d → d = c) :
    pick S p = some c := by
  unfold pick
  cases h : S.find? fun d => decide (p d) with
  | none => rw [List.find?_eq_none] at h; exact absurd hp (by simpa using h c hc)
  | some d =>
    have h1 := List.find?_some h
    have h2 := List.mem_of_find?_eq_some h
    rw [hu d h2 (by simpa using h1)]

open Classical in
theorem find_no (p : CutSurface → Prop) (hu : ∀ d ∈ S, ¬ p d) : pick S p = none := by
  unfold pick
  rw [List.find?_eq_none]
  intro d hd
  simpa using hu d hd

theorem beside_unique (h : Beside S) {c d : CutSurface} (hc : c ∈ S) (hd : d ∈ S) {x : ℝ} (h1 : c.s < x) (h2 : x ≤ c.e) (h3 : d.s < x) (h4 : x ≤ d.e) : c = d := by
  by_contra hne
  rcases h.apart c hc d hd hne with h' | h' <;> linarith

theorem beside_unique' (h : Beside S) {c d : CutSurface} (hc : c ∈ S) (hd : d ∈ S) {x : ℝ} (h1 : c.s ≤ x) (h2 : x < c.e) (h3 : d.s ≤ x) (h4 : x < d.e) : c = d := by
  by_contra hne
  rcases h.apart c hc d hd hne with h' | h' <;> linarith

/-- Breaks before `e` done, the others not yet. -/
noncomputable def mixed (S : List CutSurface) (nominal e f : ℝ) : EdgeBreak := if f < e then wantedBreak S nominal f else mergedBreak S nominal f

theorem wanted_inside (h : Beside S) (nominal : ℝ) {c : CutSurface} (hc : c ∈ S) {f : ℝ} (h1 : c.s < f) (h2 : f < c.e) :
    wantedBreak S nominal f = ⟨f, c.id, c.id, c.cut, c.cut⟩ := by
  unfold wantedBreak
  rw [find_one (fun d => d.s < f ∧ f ≤ d.e) c hc ⟨h1, h2.le⟩ fun d hd hp => beside_unique h hd hc hp.1 hp.2 h1 h2.le,
    find_one (fun d => d.s ≤ f ∧ f < d.e) c hc ⟨h1.le, h2⟩ fun d hd hp => beside_unique' h hd hc hp.1 hp.2 h1.le h2]
  rfl

theorem merged_end (h : Beside S) (nominal : ℝ) {c : CutSurface} (hc : c ∈ S) : (mergedBreak S nominal c.e).ibId = c.id := by
  unfold mergedBreak
  rw [find_one (fun d => d.e = c.e) c hc rfl fun d hd hp => beside_unique h hd hc (by rw [← hp]; exact (h.pos d hd).2) hp.ge (h.pos c hc).2 le_rfl]
  rfl

theorem carryCut_spec (h : Beside S) (nominal : ℝ) {c : CutSurface} (hc : c ∈ S) : ∀ fs : List ℝ, fs.Pairwise (· < ·) → (∀ f ∈ fs, c.s < f) →
    c.e ∈ fs → carryCut c.id c.cut (fs.map (mergedBreak S nominal)) = some (fs.map (mixed S nominal c.e)) := by
  intro fs
  induction fs with
  | nil => intro _ _ he; simp at he
  | cons f fs ih =>
    intro hs hgt he
    have hf := hgt f (by simp)
    rcases lt_trichotomy f c.e with hlt | heq | hgt'
    · -- inside
      have hib : (mergedBreak S nominal f).ibId = -1 := by
        unfold mergedBreak
        rw [find_no (fun d => d.e = f) ?_]
        · rfl
        · intro d hd hp
          have hdc : d = c := beside_unique h hd hc (x := f) (by rw [← hp]; exact (h.pos d hd).2) hp.ge hf hlt.le
          rw [hdc] at hp; linarith
      have he' : c.e ∈ fs := by
        rcases List.mem_cons.1 he with h' | h'
        · exact absurd h'.symm hlt.ne
        · exact h'
      have hid := (h.pos c hc).1
      simp only [List.map_cons, carryCut]
      rw [if_neg (by rw [hib]; omega), if_pos hib, ih (List.pairwise_cons.1 hs).2 (fun x hx => hgt x (List.mem_cons_of_mem _ hx)) he']
      simp only [Option.map_some, Option.some.injEq, List.cons.injEq, and_true]
      rw [mixed, if_pos hlt, wanted_inside h nominal hc hf hlt]
      rfl
    · subst heq
      simp only [List.map_cons, carryCut]
      rw [if_pos (merged_end h nominal hc), Option.some.injEq]
      have : ∀ x ∈ c.e :: fs, mixed S nominal c.e x = mergedBreak S nominal x := by
        intro x hx
        rw [mixed, if_neg]
        rcases List.mem_cons.1 hx with h' | h'
        · rw [h']; exact lt_irrefl _
        · exact not_lt.2 ((List.pairwise_cons.1 hs).1 x h').le
      rw [← List.map_cons (f := mergedBreak S nominal), ← List.map_cons (f := mixed S nominal c.e)]
      exact (List.map_congr_left this).symm
    · rcases List.mem_cons.1 he with h' | h'
      · linarith
      · have := (List.pairwise_cons.1 hs).1 _ h'; linarith

theorem carryCuts_spec (h : Beside S) (nominal : ℝ) : ∀ (fs : List ℝ) (e : ℝ), fs.Pairwise (· < ·) →
    (∀ c ∈ S, c.s < e → c.e ≤ e) →
    (∀ f ∈ fs.head?, ∀ c ∈ S, (f ≤ c.s → c.s ∈ fs) ∧ (f ≤ c.e → c.e ∈ fs) ∧ (c.s < f → c.e ≤ e ∨ c.e ≤ f)) →
    carryCuts fs.length (fs.map (mixed S nominal e)) = some (fs.map (wantedBreak S nominal)) := by
  intro fs
  induction fs with
  | nil => intro e _ _ _; rfl
  | cons f fs ih =>
    intro e hs hcl hinv
    have hI := fun c hc => hinv f (by simp) c hc
    have hlt : ∀ x ∈ fs, f < x := (List.pairwise_cons.1 hs).1
    -- the head is as wanted
    have hhead : mixed S nominal e f = wantedBreak S nominal f := by
      unfold mixed
      split_ifs with hfe
      · rfl
      · have hle : ∀ c ∈ S, c.s < f → c.e ≤ f := fun c hc hcf => by
          rcases (hI c hc).2.2 hcf with h' | h'
          · linarith [not_lt.1 hfe]
          · exact h'
        unfold mergedBreak wantedBreak
        have a1 : (pick S fun c => c.e = f) = pick S fun c => c.s < f ∧ f ≤ c.e := by
          by_cases hx : ∃ c ∈ S, c.e = f
          · obtain ⟨c, hc, hce⟩ := hx
            have hcs : c.s < f := by rw [← hce]; exact (h.pos c hc).2
            rw [find_one (fun d => d.e = f) c hc hce fun d hd hp => beside_unique h hd hc (by rw [← hp]; exact (h.pos d hd).2) hp.ge hcs hce.ge,
              find_one (fun d => d.s < f ∧ f ≤ d.e) c hc ⟨hcs, hce.ge⟩ fun d hd hp => beside_unique h hd hc hp.1 hp.2 hcs hce.ge]
          · rw [find_no (fun d => d.e = f) fun d hd hp => hx ⟨d, hd, hp⟩,
              find_no (fun d => d.s < f ∧ f ≤ d.e) fun d hd hp => hx ⟨d, hd, le_antisymm (hle d hd hp.1) hp.2⟩]
        have a2 : (pick S fun c => c.s = f) = pick S fun c => c.s ≤ f ∧ f < c.e := by
          by_cases hx : ∃ c ∈ S, c.s = f
          · obtain ⟨c, hc, hcs⟩ := hx
            have hce : f < c.e := by rw [← hcs]; exact (h.pos c hc).2
            rw [find_one (fun d => d.s = f) c hc hcs fun d hd hp => beside_unique' h hd hc hp.le (by rw [← hp]; exact (h.pos d hd).2) hcs.le hce,
              find_one (fun d => d.s ≤ f ∧ f < d.e) c hc ⟨hcs.le, hce⟩ fun d hd hp => beside_unique' h hd hc hp.1 hp.2 hcs.le hce]
          · rw [find_no (fun d => d.s = f) fun d hd hp => hx ⟨d, hd, hp⟩, find_no (fun d => d.s ≤ f ∧ f < d.e) fun d hd hp => by
              rcases hp.1.lt_or_eq with h' | h'
              · linarith [hle d hd h', hp.2]
              · exact hx ⟨d, hd, h'⟩]
        rw [a1, a2]
    -- membership in the rest
    have hrest : ∀ f' ∈ fs.head?, ∀ c ∈ S, (f' ≤ c.s → c.s ∈ fs) ∧ (f' ≤ c.e → c.e ∈ fs) ∧ (c.s < f' → c.s ≤ f) := by
      intro f' hf' c hc
      have hm : f' ∈ fs := List.mem_of_mem_head? hf'
      have hff := hlt f' hm
      have hmin : ∀ x ∈ fs, f' ≤ x := by
        cases fs with
        | nil => simp at hf'
        | cons y ys =>
          simp only [List.head?_cons, Option.mem_def, Option.some.injEq] at hf'
          subst hf'
          intro x hx
          rcases List.mem_cons.1 hx with rfl | hx
          · exact le_rfl
          · exact ((List.pairwise_cons.1 (List.pairwise_cons.1 hs).2).1 x hx).le
      refine ⟨fun hle => ?_, fun hle => ?_, fun hl => ?_⟩
      · rcases List.mem_cons.1 ((hI c hc).1 (by linarith)) with h' | h'
        · linarith
        · exact h'
      · rcases List.mem_cons.1 ((hI c hc).2.1 (by linarith)) with h' | h'
        · linarith
        · exact h'
      · by_contra hcon
        push Not at hcon
        rcases List.mem_cons.1 ((hI c hc).1 hcon.le) with h' | h'
        · linarith
        · linarith [hmin _ h']
    simp only [List.map_cons, List.length_cons, carryCuts]
    rw [hhead]
    by_cases hx : ∃ c ∈ S, c.s ≤ f ∧ f < c.e
    · obtain ⟨c, hc, hcs, hce⟩ := hx
      have hw : (wantedBreak S nominal f).obId = c.id ∧ (wantedBreak S nominal f).obCut = c.cut := by
        unfold wantedBreak
        rw [find_one (fun d => d.s ≤ f ∧ f < d.e) c hc ⟨hcs, hce⟩ fun d hd hp => beside_unique' h hd hc hp.1 hp.2 hcs hce]
        exact ⟨rfl, rfl⟩
      have hid := (h.pos c hc).1
      rw [if_neg (by rw [hw.1]; omega), hw.1, hw.2]
      have hcmem : c.e ∈ fs := by
        rcases List.mem_cons.1 ((hI c hc).2.1 hce.le) with h' | h'
        · linarith
        · exact h'
      by_cases hfe : f < e
      · -- already done: the next break has the id
        have hcee : c.e ≤ e := hcl c hc (by linarith)
        obtain ⟨g, gs, rfl⟩ : ∃ g gs, fs = g :: gs := by cases fs with
          | nil => simp at hcmem
          | cons g gs => exact ⟨g, gs, rfl⟩
        have hg : f < g := hlt g (by simp)
        have hgc : g ≤ c.e := by
          rcases List.mem_cons.1 hcmem with h' | h'
          · exact h'.ge
          · exact ((List.pairwise_cons.1 (List.pairwise_cons.1 hs).2).1 _ h').le
        have hgid : (mixed S nominal e g).ibId = c.id := by
          unfold mixed
          split_ifs with hge
          · unfold wantedBreak
            rw [find_one (fun d => d.s < g ∧ g ≤ d.e) c hc ⟨by linarith, hgc⟩ fun d hd hp => beside_unique h hd hc hp.1 hp.2 (by linarith) hgc]
            rfl
          · have : g = c.e := le_antisymm hgc (hcee.trans (not_lt.1 hge))
            rw [this]; exact merged_end h nominal hc
        have hcarry : carryCut c.id c.cut ((g :: gs).map (mixed S nominal e)) = some ((g :: gs).map (mixed S nominal e)) := by
          simp only [List.map_cons, carryCut]; rw [if_pos hgid]
        rw [hcarry, Option.bind_some]
        rw [ih e (List.pairwise_cons.1 hs).2 hcl (fun f' hf' d hd => ?_)]
        · rfl
        · obtain ⟨r1, r2, r3⟩ := hrest f' hf' d hd
          refine ⟨r1, r2, fun hl => ?_⟩
          have hdf := r3 hl
          exact Or.inl (hcl d hd (by linarith))
      · have hmix : fs.map (mixed S nominal e) = fs.map (mergedBreak S nominal) := by
          refine List.map_congr_left fun x hx => ?_
          rw [mixed, if_neg]
          have := hlt x hx
          linarith [not_lt.1 hfe]
        have hcarry := carryCut_spec h nominal hc fs (List.pairwise_cons.1 hs).2 (fun x hx => lt_of_le_of_lt hcs (hlt x hx)) hcmem
        rw [hmix, hcarry, Option.bind_some]
        rw [ih c.e (List.pairwise_cons.1 hs).2 (fun d hd hlt' => ?_) (fun f' hf' d hd => ?_)]
        · rfl
        · by_cases hdc : d = c
          · rw [hdc]
          · rcases h.apart d hd c hc hdc with h' | h'
            · linarith [(h.pos c hc).2]
            · linarith
        · obtain ⟨r1, r2, r3⟩ := hrest f' hf' d hd
          refine ⟨r1, r2, fun hl => ?_⟩
          have hdf := r3 hl
          by_cases hdc : d = c
          · left; rw [hdc]
          · rcases h.apart d hd c hc hdc with h' | h'
            · left; linarith [(h.pos c hc).2]
            · linarith
    · have hw : (wantedBreak S nominal f).obId = -1 := by
        unfold wantedBreak
        rw [find_no (fun d => d.s ≤ f ∧ f < d.e) fun d hd hp => hx ⟨d, hd, hp⟩]
        rfl
      rw [if_pos hw, ih e (List.pairwise_cons.1 hs).2 hcl (fun f' hf' d hd => ?_)]
      · rfl
      · obtain ⟨r1, r2, r3⟩ := hrest f' hf' d hd
        refine ⟨r1, r2, fun hl => ?_⟩
        have hdf := r3 hl
        have hff := hlt f' (List.mem_of_mem_head? hf')
        right
        by_contra hcon
        push Not at hcon
        exact hx ⟨d, hd, hdf, by linarith⟩

/-- **C400, cuts.** For control surfaces beside one another on an edge, and whatever other breaks of the wing lie between their ends, every break
inside a surface has its cut on both sides, a break at one of its ends has it on the side within, and the rest of the
wing keeps its edge. -/
theorem C400_cuts_partial (h : Beside S) (nominal : ℝ) (fs : List ℝ) (hs : fs.Pairwise (· < ·)) (hb : ∀ c ∈ S, c.s ∈ fs ∧ c.e ∈ fs) :
    carryCuts fs.length (fs.map (mergedBreak S nominal)) = some (fs.map (wantedBreak S nominal)) := by
  cases fs with
  | nil => rfl
  | cons f fs =>
    have hmin : ∀ x ∈ f :: fs, f ≤ x := by
      intro x hx
      rcases List.mem_cons.1 hx with rfl | hx
      · exact le_rfl
      · exact ((List.pairwise_cons.1 hs).1 x hx).le
    have hm : (f :: fs).map (mergedBreak S nominal) = (f :: fs).map (mixed S nominal f) :=
      List.map_congr_left fun x hx => by rw [mixed, if_neg (not_lt.2 (hmin x hx))]
    rw [hm]
    refine carryCuts_spec h nominal _ f hs (fun c hc hlt => ?_) fun g hg c hc => ⟨fun _ => (hb c hc).1, fun _ => (hb c hc).2, fun hlt => ?_⟩
    · linarith [hmin _ (hb c hc).1]
    · simp only [List.head?_cons, Option.mem_def, Option.some.injEq] at hg
      subst hg
      linarith [hmin _ (hb c hc).1]

/-- **C400, false in general.** Control surfaces that overlap on the same edge are not always refused: if the second begins inside the first and
ends outside it, nothing is raised, and the wing is not cut where only the second one is. -/
theorem C400_overlap_counterexample :
    carryCuts 4 [⟨0.2, -1, 0, 1, 0.8⟩, ⟨0.4, -1, 1, 1, 0.7⟩, ⟨0.6, 0, -1, 0.8, 1⟩, ⟨0.8, 1, -1, 0.7, 1⟩] =
      some [⟨0.2, -1, 0, 1, 0.8⟩, ⟨0.4, 0, 0, 0.8, 0.8⟩, ⟨0.6, 0, -1, 0.8, 1⟩, ⟨0.8, 1, -1, 0.7, 1⟩] := by
  simp [carryCuts, carryCut]

/-- **C400, refusal.** A surface that lies inside another one is refused. -/
theorem C400_nested (k m : ℤ) (hm : 0 ≤ m) (hk : 0 ≤ k) (hkm : m ≠ k) (cut : ℝ) (a b : List EdgeBreak) (e : EdgeBreak) (he : e.ibId = m)
    (ha : ∀ x ∈ a, x.ibId = -1) : carryCut k cut (a ++ e :: b) = none := by
  induction a with
  | nil => rw [List.nil_append, carryCut, if_neg (by omega), if_neg (by omega)]
  | cons x a ih =>
    have hx := ha x (by simp)
    rw [List.cons_append, carryCut, if_neg (by omega), if_pos hx, ih fun y hy => ha y (List.mem_cons_of_mem _ hy)]
    rfl

/-- An aileron across a break of the wing. -/
example : Beside [⟨0, 0.5, 0.9, 0.75⟩] := ⟨by simp; norm_num, by simp, by simp⟩
example : ([0, 0.5, 0.7, 0.9, 1] : List ℝ).Pairwise (· < ·) := by norm_num [List.pairwise_cons]
example : carryCuts 5 [⟨0, -1, -1, 1, 1⟩, ⟨0.5, -1, 0, 1, 0.75⟩, ⟨0.7, -1, -1, 1, 1⟩, ⟨0.9, 0, -1, 0.75, 1⟩, ⟨1, -1, -1, 1, 1⟩] =
    some [⟨0, -1, -1, 1, 1⟩, ⟨0.5, -1, 0, 1, 0.75⟩, ⟨0.7, 0, 0, 0.75, 0.75⟩, ⟨0.9, 0, -1, 0.75, 1⟩, ⟨1, -1, -1, 1, 1⟩] := by
  simp [carryCuts, carryCut]

end Verif.Vlm
