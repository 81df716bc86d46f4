import Verif.Noise.Tools
import Mathlib.Tactic.Linarith
import Mathlib.Tactic.FieldSimp
import Mathlib.Tactic.NormNum

/-!
C117 decibel sums, C119 third-octave bands.
-/

namespace Verif.Noise
open Real

theorem power_pos (L : ℝ) : 0 < power L := by unfold power; positivity

theorem level_power (L : ℝ) : level (power L) = L := by
  unfold level power
  rw [logb_rpow (by norm_num) (by norm_num)]; ring

theorem power_level {x : ℝ} (h : 0 < x) : power (level x) = x := by
  unfold level power
  rw [show 10 * logb 10 x / 10 = logb 10 x by ring]
  exact rpow_logb (by norm_num) (by norm_num) h

theorem power_add (a b : ℝ) : power (a + b) = power a * power b := by
  unfold power; rw [add_div, rpow_add (by norm_num)]

theorem level_mul {a b : ℝ} (ha : 0 < a) (hb : 0 < b) : level (a * b) = level a + level b := by
  unfold level; rw [logb_mul ha.ne' hb.ne']; ring

theorem level_lt {a b : ℝ} (ha : 0 < a) (h : a < b) : level a < level b := by
  unfold level
  have := logb_lt_logb (b := 10) (by norm_num) ha h
  linarith

theorem level_le {a b : ℝ} (ha : 0 < a) (h : a ≤ b) : level a ≤ level b := by
  unfold level
  have := logb_le_logb_of_le (b := 10) (by norm_num) ha h
  linarith

theorem power_le {a b : ℝ} (h : a ≤ b) : power a ≤ power b := by
  unfold power; exact rpow_le_rpow_of_exponent_le (by norm_num) (by linarith)

theorem sum_pos_of_ne (s : List ℝ) (h : s ≠ []) : 0 < (s.map power).sum := by
  apply List.sum_pos
  · intro x hx
    obtain ⟨L, _, rfl⟩ := List.mem_map.1 hx
    exact power_pos L
  · simpa using h

theorem total_eq {s : List ℝ} (h : s ≠ []) : total s = some (level (s.map power).sum) := by
  unfold total; rw [if_neg h]

/-! ## C117: decibel sums -/

/-- A total that carries the energy of its parts: what the theorems below mean by a level of several sources. -/
def IsTotal (t : ℝ) (s : List ℝ) : Prop := (10 : ℝ) ^ (t / 10) = (s.map fun L => (10 : ℝ) ^ (L / 10)).sum

/-- The total is the only level whose energy is the sum of the energies. -/
theorem C117_energy (s : List ℝ) (h : s ≠ []) (t : ℝ) : total s = some t ↔ IsTotal t s := by
  rw [total_eq h, Option.some_inj]
  have hp := sum_pos_of_ne s h
  have e : IsTotal t s ↔ power t = (s.map power).sum := Iff.rfl
  rw [e]
  constructor
  · rintro rfl; exact power_level hp
  · intro ht; rw [← ht, level_power]

/-- The order of the sources does not matter. -/
theorem C117_order {s t : List ℝ} (h : s.Perm t) : total s = total t := by
  unfold total
  by_cases hs : s = []
  · subst hs; rw [List.nil_perm.1 h]
  · rw [if_neg hs, if_neg (fun ht => hs (by subst ht; exact List.perm_nil.1 h)), (h.map power).sum_eq]

/-- A source alone is its own total. -/
theorem C117_single (L : ℝ) : total [L] = some L := by
  rw [total_eq (by simp)]
  simp only [List.map_cons, List.map_nil, List.sum_cons, List.sum_nil, add_zero, level_power]

/-- Sources may be added in groups: first over the rotors, then over the bands, or at once. -/
theorem C117_groups (g : List (List ℝ)) (hg : ∀ s ∈ g, s ≠ []) (tot : List ℝ)
    (ht : g.map total = tot.map some) : total tot = total g.flatten := by
  have key : ∀ (g : List (List ℝ)) (tot : List ℝ), (∀ s ∈ g, s ≠ []) → g.map total = tot.map some →
      (tot.map power).sum = (g.flatten.map power).sum ∧ (tot = [] ↔ g.flatten = []) := by
    intro g
    induction g with
    | nil => intro tot _ h; cases tot with
      | nil => simp
      | cons => simp at h
    | cons s g ih =>
      intro tot hg h
      cases tot with
      | nil => simp at h
      | cons t tot =>
        simp only [List.map_cons, List.cons.injEq] at h
        obtain ⟨h1, h2⟩ := ih tot (fun x hx => hg x (List.mem_cons_of_mem _ hx)) h.2
        have hs := hg s List.mem_cons_self
        have he : power t = (s.map power).sum := (C117_energy s hs t).1 h.1
        refine ⟨?_, by simp [hs]⟩
        simp only [List.map_cons, List.sum_cons, List.flatten_cons, List.map_append, List.sum_append, he, h1]
  obtain ⟨h1, h2⟩ := key g tot hg ht
  unfold total
  by_cases h : tot = []
  · rw [if_pos h, if_pos (h2.1 h)]
  · rw [if_neg h, if_neg (fun hc => h (h2.2 hc)), h1]

/-- The total is at least every source and at most the loudest plus ten times the logarithm of their number. -/
theorem C117_bounds (s : List ℝ) (t m : ℝ) (ht : total s = some t) (hm : ∀ L ∈ s, L ≤ m) :
    (∀ L ∈ s, L ≤ t) ∧ t ≤ m + 10 * logb 10 s.length := by
  have hs : s ≠ [] := by rintro rfl; simp [total] at ht
  have he : power t = (s.map power).sum := (C117_energy s hs t).1 ht
  have htl : t = level (power t) := (level_power t).symm
  constructor
  · intro L hL
    rw [htl, ← level_power L]
    apply level_le (power_pos L)
    rw [he]
    exact List.single_le_sum (fun x hx => by
      obtain ⟨y, _, rfl⟩ := List.mem_map.1 hx; exact (power_pos y).le) _ (List.mem_map.2 ⟨L, hL, rfl⟩)
  · have hn : (0 : ℝ) < s.length := by
      have : 0 < s.length := List.length_pos_iff.2 hs
      exact_mod_cast this
    have h1 : (s.map power).sum ≤ s.length * power m := by
      have := List.sum_le_card_nsmul (s.map power) (power m) (by
        intro x hx; obtain ⟨y, hy, rfl⟩ := List.mem_map.1 hx; exact power_le (hm y hy))
      simpa [nsmul_eq_mul] using this
    rw [htl, he]
    refine (level_le (sum_pos_of_ne s hs) h1).trans ?_
    rw [level_mul hn (power_pos m), level_power]
    unfold level; linarith

/-- One more source is always heard. -/
theorem C117_more (s : List ℝ) (L t t' : ℝ) (ht : total s = some t) (ht' : total (L :: s) = some t') : t < t' := by
  have hs : s ≠ [] := by rintro rfl; simp [total] at ht
  rw [total_eq hs, Option.some_inj] at ht
  rw [total_eq (by simp), Option.some_inj] at ht'
  rw [← ht, ← ht', List.map_cons, List.sum_cons]
  exact level_lt (sum_pos_of_ne s hs) (by linarith [power_pos L])

/-- All sources louder by `c` make the total louder by `c`. -/
theorem C117_shift (s : List ℝ) (c : ℝ) : total (s.map (· + c)) = (total s).map (· + c) := by
  by_cases hs : s = []
  · subst hs; simp [total]
  · rw [total_eq hs, total_eq (by simpa using hs), Option.map_some, Option.some_inj]
    have : ((s.map (· + c)).map power).sum = (s.map power).sum * power c := by
      rw [List.map_map, ← List.sum_map_mul_right]
      congr 1
      apply List.map_congr_left
      intro x _
      simp only [Function.comp, power_add]
    rw [this, level_mul (sum_pos_of_ne s hs) (power_pos c), level_power]

/-- `n` equal sources. -/
theorem C117_equal (n : ℕ) (L : ℝ) (hn : 0 < n) : total (List.replicate n L) = some (L + 10 * logb 10 n) := by
  rw [total_eq (by simp; omega), Option.some_inj, List.map_replicate, List.sum_replicate, nsmul_eq_mul]
  rw [level_mul (by exact_mod_cast hn) (power_pos L), level_power]
  unfold level; ring

/-- The levels of a plain list of sources are not added: `SPL_arithmetic` hands back the list. -/
theorem C117_flat_counterexample :
    ¬ ∀ s : List ℝ, s ≠ [] → ∃ t, splArithmetic (.flat s) = [some t] ∧ IsTotal t s := by
  intro h
  obtain ⟨t, ht, _⟩ := h [90, 90] (by simp)
  simp [splArithmetic] at ht

example : total [90, 90] = some (90 + 10 * logb 10 2) := by
  simpa using C117_equal 2 90 (by norm_num)

/-- Same numbers in a second dimension are added. -/
example : splArithmetic (.rows [[90, 90]]) = [some (90 + 10 * logb 10 2)] := by
  simpa [splArithmetic] using C117_equal 2 90 (by norm_num)

/-! ## C119: third-octave bands -/

/-- Neighbouring edges. -/
def pairs : List ℝ → List (ℝ × ℝ)
  | a :: b :: r => (a, b) :: pairs (b :: r)
  | _ => []

/-- The edges of the default bands. -/
noncomputable def edges : List ℝ := lowerFrequencies ++ [11200]

/-- Each default band starts where the one before ends. -/
theorem C119_edges : lowerFrequencies.zip upperFrequencies = pairs edges := rfl

theorem edges_sorted : edges.Pairwise (· < ·) := by
  unfold edges lowerFrequencies
  norm_num [List.pairwise_cons]

open Classical in
/-- How many bands contain a frequency. -/
noncomputable def hits (B : List (ℝ × ℝ)) (f : ℝ) : ℕ := B.countP fun b => b.1 ≤ f ∧ f ≤ b.2

theorem hits_below : ∀ (r : List ℝ) (a f : ℝ), (a :: r).Pairwise (· < ·) → f < a → hits (pairs (a :: r)) f = 0
  | [], _, _, _, _ => rfl
  | b :: r, a, f, h, hf => by
    have hab : a < b := (List.pairwise_cons.1 h).1 b List.mem_cons_self
    have ih := hits_below r b f (List.pairwise_cons.1 h).2 (hf.trans hab)
    unfold hits at *
    rw [pairs, List.countP_cons_of_neg (by simp [hf]), ih]

theorem hits_one : ∀ (r : List ℝ) (a f z : ℝ), (a :: r).Pairwise (· < ·) → a < f → f ∉ r → z ∈ r → f < z →
    hits (pairs (a :: r)) f = 1
  | [], _, _, _, _, _, _, hz, _ => by simp at hz
  | b :: r, a, f, z, h, ha, hn, hz, hfz => by
    have hs := (List.pairwise_cons.1 h).2
    have hb : f ≠ b := fun e => hn (e ▸ List.mem_cons_self)
    rcases lt_or_gt_of_ne hb with hlt | hgt
    · have h0 := hits_below r b f hs hlt
      unfold hits at *
      rw [pairs, List.countP_cons_of_pos (by simp [ha.le, hlt.le]), h0]
    · have hz' : z ∈ r := by
        rcases List.mem_cons.1 hz with rfl | h'
        · linarith
        · exact h'
      have ih := hits_one r b f z hs hgt (fun h' => hn (List.mem_cons_of_mem _ h')) hz' hfz
      unfold hits at *
      rw [pairs, List.countP_cons_of_neg (by simp [hgt]), ih]

/-- A frequency within the bands and not on an edge belongs to exactly one of them. -/
theorem C119_one_band_partial (f : ℝ) (h0 : 14 < f) (h1 : f < 11200) (hn : f ∉ lowerFrequencies) :
    hits (lowerFrequencies.zip upperFrequencies) f = 1 := by
  rw [C119_edges]
  have hs := edges_sorted
  apply hits_one _ 14 f 11200 hs h0 _ _ h1
  · intro hm
    have : f ∈ edges := List.mem_cons_of_mem _ hm
    rcases List.mem_append.1 this with h | h
    · exact hn h
    · simp at h; linarith
  · exact List.mem_append_right _ (by simp)

open Classical in
/-- Energy of the harmonics in a band. -/
noncomputable def inBand (hs : List Tone) (b : ℝ × ℝ) : List ℝ :=
  (hs.filter fun h => b.1 ≤ h.f ∧ h.f ≤ b.2).map Tone.L

theorem energy_split (B : List (ℝ × ℝ)) : ∀ hs : List Tone,
    (B.map fun b => ((inBand hs b).map power).sum).sum = (hs.map fun h => hits B h.f * power h.L).sum
  | [] => by simp [inBand]
  | h :: hs => by
    have ih := energy_split B hs
    rw [List.map_cons, List.sum_cons, ← ih]
    clear ih
    induction B with
    | nil => simp [hits]
    | cons b B ihB =>
      rw [List.map_cons, List.sum_cons, ihB, List.map_cons, List.sum_cons]
      unfold hits inBand
      by_cases hb : b.1 ≤ h.f ∧ h.f ≤ b.2
      · rw [List.filter_cons_of_pos (by simpa using hb), List.countP_cons_of_pos (by simpa using hb)]
        simp only [List.map_cons, List.sum_cons]
        push_cast; ring
      · rw [List.filter_cons_of_neg (by simpa using hb), List.countP_cons_of_neg (by simpa using hb)]
        ring

open Classical in
/-- The energy of the harmonics is what the bands with a harmonic hold together, for bands each frequency falls
into once. -/
theorem bands_total (lf uf : List ℝ) (hs : List Tone) (h : ∀ x ∈ hs, hits (lf.zip uf) x.f = 1) :
    total (((lf.zip uf).filter fun b => ∃ x ∈ hs, b.1 ≤ x.f ∧ x.f ≤ b.2).map fun b => band hs b.1 b.2)
      = total (hs.map Tone.L) := by
  set B := lf.zip uf with hB
  have e1 : (hs.map fun h => (hits B h.f : ℝ) * power h.L).sum = ((hs.map Tone.L).map power).sum := by
    rw [List.map_map]
    congr 1
    apply List.map_congr_left
    intro x hx
    simp [h x hx, Function.comp]
  rw [← energy_split] at e1
  have e2 : ∀ C : List (ℝ × ℝ), (((C.filter fun b => ∃ x ∈ hs, b.1 ≤ x.f ∧ x.f ≤ b.2).map fun b => band hs b.1 b.2).map power).sum
      = (C.map fun b => ((inBand hs b).map power).sum).sum := by
    intro C
    induction C with
    | nil => simp
    | cons b C ih =>
      by_cases hb : ∃ x ∈ hs, b.1 ≤ x.f ∧ x.f ≤ b.2
      · rw [List.filter_cons_of_pos (by simpa using hb)]
        simp only [List.map_cons, List.sum_cons, ih]
        congr 1
        obtain ⟨x, hx, hxb⟩ := hb
        have hne : inBand hs b ≠ [] := by
          unfold inBand
          intro hc
          rw [List.map_eq_nil_iff, List.filter_eq_nil_iff] at hc
          exact hc x hx (by simpa using hxb)
        have : band hs b.1 b.2 = level ((inBand hs b).map power).sum := by
          unfold band
          rw [show ((hs.filter fun h => b.1 ≤ h.f ∧ h.f ≤ b.2).map Tone.L) = inBand hs b from rfl, total_eq hne]
          rfl
        rw [this, power_level (sum_pos_of_ne _ hne)]
      · rw [List.filter_cons_of_neg (by simpa using hb), ih]
        have hne : inBand hs b = [] := by
          unfold inBand
          rw [List.map_eq_nil_iff, List.filter_eq_nil_iff]
          intro x hx hxb
          exact hb ⟨x, hx, by simpa using hxb⟩
        simp [hne]
  have e3 := (e2 B).trans e1
  by_cases hs0 : hs = []
  · subst hs0; simp
  · have hne : hs.map Tone.L ≠ [] := by simpa using hs0
    have hne' : (B.filter fun b => ∃ x ∈ hs, b.1 ≤ x.f ∧ x.f ≤ b.2).map (fun b => band hs b.1 b.2) ≠ [] := by
      intro hc
      rw [hc] at e3
      have := sum_pos_of_ne _ hne
      simp at e3
      simp at this
      linarith
    rw [total_eq hne, total_eq hne', e3]

open Classical in
/-- With the default bands no energy is lost or counted twice, for harmonics from 14 Hz to 11.2 kHz off the edges of
the bands.  Only bands with a harmonic are added. -/
theorem C119_total_partial (hs : List Tone) (h : ∀ x ∈ hs, 14 < x.f ∧ x.f < 11200 ∧ x.f ∉ lowerFrequencies) :
    total (((lowerFrequencies.zip upperFrequencies).filter fun b => ∃ x ∈ hs, b.1 ≤ x.f ∧ x.f ≤ b.2).map
      fun b => band hs b.1 b.2) = total (hs.map Tone.L) :=
  bands_total _ _ _ fun x hx => C119_one_band_partial x.f (h x hx).1 (h x hx).2.1 (h x hx).2.2

example : ∀ x ∈ [Tone.mk 100 80, Tone.mk 200 70], 14 < x.f ∧ x.f < 11200 ∧ x.f ∉ lowerFrequencies := by
  unfold lowerFrequencies
  norm_num

/-- A tone on an edge is counted in both bands. -/
theorem C119_edge_counterexample :
    ¬ ∀ f : ℝ, 14 < f → f < 11200 → hits (lowerFrequencies.zip upperFrequencies) f = 1 := by
  intro h
  have := h 18 (by norm_num) (by norm_num)
  rw [C119_edges, hits, edges, lowerFrequencies] at this
  norm_num [pairs, List.countP_cons] at this

/-- Bands without a tone read zero decibels, which is not silence: all bands together are louder than the tone. -/
theorem C119_silence_counterexample :
    ¬ ∀ hs : List Tone, hs ≠ [] → (∀ x ∈ hs, 14 < x.f ∧ x.f < 11200 ∧ x.f ∉ lowerFrequencies) →
      total (thirdOctave lowerFrequencies upperFrequencies hs) = total (hs.map Tone.L) := by
  intro h
  have hq : ∀ x ∈ [Tone.mk 100 0], 14 < x.f ∧ x.f < 11200 ∧ x.f ∉ lowerFrequencies := by
    unfold lowerFrequencies; norm_num
  have h1 := h [⟨100, 0⟩] (by simp) hq
  rw [List.map_cons, List.map_nil, C117_single] at h1
  have hall : ∀ b : ℝ × ℝ, band [⟨100, 0⟩] b.1 b.2 = 0 := by
    intro b
    unfold band
    by_cases hb : b.1 ≤ 100 ∧ 100 ≤ b.2
    · rw [List.filter_cons_of_pos (by simpa using hb)]
      simp [C117_single]
    · rw [List.filter_cons_of_neg (by simpa using hb)]
      simp [total]
  have hl : thirdOctave lowerFrequencies upperFrequencies [⟨100, 0⟩] = List.replicate 29 0 := by
    unfold thirdOctave
    simp only [hall, List.map_const']
    rfl
  rw [hl, C117_equal 29 0 (by norm_num), Option.some_inj] at h1
  have : (0 : ℝ) < logb 10 (29 : ℕ) := logb_pos (by norm_num) (by norm_num)
  linarith

end Verif.Noise
