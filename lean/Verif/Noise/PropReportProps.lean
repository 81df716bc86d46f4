import Verif.Noise.PropReport
import Verif.Noise.ReportProps

/-! Proofs for C449. -/

namespace Verif.Noise.Report

/-- Spec: the value announced by a heading at a step, in the unit of the table, `none` for headings that are not known; `a` is the speed
of sound. -/
noncomputable def propAnnounced (h : PropHistory) (a : ℝ) (i : ℕ) : String → Option ℝ
  | "time" => h.time[i]?
  | "altitude" => h.altitude[i]?
  | "Mach" => h.speed[i]?.map (· / a)
  | "RPM" => h.rpm[i]?
  | "Polar_angle" => h.theta[i]?.map (· * (180 / Real.pi))
  | "distance" => h.dist[i]?
  | "PNL" => h.pnl[i]?
  | "dBA" => h.dba[i]?
  | _ => none

theorem propRow_some (h : PropHistory) (i : ℕ) (r : List ℝ) (hr : propRow h i = some r) :
    ∃ t a v n p d l w, h.time[i]? = some t ∧ h.altitude[i]? = some a ∧ h.speed[i]? = some v ∧ h.rpm[i]? = some n ∧ h.theta[i]? = some p ∧
      h.dist[i]? = some d ∧ h.pnl[i]? = some l ∧ h.dba[i]? = some w ∧
      r = [fixed 2 t, fixed 2 a, fixed 2 v, fixed 2 n, fixed 2 (p * 180 / Real.pi), fixed 2 d, fixed 2 l, fixed 2 w] := by
  simp only [propRow, Option.bind_eq_bind, Option.bind_eq_some_iff, Option.pure_def, Option.some.injEq] at hr
  obtain ⟨t, ht, a, ha, v, hv, n, hn, p, hp, d, hd, l, hl, w, hw, rfl⟩ := hr
  exact ⟨t, a, v, n, p, d, l, w, ht, ha, hv, hn, hp, hd, hl, hw, rfl⟩

theorem near2 (x : ℝ) : |fixed 2 x - x| ≤ 1 / 200 := (fixed_near 2 x).trans (by norm_num)

theorem propReport_some (h : PropHistory) (steps : ℕ) (rep : PropReport) (hr : propReport h steps = some rep) :
    ∃ v, h.speed.getLast? = some v ∧ rep.knots = fixed 2 (v / (1852 / 3600)) ∧ (List.range steps).mapM (propRow h) = some rep.rows ∧
      printMax h.pnl = some rep.maxPNL ∧ printMax h.dba = some rep.maxDBA := by
  simp only [propReport, Option.bind_eq_bind, Option.bind_eq_some_iff, Option.pure_def, Option.some.injEq] at hr
  obtain ⟨v, hv, rows, hrows, m, hm, w, hw, rfl⟩ := hr
  exact ⟨v, hv, rfl, hrows, hm, hw⟩

/-- C449, in part: one row for each step and as many numbers as headings; below every heading other than Mach stands the quantity announced,
at that step, to half of the second decimal. -/
theorem C449_rows_partial (h : PropHistory) (a : ℝ) (steps : ℕ) (rep : PropReport) (hr : propReport h steps = some rep) :
    rep.rows.length = steps ∧ ∀ i < steps, ∃ r, rep.rows[i]? = some r ∧ r.length = propHead.length ∧
      ∀ (j : ℕ) (s : String), propHead[j]? = some s → s ≠ "Mach" →
        ∃ x v, propAnnounced h a i s = some x ∧ r[j]? = some v ∧ |v - x| ≤ 1 / 200 := by
  obtain ⟨-, -, -, hm, -, -⟩ := propReport_some h steps rep hr
  obtain ⟨h1, h2⟩ := mapM_get _ _ _ hm
  refine ⟨by simpa using h1, fun i hi => ?_⟩
  obtain ⟨r, hri, hrow⟩ := h2 i i (by simp [List.getElem?_range hi])
  obtain ⟨t, al, v, n, p, d, l, w, ht, ha, hv, hn, hp, hd, hl, hw, rfl⟩ := propRow_some h i r hrow
  refine ⟨_, hri, rfl, fun j s hj hs => ?_⟩
  have hj8 : j < 8 := (List.getElem?_eq_some_iff.mp hj).1
  match j, hj8 with
  | 0, _ => cases hj; exact ⟨t, _, ht, rfl, near2 t⟩
  | 1, _ => cases hj; exact ⟨al, _, ha, rfl, near2 al⟩
  | 2, _ => cases hj; exact absurd rfl hs
  | 3, _ => cases hj; exact ⟨n, _, hn, rfl, near2 n⟩
  | 4, _ =>
    cases hj
    refine ⟨p * (180 / Real.pi), _, by simp [propAnnounced, hp], rfl, ?_⟩
    rw [← mul_div_assoc]; exact near2 _
  | 5, _ => cases hj; exact ⟨d, _, hd, rfl, near2 d⟩
  | 6, _ => cases hj; exact ⟨l, _, hl, rfl, near2 l⟩
  | 7, _ => cases hj; exact ⟨w, _, hw, rfl, near2 w⟩

/-- C449 fails: below the heading Mach stands the speed itself, more than ten times the Mach number whenever the aircraft flies a
metre a second or more and sound travels twenty metres a second or more. -/
theorem C449_mach_counterexample (h : PropHistory) (a : ℝ) (ha : 20 ≤ a) (steps : ℕ) (rep : PropReport) (hr : propReport h steps = some rep)
    (i : ℕ) (hi : i < steps) (v : ℝ) (hv : h.speed[i]? = some v) (h1 : 1 ≤ v) :
    propHead[2]? = some "Mach" ∧ ∃ r u, rep.rows[i]? = some r ∧ r[2]? = some u ∧ |u - v| ≤ 1 / 200 ∧ 10 * (v / a) < u := by
  obtain ⟨-, -, -, hm, -, -⟩ := propReport_some h steps rep hr
  obtain ⟨-, h2⟩ := mapM_get _ _ _ hm
  obtain ⟨r, hri, hrow⟩ := h2 i i (by simp [List.getElem?_range hi])
  obtain ⟨t, al, v', n, p, d, l, w, -, -, hv', -, -, -, -, -, rfl⟩ := propRow_some h i r hrow
  rw [hv] at hv'
  cases hv'
  refine ⟨rfl, _, fixed 2 v, hri, rfl, near2 v, ?_⟩
  have h3 := abs_le.mp (near2 v)
  have h4 : v / a ≤ v / 20 := div_le_div_of_nonneg_left (by linarith) (by norm_num) ha
  linarith [h3.1]

/-- C449: the speed above the table is the last of the history, in knots (1852 m in 3600 s), and the maxima below are the largest of the
numbers printed. -/
theorem C449_ends (h : PropHistory) (steps : ℕ) (rep : PropReport) (hr : propReport h steps = some rep) :
    (∃ v, h.speed.getLast? = some v ∧ |rep.knots * 1852 - v * 3600| ≤ 10) ∧
      (rep.maxPNL ∈ h.pnl.map (fixed 2) ∧ ∀ y ∈ h.pnl.map (fixed 2), y ≤ rep.maxPNL) ∧
      (rep.maxDBA ∈ h.dba.map (fixed 2) ∧ ∀ y ∈ h.dba.map (fixed 2), y ≤ rep.maxDBA) := by
  obtain ⟨v, hv, hk, -, hm, hw⟩ := propReport_some h steps rep hr
  refine ⟨⟨v, hv, ?_⟩, C434_max _ _ hm, C434_max _ _ hw⟩
  have h3 := abs_le.mp (near2 (v / (1852 / 3600)))
  have e : v / (1852 / 3600) * 1852 = v * 3600 := by ring
  rw [hk, abs_le]
  constructor <;> nlinarith [h3.1, h3.2]

/-- C449: the report is written for every history with a value of each quantity at each step and at least one step. -/
theorem C449_written (h : PropHistory) (steps : ℕ) (hs : 0 < steps) (h1 : h.speed.length = steps) (h2 : h.time.length = steps)
    (h3 : h.altitude.length = steps) (h4 : h.rpm.length = steps) (h5 : h.theta.length = steps) (h6 : h.dist.length = steps)
    (h7 : h.pnl.length = steps) (h8 : h.dba.length = steps) : ∃ rep, propReport h steps = some rep := by
  have key : ∀ {α β : Type} (f : α → Option β) (l : List α), (∀ a ∈ l, ∃ b, f a = some b) → ∃ m, l.mapM f = some m := by
    intro α β f l
    induction l with
    | nil => intro _; exact ⟨[], by simp⟩
    | cons a l ih =>
      intro hl
      obtain ⟨b, hb⟩ := hl a (by simp)
      obtain ⟨m, hm⟩ := ih fun c hc => hl c (by simp [hc])
      exact ⟨b :: m, by simp [List.mapM_cons, hb, hm]⟩
  obtain ⟨rows, hrows⟩ := key (propRow h) (List.range steps) fun i hi => by
    have hi' := List.mem_range.mp hi
    simp only [propRow, List.getElem?_eq_getElem (h1 ▸ hi' : i < h.speed.length), List.getElem?_eq_getElem (h2 ▸ hi' : i < h.time.length),
      List.getElem?_eq_getElem (h3 ▸ hi' : i < h.altitude.length), List.getElem?_eq_getElem (h4 ▸ hi' : i < h.rpm.length),
      List.getElem?_eq_getElem (h5 ▸ hi' : i < h.theta.length), List.getElem?_eq_getElem (h6 ▸ hi' : i < h.dist.length),
      List.getElem?_eq_getElem (h7 ▸ hi' : i < h.pnl.length), List.getElem?_eq_getElem (h8 ▸ hi' : i < h.dba.length)]
    exact ⟨_, rfl⟩
  have hmax : ∀ xs : List ℝ, xs.length = steps → ∃ m, printMax xs = some m := by
    intro xs hx
    cases hm : xs.max? with
    | none => rw [List.max?_eq_none_iff] at hm; subst hm; simp at hx; omega
    | some m => exact ⟨_, by unfold printMax; rw [hm]; rfl⟩
  obtain ⟨m, hm⟩ := hmax _ h7
  obtain ⟨w, hw⟩ := hmax _ h8
  have hne : h.speed ≠ [] := by
    intro e; rw [e] at h1; simp at h1; omega
  obtain ⟨v, hv⟩ : ∃ v, h.speed.getLast? = some v := ⟨_, List.getLast?_eq_some_getLast hne⟩
  refine ⟨⟨fixed 2 (v / (1852 / 3600)), rows, m, w⟩, ?_⟩
  simp only [propReport, hv, hrows, hm, hw]
  rfl

/-- Two steps past a microphone. -/
example : ∃ rep, propReport ⟨[60, 62], [0, 1], [300, 300], [2400, 2400], [1, 2], [310, 305], [80, 82], [70, 73]⟩ 2 = some rep ∧
    rep.rows.length = 2 := by
  obtain ⟨rep, h⟩ := C449_written ⟨[60, 62], [0, 1], [300, 300], [2400, 2400], [1, 2], [310, 305], [80, 82], [70, 73]⟩ 2 (by norm_num)
    rfl rfl rfl rfl rfl rfl rfl rfl
  exact ⟨rep, h, (C449_rows_partial _ 340 2 rep h).1⟩

end Verif.Noise.Report
