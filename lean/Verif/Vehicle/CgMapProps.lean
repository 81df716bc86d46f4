import Verif.Vehicle.CgMap
import Mathlib.Tactic.FieldSimp
import Mathlib.Tactic.Linarith
import Mathlib.Tactic.Positivity
import Mathlib.Tactic.NormNum

/-! Proofs for C456. -/

namespace Verif.Vehicle.CgMap

/-- Spec: metres in a unit of length. -/
noncomputable def metres : String → Option ℝ
  | "m" => some 1
  | "ft" => some 0.3048
  | "in" => some 0.0254
  | _ => none

/-- Spec: kilograms in a unit of mass. -/
noncomputable def kilograms : String → Option ℝ
  | "kg" => some 1
  | "lb" => some 0.45359237
  | _ => none

/-- Spec: the drawn row is the row handed back, in units of `l` metres and `k` kilograms. -/
def Shows (l k : ℝ) (d r : MapRow) : Prop := d.mass * k = r.mass ∧ d.lo * l = r.lo ∧ d.hi * l = r.hi

theorem mapM_forall₂ {β γ : Type} (f : β → Option γ) (R : γ → β → Prop) (h : ∀ b c, f b = some c → R c b) :
    ∀ (l : List β) (m : List γ), l.mapM f = some m → List.Forall₂ R m l := by
  intro l
  induction l with
  | nil => intro m hm; simp at hm; subst hm; exact List.Forall₂.nil
  | cons b l ih =>
    intro m hm
    simp only [List.mapM_cons, Option.pure_def, Option.bind_eq_bind, Option.bind_eq_some_iff, Option.some.injEq] at hm
    obtain ⟨c, hc, m', hm', rfl⟩ := hm
    exact List.Forall₂.cons (h b c hc) (ih m' hm')

/-- C456: the axes name a unit of length and of mass, and every row is drawn in these units. -/
theorem C456_units (rows : List MapRow) (hne : rows ≠ []) (e ecg : ℝ) (units : String) (special : Option String) (f : CgFigure)
    (h : plotCgMap rows e ecg units special = some f) :
    ∃ s l k, f.length = some s ∧ metres s = some l ∧ kilograms f.mass = some k ∧ f.drawn.Forall₂ (Shows l k) f.back ∧
      f.back.length = rows.length := by
  simp only [plotCgMap, Option.bind_eq_bind, Option.bind_eq_some_iff, Option.pure_def, Option.some.injEq] at h
  obtain ⟨⟨ln, mn⟩, hu, drawn, hd, rfl⟩ := h
  obtain ⟨r, rows', rfl⟩ := List.exists_cons_of_ne_nil hne
  by_cases h1 : units = "metric"
  · subst h1
    simp only [unitNames, if_true, Option.some.injEq, Prod.mk.injEq] at hu
    obtain ⟨rfl, rfl⟩ := hu
    refine ⟨"m", 1, 1, rfl, rfl, rfl, mapM_forall₂ _ _ ?_ _ _ hd, by simp⟩
    intro b c hc
    simp only [drawnRow, if_true, Option.some.injEq] at hc
    subst hc
    exact ⟨mul_one _, mul_one _, mul_one _⟩
  · by_cases h2 : units = "imperial"
    · subst h2
      by_cases h3 : special = none
      · subst h3
        have hu' : unitNames "imperial" none = some (some "ft", "lb") := rfl
        rw [hu'] at hu
        simp only [Option.some.injEq, Prod.mk.injEq] at hu
        obtain ⟨rfl, rfl⟩ := hu
        refine ⟨"ft", 0.3048, 0.45359237, rfl, rfl, rfl, mapM_forall₂ _ _ ?_ _ _ hd, by simp⟩
        intro b c hc
        rw [drawnRow, if_neg (by decide), if_pos ⟨rfl, rfl⟩, Option.some.injEq] at hc
        subst hc
        exact ⟨by simp only; norm_num, by simp only; norm_num, by simp only; norm_num⟩
      · by_cases h4 : special = some "inches"
        · subst h4
          have hu' : unitNames "imperial" (some "inches") = some (some "in", "lb") := rfl
          rw [hu'] at hu
          simp only [Option.some.injEq, Prod.mk.injEq] at hu
          obtain ⟨rfl, rfl⟩ := hu
          refine ⟨"in", 0.0254, 0.45359237, rfl, rfl, rfl, mapM_forall₂ _ _ ?_ _ _ hd, by simp⟩
          intro b c hc
          rw [drawnRow, if_neg (by decide), if_neg (by simp), if_pos ⟨rfl, rfl⟩, Option.some.injEq] at hc
          subst hc
          exact ⟨by simp only; norm_num, by simp only; norm_num, by simp only; norm_num⟩
        · exfalso
          have : drawnRow "imperial" special (withEmpty e ecg r) = none := by
            rw [drawnRow, if_neg (by decide), if_neg (by simp [h3]), if_neg (by simp [h4])]
          simp only [List.map_cons, List.mapM_cons, this, Option.bind_eq_bind, Option.bind_none] at hd
          exact absurd hd (by simp)
    · simp [unitNames, h1, h2] at hu

/-- C456: the three choices of units documented give a figure, whatever the rows; other units give none. -/
theorem C456_choices (rows : List MapRow) (e ecg : ℝ) (units : String) (special : Option String) :
    ((units = "metric" ∨ units = "imperial" ∧ (special = none ∨ special = some "inches")) →
        ∃ f, plotCgMap rows e ecg units special = some f) ∧
      (units ≠ "metric" → units ≠ "imperial" → plotCgMap rows e ecg units special = none) := by
  have key : ∀ (g : MapRow → Option MapRow) (l : List MapRow), (∀ r, ∃ d, g r = some d) → ∃ m, l.mapM g = some m := by
    intro g l hg
    induction l with
    | nil => exact ⟨[], by simp⟩
    | cons a l ih =>
      obtain ⟨b, hb⟩ := hg a
      obtain ⟨m, hm⟩ := ih
      exact ⟨b :: m, by simp [List.mapM_cons, hb, hm]⟩
  constructor
  · rintro (rfl | ⟨rfl, rfl | rfl⟩)
    · obtain ⟨m, hm⟩ := key (drawnRow "metric" special) (rows.map (withEmpty e ecg)) fun r => ⟨r, by simp [drawnRow]⟩
      exact ⟨⟨some "m", "kg", m, rows.map (withEmpty e ecg)⟩, by simp [plotCgMap, unitNames, hm]⟩
    · obtain ⟨m, hm⟩ := key (drawnRow "imperial" none) (rows.map (withEmpty e ecg)) fun r => ⟨_, by rw [drawnRow, if_neg (by decide), if_pos ⟨rfl, rfl⟩]⟩
      exact ⟨⟨some "ft", "lb", m, rows.map (withEmpty e ecg)⟩, by simp [plotCgMap, unitNames, hm]⟩
    · obtain ⟨m, hm⟩ := key (drawnRow "imperial" (some "inches")) (rows.map (withEmpty e ecg)) fun r => ⟨_, by
        rw [drawnRow, if_neg (by decide), if_neg (by simp), if_pos ⟨rfl, rfl⟩]⟩
      exact ⟨⟨some "in", "lb", m, rows.map (withEmpty e ecg)⟩, by simp [plotCgMap, unitNames, hm]⟩
  · intro h1 h2
    simp [plotCgMap, unitNames, h1, h2]

/-- Spec: the centre of gravity of fuel `m` at `c` and an empty vehicle of mass `e` at `ecg`. -/
def IsCentre (m c e ecg x : ℝ) : Prop := x * (m + e) = c * m + ecg * e

/-- C456: the limits handed back are those of the whole vehicle, the fuel and the empty vehicle together: attained with the fuel at its own
limits, and never exceeded in between. -/
theorem C456_whole (e ecg : ℝ) (he : 0 ≤ e) (r : MapRow) (hm : 0 < r.mass) :
    (withEmpty e ecg r).mass = r.mass + e ∧ IsCentre r.mass r.lo e ecg (withEmpty e ecg r).lo ∧
      IsCentre r.mass r.hi e ecg (withEmpty e ecg r).hi ∧
      ∀ c x, r.lo ≤ c → c ≤ r.hi → IsCentre r.mass c e ecg x → (withEmpty e ecg r).lo ≤ x ∧ x ≤ (withEmpty e ecg r).hi := by
  have hp : 0 < r.mass + e := by linarith
  have h1 : (withEmpty e ecg r).mass = r.mass + e := by
    unfold withEmpty
    by_cases h : e = 0 <;> simp [h]
  have h2 : IsCentre r.mass r.lo e ecg (withEmpty e ecg r).lo := by
    unfold withEmpty IsCentre
    by_cases h : e = 0
    · simp [h]
    · simp only [ne_eq, h, not_false_eq_true, if_true]
      field_simp
  have h3 : IsCentre r.mass r.hi e ecg (withEmpty e ecg r).hi := by
    unfold withEmpty IsCentre
    by_cases h : e = 0
    · simp [h]
    · simp only [ne_eq, h, not_false_eq_true, if_true]
      field_simp
  refine ⟨h1, h2, h3, fun c x hlo hhi hx => ?_⟩
  unfold IsCentre at h2 h3 hx
  have a : r.lo * r.mass ≤ c * r.mass := mul_le_mul_of_nonneg_right hlo hm.le
  have b : c * r.mass ≤ r.hi * r.mass := mul_le_mul_of_nonneg_right hhi hm.le
  exact ⟨le_of_mul_le_mul_right (by linarith) hp, le_of_mul_le_mul_right (by linarith) hp⟩

/-- 2 t of fuel between 10 m and 14 m in a vehicle of 8 t at 11 m. -/
example : IsCentre 2000 10 8000 11 (withEmpty 8000 11 ⟨2000, 10, 14⟩).lo := (C456_whole 8000 11 (by norm_num) ⟨2000, 10, 14⟩ (by norm_num)).2.1

example : ∃ f, plotCgMap [⟨2000, 10, 14⟩] 8000 11 "imperial" none = some f ∧ f.length = some "ft" := by
  obtain ⟨f, hf⟩ := (C456_choices [⟨2000, 10, 14⟩] 8000 11 "imperial" none).1 (Or.inr ⟨rfl, Or.inl rfl⟩)
  refine ⟨f, hf, ?_⟩
  simp only [plotCgMap, Option.bind_eq_bind, Option.bind_eq_some_iff, Option.pure_def, Option.some.injEq] at hf
  obtain ⟨⟨ln, mn⟩, hu, drawn, hd, rfl⟩ := hf
  have hu' : unitNames "imperial" none = some (some "ft", "lb") := rfl
  rw [hu'] at hu
  simp only [Option.some.injEq, Prod.mk.injEq] at hu
  exact hu.1.symm

end Verif.Vehicle.CgMap
