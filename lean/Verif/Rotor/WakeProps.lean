import Verif.Rotor.Wake
import Mathlib.Tactic.Linarith
import Mathlib.Tactic.FieldSimp
import Mathlib.Tactic.Positivity
import Mathlib.Tactic.LinearCombination

/-! Wake contraction, slipstream and propeller design (C188-C190). -/

namespace Verif.Rotor
open Real Verif.Num

/-! ### C188: wake contraction -/

theorem develop_disc (R : ℝ) : develop 0 R = 1 := by simp [develop]

theorem abs_lt_hyp (s R : ℝ) (hR : R ≠ 0) : |s| < sqrt (s ^ 2 + R ^ 2) := by
  rw [← sqrt_sq_eq_abs]
  apply sqrt_lt_sqrt (sq_nonneg _)
  have : 0 < R ^ 2 := by positivity
  linarith

theorem develop_range (s R : ℝ) (hR : R ≠ 0) : 0 < develop s R ∧ develop s R < 2 := by
  have h := abs_lt.1 (abs_lt_hyp s R hR)
  have hp : 0 < sqrt (s ^ 2 + R ^ 2) := sqrt_pos.2 (by positivity)
  unfold develop
  constructor
  · have : -1 < s / sqrt (s ^ 2 + R ^ 2) := by rw [lt_div_iff₀ hp]; linarith
    linarith
  · have : s / sqrt (s ^ 2 + R ^ 2) < 1 := by rw [div_lt_one hp]; linarith
    linarith

/-- Each streamtube between two stations carries the same flow far behind the disc as at the disc, with the mean induced
velocity `d/2` at the disc and `Kd d/2` behind it. -/
theorem C188_mass (R0 VX Kd : ℝ) (r va : ℕ → ℝ) (j : ℕ) (hr : r j ^ 2 ≤ r (j + 1) ^ 2)
    (hd : 0 ≤ VX + (va j + va (j + 1)) / 2) (hK : 0 < VX + Kd * ((va j + va (j + 1)) / 2)) :
    (rPrime R0 VX Kd r va (j + 1) ^ 2 - rPrime R0 VX Kd r va j ^ 2) * (VX + Kd * ((va j + va (j + 1)) / 2)) =
      (r (j + 1) ^ 2 - r j ^ 2) * (VX + (va j + va (j + 1)) / 2) := by
  have hk : 0 ≤ kv VX Kd va j := by
    unfold kv
    apply div_nonneg <;> linarith
  have e : rPrime R0 VX Kd r va (j + 1) ^ 2 = rPrime R0 VX Kd r va j ^ 2 + (r (j + 1) ^ 2 - r j ^ 2) * kv VX Kd va j := by
    rw [rPrime, sq_sqrt (add_nonneg (sq_nonneg _) (mul_nonneg (by linarith) hk))]
  rw [e]
  have hK' : 2 * VX + Kd * (va (j + 1) + va j) ≠ 0 := by
    have : 0 < 2 * VX + Kd * (va (j + 1) + va j) := by linarith
    exact this.ne'
  have hk2 : kv VX Kd va j * (2 * VX + Kd * (va (j + 1) + va j)) = 2 * VX + (va (j + 1) + va j) := by
    unfold kv
    exact div_mul_cancel₀ _ hK'
  linear_combination (r (j + 1) ^ 2 - r j ^ 2) / 2 * hk2

/-- Without induced velocity, or at the disc itself, the wake keeps its width. -/
theorem C188_no_contraction (VX s R : ℝ) (r va : ℕ → ℝ) (hr : ∀ i, 0 < r i)
    (h : (s = 0 ∧ ∀ j, 2 * VX + (va (j + 1) + va j) ≠ 0) ∨ ((∀ i, va i = 0) ∧ VX ≠ 0)) (j : ℕ) :
    contraction (r 0) VX (develop s R) r va j = 1 := by
  have hk : ∀ j, kv VX (develop s R) va j = 1 := by
    intro j
    unfold kv
    rcases h with ⟨rfl, h⟩ | ⟨h, hV⟩
    · rw [develop_disc, one_mul, div_self (h j)]
    · rw [h, h]
      simp [hV]
  have hp : ∀ j, rPrime (r 0) VX (develop s R) r va j = r j := by
    intro j
    induction j with
    | zero => rfl
    | succ j ih =>
      rw [rPrime, ih, hk, show r j ^ 2 + (r (j + 1) ^ 2 - r j ^ 2) * 1 = r (j + 1) ^ 2 by ring]
      exact sqrt_sq (hr _).le
  unfold contraction
  rw [hp, div_self (hr j).ne']

/-- Behind a rotor that accelerates the flow the wake contracts, by less than the square root of two. -/
theorem C188_contracts (VX s R : ℝ) (hR : R ≠ 0) (hs : 0 ≤ s) (r va : ℕ → ℝ) (hr : ∀ i, 0 < r i)
    (hm : ∀ i, r i ≤ r (i + 1)) (hva : ∀ i, 0 ≤ va i) (hV : 0 < VX) (j : ℕ) :
    contraction (r 0) VX (develop s R) r va j ≤ 1 ∧ 1 ≤ sqrt 2 * contraction (r 0) VX (develop s R) r va j := by
  obtain ⟨-, hK2⟩ := develop_range s R hR
  have hK1 : 1 ≤ develop s R := by
    unfold develop
    have : 0 ≤ s / sqrt (s ^ 2 + R ^ 2) := by positivity
    linarith
  generalize develop s R = K at *
  have hk : ∀ j, kv VX K va j ≤ 1 ∧ 1 ≤ 2 * kv VX K va j := by
    intro j
    unfold kv
    have hd : 0 ≤ va (j + 1) + va j := add_nonneg (hva _) (hva _)
    have hp : 0 < 2 * VX + K * (va (j + 1) + va j) := by positivity
    constructor
    · rw [div_le_one hp]
      nlinarith
    · rw [← mul_div_assoc, le_div_iff₀ hp]
      nlinarith
  have hinv : ∀ j, 0 ≤ rPrime (r 0) VX K r va j ∧ rPrime (r 0) VX K r va j ^ 2 ≤ r j ^ 2 ∧
      r j ^ 2 ≤ 2 * rPrime (r 0) VX K r va j ^ 2 := by
    intro j
    induction j with
    | zero => exact ⟨(hr 0).le, le_rfl, by rw [rPrime]; nlinarith [sq_nonneg (r 0)]⟩
    | succ j ih =>
      obtain ⟨-, h1, h2⟩ := ih
      obtain ⟨k1, k2⟩ := hk j
      have hd : 0 ≤ r (j + 1) ^ 2 - r j ^ 2 := by nlinarith [hr j, hm j]
      have e : rPrime (r 0) VX K r va (j + 1) ^ 2 =
          rPrime (r 0) VX K r va j ^ 2 + (r (j + 1) ^ 2 - r j ^ 2) * kv VX K va j := by
        rw [rPrime, sq_sqrt (add_nonneg (sq_nonneg _) (mul_nonneg hd (by linarith)))]
      refine ⟨sqrt_nonneg _, ?_, ?_⟩
      · rw [e]; nlinarith
      · rw [e]; nlinarith
  obtain ⟨h0, h1, h2⟩ := hinv j
  unfold contraction
  constructor
  · rw [div_le_one (hr j)]
    exact abs_le_of_sq_le_sq' h1 (hr j).le |>.2
  · rw [← mul_div_assoc, le_div_iff₀ (hr j), one_mul]
    apply abs_le_of_sq_le_sq' _ (by positivity) |>.2
    rw [mul_pow, sq_sqrt (by norm_num)]
    exact h2

/-- The order of the streamtubes is kept. -/
theorem C188_order (R0 VX Kd : ℝ) (h0 : 0 ≤ R0) (r va : ℕ → ℝ) (j : ℕ) (hr : r j ^ 2 ≤ r (j + 1) ^ 2)
    (hk : 0 ≤ kv VX Kd va j) : rPrime R0 VX Kd r va j ≤ rPrime R0 VX Kd r va (j + 1) := by
  have hp : 0 ≤ rPrime R0 VX Kd r va j := by
    cases j with
    | zero => exact h0
    | succ j => exact sqrt_nonneg _
  conv_lhs => rw [← sqrt_sq hp]
  rw [rPrime]
  apply sqrt_le_sqrt
  have : 0 ≤ (r (j + 1) ^ 2 - r j ^ 2) * kv VX Kd va j := mul_nonneg (by linarith) hk
  linarith

example : contraction 1 10 (develop 2 1) (fun i => (i : ℝ) + 1) (fun _ => 1) 3 ≤ 1 := by
  have h := (C188_contracts 10 2 1 (by norm_num) (by norm_num) (fun i => (i : ℝ) + 1) (fun _ => 1) (fun i => by positivity)
    (fun i => by push_cast; linarith) (fun _ => by norm_num) (by norm_num) 3).1
  simpa using h

/-! ### C189: slipstream -/

/-- The slipstream develops from the disc backwards: half-way at the disc, nothing far ahead and twice the value of the
disc far behind; always increasing. -/
theorem C189_development (s t R : ℝ) (hR : R ≠ 0) (h : s ≤ t) :
    develop 0 R = 1 ∧ 0 < develop s R ∧ develop t R < 2 ∧ develop s R ≤ develop t R := by
  refine ⟨develop_disc R, (develop_range s R hR).1, (develop_range t R hR).2, ?_⟩
  have hs := abs_lt.1 (abs_lt_hyp s R hR)
  have ht := abs_lt.1 (abs_lt_hyp t R hR)
  have hps : 0 < sqrt (s ^ 2 + R ^ 2) := sqrt_pos.2 (by positivity)
  have hpt : 0 < sqrt (t ^ 2 + R ^ 2) := sqrt_pos.2 (by positivity)
  have es : sqrt (s ^ 2 + R ^ 2) ^ 2 = s ^ 2 + R ^ 2 := sq_sqrt (by positivity)
  have et : sqrt (t ^ 2 + R ^ 2) ^ 2 = t ^ 2 + R ^ 2 := sq_sqrt (by positivity)
  unfold develop
  have : s / sqrt (s ^ 2 + R ^ 2) ≤ t / sqrt (t ^ 2 + R ^ 2) := by
    rw [div_le_div_iff₀ hps hpt]
    generalize sqrt (s ^ 2 + R ^ 2) = a at *
    generalize sqrt (t ^ 2 + R ^ 2) = b at *
    have key : (s * b) ^ 2 - (t * a) ^ 2 = R ^ 2 * (s ^ 2 - t ^ 2) := by
      rw [mul_pow, mul_pow, es, et]; ring
    by_contra hc
    push Not at hc
    rcases le_total 0 s with h0 | h0
    · have h2 : (t * a) ^ 2 < (s * b) ^ 2 := by
        have : 0 ≤ t * a := mul_nonneg (by linarith) hps.le
        nlinarith
      have : s ^ 2 ≤ t ^ 2 := by nlinarith
      nlinarith [sq_nonneg R]
    · rcases le_total 0 t with h1 | h1
      · have a1 : s * b ≤ 0 := mul_nonpos_of_nonpos_of_nonneg h0 hpt.le
        have a2 : 0 ≤ t * a := mul_nonneg h1 hps.le
        linarith
      · have a1 : s * b ≤ 0 := mul_nonpos_of_nonpos_of_nonneg h0 hpt.le
        have a2 : t * a ≤ 0 := mul_nonpos_of_nonpos_of_nonneg h1 hps.le
        have h2 : (s * b) ^ 2 < (t * a) ^ 2 := by nlinarith
        have : t ^ 2 ≤ s ^ 2 := by nlinarith
        nlinarith [sq_nonneg R]
  linarith

/-- Strictly increasing abscissae. -/
def Sorted (l : List (ℝ × ℝ)) : Prop := l.Pairwise fun p q => p.1 < q.1

theorem npInterp_append_right (l : List (ℝ × ℝ)) (p : ℝ × ℝ) (m : List (ℝ × ℝ)) (h : Sorted (l ++ p :: m)) (x : ℝ)
    (hx : p.1 ≤ x) : npInterp (l ++ p :: m) x = npInterp (p :: m) x := by
  induction l with
  | nil => rfl
  | cons a l ih =>
    have ht : Sorted (l ++ p :: m) := (List.pairwise_cons.1 h).2
    have ha := (List.pairwise_cons.1 h).1
    rw [← ih ht]
    have hap : a.1 < p.1 := ha p (by simp)
    cases l with
    | nil =>
      show npInterp (a :: p :: m) x = _
      rw [npInterp, if_neg (by linarith), if_neg (by linarith)]
      rfl
    | cons b l =>
      have hbp : b.1 < p.1 := (List.pairwise_cons.1 ht).1 p (by simp)
      show npInterp (a :: b :: (l ++ p :: m)) x = _
      rw [npInterp, if_neg (by linarith), if_neg (by linarith)]
      rfl

theorem npInterp_append_left (l : List (ℝ × ℝ)) (p : ℝ × ℝ) (m : List (ℝ × ℝ)) (h : Sorted (l ++ p :: m)) (x : ℝ)
    (hx : x ≤ p.1) : npInterp (l ++ p :: m) x = npInterp (l ++ [p]) x := by
  induction l with
  | nil =>
    cases m with
    | nil => rfl
    | cons q m => simp [npInterp, hx]
  | cons a l ih =>
    have ht : Sorted (l ++ p :: m) := (List.pairwise_cons.1 h).2
    have ih := ih ht
    cases l with
    | nil =>
      show npInterp (a :: p :: m) x = npInterp (a :: [p]) x
      simp only [List.nil_append] at ih
      rw [npInterp, npInterp, ih]
    | cons b l =>
      show npInterp (a :: b :: (l ++ p :: m)) x = npInterp (a :: b :: (l ++ [p])) x
      rw [npInterp, npInterp]
      split_ifs
      · rfl
      · rfl
      · exact ih

/-- The table read backwards. -/
def mirrored (y : ℝ) (l : List (ℝ × ℝ)) : List (ℝ × ℝ) := (l.map fun p => (y - p.1, p.2)).reverse

theorem mirrored_sorted (y : ℝ) (l : List (ℝ × ℝ)) (h : Sorted l) : Sorted (mirrored y l) := by
  unfold Sorted mirrored
  rw [List.pairwise_reverse, List.pairwise_map]
  exact h.imp fun h => by simpa using h

theorem npInterp_mirrored (y : ℝ) (l : List (ℝ × ℝ)) (h : Sorted l) (x : ℝ) (p : ℝ × ℝ) (hp : l.head? = some p)
    (hx : p.1 ≤ x) (b : ℝ × ℝ) (hb : l.getLast? = some b) (hxb : x ≤ b.1) :
    npInterp (mirrored y l) (y - x) = npInterp l x := by
  induction l generalizing p with
  | nil => simp at hp
  | cons a l ih =>
    simp only [List.head?_cons, Option.some.injEq] at hp
    subst hp
    cases l with
    | nil => simp [mirrored, npInterp]
    | cons q l =>
      have ht : Sorted (q :: l) := (List.pairwise_cons.1 h).2
      have hq : a.1 < q.1 := (List.pairwise_cons.1 h).1 q (by simp)
      have hb' : (q :: l).getLast? = some b := by rw [← hb, List.getLast?_cons_cons]
      have hs := mirrored_sorted y _ h
      have e : mirrored y (a :: q :: l) = mirrored y l ++ (y - q.1, q.2) :: [(y - a.1, a.2)] := by
        simp [mirrored]
      have e2 : mirrored y (q :: l) = mirrored y l ++ [(y - q.1, q.2)] := by
        simp [mirrored]
      by_cases h1 : q.1 ≤ x
      · rw [e] at hs ⊢
        rw [npInterp_append_left _ _ _ hs (y - x) (by show y - x ≤ y - q.1; linarith), ← e2, ih ht q rfl h1 hb']
        rw [npInterp, if_neg (by linarith), if_neg (by linarith)]
      · push Not at h1
        rw [e] at hs ⊢
        rw [npInterp_append_right _ _ _ hs (y - x) (by show y - q.1 ≤ y - x; linarith)]
        have hR : npInterp (a :: q :: l) x = if x ≤ a.1 then a.2
            else if x < q.1 then a.2 + (q.2 - a.2) / (q.1 - a.1) * (x - a.1) else npInterp (q :: l) x := by rw [npInterp]
        rw [hR, npInterp, if_neg (by show ¬ y - x ≤ y - q.1; linarith)]
        by_cases h2 : x ≤ a.1
        · have : x = a.1 := le_antisymm h2 hx
          rw [if_neg (by show ¬ y - x < y - a.1; linarith), if_pos h2]
          simp [npInterp]
        · push Not at h2
          rw [if_pos (by show y - x < y - a.1; linarith), if_neg (not_le.2 h2), if_pos h1]
          have d1 : q.1 - a.1 ≠ 0 := by intro h0; linarith
          have d2 : y - a.1 - (y - q.1) ≠ 0 := by intro h0; linarith
          have d3 : y - a.1 - (y - q.1) = q.1 - a.1 := by ring
          simp only
          rw [d3]
          field_simp
          ring

theorem spanTable_sorted (y : ℝ) (l : List (ℝ × ℝ)) (h : Sorted l) (hp : ∀ p ∈ l, 0 < p.1) : Sorted (spanTable y l) := by
  unfold spanTable Sorted
  rw [List.pairwise_append]
  refine ⟨mirrored_sorted y l h, ?_, ?_⟩
  · rw [List.pairwise_map]
    exact h.imp fun h => by simpa using h
  · intro a ha b hb
    simp only [List.mem_reverse, List.mem_map] at ha hb
    obtain ⟨p, hp1, rfl⟩ := ha
    obtain ⟨q, hq1, rfl⟩ := hb
    have := hp p hp1
    have := hp q hq1
    show y - p.1 < y + q.1
    linarith

theorem npInterp_shift (y : ℝ) (l : List (ℝ × ℝ)) (x : ℝ) :
    npInterp (l.map fun p => (y + p.1, p.2)) (y + x) = npInterp l x := by
  induction l with
  | nil => rfl
  | cons a l ih =>
    cases l with
    | nil => rfl
    | cons b l =>
      show npInterp ((y + a.1, a.2) :: (y + b.1, b.2) :: l.map fun p => (y + p.1, p.2)) (y + x) = npInterp (a :: b :: l) x
      rw [npInterp, npInterp]
      simp only [add_le_add_iff_left, add_lt_add_iff_left]
      have e1 : y + b.1 - (y + a.1) = b.1 - a.1 := by ring
      have e2 : y + x - (y + a.1) = x - a.1 := by ring
      rw [e1, e2]
      split_ifs
      · rfl
      · rfl
      · exact ih

/-- The table over the span reads the radial table at the distance from the hub, on both sides. -/
theorem spanTable_read (y : ℝ) (l : List (ℝ × ℝ)) (h : Sorted l) (hp : ∀ p ∈ l, 0 < p.1) (a b : ℝ × ℝ)
    (ha : l.head? = some a) (hb : l.getLast? = some b) (x : ℝ) (h1 : a.1 ≤ x) (h2 : x ≤ b.1) :
    npInterp (spanTable y l) (y + x) = npInterp l x ∧ npInterp (spanTable y l) (y - x) = npInterp l x := by
  have hs := spanTable_sorted y l h hp
  obtain ⟨m, rfl⟩ : ∃ m, l = a :: m := by
    cases l with
    | nil => simp at ha
    | cons c m =>
      simp only [List.head?_cons, Option.some.injEq] at ha
      exact ⟨m, by rw [ha]⟩
  constructor
  · rw [← npInterp_shift y (a :: m) x]
    exact npInterp_append_right (mirrored y (a :: m)) (y + a.1, a.2) (m.map fun p : ℝ × ℝ => (y + p.1, p.2)) hs (y + x)
      (by show y + a.1 ≤ y + x; linarith)
  · rw [← npInterp_mirrored y (a :: m) h x a rfl h1 b hb h2]
    have e : mirrored y (a :: m) = mirrored y m ++ [(y - a.1, a.2)] := by simp [mirrored]
    have e2 : spanTable y (a :: m) = mirrored y m ++ (y - a.1, a.2) :: ((a :: m).map fun p => (y + p.1, p.2)) := by
      unfold spanTable
      change mirrored y (a :: m) ++ _ = _
      rw [e, List.append_assoc]
      rfl
    rw [e, e2]
    rw [e2] at hs
    exact npInterp_append_left (mirrored y m) (y - a.1, a.2) _ hs (y - x) (by show y - x ≤ y - a.1; linarith)

/-- A rotor whose tables are the radial stations outward from the hub, at least one. -/
structure Valid (d : Disc) (a b : ℝ) : Prop where
  sorted_a : Sorted d.va
  sorted_t : Sorted d.vt
  pos : ∀ p ∈ d.va, 0 < p.1
  same : d.va.map Prod.fst = d.vt.map Prod.fst
  first : (d.va.map Prod.fst).head? = some a
  last : (d.va.map Prod.fst).getLast? = some b

theorem npInterp_scale (k : ℝ) (l : List (ℝ × ℝ)) (x : ℝ) :
    npInterp (l.map fun p => (p.1, p.2 * k)) x = npInterp l x * k := by
  induction l with
  | nil => simp [npInterp]
  | cons a l ih =>
    cases l with
    | nil => rfl
    | cons b l =>
      show npInterp ((a.1, a.2 * k) :: (b.1, b.2 * k) :: l.map fun p => (p.1, p.2 * k)) x = npInterp (a :: b :: l) x * k
      rw [npInterp, npInterp]
      split_ifs
      · rfl
      · ring
      · exact ih

/-- Behind the blades: at the distance `x` from the hub the axial velocity is the developed induced velocity of that radius on
both sides, the vertical velocity the developed swirl, up on one side and down on the other according to the sense of
rotation; there is no lateral velocity. -/
theorem C189_inside (d : Disc) (a b : ℝ) (hd : Valid d a b) (x px : ℝ) (h1 : a < x) (h2 : x < b) :
    slipstream false [d] 0 px (d.y + x) =
      (develop (px - d.x) d.R * npInterp d.va x, 0, develop (px - d.x) d.R * (npInterp d.vt x * d.rotation)) ∧
    slipstream false [d] 0 px (d.y - x) =
      (develop (px - d.x) d.R * npInterp d.va x, 0, -(develop (px - d.x) d.R * (npInterp d.vt x * d.rotation))) := by
  obtain ⟨hsa, hst, hpos, hsame, hf, hl⟩ := hd
  rw [List.head?_map, Option.map_eq_some_iff] at hf
  rw [List.getLast?_map, Option.map_eq_some_iff] at hl
  obtain ⟨pa, hpa, rfl⟩ := hf
  obtain ⟨pb, hpb, rfl⟩ := hl
  have hpa0 : 0 < pa.1 := hpos pa (List.mem_of_mem_head? (by rw [hpa]; rfl))
  have ht : ∃ ta, d.vt.head? = some ta ∧ ta.1 = pa.1 := by
    have := congrArg List.head? hsame
    rw [List.head?_map, List.head?_map, hpa] at this
    obtain ⟨t, ht, he⟩ := Option.map_eq_some_iff.1 this.symm
    exact ⟨t, ht, he⟩
  have htl : ∃ tb, d.vt.getLast? = some tb ∧ tb.1 = pb.1 := by
    have := congrArg List.getLast? hsame
    rw [List.getLast?_map, List.getLast?_map, hpb] at this
    obtain ⟨t, ht, he⟩ := Option.map_eq_some_iff.1 this.symm
    exact ⟨t, ht, he⟩
  obtain ⟨ta, hta, eta⟩ := ht
  obtain ⟨tb, htb, etb⟩ := htl
  have hpt : ∀ p ∈ d.vt, 0 < p.1 := by
    intro p hp
    have : p.1 ∈ d.va.map Prod.fst := by rw [hsame]; exact List.mem_map_of_mem hp
    obtain ⟨q, hq, he⟩ := List.mem_map.1 this
    rw [← he]
    exact hpos q hq
  obtain ⟨r1, r2⟩ := spanTable_read d.y d.va hsa hpos pa pb hpa hpb x h1.le h2.le
  have hk : Sorted (d.vt.map fun p => (p.1, p.2 * d.rotation)) := by
    unfold Sorted
    rw [List.pairwise_map]
    exact hst
  have hkp : ∀ p ∈ d.vt.map fun p => (p.1, p.2 * d.rotation), 0 < p.1 := by
    intro p hp
    obtain ⟨q, hq, rfl⟩ := List.mem_map.1 hp
    exact hpt q hq
  obtain ⟨r3, r4⟩ := spanTable_read d.y _ hk hkp (ta.1, ta.2 * d.rotation) (tb.1, tb.2 * d.rotation)
    (by rw [List.head?_map, hta]; rfl) (by rw [List.getLast?_map, htb]; rfl) x (by rw [eta]; exact h1.le)
    (by rw [etb]; exact h2.le)
  rw [npInterp_scale] at r3 r4
  have in1 : inRange d (d.y + x) = true := by
    unfold inRange
    rw [hpa, hpb]
    simp only [Bool.or_eq_true, decide_eq_true_eq]
    exact Or.inr ⟨by linarith, by linarith⟩
  have in2 : inRange d (d.y - x) = true := by
    unfold inRange
    rw [hpa, hpb]
    simp only [Bool.or_eq_true, decide_eq_true_eq]
    exact Or.inl ⟨by linarith, by linarith⟩
  constructor
  · simp only [slipstream, if_true, List.foldl_cons, List.foldl_nil, in1, discVelocity, r1, r3]
    rw [if_neg (by linarith)]
  · simp only [slipstream, if_true, List.foldl_cons, List.foldl_nil, in2, discVelocity, r2, r4]
    rw [if_pos (by linarith)]
    simp

/-- Beyond the tips and in front of the hub there is no velocity. -/
theorem C189_outside (d : Disc) (a b : ℝ) (hd : Valid d a b) (px py : ℝ) (h : |py - d.y| ≤ a ∨ b ≤ |py - d.y|)
    (hab : a ≤ b) : slipstream false [d] 0 px py = (0, 0, 0) := by
  obtain ⟨-, -, hpos, -, hf, hl⟩ := hd
  rw [List.head?_map, Option.map_eq_some_iff] at hf
  rw [List.getLast?_map, Option.map_eq_some_iff] at hl
  obtain ⟨pa, hpa, rfl⟩ := hf
  obtain ⟨pb, hpb, rfl⟩ := hl
  have hpa0 : 0 < pa.1 := hpos pa (List.mem_of_mem_head? (by rw [hpa]; rfl))
  have hin : inRange d py = false := by
    unfold inRange
    rw [hpa, hpb]
    simp only [Bool.or_eq_false_iff, decide_eq_false_iff_not]
    rcases h with h | h
    · rw [abs_le] at h
      exact ⟨fun h1 => by linarith [h1.2, h.1], fun h1 => by linarith [h1.1, h.2]⟩
    · rw [le_abs] at h
      rcases h with h | h
      · exact ⟨fun h1 => by linarith [h1.2], fun h1 => by linarith [h1.2]⟩
      · exact ⟨fun h1 => by linarith [h1.1], fun h1 => by linarith [h1.1]⟩
  simp [slipstream, hin]

theorem slip_foldl_out (ds : List Disc) (px py : ℝ) (v : ℝ × ℝ × ℝ) (h : ∀ d ∈ ds, inRange d py = false) :
    ds.foldl (fun v d => if inRange d py then discVelocity d px py else v) v = v := by
  induction ds generalizing v with
  | nil => rfl
  | cons d ds ih =>
    rw [List.foldl_cons, h d (by simp)]
    exact ih _ fun e he => h e (by simp [he])

/-- Several rotors: where at most one covers the point, the velocity is the sum of the velocities of the single rotors.
Missing: overlapping rotors (the last one wins, see the counterexample) and control points after the first. -/
theorem C189_superposition_partial (ds : List Disc) (px py : ℝ)
    (h : ds.Pairwise fun d e => ¬ (inRange d py = true ∧ inRange e py = true)) :
    slipstream false ds 0 px py = (ds.map fun d => slipstream false [d] 0 px py).sum := by
  simp only [slipstream, if_true, List.foldl_cons, List.foldl_nil]
  induction ds with
  | nil => rfl
  | cons d ds ih =>
    obtain ⟨h1, h2⟩ := List.pairwise_cons.1 h
    rw [List.foldl_cons, List.map_cons, List.sum_cons, ← ih h2]
    by_cases hd : inRange d py = true
    · have ho : ∀ e ∈ ds, inRange e py = false := by
        intro e he
        have := h1 e he
        simp only [hd, true_and, Bool.not_eq_true] at this
        exact this
      rw [slip_foldl_out ds px py _ ho, slip_foldl_out ds px py _ ho]
      simp [hd]
    · simp only [hd, Bool.false_eq_true, if_false]
      simp

/-- Two coaxial rotors: only the second one is felt. -/
theorem C189_superposition_counterexample :
    ¬ ∀ (ds : List Disc) (px py : ℝ), slipstream false ds 0 px py = (ds.map fun d => slipstream false [d] 0 px py).sum := by
  intro H
  have h := H [⟨0, 0, 1, 1, [(1, 1), (3, 1)], [(1, 0), (3, 0)]⟩, ⟨0, 0, 1, 1, [(1, 1), (3, 1)], [(1, 0), (3, 0)]⟩] 0 2
  have hin : inRange ⟨0, 0, 1, 1, [(1, 1), (3, 1)], [(1, 0), (3, 0)]⟩ 2 = true := by
    simp [inRange]; norm_num
  have h' := congrArg Prod.fst h
  simp only [slipstream, if_true, List.foldl_cons, List.foldl_nil, hin, List.map_cons, List.map_nil, List.sum_cons,
    List.sum_nil, discVelocity, spanTable, sub_self, develop_disc] at h'
  norm_num [npInterp] at h'

/-- Only the first control point gets velocities: at every other one there is no slipstream. -/
theorem C189_rows_counterexample :
    ¬ ∀ (d : Disc) (a b : ℝ), Valid d a b → ∀ (x px : ℝ), a < x → x < b → ∀ cp,
      (slipstream false [d] cp px (d.y + x)).1 = develop (px - d.x) d.R * npInterp d.va x := by
  intro H
  have h := H ⟨0, 0, 1, 1, [(1, 1), (3, 1)], [(1, 0), (3, 0)]⟩ 1 3
    ⟨by simp [Sorted], by simp [Sorted], by simp, rfl, rfl, rfl⟩ 2 0 (by norm_num) (by norm_num) 1
  simp [slipstream, develop_disc] at h
  norm_num [npInterp] at h

/-- A vehicle with wings but no wing given: the last main wing, or the last wing if there is no main wing.  Missing: a wing
given by the caller. -/
theorem C189_wing_partial (wings : List Bool) (h : wings ≠ []) :
    ∃ k, slipWing false wings = some k ∧ k < wings.length ∧
      (true ∈ wings → wings[k]? = some true ∧ ∀ i, k < i → wings[i]? ≠ some true) ∧
      (true ∉ wings → k = wings.length - 1) := by
  have hlen : 0 < wings.length := List.length_pos_iff.2 h
  unfold slipWing
  simp only [Bool.false_eq_true, if_false]
  rcases hl : (List.range wings.length).filter (fun i => wings[i]? == some true) with _ | ⟨c, l⟩
  · refine ⟨wings.length - 1, by simp [h], by omega, fun ht => ?_, fun _ => rfl⟩
    obtain ⟨i, hi, he⟩ := List.mem_iff_getElem.1 ht
    have : i ∈ (List.range wings.length).filter (fun i => wings[i]? == some true) := by
      rw [List.mem_filter]
      exact ⟨List.mem_range.2 hi, by rw [List.getElem?_eq_getElem hi, he]; rfl⟩
    rw [hl] at this
    simp at this
  · have hne : c :: l ≠ [] := by simp
    obtain ⟨k, hk⟩ : ∃ k, k = (c :: l).getLast hne := ⟨_, rfl⟩
    have hmem := List.getLast_mem hne
    rw [← hk] at hmem
    have hsort : (c :: l).Pairwise (· < ·) := by
      rw [← hl]
      exact (List.pairwise_lt_range).filter _
    rw [← hl, List.mem_filter, List.mem_range] at hmem
    refine ⟨k, by rw [hk]; exact List.getLast?_eq_some_getLast hne, hmem.1, fun _ => ⟨by simpa using hmem.2, ?_⟩, fun hf => ?_⟩
    · intro i hi hw
      have hil : i < wings.length := by
        by_contra hc
        rw [List.getElem?_eq_none (by omega)] at hw
        simp at hw
      have him : i ∈ c :: l := by
        rw [← hl, List.mem_filter]
        exact ⟨List.mem_range.2 hil, by simp [hw]⟩
      have hle : ∀ x ∈ c :: l, x ≤ k := by
        intro x hx
        rw [hk]
        have hd := List.dropLast_append_getLast hne
        rw [← hd, List.mem_append] at hx
        rcases hx with hx | hx
        · rw [← hd, List.pairwise_append] at hsort
          exact (hsort.2.2 x hx _ (by simp)).le
        · simp at hx
          exact hx.le
      have := hle i him
      omega
    · exfalso
      apply hf
      have h2 : wings[k]? = some true := by simpa using hmem.2
      exact List.mem_of_getElem? h2

/-- With the wing named by the caller the method fails. -/
theorem C189_wing_counterexample : ¬ ∀ (given : Bool) (wings : List Bool), wings ≠ [] → (slipWing given wings).isSome := by
  intro H
  simpa [slipWing] using H true [true] (by simp)

example : slipWing false [true, false, true, false] = some 2 := by decide

end Verif.Rotor
