import Verif.Performance.Gust
import Verif.Performance.VnProps
import Mathlib.Data.List.Zip
import Mathlib.Tactic.Linarith
import Mathlib.Tactic.NormNum
import Mathlib.Tactic.FieldSimp
import Mathlib.Tactic.Ring
import Mathlib.Tactic.LinearCombination

/-!
# Gust loads in the V-n diagram: properties C409 and C410
-/

namespace Verif.Performance

/-- A point of the envelope drawn from airspeeds `v` and load factors `n`. -/
def OnEnvelope (v n : List ℝ) (x y : ℝ) : Prop := (x, y) ∈ v.zip n

/-- The larger root is a root. -/
theorem maxRoot_root (a b c x : ℝ) (h : maxRoot a b c = some x) : a * x ^ 2 + b * x + c = 0 := by
  unfold maxRoot at h
  split_ifs at h with h1 h2 h3
  · simp only [Option.some.injEq] at h
    subst h; rw [h1]; field_simp; ring
  · simp only [Option.some.injEq] at h
    have hd : 0 ≤ b ^ 2 - 4 * a * c := not_lt.1 h3
    have hs : √(b ^ 2 - 4 * a * c) ^ 2 = b ^ 2 - 4 * a * c := Real.sq_sqrt hd
    generalize √(b ^ 2 - 4 * a * c) = s at h hs
    have ha : ∀ y : ℝ, 2 * a * y + b = s ∨ 2 * a * y + b = -s → a * y ^ 2 + b * y + c = 0 := by
      intro y hy
      have h4 : (2 * a * y + b) ^ 2 = s ^ 2 := by rcases hy with e | e <;> rw [e]; ring
      have h5 : 4 * a * (a * y ^ 2 + b * y + c) = 0 := by linear_combination h4 + hs
      have : 4 * a ≠ 0 := mul_ne_zero (by norm_num) h1
      exact (mul_eq_zero.1 h5).resolve_left this
    apply ha
    rcases max_choice ((-b + s) / (2 * a)) ((-b - s) / (2 * a)) with e | e
    · left; rw [← h, e]; field_simp; ring
    · right; rw [← h, e]; field_simp; ring

/-- The larger root of a convex parabola lies beyond every point where the parabola is negative. -/
theorem maxRoot_beyond (a b c y : ℝ) (ha : 0 < a) (hy : a * y ^ 2 + b * y + c < 0) :
    ∃ x, maxRoot a b c = some x ∧ y < x := by
  have hd : 0 < b ^ 2 - 4 * a * c := by nlinarith [sq_nonneg (2 * a * y + b)]
  refine ⟨_, by rw [maxRoot, if_neg ha.ne', if_neg (not_lt.2 hd.le)], lt_max_of_lt_left ?_⟩
  rw [lt_div_iff₀ (by linarith)]
  have hs : √(b ^ 2 - 4 * a * c) ^ 2 = b ^ 2 - 4 * a * c := Real.sq_sqrt hd.le
  have hp : 0 < √(b ^ 2 - 4 * a * c) := Real.sqrt_pos.2 hd
  have h : (2 * a * y + b) ^ 2 < √(b ^ 2 - 4 * a * c) ^ 2 := by rw [hs]; nlinarith
  have := abs_lt_of_sq_lt_sq h hp.le
  have := (abs_lt.1 this).2
  linarith

/-- **C409, rough air speed.** The rough air penetration speed is where the gust line meets the lift
parabola. -/
theorem C409_rough (d : GustIn) (vb : ℝ) (hw : d.wl ≠ 0) (h : roughSpeed d = some vb) :
    gust d vb d.uRough = 709.486 * d.rho0 * d.cl * vb ^ 2 / (498 * d.wl) := by
  have := maxRoot_root _ _ _ _ h
  unfold gust
  field_simp
  linear_combination -this

/-- **C409, rough air speed beyond the manoeuvre speed.** On the positive side, if the manoeuvre speed
is where the lift parabola reaches the limit and the gust there is beyond the limit, the rough air
speed exists and is above the manoeuvre speed. -/
theorem C409_rough_above (d : GustIn) (va : ℝ) (hw : 0 < d.wl) (hr : 0 < d.rho0) (hc : 0 < d.cl)
    (hva : 709.486 * d.rho0 * d.cl * va ^ 2 = 498 * d.wl * d.limit) (hg : d.limit < gust d va d.uRough) :
    ∃ vb, roughSpeed d = some vb ∧ va < vb := by
  apply maxRoot_beyond
  · positivity
  · have h : gust d va d.uRough * (498 * d.wl) = 498 * d.wl + d.kg * d.cla * va * d.uRough := by
      unfold gust; field_simp
    have h2 : d.limit * (498 * d.wl) < gust d va d.uRough * (498 * d.wl) :=
      mul_lt_mul_of_pos_right hg (by linarith)
    have e : 709.486 * d.rho0 * d.cl * va ^ 2 + -d.kg * d.uRough * d.cla * va + -498 * d.wl =
        d.limit * (498 * d.wl) - gust d va d.uRough * (498 * d.wl) := by rw [h]; linear_combination hva
    linarith

/-- Feet per second in a knot. -/
noncomputable def knot : ℝ := 1852 / 3600 / 0.3048

/-- **C409, continuity with the stall line.** The load factor at the rough air speed is the one the stall
line would have there within 0.03 %. -/
theorem C409_continues (d : GustIn) (vb sigma W rho S : ℝ) (hs : 0 < sigma) (hW : 0 < W) (hS : 0 < S)
    (hwl : d.wl = W / S) (hrho : d.rho0 = rho / sigma ^ 2) (pos : Bool) (hcl : if pos then 0 < d.cl else d.cl < 0)
    (h : roughSpeed d = some vb) :
    |stallLoad knot sigma W rho S d.cl pos vb - gust d vb d.uRough| ≤ 0.0003 * |gust d vb d.uRough| := by
  have hw : d.wl ≠ 0 := by rw [hwl]; positivity
  have e := C409_rough d vb hw h
  have e2 : stallLoad knot sigma W rho S d.cl pos vb = (249 * knot ^ 2 / 709.486) * gust d vb d.uRough := by
    rw [e, hwl, hrho]
    cases pos
    · simp only [Bool.false_eq_true, if_false] at hcl
      simp only [stallLoad, Bool.false_eq_true, if_false, abs_of_neg hcl]
      field_simp; ring
    · simp only [stallLoad, if_true]
      field_simp; ring
  rw [e2]
  have hk : |249 * knot ^ 2 / 709.486 - 1| ≤ (0.0003 : ℝ) := by
    rw [abs_le]; unfold knot; constructor <;> norm_num
  calc _ = |(249 * knot ^ 2 / 709.486 - 1) * gust d vb d.uRough| := by congr 1; ring
    _ = |249 * knot ^ 2 / 709.486 - 1| * |gust d vb d.uRough| := abs_mul _ _
    _ ≤ _ := mul_le_mul_of_nonneg_right hk (abs_nonneg _)

theorem upper_append (a b : List ℝ) (x : ℝ) (h : a[1]? = some x) : upper (a ++ b) = some (decide (0 < x)) := by
  have : 1 < a.length := by
    by_contra hc
    rw [List.getElem?_eq_none (by omega)] at h
    simp at h
  unfold upper
  rw [List.getElem?_append_left this, h]; rfl

theorem insertAt_at {α : Type} (k : ℕ) (pre post : List α) (x : α) (h : pre.length = k) :
    insertAt k x (pre ++ post) = pre ++ [x] ++ post := by
  subst h; exact insertAt_end pre post x

/-- The list of the positive side after a rough gust beyond the limit. -/
theorem cruise_rough (d : GustIn) (load : ℝ → ℝ) (N : ℕ) (pre preN post postN : List ℝ) (va na x vb : ℝ)
    (hp : pre.length = N + 2) (hpN : preN.length = N + 2) (h1 : preN[1]? = some x)
    (hg : |d.limit| < |gust d va d.uRough|) (hb : roughSpeed d = some vb) :
    cruisePart d load N (pre ++ va :: post) (preN ++ na :: postN) =
      some (pre ++ va :: ((List.range 5).map fun j : ℕ => va + ((j : ℝ) + 1) * ((vb - va) / ((5 : ℕ) + 1))) ++
          (vb :: (if 0 < x then d.Vc :: post else post)),
        preN ++ na :: ((List.range 5).map fun j : ℕ => load (va + ((j : ℝ) + 1) * ((vb - va) / ((5 : ℕ) + 1)))) ++
          (gust d vb d.uRough :: (if 0 < x then gust d d.Vc d.uCruise :: postN else postN))) := by
  have e0 : (pre ++ va :: post)[N + 2]? = some va := by
    rw [List.getElem?_append_right (by omega)]; simp [hp]
  have e1 : insertAt (N + 3) vb (pre ++ va :: post) = pre ++ va :: vb :: post := by
    have := insertAt_at (N + 3) (pre ++ [va]) post vb (by simp [hp])
    simpa using this
  have e2 : insertAt (N + 3) (gust d vb d.uRough) (preN ++ na :: postN) = preN ++ na :: gust d vb d.uRough :: postN := by
    have := insertAt_at (N + 3) (preN ++ [na]) postN (gust d vb d.uRough) (by simp [hpN])
    simpa using this
  simp only [cruisePart, e0, Option.bind_eq_bind, Option.bind_some, if_pos hg, hb, e1, e2]
  rw [C86_points load 5 (N + 2) pre preN post postN va vb na (gust d vb d.uRough) hp hpN]
  simp only [Option.bind_some]
  rw [show ∀ (m : List ℝ) (t : List ℝ), preN ++ na :: m ++ t = preN ++ (na :: m ++ t) from fun m t => by simp,
    upper_append preN _ x h1]
  simp only [Option.bind_some]
  by_cases hx : 0 < x
  · simp only [hx, decide_true, if_true]
    have f1 := insertAt_at (N + 9)
      (pre ++ va :: ((List.range 5).map fun j : ℕ => va + ((j : ℝ) + 1) * ((vb - va) / ((5 : ℕ) + 1))) ++ [vb]) post d.Vc (by simp [hp])
    have f2 := insertAt_at (N + 9)
      (preN ++ na :: ((List.range 5).map fun j : ℕ => load (va + ((j : ℝ) + 1) * ((vb - va) / ((5 : ℕ) + 1)))) ++ [gust d vb d.uRough])
      postN (gust d d.Vc d.uCruise) (by simp [hpN])
    simp only [List.append_assoc, List.cons_append, List.nil_append] at f1 f2 ⊢
    rw [f1, f2]; rfl
  · simp only [hx, decide_false, Bool.false_eq_true, if_false]
    simp

/-- The lists after a cruise gust, but no rough gust, beyond the limit. -/
theorem cruise_only (d : GustIn) (load : ℝ → ℝ) (N : ℕ) (pre preN post postN : List ℝ) (va na x : ℝ)
    (hp : pre.length = N + 2) (hpN : preN.length = N + 2) (h1 : preN[1]? = some x)
    (hg : ¬ |d.limit| < |gust d va d.uRough|) (hg2 : |d.limit| < |gust d d.Vc d.uCruise|) :
    cruisePart d load N (pre ++ va :: post) (preN ++ na :: postN) =
      some (pre ++ va :: 498 * (na - 1) * d.wl / (d.kg * d.uCruise * d.cla) :: (if 0 < x then d.Vc :: post else post),
        if 0 < x then preN ++ na :: d.limit :: gust d d.Vc d.uCruise :: postN
        else (preN ++ na :: d.limit :: postN).set (N + 2 + post.length) (gust d d.Vc d.uCruise)) := by
  have e0 : (pre ++ va :: post)[N + 2]? = some va := by
    rw [List.getElem?_append_right (by omega)]; simp [hp]
  have e0' : (preN ++ na :: postN)[N + 2]? = some na := by
    rw [List.getElem?_append_right (by omega)]; simp [hpN]
  have e1 : ∀ y, insertAt (N + 3) y (pre ++ va :: post) = pre ++ va :: y :: post := by
    intro y
    have := insertAt_at (N + 3) (pre ++ [va]) post y (by simp [hp])
    simpa using this
  have e2 : insertAt (N + 3) d.limit (preN ++ na :: postN) = preN ++ na :: d.limit :: postN := by
    have := insertAt_at (N + 3) (preN ++ [na]) postN d.limit (by simp [hpN])
    simpa using this
  simp only [cruisePart, e0, e0', Option.bind_eq_bind, Option.bind_some, if_neg hg, if_pos hg2, e1, e2]
  rw [upper_append preN _ x h1]
  simp only [Option.bind_some]
  by_cases hx : 0 < x
  · simp only [hx, decide_true, if_true]
    have f1 := fun y => insertAt_at (N + 4) (pre ++ [va, y]) post d.Vc (by simp [hp])
    have f2 := insertAt_at (N + 4) (preN ++ [na, d.limit]) postN (gust d d.Vc d.uCruise) (by simp [hpN])
    simp only [List.append_assoc, List.cons_append, List.nil_append] at f1 f2 ⊢
    rw [f1, f2]; rfl
  · simp only [hx, decide_false, Bool.false_eq_true, if_false]
    have : (pre ++ va :: 498 * (na - 1) * d.wl / (d.kg * d.uCruise * d.cla) :: post).length - 2 = N + 2 + post.length := by
      simp [hp]; omega
    rw [this]; rfl

/-- **C409, positive side.** Whenever the rough gust at the manoeuvre speed or the cruise gust at the
cruise speed is beyond the limit, the cruise gust point is on the envelope, and every earlier point of
the envelope stays, in its order. -/
theorem C409_positive (d : GustIn) (load : ℝ → ℝ) (N : ℕ) (pre preN post postN : List ℝ) (va na x : ℝ) (v' n' : List ℝ)
    (hp : pre.length = N + 2) (hpN : preN.length = N + 2) (h1 : preN[1]? = some x) (hx : 0 < x)
    (hg : |d.limit| < |gust d va d.uRough| ∨ |d.limit| < |gust d d.Vc d.uCruise|)
    (h : cruisePart d load N (pre ++ va :: post) (preN ++ na :: postN) = some (v', n')) :
    OnEnvelope v' n' d.Vc (gust d d.Vc d.uCruise) ∧
      ((pre ++ va :: post).zip (preN ++ na :: postN)).Sublist (v'.zip n') := by
  have hz : ∀ a b : List ℝ, (pre ++ a).zip (preN ++ b) = pre.zip preN ++ a.zip b :=
    fun a b => List.zip_append (by rw [hp, hpN])
  by_cases hr : |d.limit| < |gust d va d.uRough|
  · have hb : ∃ vb, roughSpeed d = some vb := by
      have e0 : (pre ++ va :: post)[N + 2]? = some va := by
        rw [List.getElem?_append_right (by omega)]; simp [hp]
      cases hb : roughSpeed d with
      | some vb => exact ⟨vb, rfl⟩
      | none =>
        simp only [cruisePart, e0, Option.bind_eq_bind, Option.bind_some, if_pos hr, hb, Option.bind_none] at h
        simp at h
    obtain ⟨vb, hb⟩ := hb
    rw [cruise_rough d load N pre preN post postN va na x vb hp hpN h1 hr hb] at h
    simp only [if_pos hx, Option.some.injEq, Prod.mk.injEq] at h
    obtain ⟨rfl, rfl⟩ := h
    simp only [OnEnvelope, List.append_assoc, hz, List.cons_append, List.zip_cons_cons]
    rw [List.zip_append (by simp)]
    simp only [List.zip_cons_cons]
    refine ⟨by simp, ?_⟩
    apply List.Sublist.append_left
    apply List.Sublist.cons_cons
    apply List.sublist_append_of_sublist_right
    exact ((List.sublist_cons_self _ _).trans (List.sublist_cons_self _ _))
  · have hg2 := hg.resolve_left hr
    rw [cruise_only d load N pre preN post postN va na x hp hpN h1 hr hg2] at h
    simp only [if_pos hx, Option.some.injEq, Prod.mk.injEq] at h
    obtain ⟨rfl, rfl⟩ := h
    simp only [OnEnvelope, hz, List.zip_cons_cons]
    refine ⟨by simp, ?_⟩
    apply List.Sublist.append_left
    apply List.Sublist.cons_cons
    exact ((List.sublist_cons_self _ _).trans (List.sublist_cons_self _ _))

/-- **C409, negative side.** If the cruise gust is beyond the limit, the cruise gust point replaces the
one at the cruise speed, after the point where the gust line reaches the limit.  Missing: a rough gust
at the manoeuvre speed beyond the limit as well, see the counterexample. -/
theorem C409_negative_partial (d : GustIn) (load : ℝ → ℝ) (N : ℕ) (pre preN : List ℝ) (va na n3 n4 v4 x : ℝ)
    (hp : pre.length = N + 2) (hpN : preN.length = N + 2) (h1 : preN[1]? = some x) (hx : x < 0)
    (hk : d.kg * d.uCruise * d.cla ≠ 0) (hw : d.wl ≠ 0) (hna : na = d.limit)
    (hg : |gust d va d.uRough| ≤ |d.limit|) (hg2 : |d.limit| < |gust d d.Vc d.uCruise|) :
    ∃ vi, gust d vi d.uCruise = d.limit ∧
      cruisePart d load N (pre ++ [va, d.Vc, v4]) (preN ++ [na, n3, n4]) =
        some (pre ++ [va, vi, d.Vc, v4], preN ++ [na, d.limit, gust d d.Vc d.uCruise, n4]) := by
  refine ⟨498 * (na - 1) * d.wl / (d.kg * d.uCruise * d.cla), ?_, ?_⟩
  · have h1 : d.kg ≠ 0 := fun h => hk (by rw [h]; ring)
    have h2 : d.uCruise ≠ 0 := fun h => hk (by rw [h]; ring)
    have h3 : d.cla ≠ 0 := fun h => hk (by rw [h]; ring)
    unfold gust
    rw [hna]
    field_simp
    ring
  · have := cruise_only d load N pre preN [d.Vc, v4] [n3, n4] va na x hp hpN h1 (not_lt.2 hg) hg2
    rw [this]
    simp only [if_neg (not_lt.2 hx.le), List.length_cons, List.length_nil]
    rw [List.set_append_right _ _ (by omega)]
    simp [hpN]

/-- An aircraft with unit slopes on the positive side. -/
noncomputable def posGust : GustIn :=
  { kg := 1, cla := 1, wl := 1 / 498, rho0 := 1 / 709.486, cl := 1, limit := 4, uRough := 8 / 3, uCruise := 1 / 2, uDive := 1 / 4, Vc := 4, Vd := 5 }

theorem posGust_rough : roughSpeed posGust = some 3 := by
  have h : √(100 / 9 : ℝ) = 10 / 3 := by
    rw [show (100 / 9 : ℝ) = (10 / 3) ^ 2 by norm_num]; exact Real.sqrt_sq (by norm_num)
  have e : ((-1 * (8 / 3) * 1 : ℝ) ^ 2 - 4 * (709.486 * (1 / 709.486) * 1) * (-498 * (1 / 498))) = 100 / 9 := by norm_num
  simp only [roughSpeed, posGust, maxRoot, e, h]
  norm_num

example : (0 : ℝ) < posGust.wl ∧ 709.486 * posGust.rho0 * posGust.cl * (2 : ℝ) ^ 2 = 498 * posGust.wl * posGust.limit ∧
    posGust.limit < gust posGust 2 posGust.uRough ∧ |posGust.limit| < |gust posGust 2 posGust.uRough| := by
  norm_num [posGust, gust]

example : ([0, 1] : List ℝ)[1]? = some 1 ∧
    ∃ v' n', cruisePart posGust (fun v => v ^ 2) 0 ([1, 1] ++ 2 :: [5, 5]) ([0, 1] ++ 4 :: [4, 0]) = some (v', n') :=
  ⟨by simp, _, _, cruise_rough posGust _ 0 [1, 1] [0, 1] [5, 5] [4, 0] 2 4 1 3 rfl rfl (by simp) (by norm_num [posGust, gust]) posGust_rough⟩

/-- C409 is false of a mild cruise gust on the positive side: with a rough gust beyond the limit but the
cruise gust below it, the envelope dips to the cruise gust, below the manoeuvre limit. -/
theorem C409_dip_counterexample :
    ∃ v' n', cruisePart posGust (fun v => v ^ 2) 0 [1, 1, 2, 5, 5] [0, 1, 4, 4, 0] = some (v', n') ∧
      OnEnvelope v' n' posGust.Vc 3 ∧ (3 : ℝ) < posGust.limit := by
  have h := cruise_rough posGust (fun v => v ^ 2) 0 [1, 1] [0, 1] [5, 5] [4, 0] 2 4 1 3 rfl rfl (by simp)
    (by norm_num [posGust, gust]) posGust_rough
  refine ⟨_, _, h, ?_, by norm_num [posGust]⟩
  have : gust posGust posGust.Vc posGust.uCruise = 3 := by norm_num [posGust, gust]
  simp [OnEnvelope, List.range_succ, this]

/-- The same on the negative side. -/
noncomputable def negGust : GustIn :=
  { kg := 1, cla := 1, wl := 1 / 498, rho0 := 1 / 709.486, cl := -1, limit := -1, uRough := -2.5, uCruise := -2.5, uDive := -1, Vc := 3, Vd := 4 }

theorem negGust_rough : roughSpeed negGust = some 2 := by
  have h : √(9 / 4 : ℝ) = 3 / 2 := by
    rw [show (9 / 4 : ℝ) = (3 / 2) ^ 2 by norm_num]; exact Real.sqrt_sq (by norm_num)
  have e : ((-1 * (-2.5) * 1 : ℝ) ^ 2 - 4 * (709.486 * (1 / 709.486) * -1) * (-498 * (1 / 498))) = 9 / 4 := by norm_num
  simp only [roughSpeed, negGust, maxRoot, e, h]
  norm_num

/-- C409 is false on the negative side with a rough gust beyond the limit: the cruise gust of -6.5 at
the cruise speed is left off the envelope, which keeps the limit of -1 there. -/
theorem C409_negative_counterexample :
    ∃ v' n', cruisePart negGust (fun v => -v ^ 2) 0 [1, 1, 1.5, 3, 4] [0, -1, -1, -1, 0] = some (v', n') ∧
      |negGust.limit| < |gust negGust negGust.Vc negGust.uCruise| ∧
      ¬ OnEnvelope v' n' negGust.Vc (gust negGust negGust.Vc negGust.uCruise) ∧ OnEnvelope v' n' negGust.Vc negGust.limit := by
  have h := cruise_rough negGust (fun v => -v ^ 2) 0 [1, 1] [0, -1] [3, 4] [-1, 0] 1.5 (-1) (-1) 2 rfl rfl (by simp)
    (by norm_num [negGust, gust]) negGust_rough
  refine ⟨_, _, h, by norm_num [negGust, gust], ?_, ?_⟩
  · have : gust negGust negGust.Vc negGust.uCruise = -6.5 := by norm_num [negGust, gust]
    rw [this]
    have n1 : ¬ (0 : ℝ) < -1 := by norm_num
    simp only [OnEnvelope, List.range_succ, List.range_zero, n1, if_false, negGust, gust]
    norm_num
  · have n1 : ¬ (0 : ℝ) < -1 := by norm_num
    simp [OnEnvelope, List.range_succ, n1, negGust]

/-- The negative case without rough excess happens. -/
example : ∃ d : GustIn, d.kg * d.uCruise * d.cla ≠ 0 ∧ d.wl ≠ 0 ∧ |gust d 1.5 d.uRough| ≤ |d.limit| ∧ |d.limit| < |gust d d.Vc d.uCruise| :=
  ⟨{ negGust with uRough := -1 }, by norm_num [negGust], by norm_num [negGust], by norm_num [negGust, gust, abs_le], by norm_num [negGust, gust]⟩

example : (0 : ℝ) < 0.9 ∧ negGust.wl = (2 / 498) / 2 ∧ negGust.rho0 = (0.81 / 709.486) / 0.9 ^ 2 ∧ negGust.cl < 0 ∧ roughSpeed negGust = some 2 := by
  refine ⟨by norm_num, by norm_num [negGust], by norm_num [negGust], by norm_num [negGust], negGust_rough⟩

theorem upper_some (n : List ℝ) (x : ℝ) (h : n[1]? = some x) : upper n = some (decide (0 < x)) := by
  unfold upper; rw [h]; rfl

theorem dive_positive_g (d : GustIn) (hw : 0 < d.wl) (hk : 0 ≤ d.kg * d.cla) (hu : 0 ≤ d.Vd * d.uDive)
    (hv : d.Vd * d.uDive ≤ d.Vc * d.uCruise) : 1 ≤ gust d d.Vd d.uDive ∧ gust d d.Vd d.uDive ≤ gust d d.Vc d.uCruise := by
  unfold gust
  constructor
  · have : 0 ≤ d.kg * d.cla * d.Vd * d.uDive / (498 * d.wl) := by
      apply div_nonneg _ (by linarith)
      rw [mul_assoc]; exact mul_nonneg hk hu
    linarith
  · have : d.kg * d.cla * d.Vd * d.uDive ≤ d.kg * d.cla * d.Vc * d.uCruise := by
      rw [mul_assoc, mul_assoc (d.kg * d.cla)]; exact mul_le_mul_of_nonneg_left hv hk
    have := div_le_div_of_nonneg_right this (by linarith : (0 : ℝ) ≤ 498 * d.wl)
    linarith

/-- **C410, positive side.** If the gusts at the dive speed are no stronger than at the cruise speed, the
limit at the dive speed is the larger of the manoeuvre limit and the dive gust, it is the load factor of
the envelope there, and a corner inserted before it lies on the gust line between cruise and dive
speed. -/
theorem C410_positive (c : Cat) (d : GustIn) (pre preN : List ℝ) (x : ℝ) (hl : pre.length = preN.length)
    (h1 : preN[1]? = some x) (hx : 0 < x) (hw : 0 < d.wl) (hk : 0 ≤ d.kg * d.cla) (hu : 0 ≤ d.Vd * d.uDive)
    (hv : d.Vd * d.uDive ≤ d.Vc * d.uCruise) (hlim : 0 < d.limit) (hcd : d.Vc ≤ d.Vd) :
    ∃ mid midN, divePart c d (pre ++ [d.Vd, d.Vd]) (preN ++ [d.limit, 0]) =
        some (pre ++ mid ++ [d.Vd, d.Vd], preN ++ midN ++ [max d.limit (gust d d.Vd d.uDive), 0], max d.limit (gust d d.Vd d.uDive)) ∧
      ((mid = [] ∧ midN = []) ∨
        ∃ vi, mid = [vi] ∧ midN = [d.limit] ∧ d.Vc ≤ vi ∧ vi ≤ d.Vd ∧
          OnLine d.Vc (gust d d.Vc d.uCruise) d.Vd (gust d d.Vd d.uDive) (vi, d.limit)) := by
  obtain ⟨g1, g2⟩ := dive_positive_g d hw hk hu hv
  have hlen : 1 < preN.length := by
    by_contra hc
    rw [List.getElem?_eq_none (by omega)] at h1
    simp at h1
  have up : ∀ t, upper (preN ++ t) = some true := fun t => by rw [upper_append preN t x h1]; simp [hx]
  have hg2 : |gust d d.Vc d.uCruise| = gust d d.Vc d.uCruise := abs_of_nonneg (by linarith)
  have hg3 : |gust d d.Vd d.uDive| = gust d d.Vd d.uDive := abs_of_nonneg (by linarith)
  have hL : |d.limit| = d.limit := abs_of_pos hlim
  have el : (preN ++ [d.limit, 0]).length - 2 = preN.length := by simp
  simp only [divePart, up, Option.bind_eq_bind, Option.bind_some, if_true, hg2, hg3, hL, el]
  by_cases a : d.limit < gust d d.Vc d.uCruise
  · by_cases b : d.limit < gust d d.Vd d.uDive
    · refine ⟨[], [], ?_, Or.inl ⟨rfl, rfl⟩⟩
      simp only [if_pos a, if_pos b, Option.bind_some, max_eq_right b.le]
      rw [List.set_append_right _ _ (by omega)]
      simp
    · have b' := not_lt.1 b
      have hne : gust d d.Vd d.uDive ≠ gust d d.Vc d.uCruise := by intro h; rw [h] at b'; linarith
      have hlt : gust d d.Vd d.uDive < gust d d.Vc d.uCruise := lt_of_le_of_ne g2 hne
      refine ⟨[(corner c true d.limit (lowest (preN ++ [d.limit, 0])) (gust d d.Vc d.uCruise) (gust d d.Vd d.uDive) d.Vc d.Vd).1], [d.limit], ?_, Or.inr ⟨_, rfl, rfl, ?_, ?_, ?_⟩⟩
      · have ex : (preN ++ [d.limit, 0])[preN.length]? = some d.limit := by simp
        have i1 := fun q => insertAt_at preN.length pre [d.Vd, d.Vd] q hl
        have i2 := fun q => insertAt_at preN.length preN [d.limit, 0] q rfl
        simp only [if_pos a, if_neg b, addCorner, up, el, ex, Option.bind_eq_bind, Option.bind_some, i1, i2, max_eq_left b']
        have ey : (preN ++ [d.limit] ++ [d.limit, 0])[(preN ++ [d.limit] ++ [d.limit, 0]).length - 2]? = some d.limit := by
          have : (preN ++ [d.limit] ++ [d.limit, 0]).length - 2 = (preN ++ [d.limit]).length := by simp
          rw [this, List.getElem?_append_right (le_refl _)]; simp
        have ec : (corner c true d.limit (lowest (preN ++ [d.limit, 0])) (gust d d.Vc d.uCruise) (gust d d.Vd d.uDive) d.Vc d.Vd).2 = d.limit :=
          (C87_positive c d.limit _ _ _ d.Vc d.Vd hne).2
        simp only [pure, Option.bind_some, ec, ey]
      · simp only [corner, if_true]
        have : 0 ≤ (d.limit - gust d d.Vc d.uCruise) * (d.Vd - d.Vc) / (gust d d.Vd d.uDive - gust d d.Vc d.uCruise) := by
          apply div_nonneg_of_nonpos
          · exact mul_nonpos_of_nonpos_of_nonneg (by linarith) (by linarith)
          · linarith
        linarith
      · simp only [corner, if_true]
        have : (d.limit - gust d d.Vc d.uCruise) * (d.Vd - d.Vc) / (gust d d.Vd d.uDive - gust d d.Vc d.uCruise) ≤ d.Vd - d.Vc := by
          rw [div_le_iff_of_neg (by linarith)]
          nlinarith
        linarith
      · exact (C87_positive c d.limit (lowest (preN ++ [d.limit, 0])) _ _ d.Vc d.Vd hne).1
  · have b : gust d d.Vd d.uDive ≤ d.limit := by linarith [not_lt.1 a]
    refine ⟨[], [], ?_, Or.inl ⟨rfl, rfl⟩⟩
    simp only [if_neg a, Option.bind_some, max_eq_left b, el]
    simp

/-- **C410, negative side.** The limit at the dive speed is the smaller of the prescribed load factor and
the dive gust; if it is the gust, the envelope reaches the gust at the dive speed before ending at the
prescribed load factor. -/
theorem C410_negative (c : Cat) (d : GustIn) (pre preN : List ℝ) (x nl : ℝ) (hl : pre.length = preN.length)
    (h1 : preN[1]? = some x) (hx : x < 0) :
    ∃ mid midN, divePart c d (pre ++ [d.Vd]) (preN ++ [nl]) =
        some (pre ++ mid ++ [d.Vd], preN ++ midN ++ [nl], min nl (gust d d.Vd d.uDive)) ∧ mid.length = midN.length ∧
      (nl ≤ gust d d.Vd d.uDive → mid = [] ∧ midN = []) ∧
      (gust d d.Vd d.uDive < nl → mid.getLast? = some d.Vd ∧ midN.getLast? = some (gust d d.Vd d.uDive) ∧
        (|d.limit| < |gust d d.Vc d.uCruise| → mid.length = 1)) := by
  have hlen : 1 < preN.length := by
    by_contra hc
    rw [List.getElem?_eq_none (by omega)] at h1
    simp at h1
  have up : ∀ t, upper (preN ++ t) = some false := fun t => by
    rw [upper_append preN t x h1]; simp [hx.le]
  have el : (preN ++ [nl]).length - 1 = preN.length := by simp
  have ex : (preN ++ [nl])[preN.length]? = some nl := by simp
  simp only [divePart, up, Option.bind_eq_bind, Option.bind_some, Bool.false_eq_true, if_false, el, ex]
  by_cases a : gust d d.Vd d.uDive < nl
  · have ev : (pre ++ [d.Vd])[preN.length]? = some d.Vd := by rw [← hl]; simp
    have i1 : insertAt preN.length d.Vd (pre ++ [d.Vd]) = pre ++ [d.Vd] ++ [d.Vd] := insertAt_at _ _ _ _ hl
    have i2 : insertAt preN.length (gust d d.Vd d.uDive) (preN ++ [nl]) = preN ++ [gust d d.Vd d.uDive] ++ [nl] :=
      insertAt_at _ _ _ _ rfl
    have e2 : (preN ++ [gust d d.Vd d.uDive] ++ [nl]).length - 2 = preN.length := by simp
    simp only [if_pos a, ev, Option.bind_some, i1, i2, min_eq_right a.le, e2]
    by_cases b : |d.limit| < |gust d d.Vc d.uCruise|
    · refine ⟨[d.Vd], [gust d d.Vd d.uDive], ?_, rfl, fun h => absurd a (not_lt.2 h), fun _ => ⟨rfl, rfl, fun _ => rfl⟩⟩
      simp only [if_pos b, Option.bind_some]
      rw [List.append_assoc, List.set_append_right _ _ (le_refl _)]
      simp
    · have ey : (preN ++ [gust d d.Vd d.uDive] ++ [nl])[preN.length]? = some (gust d d.Vd d.uDive) := by
        rw [List.append_assoc, List.getElem?_append_right (le_refl _)]; simp
      have j1 := fun q => insertAt_at preN.length pre ([d.Vd] ++ [d.Vd]) q hl
      have j2 := fun q => insertAt_at preN.length preN ([gust d d.Vd d.uDive] ++ [nl]) q rfl
      simp only [if_neg b, addCorner, e2, ey, Option.bind_eq_bind, Option.bind_some]
      simp only [List.append_assoc, up, Option.bind_some] at j1 j2 ⊢
      simp only [j1, j2, pure, Option.bind_some]
      generalize corner c false (gust d d.Vd d.uDive) (lowest (preN ++ ([gust d d.Vd d.uDive] ++ [nl]))) (gust d d.Vc d.uCruise) (gust d d.Vd d.uDive) d.Vc d.Vd = q
      refine ⟨[q.1, d.Vd], [q.2, gust d d.Vd d.uDive], ?_, rfl, fun h => absurd a (not_lt.2 h), fun _ => ⟨rfl, rfl, fun h => absurd h b⟩⟩
      have : ∀ q : ℝ, (preN ++ ([q] ++ ([gust d d.Vd d.uDive] ++ [nl])))[(preN ++ ([q] ++ ([gust d d.Vd d.uDive] ++ [nl]))).length - 2]? = some (gust d d.Vd d.uDive) := by
        intro q
        rw [List.getElem?_append_right (by simp)]
        simp
      rw [this]
      simp
  · refine ⟨[], [], ?_, rfl, fun _ => ⟨rfl, rfl⟩, fun h => absurd h a⟩
    simp only [if_neg a, min_eq_left (not_lt.1 a)]
    simp

example : (0 : ℝ) < posGust.wl ∧ 0 ≤ posGust.kg * posGust.cla ∧ 0 ≤ posGust.Vd * posGust.uDive ∧
    posGust.Vd * posGust.uDive ≤ posGust.Vc * posGust.uCruise ∧ 0 < posGust.limit ∧ posGust.Vc ≤ posGust.Vd ∧
    gust negGust negGust.Vd negGust.uDive < 0 := by
  norm_num [posGust, negGust, gust]

/-! ### C417 -/

/-- **C417.** The gust lines drawn are straight: every point of the line of a gust velocity `u` is on
`n = 1 + Kg CLa u V / (498 W/S)`, and the lines drawn are those of the cruise gust, the dive gust and, for commuters, the
rough gust. -/
theorem C417_lines (commuter : Bool) (d : GustIn) (va : ℝ) :
    ∃ lines, gustLines commuter d.Vc d.Vd (gustFactors commuter d va) = some lines ∧
      lines.length = (if commuter then 3 else 2) ∧
      List.Forall₂ (fun (line : List (ℝ × ℝ)) (u : ℝ) => (0, 1) ∈ line ∧ (∃ n, (1.05 * d.Vd, n) ∈ line) ∧
        ∀ p ∈ line, p.2 = 1 + d.kg * d.cla * u / (498 * d.wl) * p.1)
        lines ([d.uCruise, d.uDive] ++ if commuter then [d.uRough] else []) := by
  have e : ∀ v u : ℝ, gust d v u = 1 + d.kg * d.cla * u / (498 * d.wl) * v := by
    intro v u; unfold gust; ring
  have h3 : ∀ a b u : ℝ, (0, 1) ∈ [((0 : ℝ), (1 : ℝ)), (a, gust d a u), (b, gust d b u)] ∧
      (∃ n, (b, n) ∈ [((0 : ℝ), (1 : ℝ)), (a, gust d a u), (b, gust d b u)]) ∧
      ∀ p ∈ [((0 : ℝ), (1 : ℝ)), (a, gust d a u), (b, gust d b u)], p.2 = 1 + d.kg * d.cla * u / (498 * d.wl) * p.1 := by
    intro a b u
    refine ⟨by simp, ⟨gust d b u, by simp⟩, ?_⟩
    intro p hp
    simp only [List.mem_cons, List.not_mem_nil, or_false] at hp
    rcases hp with rfl | rfl | rfl
    · simp
    · exact e _ _
    · exact e _ _
  have h2 : ∀ b u : ℝ, (0, 1) ∈ [((0 : ℝ), (1 : ℝ)), (b, gust d b u)] ∧
      (∃ n, (b, n) ∈ [((0 : ℝ), (1 : ℝ)), (b, gust d b u)]) ∧
      ∀ p ∈ [((0 : ℝ), (1 : ℝ)), (b, gust d b u)], p.2 = 1 + d.kg * d.cla * u / (498 * d.wl) * p.1 := by
    intro b u
    refine ⟨by simp, ⟨gust d b u, by simp⟩, ?_⟩
    intro p hp
    simp only [List.mem_cons, List.not_mem_nil, or_false] at hp
    rcases hp with rfl | rfl
    · simp
    · exact e _ _
  cases commuter
  · exact ⟨_, rfl, rfl, .cons (h3 _ _ _) (.cons (h3 _ _ _) .nil)⟩
  · exact ⟨_, rfl, rfl, .cons (h3 _ _ _) (.cons (h3 _ _ _) (.cons (h2 _ _) .nil))⟩

example : gustLines true posGust.Vc posGust.Vd (gustFactors true posGust 2) ≠ none := by
  obtain ⟨l, h, _⟩ := C417_lines true posGust 2
  rw [h]; simp

end Verif.Performance
