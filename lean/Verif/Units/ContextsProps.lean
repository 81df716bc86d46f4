import Verif.Units.Contexts
import Mathlib.Tactic.FieldSimp
import Mathlib.Tactic.Ring
import Mathlib.Tactic.Linarith
import Mathlib.Tactic.Positivity

/-!
C281 scope of unit contexts, C282 measurements, C283 names of units.
-/

namespace Verif.Units

set_option linter.unusedSectionVars false

variable {N D V : Type} [DecidableEq N] [DecidableEq D] [DecidableEq V]

/-! ### C281 -/

/-- Specification: the parameters of the innermost block. -/
def inherited (env : List (N × Params V)) : Params V := (env.head?.map Prod.snd).getD []

/-- Specification: parameters of a block are its own, then those of the block around it, then those of the context. -/
def lexEnter (r : Registry N D V) (env : List (N × Params V)) (names : List N) (kw : Params V) : List (N × Params V) :=
  (names.map fun n => (n, (kw ++ inherited env) ++ r.defaults n)).reverse ++ env

/-- Specification: look-ups see the contexts of the blocks around them, the innermost first. -/
def lexTrace (r : Registry N D V) : List (Use N D V) → List (N × Params V) → List (Option (N × Params V))
  | [], _ => []
  | .look e :: l, env => (env.find? fun c => decide (e ∈ r.edges c.1)) :: lexTrace r l env
  | .block names kw body :: l, env => lexTrace r body (lexEnter r env names kw) ++ lexTrace r l env

/-- Every block enables one context. -/
def Singles : List (Use N D V) → Prop
  | [] => True
  | .look _ :: l => Singles l
  | .block names _ body :: l => names.length = 1 ∧ Singles body ∧ Singles l

/-- The chain of a program whose blocks enable one context each. -/
structure Inv (s : Chain N V) (env : List (N × Params V)) : Prop where
  names : s.maps.map (fun c => (c.name, c.defaults)) = env
  strong : s.strong = s.maps.map fun c => [c]

theorem Inv.alive {s : Chain N V} {env : List (N × Params V)} (h : Inv s env) (c : Ctx N V) (hc : c ∈ s.maps) : s.alive c = true := by
  have : c ∈ s.strong.flatten := by
    rw [h.strong]
    exact List.mem_flatten.2 ⟨[c], List.mem_map.2 ⟨c, hc, rfl⟩, by simp⟩
  simp [Chain.alive, this]

theorem Inv.table {s : Chain N V} {env : List (N × Params V)} (h : Inv s env) (r : Registry N D V) (c : Ctx N V) (hc : c ∈ s.maps) :
    s.table r c = r.edges c.name := by
  simp [Chain.table, h.alive c hc]

theorem Inv.find {s : Chain N V} {env : List (N × Params V)} (h : Inv s env) (r : Registry N D V) (e : D × D) :
    (s.find r e).map (fun c => (c.name, c.defaults)) = env.find? fun c => decide (e ∈ r.edges c.1) := by
  have gen : ∀ l : List (Ctx N V), (∀ c ∈ l, s.table r c = r.edges c.name) →
      (l.find? fun c => decide (e ∈ s.table r c)).map (fun c => (c.name, c.defaults)) =
      (l.map fun c => (c.name, c.defaults)).find? fun c => decide (e ∈ r.edges c.1) := by
    intro l hl
    induction l with
    | nil => rfl
    | cons c l ih =>
      have hc := hl c (by simp)
      have := ih fun c hc => hl c (List.mem_cons_of_mem _ hc)
      simp only [List.find?_cons, List.map_cons, hc]
      by_cases he : e ∈ r.edges c.name
      · simp [he]
      · simpa [he] using this
  rw [Chain.find, gen s.maps fun c hc => h.table r c hc, h.names]

theorem Inv.defaults {s : Chain N V} {env : List (N × Params V)} (h : Inv s env) (r : Registry N D V) (hr : ∀ n, r.edges n ≠ []) :
    s.defaults r = some (inherited env) := by
  rw [← h.names]
  cases hm : s.maps with
  | nil => simp [Chain.defaults, hm, inherited]
  | cons c l =>
    have ht : s.table r c ≠ [] := by rw [h.table r c (by simp [hm])]; exact hr _
    simp [Chain.defaults, hm, ht, inherited]

theorem fromContext_entry (r : Registry N D V) (n : N) (kw : Params V) (k : ℕ) :
    (fromContext r n kw k).name = n ∧ (fromContext r n kw k).defaults = kw ++ r.defaults n := by
  unfold fromContext; split_ifs with h <;> simp [h]

theorem run_lex (r : Registry N D V) (hr : ∀ n, r.edges n ≠ []) : ∀ (us : List (Use N D V)) (s : Chain N V) (env : List (N × Params V)),
    Inv s env → Singles us → ∃ s', runUses r us s = some (lexTrace r us env, s') ∧ s'.maps = s.maps ∧ s'.strong = s.strong
  | [], s, env, _, _ => ⟨s, by rw [runUses, lexTrace], rfl, rfl⟩
  | .look e :: l, s, env, h, hs => by
    rw [Singles] at hs
    obtain ⟨s', h1, h2, h3⟩ := run_lex r hr l s env h hs
    refine ⟨s', ?_, h2, h3⟩
    rw [runUses, h1, Option.map_some, h.find, lexTrace]
  | .block names kw body :: l, s, env, h, hs => by
    rw [Singles] at hs
    obtain ⟨h1, hb, hl⟩ := hs
    obtain ⟨n, rfl⟩ := List.length_eq_one_iff.1 h1
    have hd := h.defaults r hr
    set d : Params V := inherited env with hdef
    have en : s.enable r [n] kw = some ⟨fromContext r n (kw ++ d) s.next :: s.maps, [fromContext r n (kw ++ d) s.next] :: s.strong, s.next + 1⟩ := by
      simp only [Chain.enable, hd, Option.map_some, fromContexts, List.length_cons, List.length_nil]
      rfl
    have hi : Inv (⟨fromContext r n (kw ++ d) s.next :: s.maps, [fromContext r n (kw ++ d) s.next] :: s.strong, s.next + 1⟩ : Chain N V)
        (lexEnter r env [n] kw) := by
      obtain ⟨e1, e2⟩ := fromContext_entry r n (kw ++ d) s.next
      refine ⟨?_, by simp [h.strong]⟩
      simp only [List.map_cons, e1, e2, h.names]
      rfl
    obtain ⟨s1, b1, b2, b3⟩ := run_lex r hr body _ _ hi hb
    have hi2 : Inv (s1.remove 1) env := by
      refine ⟨?_, ?_⟩
      · simp [Chain.remove, b2, h.names]
      · simp [Chain.remove, b2, b3, h.strong]
    obtain ⟨s2, c1, c2, c3⟩ := run_lex r hr l _ _ hi2 hl
    refine ⟨s2, ?_, ?_, ?_⟩
    · rw [runUses, en, Option.bind_some, b1, Option.bind_some]
      simp only [List.length_cons, List.length_nil, Nat.zero_add]
      rw [c1, Option.map_some, lexTrace]
    · simp [c2, Chain.remove, b2]
    · simp [c3, Chain.remove, b3]
termination_by us => sizeOf us

/-- **C281, one context per block.** Contexts follow the blocks of the program: inside a block its transformations and parameters
come first, parameters not given are inherited from the block around it, and after the block everything is as before. -/
theorem C281_scope_partial (r : Registry N D V) (hr : ∀ n, r.edges n ≠ []) (us : List (Use N D V)) (hs : Singles us) :
    ∃ s, runUses r us ⟨[], [], 0⟩ = some (lexTrace r us [], s) ∧ s.maps = [] ∧ s.strong = [] :=
  run_lex r hr us ⟨[], [], 0⟩ [] ⟨rfl, rfl⟩ hs

/-- Three contexts with one transformation each, and one without. -/
def sampleReg : Registry (Fin 4) (Fin 4) ℕ := ⟨fun n => if n = 3 then [] else [(n, n + 1)], fun _ => []⟩

/-- A context with a parameter, in it a second, then a look-up of the first. -/
def nestedSample : List (Use (Fin 4) (Fin 4) ℕ) := [.block [0] [("n", 7)] [.look (0, 1), .block [1] [] [.look (1, 2), .look (0, 1)], .look (0, 1)], .look (0, 1)]

example : (runUses (⟨fun n => [(n, n + 1)], fun _ => []⟩ : Registry (Fin 4) (Fin 4) ℕ) nestedSample ⟨[], [], 0⟩).map Prod.fst =
    some [some (0, [("n", 7)]), some (1, [("n", 7)]), some (0, [("n", 7)]), some (0, [("n", 7)]), none] := by simp only [runUses, nestedSample]; decide

example : ∃ s, runUses (⟨fun n => [(n, n + 1)], fun _ => []⟩ : Registry (Fin 4) (Fin 4) ℕ) nestedSample ⟨[], [], 0⟩ =
    some (lexTrace ⟨fun n => [(n, n + 1)], fun _ => []⟩ nestedSample [], s) ∧ s.maps = [] ∧ s.strong = [] :=
  C281_scope_partial _ (by simp) _ (by simp [nestedSample, Singles])

/-- **C281 fails for several contexts in one block.** Leaving a block of two contexts also lets go of the context around it when that
has parameters: its transformations are gone for the rest of its own block. -/
theorem C281_two_names_counterexample :
    (runUses sampleReg [.block [0] [("n", 7)] [.look (0, 1), .block [1, 2] [] [.look (0, 1)], .look (0, 1)]] ⟨[], [], 0⟩).map Prod.fst =
      some [some (0, [("n", 7)]), some (0, [("n", 7)]), none] ∧
    lexTrace sampleReg [.block [0] [("n", 7)] [.look (0, 1), .block [1, 2] [] [.look (0, 1)], .look (0, 1)]] [] =
      [some (0, [("n", 7)]), some (0, [("n", 7)]), some (0, [("n", 7)])] := by
  refine ⟨?_, ?_⟩
  · simp only [runUses]; decide
  · simp only [lexTrace]; decide

/-- **C281 fails for a context without transformations.** A block within its block is an exception when another context is active. -/
theorem C281_empty_counterexample :
    runUses sampleReg [.block [0] [] [.block [3] [] [.block [1] [] [.look (1, 2)]]]] ⟨[], [], 0⟩ = none := by simp only [runUses]; decide

/-! ### C282 -/

theorem mkMeas_pos {v e : ℝ} (h : 0 < e) : mkMeas v e = some ⟨v, e⟩ := by simp [mkMeas, h.ne', not_lt.2 h.le]

/-- **C282, errors.** A measurement is made of a value and a positive error, and keeps both; nothing else is one. -/
theorem C282_error (v e : ℝ) (m : Meas) : mkMeas v e = some m ↔ 0 < e ∧ m = ⟨v, e⟩ := by
  unfold mkMeas
  split_ifs with h1 h2
  · constructor
    · intro h; cases h
    · rintro ⟨h, _⟩; exact absurd h1 h.ne'
  · constructor
    · intro h; cases h
    · rintro ⟨h, _⟩; exact absurd h2 (not_lt.2 h.le)
  · rw [Option.some.injEq]
    exact ⟨fun h => ⟨lt_of_le_of_ne (not_lt.1 h2) (Ne.symm h1), h.symm⟩, fun h => h.2.symm⟩

/-- **C282, sums.** The values are added, the errors combine by their squares. -/
theorem C282_sum (m n : Meas) (hm : 0 < m.e) : ∃ s, m.add (.meas n) = some s ∧ s.v = m.v + n.v ∧ s.e ^ 2 = m.e ^ 2 + n.e ^ 2 ∧ 0 < s.e := by
  have : 0 < m.e ^ 2 + n.e ^ 2 := by positivity
  refine ⟨_, mkMeas_pos (Real.sqrt_pos.2 this), rfl, Real.sq_sqrt this.le, Real.sqrt_pos.2 this⟩

/-- **C282, products.** The value is the product, the error that of linear propagation: the contributions of the two factors combine by
their squares. -/
theorem C282_product_partial (m n : Meas) (hm : 0 < m.e) (hv : m.v ≠ 0) (hw : n.v ≠ 0) :
    ∃ s, m.mul (.meas n) = some s ∧ s.v = m.v * n.v ∧ s.e ^ 2 = (n.v * m.e) ^ 2 + (m.v * n.e) ^ 2 ∧ 0 < s.e := by
  have hp : 0 < (m.e / m.v) ^ 2 + (n.e / n.v) ^ 2 := by
    have : 0 < (m.e / m.v) ^ 2 := by have := hm.ne'; positivity
    positivity
  have hpos : 0 < Real.sqrt (|m.e / m.v| ^ 2 + |n.e / n.v| ^ 2) * |m.v * n.v| := by
    rw [sq_abs, sq_abs]
    exact mul_pos (Real.sqrt_pos.2 hp) (abs_pos.2 (mul_ne_zero hv hw))
  refine ⟨⟨m.v * n.v, Real.sqrt (|m.e / m.v| ^ 2 + |n.e / n.v| ^ 2) * |m.v * n.v|⟩, ?_, rfl, ?_, hpos⟩
  · simp only [Meas.mul, Meas.mulDiv, Meas.rel, hv, hw, if_false, Option.bind_some]
    exact mkMeas_pos hpos
  · simp only
    rw [mul_pow, Real.sq_sqrt (by positivity), sq_abs, sq_abs, sq_abs]
    field_simp

/-- **C282, quotients.** Likewise. -/
theorem C282_quotient_partial (m n : Meas) (hm : 0 < m.e) (hv : m.v ≠ 0) (hw : n.v ≠ 0) :
    ∃ s, m.div (.meas n) = some s ∧ s.v = m.v / n.v ∧ s.e ^ 2 = (m.e / n.v) ^ 2 + (m.v * n.e / n.v ^ 2) ^ 2 ∧ 0 < s.e := by
  have hp : 0 < (m.e / m.v) ^ 2 + (n.e / n.v) ^ 2 := by
    have : 0 < (m.e / m.v) ^ 2 := by have := hm.ne'; positivity
    positivity
  have hpos : 0 < Real.sqrt (|m.e / m.v| ^ 2 + |n.e / n.v| ^ 2) * |m.v / n.v| := by
    rw [sq_abs, sq_abs]
    exact mul_pos (Real.sqrt_pos.2 hp) (abs_pos.2 (div_ne_zero hv hw))
  refine ⟨⟨m.v / n.v, Real.sqrt (|m.e / m.v| ^ 2 + |n.e / n.v| ^ 2) * |m.v / n.v|⟩, ?_, rfl, ?_, hpos⟩
  · simp only [Meas.div, Meas.mulDiv, Meas.rel, trueDiv, hv, hw, if_false, Option.bind_some]
    exact mkMeas_pos hpos
  · simp only
    rw [mul_pow, Real.sq_sqrt (by positivity), sq_abs, sq_abs, sq_abs]
    field_simp

/-- **C282, plain factors.** Multiplying by (dividing by) a plain number scales value and error. -/
theorem C282_plain (m : Meas) (q : ℝ) (hm : 0 < m.e) (hq : q ≠ 0) :
    m.mul (.plain q) = some ⟨m.v * q, m.e * |q|⟩ ∧ m.div (.plain q) = some ⟨m.v / q, m.e / |q|⟩ := by
  have h1 : 0 < m.e * |q| := by positivity
  have h2 : 0 < m.e / |q| := by positivity
  constructor
  · simp only [Meas.mul, Meas.mulDiv, Option.bind_some, abs_mul, abs_of_pos hm]; exact mkMeas_pos h1
  · simp only [Meas.div, Meas.mulDiv, trueDiv, hq, if_false, Option.bind_some, abs_div, abs_of_pos hm]; exact mkMeas_pos h2

example : ∃ s, Meas.mul ⟨2, 0.1⟩ (.meas ⟨3, 0.2⟩) = some s ∧ s.v = 2 * 3 := by
  obtain ⟨s, h, h', _⟩ := C282_product_partial ⟨2, 0.1⟩ ⟨3, 0.2⟩ (by norm_num) (by norm_num) (by norm_num)
  exact ⟨s, h, h'⟩
example : ∃ s, Meas.div ⟨2, 0.1⟩ (.meas ⟨4, 0.2⟩) = some s ∧ s.v = 2 / 4 := by
  obtain ⟨s, h, h', _⟩ := C282_quotient_partial ⟨2, 0.1⟩ ⟨4, 0.2⟩ (by norm_num) (by norm_num) (by norm_num)
  exact ⟨s, h, h'⟩
example : ∃ s, Meas.add ⟨2, 3⟩ (.meas ⟨1, 4⟩) = some s ∧ s.v = 2 + 1 ∧ s.e ^ 2 = 3 ^ 2 + 4 ^ 2 := by
  obtain ⟨s, h, h', h'', _⟩ := C282_sum ⟨2, 3⟩ ⟨1, 4⟩ (by norm_num)
  exact ⟨s, h, h', h''⟩
example : Meas.mul ⟨2, 3⟩ (.plain (-2)) = some ⟨2 * -2, 3 * |(-2)|⟩ := (C282_plain ⟨2, 3⟩ (-2) (by norm_num) (by norm_num)).1

/-- **C282 fails for differences.** Subtraction adds the values; the difference has the wrong value whenever the second is not zero. -/
theorem C282_difference_counterexample (m n : Meas) (hm : 0 < m.e) (hn : n.v ≠ 0) :
    ∃ s, m.sub (.meas n) = some s ∧ s.v = m.v + n.v ∧ s.v ≠ m.v - n.v := by
  obtain ⟨s, h1, h2, _⟩ := C282_sum m n hm
  refine ⟨s, h1, h2, fun e => hn ?_⟩
  linarith

/-- **C282 fails for plain quantities, zero values and exact measurements.** Adding a plain quantity is an exception, so is a product with
a measurement of value zero, and a measurement without error cannot be made. -/
theorem C282_exceptions_counterexample (m : Meas) (q v : ℝ) :
    m.add (.plain q) = none ∧ m.sub (.plain q) = none ∧ m.mul (.meas ⟨0, q⟩) = none ∧ mkMeas v 0 = none := by
  refine ⟨rfl, rfl, ?_, by simp [mkMeas]⟩
  simp only [Meas.mul, Meas.mulDiv, Meas.rel, Option.bind_some, if_true]
  cases (if m.v = 0 then none else some |m.e / m.v|) <;> rfl

/-! ### C283 -/

theorem foldl_dedup_subset {α : Type} [DecidableEq α] (l : List α) (u : List α) :
    (∀ x ∈ l.foldl (fun unique c => if c ∈ unique then unique else unique ++ [c]) u, x ∈ u ∨ x ∈ l) ∧
    (∃ t, l.foldl (fun unique c => if c ∈ unique then unique else unique ++ [c]) u = u ++ t) ∧
    (u.Nodup → (l.foldl (fun unique c => if c ∈ unique then unique else unique ++ [c]) u).Nodup) := by
  induction l generalizing u with
  | nil => exact ⟨fun x hx => Or.inl hx, ⟨[], by simp⟩, id⟩
  | cons a l ih =>
    rw [List.foldl_cons]
    by_cases ha : a ∈ u
    · rw [if_pos ha]
      obtain ⟨h1, h2, h3⟩ := ih u
      exact ⟨fun x hx => (h1 x hx).imp id (List.mem_cons_of_mem _), h2, h3⟩
    · rw [if_neg ha]
      obtain ⟨h1, ⟨t, h2⟩, h3⟩ := ih (u ++ [a])
      refine ⟨fun x hx => ?_, ⟨a :: t, by simpa using h2⟩, fun hu => h3 ?_⟩
      · rcases h1 x hx with h | h
        · rcases List.mem_append.1 h with h | h
          · exact Or.inl h
          · simp at h; simp [h]
        · exact Or.inr (List.mem_cons_of_mem _ h)
      · rw [List.nodup_append]
        refine ⟨hu, by simp, fun x hx y hy => ?_⟩
        simp at hy; subst hy
        rintro rfl; exact ha hx

theorem dedup_spec {α : Type} [DecidableEq α] (l : List α) :
    (∀ x ∈ dedup l, x ∈ l) ∧ (dedup l).head? = l.head? ∧ (dedup l).Nodup := by
  match l with
  | [] => simp [dedup]
  | [a] => simp [dedup]
  | a :: b :: rest =>
    obtain ⟨h1, ⟨t, h2⟩, h3⟩ := foldl_dedup_subset rest [a]
    refine ⟨fun x hx => ?_, ?_, h3 (by simp)⟩
    · rcases h1 x hx with h | h
      · simp at h; simp [h]
      · simp [h]
    · rw [dedup, h2]; rfl

/-- A reading of a word: prefix, spelling of a unit, suffix. -/
def Reading (t : NameTables) (w : List Char) (c : List Char × List Char × List Char) : Prop :=
  ∃ s ∈ t.suffixes, ∃ p ∈ t.prefixes, ∃ a u, w = p.1 ++ a ++ s.1 ∧ t.units a = some u ∧ (s.1 ≠ [] → a.length ≠ 1) ∧ c = (p.2, u, s.2)

theorem mem_candidates (t : NameTables) (h0 : t.units [] = none) (w : List Char) (c : List Char × List Char × List Char) :
    c ∈ t.candidates w ↔ Reading t w c := by
  simp only [NameTables.candidates, List.mem_flatMap, List.mem_filterMap, Reading]
  refine exists_congr fun s => and_congr_right fun _ => exists_congr fun p => and_congr_right fun _ => ?_
  constructor
  · intro h
    simp only [NameTables.candidate, Bool.and_eq_true, List.isPrefixOf_iff_prefix, List.isSuffixOf_iff_suffix] at h
    by_cases h1 : p.1 <+: w ∧ s.1 <:+ w
    swap
    · rw [if_neg h1] at h; cases h
    rw [if_pos h1] at h
    obtain ⟨⟨b, hb⟩, ⟨q, hq⟩⟩ := h1
    subst hb
    rw [List.drop_left] at h
    by_cases h2 : s.1 = []
    · simp only [h2, ne_eq, not_true_eq_false, false_and, if_true, if_false] at h
      obtain ⟨u, hu, rfl⟩ := Option.map_eq_some_iff.1 h
      exact ⟨b, u, by simp [h2], hu, by simp [h2], rfl⟩
    · by_cases h3 : (b.take (b.length - s.1.length)).length = 1
      · simp [h2, h3] at h
      simp only [h2, h3, ne_eq, not_false_eq_true, and_false, if_false] at h
      obtain ⟨u, hu, rfl⟩ := Option.map_eq_some_iff.1 h
      refine ⟨b.take (b.length - s.1.length), u, ?_, hu, fun _ => h3, rfl⟩
      have hlen : s.1.length ≤ b.length := by
        by_contra hc
        rw [show b.length - s.1.length = 0 by omega] at hu
        simp [h0] at hu
      have hs : b.drop (b.length - s.1.length) = s.1 := by
        have h1 : s.1 <:+ b := by
          refine List.suffix_of_suffix_length_le ⟨q, hq⟩ (List.suffix_append _ _) hlen
        obtain ⟨z, hz⟩ := h1
        rw [← hz]; simp
      rw [List.append_assoc]
      congr 1
      conv_lhs => rw [← List.take_append_drop (b.length - s.1.length) b, hs]
  · rintro ⟨a, u, rfl, hu, hl, rfl⟩
    have e1 : p.1.isPrefixOf (p.1 ++ a ++ s.1) = true := by rw [List.isPrefixOf_iff_prefix]; simp [List.append_assoc]
    have e2 : s.1.isSuffixOf (p.1 ++ a ++ s.1) = true := by rw [List.isSuffixOf_iff_suffix]; exact List.suffix_append _ _
    by_cases hs : s.1 = []
    · simp [NameTables.candidate, hs, hu]
    · have e3 : (p.1 ++ a ++ s.1).drop p.1.length = a ++ s.1 := by rw [List.append_assoc, List.drop_left]
      simp [NameTables.candidate, e1, e2, hs, hu, hl hs, e3, -List.append_assoc]

/-- **C283, names.** A word that is not itself the spelling of a unit is read as prefix, spelling and suffix: the name returned is that
of such a reading, and a word without any is an exception. -/
theorem C283_reading (t : NameTables) (h0 : t.units [] = none) (w : List Char) :
    (∀ n, t.units w = some n → t.getName w = some (n, false)) ∧
    (t.units w = none → (t.getName w = none ↔ ∀ c, ¬ Reading t w c) ∧
      ∀ n b, t.getName w = some (n, b) → ∃ c, Reading t w c ∧ n = c.1 ++ c.2.1) := by
  refine ⟨fun n h => by simp [NameTables.getName, h], fun h => ?_⟩
  obtain ⟨h1, h2, _⟩ := dedup_spec (t.candidates w)
  constructor
  · rw [NameTables.getName, h]
    constructor
    · intro hn c hc
      have hc' := (mem_candidates t h0 w c).2 hc
      cases hd : dedup (t.candidates w) with
      | nil =>
        rw [hd] at h2
        cases hl : t.candidates w with
        | nil => rw [hl] at hc'; simp at hc'
        | cons a l => rw [hl] at h2; simp at h2
      | cons a l => rw [hd] at hn; cases hn
    · intro hn
      have : t.candidates w = [] := List.eq_nil_iff_forall_not_mem.2 fun c hc => hn c ((mem_candidates t h0 w c).1 hc)
      simp [this, dedup]
  · intro n b hn
    rw [NameTables.getName, h] at hn
    cases hd : dedup (t.candidates w) with
    | nil => rw [hd] at hn; cases hn
    | cons a l =>
      rw [hd] at hn
      simp only [Option.some.injEq, Prod.mk.injEq] at hn
      exact ⟨a, (mem_candidates t h0 w a).1 (h1 a (by simp [hd])), hn.1.symm⟩

/-- **C283, single readings.** A word with one reading only gets its name without a warning; a warning means that there are two
different readings. -/
theorem C283_warning_partial (t : NameTables) (h0 : t.units [] = none) (w : List Char) (h : t.units w = none) :
    (∀ c, Reading t w c → (∀ d, Reading t w d → d = c) → t.getName w = some (c.1 ++ c.2.1, false)) ∧
    (∀ n, t.getName w = some (n, true) → ∃ c d, Reading t w c ∧ Reading t w d ∧ c ≠ d) := by
  obtain ⟨h1, h2, h3⟩ := dedup_spec (t.candidates w)
  constructor
  · intro c hc hu
    have hne : dedup (t.candidates w) ≠ [] := by
      intro e
      rw [e] at h2
      have := (mem_candidates t h0 w c).2 hc
      cases hl : t.candidates w with
      | nil => rw [hl] at this; simp at this
      | cons a l => rw [hl] at h2; simp at h2
    obtain ⟨a, l, hd⟩ := List.exists_cons_of_ne_nil hne
    have ha : a = c := hu a ((mem_candidates t h0 w a).1 (h1 a (by simp [hd])))
    have hl : l = [] := by
      rw [hd] at h3 h1
      by_contra hl
      obtain ⟨b, l', e⟩ := List.exists_cons_of_ne_nil hl
      have hb : b = c := hu b ((mem_candidates t h0 w b).1 (h1 b (by simp [e])))
      rw [e, ha, hb] at h3
      simp at h3
    rw [NameTables.getName, h, hd, hl, ha]; simp
  · intro n hn
    rw [NameTables.getName, h] at hn
    cases hd : dedup (t.candidates w) with
    | nil => rw [hd] at hn; cases hn
    | cons a l =>
      rw [hd] at hn
      simp only [Option.some.injEq, Prod.mk.injEq, decide_eq_true_eq] at hn
      obtain ⟨b, l', e⟩ := List.exists_cons_of_ne_nil hn.2
      refine ⟨a, b, (mem_candidates t h0 w a).1 (h1 a (by simp [hd])), (mem_candidates t h0 w b).1 (h1 b (by simp [hd, e])), ?_⟩
      rw [hd, e] at h3
      rintro rfl
      simp at h3

/-- Tables with the prefixes deci and deka and the units metre and atto-metre. -/
def nameSample : NameTables where
  suffixes := [([], []), (['s'], [])]
  prefixes := [([], []), (['d'], "deci".toList), (['d', 'a'], "deka".toList)]
  units w := if w = ['m'] then some "meter".toList else if w = ['a', 'm'] then some "attometer".toList
    else if w = "meter".toList then some "meter".toList else none

example : nameSample.getName "dmeters".toList = some ("decimeter".toList, false) := by decide +kernel
example : nameSample.getName "xm".toList = none := by decide +kernel

/-- **C283 fails for two readings.** With exactly two candidates the second is never looked at: no warning is given although a warning is
given for three. -/
theorem C283_two_readings_counterexample (t : NameTables) (w : List Char) (a b : List Char × List Char × List Char) (h : t.units w = none)
    (hc : t.candidates w = [a, b]) : t.getName w = some (a.1 ++ a.2.1, false) := by
  rw [NameTables.getName, h, hc]; simp [dedup]

example : nameSample.candidates "dam".toList = [("deci".toList, "attometer".toList, []), ("deka".toList, "meter".toList, [])] ∧
    nameSample.getName "dam".toList = some ("deciattometer".toList, false) := by decide +kernel

end Verif.Units
