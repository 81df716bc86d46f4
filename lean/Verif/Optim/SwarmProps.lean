import Verif.Optim.Swarm
import Mathlib.Tactic.Linarith
import Mathlib.Tactic.NormNum
import Mathlib.Tactic.Ring
import Mathlib.Data.List.Chain
/-!
C21 (swarm stays within bounds, only improves), C57 (reports the best feasible point seen).
-/

set_option linter.unusedSectionVars false

namespace Verif.Optim

variable {K : Type} [Field K] [LinearOrder K] [IsStrictOrderedRing K] {D : Nat}

/-! ### Specification -/

/-- `y` lies in the box. -/
def Within (lb ub y : Pos K D) : Prop := ∀ i, lb i ≤ y i ∧ y i ≤ ub i

/-- Assertion of line 88. -/
def Swarm.Valid (P : Swarm K D) : Prop := ∀ i, P.lb i < P.ub i

/-! ### Helper lemmas -/

omit [IsStrictOrderedRing K] in
theorem clamp_within (P : Swarm K D) (hv : P.Valid) (y : Pos K D) : Within P.lb P.ub (P.clampPos y) := by
  intro i
  have h := hv i
  unfold Swarm.clampPos
  simp only
  split
  · exact ⟨h.le, le_refl _⟩
  · rename_i h2
    split
    · exact ⟨le_refl _, h.le⟩
    · rename_i h1
      exact ⟨not_lt.1 h1, not_lt.1 h2⟩

theorem place_within (P : Swarm K D) (hv : P.Valid) (u : Pos K D) (hu : ∀ i, 0 ≤ u i ∧ u i ≤ 1) :
    Within P.lb P.ub (P.place u) := by
  intro i
  have h := hv i
  have hd : 0 ≤ P.ub i - P.lb i := by linarith
  unfold Swarm.place
  have h1 := mul_nonneg (hu i).1 hd
  have h2 := mul_le_mul_of_nonneg_right (hu i).2 hd
  constructor <;> linarith

omit [IsStrictOrderedRing K] in
/-- What one move does. -/
theorem move_cases (P : Swarm K D) (q : Particle K D) (b : Best K D) (rp rg : Pos K D) :
    let r := P.move q b rp rg
    (r.1.x = P.clampPos (fun i => q.x i + P.velocity q b.g rp rg i)) ∧
    ((P.f r.1.x < q.fp ∧ P.feasible r.1.x = true ∧ r.1.p = r.1.x ∧ r.1.fp = P.f r.1.x) ∨
      (¬ (P.f r.1.x < q.fp ∧ P.feasible r.1.x = true) ∧ r.1.p = q.p ∧ r.1.fp = q.fp)) ∧
    ((r.2.2 = none ∧ r.2.1 = b ∧ (P.f r.1.x < q.fp ∧ P.feasible r.1.x = true → b.fg ≤ P.f r.1.x)) ∨
      (r.2.2 = none ∧ r.2.1 = ⟨r.1.x, P.f r.1.x⟩ ∧ P.f r.1.x < q.fp ∧ P.feasible r.1.x = true ∧ P.f r.1.x < b.fg) ∨
      (r.2.2 = some (r.1.x, P.f r.1.x) ∧ P.f r.1.x < q.fp ∧ P.feasible r.1.x = true ∧ P.f r.1.x < b.fg)) := by
  intro r
  have hr : r = P.move q b rp rg := rfl
  clear_value r
  unfold Swarm.move at hr
  simp only at hr
  split at hr
  · rename_i h
    split at hr
    · rename_i h2
      split at hr
      · subst hr; exact ⟨rfl, Or.inl ⟨h.1, h.2, rfl, rfl⟩, Or.inr (Or.inr ⟨rfl, h.1, h.2, h2⟩)⟩
      · split at hr
        · subst hr; exact ⟨rfl, Or.inl ⟨h.1, h.2, rfl, rfl⟩, Or.inr (Or.inr ⟨rfl, h.1, h.2, h2⟩)⟩
        · subst hr; exact ⟨rfl, Or.inl ⟨h.1, h.2, rfl, rfl⟩, Or.inr (Or.inl ⟨rfl, rfl, h.1, h.2, h2⟩)⟩
    · rename_i h2
      subst hr; exact ⟨rfl, Or.inl ⟨h.1, h.2, rfl, rfl⟩, Or.inl ⟨rfl, rfl, fun _ => not_lt.1 h2⟩⟩
  · rename_i h
    subst hr; exact ⟨rfl, Or.inr ⟨h, rfl, rfl⟩, Or.inl ⟨rfl, rfl, fun h' => absurd h' h⟩⟩

/-- The provisional best is genuine: it was feasible and carries its own value. -/
def Genuine (P : Swarm K D) (g : Pos K D) (fg : K) : Prop := P.feasible g = true ∧ fg = P.f g

omit [IsStrictOrderedRing K] in
theorem sweep_spec (P : Swarm K D) (hv : P.Valid) (rp rg : Nat → Pos K D) (qs : List (Particle K D)) (i : Nat)
    (b : Best K D) :
    let r := P.sweep rp rg i qs b
    (∀ y ∈ r.2.2.1, Within P.lb P.ub y) ∧
    (r.2.2.2.2 = none → r.2.1 = b ∨ (Genuine P r.2.1.g r.2.1.fg ∧ r.2.1.fg < b.fg)) ∧
    (∀ out, r.2.2.2.2 = some out → Genuine P out.1 out.2 ∧ out.2 < b.fg) ∧
    (b.fg :: r.2.2.2.1).Pairwise (fun a c => c ≤ a) ∧
    (r.2.2.2.2 = none → ∀ a ∈ b.fg :: r.2.2.2.1, r.2.1.fg ≤ a) ∧
    (∀ out, r.2.2.2.2 = some out → ∀ a ∈ b.fg :: r.2.2.2.1, out.2 ≤ a) := by
  induction qs generalizing i b with
  | nil => simp [Swarm.sweep]
  | cons q qs ih =>
    intro r
    have hm := move_cases P q b (rp i) (rg i)
    have hr : r = P.sweep rp rg i (q :: qs) b := rfl
    clear_value r
    simp only [Swarm.sweep] at hr
    generalize P.move q b (rp i) (rg i) = m at hr hm
    obtain ⟨hx, _, hb⟩ := hm
    have hw : Within P.lb P.ub m.1.x := by rw [hx]; exact clamp_within P hv _
    cases ho : m.2.2 with
    | some out =>
      simp only [ho] at hr
      have hb' : out = (m.1.x, P.f m.1.x) ∧ P.feasible m.1.x = true ∧ P.f m.1.x < b.fg := by
        rcases hb with ⟨h, _⟩ | ⟨h, _⟩ | ⟨h, h2, h3, h4⟩
        · rw [ho] at h; cases h
        · rw [ho] at h; cases h
        · rw [ho] at h; injection h with h; exact ⟨h, h3, h4⟩
      subst hr
      obtain ⟨rfl, hf, hl⟩ := hb'
      refine ⟨by simpa using hw, by simp, ?_, ?_, by simp, ?_⟩
      · rintro out ⟨⟩; exact ⟨⟨hf, rfl⟩, hl⟩
      · simpa using hl.le
      · rintro out ⟨⟩; simp [hl.le]
    | none =>
      simp only [ho] at hr
      have hb' : m.2.1 = b ∨ (Genuine P m.2.1.g m.2.1.fg ∧ m.2.1.fg < b.fg) := by
        rcases hb with ⟨_, h, _⟩ | ⟨_, h, _, h3, h4⟩ | ⟨h, _⟩
        · exact Or.inl h
        · right; rw [h]; exact ⟨⟨h3, rfl⟩, h4⟩
        · rw [ho] at h; cases h
      have hle : m.2.1.fg ≤ b.fg := by
        rcases hb' with h | h
        · rw [h]
        · exact h.2.le
      have IH := ih (i + 1) m.2.1
      subst hr
      simp only at IH ⊢
      generalize P.sweep rp rg (i + 1) qs m.2.1 = t at IH
      obtain ⟨i1, i2, i3, i4, i5, i6⟩ := IH
      refine ⟨?_, ?_, ?_, ?_, ?_, ?_⟩
      · intro y hy
        rcases List.mem_cons.1 hy with rfl | hy
        · exact hw
        · exact i1 y hy
      · intro h
        rcases i2 h with h1 | h1
        · rw [h1]; exact hb'
        · exact Or.inr ⟨h1.1, lt_of_lt_of_le h1.2 hle⟩
      · intro out h
        exact ⟨(i3 out h).1, lt_of_lt_of_le (i3 out h).2 hle⟩
      · rw [List.pairwise_cons]
        refine ⟨?_, i4⟩
        intro a ha
        rcases List.mem_cons.1 ha with rfl | ha
        · exact hle
        · exact le_trans ((List.pairwise_cons.1 i4).1 a ha) hle
      · intro h a ha
        rcases List.mem_cons.1 ha with rfl | ha
        · exact le_trans (i5 h _ List.mem_cons_self) hle
        · exact i5 h a ha
      · intro out h a ha
        rcases List.mem_cons.1 ha with rfl | ha
        · exact le_trans (i6 out h _ List.mem_cons_self) hle
        · exact i6 out h a ha

omit [IsStrictOrderedRing K] in
theorem loop_spec (P : Swarm K D) (hv : P.Valid) (rp rg : Nat → Nat → Pos K D) (n it : Nat)
    (qs : List (Particle K D)) (b : Best K D) :
    let r := P.loop rp rg it n qs b
    (∀ y ∈ r.seen, Within P.lb P.ub y) ∧
    ((r.g = b.g ∧ r.fg = b.fg) ∨ Genuine P r.g r.fg) ∧
    (b.fg :: r.bests).Pairwise (fun a c => c ≤ a) ∧ (∀ a ∈ b.fg :: r.bests, r.fg ≤ a) := by
  induction n generalizing it qs b with
  | zero => simp [Swarm.loop]
  | succ n ih =>
    intro r
    have hs := sweep_spec P hv (rp it) (rg it) qs 0 b
    have hr : r = P.loop rp rg it (n + 1) qs b := rfl
    clear_value r
    simp only [Swarm.loop] at hr
    simp only at hs
    generalize P.sweep (rp it) (rg it) 0 qs b = s at hr hs
    obtain ⟨s1, s2, s3, s4, s5, s6⟩ := hs
    cases ho : s.2.2.2.2 with
    | some out =>
      simp only [ho] at hr
      subst hr
      exact ⟨s1, Or.inr (s3 out ho).1, s4, s6 out ho⟩
    | none =>
      simp only [ho] at hr
      have IH := ih (it + 1) s.1 s.2.1
      subst hr
      simp only at IH ⊢
      generalize P.loop rp rg (it + 1) n s.1 s.2.1 = t at IH
      obtain ⟨i1, i2, i3, i4⟩ := IH
      refine ⟨?_, ?_, ?_, ?_⟩
      · intro y hy
        rcases List.mem_append.1 hy with hy | hy
        · exact s1 y hy
        · exact i1 y hy
      · rcases i2 with ⟨h1, h2⟩ | h
        · rcases s2 ho with h | h
          · left; rw [h1, h2, h]; exact ⟨rfl, rfl⟩
          · right; rw [h1, h2]; exact h.1
        · exact Or.inr h
      · rw [← List.cons_append, List.pairwise_append]
        refine ⟨s4, (List.pairwise_cons.1 i3).2, ?_⟩
        intro a ha c hc
        exact le_trans ((List.pairwise_cons.1 i3).1 c hc) (s5 ho a ha)
      · intro a ha
        rw [← List.cons_append] at ha
        rcases List.mem_append.1 ha with ha | ha
        · exact le_trans (i4 _ List.mem_cons_self) (s5 ho a ha)
        · exact i4 a (List.mem_cons_of_mem _ ha)

theorem initRest_spec (P : Swarm K D) (hv : P.Valid) (u w : Nat → Pos K D)
    (hu : ∀ k i, 0 ≤ u k i ∧ u k i ≤ 1) (m i : Nat) (b : Best K D) :
    let r := P.initRest u w i m b
    (∀ q ∈ r.1, Within P.lb P.ub q.x) ∧
    (∀ q ∈ r.1, q.fp = P.f q.x ∧ (P.feasible q.x = true → r.2.fg ≤ q.fp)) ∧
    (r.2 = b ∨ Genuine P r.2.g r.2.fg) ∧ r.2.fg ≤ b.fg ∧
    r.1.map (·.x) = (List.range' i m).map (fun k => P.place (u k)) := by
  induction m generalizing i b with
  | zero => simp [Swarm.initRest]
  | succ m ih =>
    simp only [Swarm.initRest]
    have IH := ih (i + 1) (P.initOne (u i) (w i) b).2
    simp only at IH
    generalize P.initRest u w (i + 1) m (P.initOne (u i) (w i) b).2 = t at IH
    obtain ⟨i1, i2, i3, i4, i5⟩ := IH
    have h0 : (P.initOne (u i) (w i) b).1.x = P.place (u i) := rfl
    have h0' : (P.initOne (u i) (w i) b).1.fp = P.f (P.place (u i)) := rfl
    have hb : ((P.initOne (u i) (w i) b).2 = b ∨ Genuine P (P.initOne (u i) (w i) b).2.g (P.initOne (u i) (w i) b).2.fg) ∧
        (P.initOne (u i) (w i) b).2.fg ≤ b.fg ∧
        (P.feasible (P.place (u i)) = true → (P.initOne (u i) (w i) b).2.fg ≤ P.f (P.place (u i))) := by
      unfold Swarm.initOne
      simp only
      split
      · rename_i h
        exact ⟨Or.inr ⟨h.2, rfl⟩, h.1.le, fun _ => le_refl _⟩
      · rename_i h
        refine ⟨Or.inl rfl, le_refl _, fun hf => ?_⟩
        by_contra hn
        exact h ⟨not_le.1 hn, hf⟩
    refine ⟨?_, ?_, ?_, le_trans i4 hb.2.1, ?_⟩
    · intro q hq
      rcases List.mem_cons.1 hq with rfl | hq
      · rw [h0]; exact place_within P hv _ (hu i)
      · exact i1 q hq
    · intro q hq
      rcases List.mem_cons.1 hq with rfl | hq
      · rw [h0, h0']; exact ⟨rfl, fun hf => le_trans i4 (hb.2.2 hf)⟩
      · exact i2 q hq
    · rcases i3 with h | h
      · rw [h]; exact hb.1
      · exact Or.inr h
    · simp only [List.map_cons, i5, h0, List.range'_succ]

/-! ### C21 -/

/-- **C21, bounds.** Whatever the random numbers in [0,1] and the parameters, every position at
which the objective is evaluated lies within the bounds. -/
theorem C21_bounds (P : Swarm K D) (hv : P.Valid) (m maxiter : Nat) (u w : Nat → Pos K D) (rp rg : Nat → Nat → Pos K D)
    (hu : ∀ k i, 0 ≤ u k i ∧ u k i ≤ 1) :
    ∀ y ∈ (P.run m maxiter u w rp rg).seen, Within P.lb P.ub y := by
  intro y hy
  simp only [Swarm.run, List.mem_append] at hy
  have hi := initRest_spec P hv u w hu (m + 1) 0 ⟨P.place (u 0), P.sentinel⟩
  rcases hy with hy | hy
  · obtain ⟨q, hq, rfl⟩ := List.mem_map.1 hy
    exact hi.1 q hq
  · exact (loop_spec P hv rp rg maxiter 1 _ _).1 y hy

/-- **C21, only improves.** The reported best value never increases over the run and the value
returned is the least of them. -/
theorem C21_monotone (P : Swarm K D) (hv : P.Valid) (m maxiter : Nat) (u w : Nat → Pos K D) (rp rg : Nat → Nat → Pos K D) :
    (P.run m maxiter u w rp rg).bests.Pairwise (fun a c => c ≤ a) ∧
    ∀ a ∈ (P.run m maxiter u w rp rg).bests, (P.run m maxiter u w rp rg).fg ≤ a := by
  have h := loop_spec P hv rp rg maxiter 1 (P.init m u w).1 (P.init m u w).2
  exact ⟨h.2.2.1, h.2.2.2⟩

/-- **C21, reported value (partial).** Either no feasible position of acceptable value was
recorded, in which case the first particle's initial position is returned with the sentinel
value, or the returned position satisfies the constraints and the returned value is the
objective there.  (Missing: in the first case the value is not the objective; see the
counterexample.) -/
theorem C21_reported_partial (P : Swarm K D) (hv : P.Valid) (m maxiter : Nat) (u w : Nat → Pos K D)
    (rp rg : Nat → Nat → Pos K D) (hu : ∀ k i, 0 ≤ u k i ∧ u k i ≤ 1) :
    let r := P.run m maxiter u w rp rg
    (r.g = P.place (u 0) ∧ r.fg = P.sentinel) ∨ (P.feasible r.g = true ∧ r.fg = P.f r.g) := by
  intro r
  have hi := initRest_spec P hv u w hu (m + 1) 0 ⟨P.place (u 0), P.sentinel⟩
  have hl := loop_spec P hv rp rg maxiter 1 (P.init m u w).1 (P.init m u w).2
  rcases hl.2.1 with ⟨h1, h2⟩ | h
  · rcases hi.2.2.1 with h | h
    · left
      exact ⟨by show (P.loop _ _ _ _ _ _).g = _; rw [h1]; show (P.initRest _ _ _ _ _).2.g = _; rw [h],
        by show (P.loop _ _ _ _ _ _).fg = _; rw [h2]; show (P.initRest _ _ _ _ _).2.fg = _; rw [h]⟩
    · right
      show Genuine P (P.loop _ _ _ _ _ _).g (P.loop _ _ _ _ _ _).fg
      rw [h1, h2]; exact h
  · exact Or.inr h

/-- **C21, reported value.** As soon as one initial position is feasible with a value below the
sentinel, the returned position is feasible, carries its own objective value, and is at
least as good as that one. -/
theorem C21_reported (P : Swarm K D) (hv : P.Valid) (m maxiter : Nat) (u w : Nat → Pos K D)
    (rp rg : Nat → Nat → Pos K D) (hu : ∀ k i, 0 ≤ u k i ∧ u k i ≤ 1) (k : Nat) (hk : k ≤ m)
    (hf : P.feasible (P.place (u k)) = true) (hs : P.f (P.place (u k)) < P.sentinel) :
    let r := P.run m maxiter u w rp rg
    P.feasible r.g = true ∧ r.fg = P.f r.g ∧ r.fg ≤ P.f (P.place (u k)) := by
  intro r
  have hi := initRest_spec P hv u w hu (m + 1) 0 ⟨P.place (u 0), P.sentinel⟩
  have hl := loop_spec P hv rp rg maxiter 1 (P.init m u w).1 (P.init m u w).2
  have hmem : P.place (u k) ∈ ((P.init m u w).1.map (·.x)) := by
    show P.place (u k) ∈ (P.initRest u w 0 (m + 1) _).1.map (·.x)
    rw [hi.2.2.2.2, List.mem_map]
    exact ⟨k, by simp; omega, rfl⟩
  obtain ⟨q, hq, hqx⟩ := List.mem_map.1 hmem
  have hq2 := hi.2.1 q hq
  have hqx' : q.x = P.place (u k) := hqx
  rw [hqx'] at hq2
  have hle : (P.init m u w).2.fg ≤ P.f (P.place (u k)) := by rw [← hq2.1]; exact hq2.2 hf
  have hr : r.fg ≤ P.f (P.place (u k)) := le_trans (hl.2.2.2 _ List.mem_cons_self) hle
  rcases C21_reported_partial P hv m maxiter u w rp rg hu with h | h
  · exfalso
    have : r.fg = P.sentinel := h.2
    rw [this] at hr
    exact absurd hs (not_lt.2 hr)
  · exact ⟨h.1, h.2, hr⟩

/-- A one-dimensional example: minimise `x` on [0,1] subject to `x ≥ 1/2`. -/
def exSwarm : Swarm ℚ 1 where
  lb := fun _ => 0
  ub := fun _ => 1
  f := fun x => x 0
  feasible := fun x => decide (1 / 2 ≤ x 0)
  omega := 1 / 2
  phip := 1 / 2
  phig := 1 / 2
  minstep := 0
  minfunc := 0
  sentinel := 10 ^ 100
  dist := fun x y => |x 0 - y 0|

example : exSwarm.Valid := by intro i; norm_num [exSwarm]
example : exSwarm.feasible (exSwarm.place (fun _ => 3 / 4)) = true ∧
    exSwarm.f (exSwarm.place (fun _ => 3 / 4)) < exSwarm.sentinel := by
  norm_num [exSwarm, Swarm.place]

/-- Without a feasible position the reported value is not the objective at the reported
point. -/
theorem C21_sentinel_counterexample :
    ∃ (P : Swarm ℚ 1) (u w : Nat → Pos ℚ 1) (rp rg : Nat → Nat → Pos ℚ 1), P.Valid ∧
      (∀ k i, 0 ≤ u k i ∧ u k i ≤ 1) ∧
      (P.run 0 0 u w rp rg).fg ≠ P.f (P.run 0 0 u w rp rg).g := by
  refine ⟨exSwarm, fun _ _ => 0, fun _ _ => 0, fun _ _ _ => 0, fun _ _ _ => 0, ?_, ?_, ?_⟩
  · intro i; norm_num [exSwarm]
  · intro k i; norm_num
  · norm_num [exSwarm, Swarm.run, Swarm.init, Swarm.initRest, Swarm.initOne, Swarm.loop, Swarm.place]

/-! ### C57: the best feasible point seen -/

omit [IsStrictOrderedRing K] in
theorem sweep_best (P : Swarm K D) (rp rg : Nat → Pos K D) (qs : List (Particle K D)) (i : Nat)
    (b : Best K D) (hq : ∀ q ∈ qs, b.fg ≤ q.fp) :
    let r := P.sweep rp rg i qs b
    (r.2.2.2.2 = none → r.2.1.fg ≤ b.fg ∧ (∀ q ∈ r.1, r.2.1.fg ≤ q.fp) ∧
      (∀ y ∈ r.2.2.1, P.feasible y = true → r.2.1.fg ≤ P.f y)) ∧
    (∀ out, r.2.2.2.2 = some out → out.2 ≤ b.fg ∧ ∀ y ∈ r.2.2.1, P.feasible y = true → out.2 ≤ P.f y) := by
  induction qs generalizing i b with
  | nil => simp [Swarm.sweep]
  | cons q qs ih =>
    intro r
    have hm := move_cases P q b (rp i) (rg i)
    have hr : r = P.sweep rp rg i (q :: qs) b := rfl
    clear_value r
    simp only [Swarm.sweep] at hr
    generalize P.move q b (rp i) (rg i) = m at hr hm
    obtain ⟨_, hp, hb⟩ := hm
    have hq0 := hq q List.mem_cons_self
    cases ho : m.2.2 with
    | some out =>
      simp only [ho] at hr
      have hb' : out = (m.1.x, P.f m.1.x) ∧ P.f m.1.x < b.fg := by
        rcases hb with ⟨h, _⟩ | ⟨h, _⟩ | ⟨h, h2, h3, h4⟩
        · rw [ho] at h; cases h
        · rw [ho] at h; cases h
        · rw [ho] at h; injection h with h; exact ⟨h, h4⟩
      subst hr
      obtain ⟨rfl, hl⟩ := hb'
      refine ⟨by simp, ?_⟩
      rintro out ⟨⟩
      refine ⟨hl.le, ?_⟩
      intro y hy _
      simp only [List.mem_singleton] at hy
      subst hy; exact le_refl _
    | none =>
      simp only [ho] at hr
      have hle : m.2.1.fg ≤ b.fg ∧ m.2.1.fg ≤ m.1.fp ∧ (P.feasible m.1.x = true → m.2.1.fg ≤ P.f m.1.x) := by
        rcases hb with ⟨_, h, h2⟩ | ⟨_, h, h1, h3, h4⟩ | ⟨h, _⟩
        · rw [h]
          rcases hp with ⟨p1, p2, _, p4⟩ | ⟨p1, _, p4⟩
          · rw [p4]; exact ⟨le_refl _, h2 ⟨p1, p2⟩, fun _ => h2 ⟨p1, p2⟩⟩
          · rw [p4]
            refine ⟨le_refl _, hq0, fun hf => ?_⟩
            have : q.fp ≤ P.f m.1.x := by
              by_contra hn
              exact p1 ⟨not_le.1 hn, hf⟩
            exact le_trans hq0 this
        · rw [h]
          refine ⟨h4.le, ?_, fun _ => le_refl _⟩
          rcases hp with ⟨_, _, _, p4⟩ | ⟨p1, _, _⟩
          · rw [p4]
          · exact absurd ⟨h1, h3⟩ p1
        · rw [ho] at h; cases h
      have IH := ih (i + 1) m.2.1 (fun q' hq' => le_trans hle.1 (hq q' (List.mem_cons_of_mem _ hq')))
      subst hr
      simp only at IH ⊢
      generalize P.sweep rp rg (i + 1) qs m.2.1 = t at IH
      obtain ⟨i1, i2⟩ := IH
      refine ⟨?_, ?_⟩
      · intro h
        obtain ⟨j1, j2, j3⟩ := i1 h
        refine ⟨le_trans j1 hle.1, ?_, ?_⟩
        · intro q' hq'
          rcases List.mem_cons.1 hq' with rfl | hq'
          · exact le_trans j1 hle.2.1
          · exact j2 q' hq'
        · intro y hy hf
          rcases List.mem_cons.1 hy with rfl | hy
          · exact le_trans j1 (hle.2.2 hf)
          · exact j3 y hy hf
      · intro out h
        obtain ⟨j1, j3⟩ := i2 out h
        refine ⟨le_trans j1 hle.1, ?_⟩
        intro y hy hf
        rcases List.mem_cons.1 hy with rfl | hy
        · exact le_trans j1 (hle.2.2 hf)
        · exact j3 y hy hf

omit [IsStrictOrderedRing K] in
theorem loop_best (P : Swarm K D) (rp rg : Nat → Nat → Pos K D) (n it : Nat)
    (qs : List (Particle K D)) (b : Best K D) (hq : ∀ q ∈ qs, b.fg ≤ q.fp) :
    let r := P.loop rp rg it n qs b
    r.fg ≤ b.fg ∧ ∀ y ∈ r.seen, P.feasible y = true → r.fg ≤ P.f y := by
  induction n generalizing it qs b with
  | zero => simp [Swarm.loop]
  | succ n ih =>
    intro r
    have hs := sweep_best P (rp it) (rg it) qs 0 b hq
    have hr : r = P.loop rp rg it (n + 1) qs b := rfl
    clear_value r
    simp only [Swarm.loop] at hr
    simp only at hs
    generalize P.sweep (rp it) (rg it) 0 qs b = s at hr hs
    obtain ⟨s1, s2⟩ := hs
    cases ho : s.2.2.2.2 with
    | some out =>
      simp only [ho] at hr
      subst hr
      exact s2 out ho
    | none =>
      simp only [ho] at hr
      obtain ⟨a1, a2, a3⟩ := s1 ho
      have IH := ih (it + 1) s.1 s.2.1 a2
      subst hr
      simp only at IH ⊢
      generalize P.loop rp rg (it + 1) n s.1 s.2.1 = t at IH
      obtain ⟨i1, i2⟩ := IH
      refine ⟨le_trans i1 a1, ?_⟩
      intro y hy hf
      rcases List.mem_append.1 hy with hy | hy
      · exact le_trans i1 (a3 y hy hf)
      · exact i2 y hy hf

/-- **C57, partial.** If all initial positions satisfy the constraints (in particular if there
are none), the value returned is at most the objective at every feasible position evaluated
during the run.  (Missing: infeasible initial positions, where it fails.) -/
theorem C57_best_seen_partial (P : Swarm K D) (hv : P.Valid) (m maxiter : Nat) (u w : Nat → Pos K D)
    (rp rg : Nat → Nat → Pos K D) (hu : ∀ k i, 0 ≤ u k i ∧ u k i ≤ 1)
    (hfeas : ∀ k ≤ m, P.feasible (P.place (u k)) = true) :
    let r := P.run m maxiter u w rp rg
    ∀ y ∈ r.seen, P.feasible y = true → r.fg ≤ P.f y := by
  intro r y hy hf
  have hi := initRest_spec P hv u w hu (m + 1) 0 ⟨P.place (u 0), P.sentinel⟩
  have hx : ∀ q ∈ (P.init m u w).1, P.feasible q.x = true := by
    intro q hq
    have : q.x ∈ (P.init m u w).1.map (·.x) := List.mem_map.2 ⟨q, hq, rfl⟩
    rw [show (P.init m u w).1.map (·.x) = _ from hi.2.2.2.2] at this
    obtain ⟨k, hk, hk'⟩ := List.mem_map.1 this
    rw [← hk']
    apply hfeas
    simp at hk; omega
  have hl := loop_best P rp rg maxiter 1 (P.init m u w).1 (P.init m u w).2
    (fun q hq => (hi.2.1 q hq).2 (hx q hq))
  have hy' : y ∈ (P.init m u w).1.map (·.x) ++ (P.loop rp rg 1 maxiter (P.init m u w).1 (P.init m u w).2).seen := hy
  rcases List.mem_append.1 hy' with hy | hy
  · obtain ⟨q, hq, rfl⟩ := List.mem_map.1 hy
    have h2 := hi.2.1 q hq
    show (P.loop rp rg 1 maxiter (P.init m u w).1 (P.init m u w).2).fg ≤ _
    have h3 : (P.init m u w).2.fg ≤ q.fp := h2.2 hf
    rw [h2.1] at h3
    exact le_trans hl.1 h3
  · exact hl.2 y hy hf

/-- **C57 is false of the code.** A particle that starts infeasible keeps its low infeasible
value as its personal best, so that a feasible position it reaches later is evaluated but
never recorded: the swarm returns the infeasible starting point with value 1e100. -/
theorem C57_counterexample :
    ∃ (P : Swarm ℚ 1) (u w : Nat → Pos ℚ 1) (rp rg : Nat → Nat → Pos ℚ 1), P.Valid ∧
      (∀ k i, 0 ≤ u k i ∧ u k i ≤ 1) ∧
      ∃ y ∈ (P.run 0 1 u w rp rg).seen, P.feasible y = true ∧ P.f y < (P.run 0 1 u w rp rg).fg ∧
        P.feasible (P.run 0 1 u w rp rg).g = false := by
  refine ⟨exSwarm, fun _ _ => 1 / 4, fun _ _ => 1, fun _ _ _ => 0, fun _ _ _ => 0, ?_, ?_, fun _ => 3 / 4, ?_, ?_, ?_, ?_⟩
  · intro i; norm_num [exSwarm]
  · intro k i; norm_num
  · norm_num [exSwarm, Swarm.run, Swarm.init, Swarm.initRest, Swarm.initOne, Swarm.loop, Swarm.place, Swarm.sweep,
      Swarm.move, Swarm.velocity, Swarm.launch, Swarm.clampPos]
    right; funext i; norm_num [Swarm.clampPos]
  · norm_num [exSwarm]
  · norm_num [exSwarm, Swarm.run, Swarm.init, Swarm.initRest, Swarm.initOne, Swarm.loop, Swarm.place, Swarm.sweep,
      Swarm.move, Swarm.velocity, Swarm.launch, Swarm.clampPos]
  · norm_num [exSwarm, Swarm.run, Swarm.init, Swarm.initRest, Swarm.initOne, Swarm.loop, Swarm.place, Swarm.sweep,
      Swarm.move, Swarm.velocity, Swarm.launch, Swarm.clampPos]

end Verif.Optim
