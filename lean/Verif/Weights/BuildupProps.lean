import Verif.Weights.Buildup
import Mathlib.Analysis.SpecificLimits.Basic
import Mathlib.Tactic.GCongr
import Mathlib.Tactic.Linarith
import Mathlib.Tactic.FieldSimp

/-!
C151 (wing build-up), C152 (fuselage and wiring), C153 (rotor blades), C154 (totals of electric vertical take-off aircraft),
C155 (convergence of their weight).
-/

namespace Verif.Weights
open Real Finset Verif.Vehicle

/-! ### Sums outboard of a station -/

theorem outboard_tip (n : ℕ) (x v : ℕ → ℝ) {i : ℕ} (hi : n ≤ i) : outboard n x v i = 0 := by
  simp [outboard, Ico_eq_empty_of_le hi]

theorem outboard_step {n : ℕ} (x v : ℕ → ℝ) {i : ℕ} (hi : i < n) :
    outboard n x v i = v i * (x (i + 1) - x i) + outboard n x v (i + 1) := by
  unfold outboard
  rw [sum_eq_sum_Ico_succ_bot hi]

theorem outboard_mono {n : ℕ} {x : ℕ → ℝ} (hx : Monotone x) {v w : ℕ → ℝ} (h : ∀ i, v i ≤ w i) (i : ℕ) :
    outboard n x v i ≤ outboard n x w i := by
  unfold outboard
  refine sum_le_sum fun j _ => ?_
  have := hx (Nat.le_succ j)
  exact mul_le_mul_of_nonneg_right (h j) (sub_nonneg.2 this)

theorem outboard_nonneg {n : ℕ} {x : ℕ → ℝ} (hx : Monotone x) {v : ℕ → ℝ} (h : ∀ i, 0 ≤ v i) (i : ℕ) :
    0 ≤ outboard n x v i :=
  sum_nonneg fun j _ => mul_nonneg (h j) (sub_nonneg.2 (hx (Nat.le_succ j)))

theorem outboard_antitone {n : ℕ} {x : ℕ → ℝ} (hx : Monotone x) {v : ℕ → ℝ} (h : ∀ i, 0 ≤ v i) :
    Antitone (outboard n x v) := by
  refine antitone_nat_of_succ_le fun i => ?_
  by_cases hi : i < n
  · rw [outboard_step x v hi]
    have := mul_nonneg (h i) (sub_nonneg.2 (hx (Nat.le_succ i)))
    linarith
  · rw [outboard_tip n x v (by omega), outboard_tip n x v (by omega)]

theorem outboard_smul (n : ℕ) (x v : ℕ → ℝ) (k : ℝ) (i : ℕ) :
    outboard n x (fun j => k * v j) i = k * outboard n x v i := by
  unfold outboard; rw [mul_sum]; exact sum_congr rfl fun _ _ => by ring

theorem outboard_sub (n : ℕ) (x v w : ℕ → ℝ) (i : ℕ) :
    outboard n x v i - outboard n x w i = outboard n x (fun j => v j - w j) i := by
  unfold outboard; rw [← sum_sub_distrib]; exact sum_congr rfl fun _ _ => by ring

theorem outboard_const (n : ℕ) (x : ℕ → ℝ) (k : ℝ) : outboard n x (fun _ => k) 0 = k * (x n - x 0) := by
  unfold outboard
  rw [← mul_sum, Nat.Ico_zero_eq_range, sum_range_sub]

/-! ### C151 Wing -/

theorem ellipse_nonneg (xm : ℝ) (x : ℕ → ℝ) (i : ℕ) : 0 ≤ ellipse xm x i := Real.sqrt_nonneg _

theorem liftAt_nonneg {n : ℕ} {x : ℕ → ℝ} (hx : Monotone x) {L : ℝ} (hL : 0 ≤ L) (i : ℕ) : 0 ≤ liftAt n x L i := by
  have h1 := outboard_nonneg (n := n) hx (ellipse_nonneg (x n) x) 0
  have h2 := ellipse_nonneg (x n) x i
  unfold liftAt; positivity

theorem liftAt_mono {n : ℕ} {x : ℕ → ℝ} (hx : Monotone x) {L L' : ℝ} (hL : L ≤ L') (i : ℕ) :
    liftAt n x L i ≤ liftAt n x L' i := by
  have h1 := outboard_nonneg (n := n) hx (ellipse_nonneg (x n) x) 0
  have h2 := ellipse_nonneg (x n) x i
  unfold liftAt; gcongr

/-- Shear at the root is half of the lift the wing carries, at the tip none. -/
theorem C151_root (n : ℕ) (x : ℕ → ℝ) (L : ℝ) (h : outboard n x (ellipse (x n) x) 0 ≠ 0) :
    shearAt n x L 0 = L ∧ shearAt n x L n = 0 ∧ momentAt n x L n = 0 := by
  refine ⟨?_, outboard_tip _ _ _ le_rfl, outboard_tip _ _ _ le_rfl⟩
  unfold shearAt liftAt
  rw [outboard_smul, div_mul_cancel₀ _ h]

/-- A wing of two metres with three stations for the examples. -/
noncomputable def exX (i : ℕ) : ℝ := i

theorem exX_mono : Monotone exX := fun _ _ h => by simpa [exX] using h

example : outboard 2 exX (ellipse (exX 2) exX) 0 ≠ 0 := by
  have h0 : ellipse (exX 2) exX 0 = 1 := by simp [ellipse, exX]
  have h1 := ellipse_nonneg (exX 2) exX 1
  rw [outboard_step _ _ (by norm_num), outboard_step _ _ (by norm_num), outboard_tip _ _ _ le_rfl, h0]
  have h2 : exX (1 + 1) - exX 1 = 1 := by norm_num [exX]
  have h3 : exX (0 + 1) - exX 0 = 1 := by norm_num [exX]
  rw [h3, zero_add, h2]
  linarith

/-- The wings together carry the weight times load and safety factor. -/
theorem C151_lift (areas : List ℝ) (h : areas.sum ≠ 0) (mtow G SF : ℝ) :
    (areas.map fun a => 2 * halfLift mtow G (liftFraction areas a) SF).sum = G * mtow * 9.8 * SF := by
  have e : ∀ l : List ℝ, (l.map fun a => 2 * halfLift mtow G (liftFraction areas a) SF).sum
      = G * mtow * 9.8 * SF * (l.sum / areas.sum) := by
    intro l
    induction l with
    | nil => simp
    | cons a l ih => rw [List.map_cons, List.sum_cons, ih, List.sum_cons]; simp only [halfLift, liftFraction]; ring
  rw [e, div_self h, mul_one]

example : ([10, 5].map fun a => 2 * halfLift 1000 3.8 (liftFraction [10, 5] a) 1.5).sum = 3.8 * 1000 * 9.8 * 1.5 :=
  C151_lift _ (by norm_num) _ _ _

/-- Shear and bending moment decrease from root to tip and are never negative. -/
theorem C151_decreasing {n : ℕ} {x : ℕ → ℝ} (hx : Monotone x) {L : ℝ} (hL : 0 ≤ L) :
    Antitone (shearAt n x L) ∧ Antitone (momentAt n x L) ∧ (∀ i, 0 ≤ shearAt n x L i) ∧ ∀ i, 0 ≤ momentAt n x L i := by
  have h1 := liftAt_nonneg (n := n) hx hL
  have h2 : ∀ i, 0 ≤ shearAt n x L i := outboard_nonneg hx h1
  exact ⟨outboard_antitone hx h1, outboard_antitone hx h2, h2, outboard_nonneg hx h2⟩

example : 0 ≤ momentAt 2 exX 100 1 := (C151_decreasing exX_mono (by norm_num)).2.2.2 1

/-- Materials and cross sections with nothing negative. -/
structure Mats.Ok (m : Mats) : Prop where
  torsUSS : 0 < m.torsUSS
  torsDen : 0 < m.torsDen
  torsMGT : 0 < m.torsMGT
  coreDen : 0 ≤ m.coreDen
  coreMGT : 0 ≤ m.coreMGT
  bendUTS : 0 < m.bendUTS
  bendDen : 0 < m.bendDen
  glueMGT : 0 ≤ m.glueMGT
  glueDen : 0 ≤ m.glueDen
  coverMGT : 0 ≤ m.coverMGT
  coverDen : 0 ≤ m.coverDen
  ribWid : 0 ≤ m.ribWid
  ribMGT : 0 ≤ m.ribMGT
  ribDen : 0 ≤ m.ribDen
  shearMGT : 0 < m.shearMGT
  shearDen : 0 < m.shearDen
  shearUSS : 0 < m.shearUSS

structure Sect.Ok (s : Sect) : Prop where
  torsionArea : 0 < s.torsionArea
  torsionLength : 0 < s.torsionLength
  flapInertia : 0 < s.flapInertia
  flapLength : 0 < s.flapLength
  flapMax : 0 < s.flapMax
  dragInertia : 0 < s.dragInertia
  dragLength : 0 < s.dragLength
  dragMax : 0 < s.dragMax
  h : 0 < s.h
  skinLength : 0 < s.skinLength
  area : 0 < s.area

theorem linearMass_mono {m : Mats} {s : Sect} (hm : m.Ok) (hs : s.Ok) {x : ℕ → ℝ} (hx : Monotone x)
    {V V' M M' Y Y' Z Z' : ℝ} (hV : V ≤ V') (hM : M ≤ M') (hY : Y ≤ Y') (hZ : Z ≤ Z') :
    linearMass m s x V M Y Z ≤ linearMass m s x V' M' Y' Z' := by
  obtain ⟨a1, a2, a3, a4, a5, a6, a7, a8, a9, a10, a11, a12, a13, a14, a15, a16, a17⟩ := hm
  obtain ⟨b1, b2, b3, b4, b5, b6, b7, b8, b9, b10, b11⟩ := hs
  have hd : 0 ≤ x 1 - x 0 := sub_nonneg.2 (hx (by norm_num))
  unfold linearMass torsionThickness
  gcongr

theorem linearMass_pos {m : Mats} {s : Sect} (hm : m.Ok) (hs : s.Ok) {x : ℕ → ℝ} {V M Y Z : ℝ} (hM : 0 ≤ M)
    (hZ : 0 ≤ Z) : 0 < linearMass m s x V M Y Z := by
  obtain ⟨a1, a2, a3, a4, a5, a6, a7, a8, a9, a10, a11, a12, a13, a14, a15, a16, a17⟩ := hm
  obtain ⟨b1, b2, b3, b4, b5, b6, b7, b8, b9, b10, b11⟩ := hs
  have h1 : 0 < torsionThickness m s x Y := lt_max_of_lt_right a3
  have h2 : 0 < max (1.5 * V / (m.shearUSS * s.h)) m.shearMGT := lt_max_of_lt_right a15
  unfold linearMass
  positivity

theorem thrustShear_mono (x : ℕ → ℝ) (motors : List ℝ) {T T' : ℝ} (h : T ≤ T') (i : ℕ) :
    thrustShear x motors T i ≤ thrustShear x motors T' i := by
  unfold thrustShear
  refine List.sum_le_sum fun y _ => ?_
  split_ifs <;> simp [h]

theorem thrustShear_nonneg (x : ℕ → ℝ) (motors : List ℝ) {T : ℝ} (h : 0 ≤ T) (i : ℕ) : 0 ≤ thrustShear x motors T i := by
  unfold thrustShear
  refine List.sum_nonneg fun y hy => ?_
  obtain ⟨z, -, rfl⟩ := List.mem_map.1 hy
  split_ifs <;> simp [h]

theorem chordMoment_mono {n : ℕ} {x : ℕ → ℝ} (hx : Monotone x) {L L' LoD T T' : ℝ} (hD : 0 ≤ LoD) (hL : L ≤ L') (hT : T ≤ T')
    (motors : List ℝ) : chordMoment n x L LoD motors T ≤ chordMoment n x L' LoD motors T' := by
  unfold chordMoment
  refine sup'_mono_fun fun i _ => max_le_max ?_ (outboard_mono hx (thrustShear_mono x motors hT) i)
  refine outboard_mono hx (outboard_mono hx fun j => ?_) i
  exact div_le_div_of_nonneg_right (liftAt_mono hx hL j) hD

theorem chordMoment_nonneg {n : ℕ} {x : ℕ → ℝ} (hx : Monotone x) {L LoD T : ℝ} (hT : 0 ≤ T) (motors : List ℝ) :
    0 ≤ chordMoment n x L LoD motors T := by
  unfold chordMoment
  refine le_sup'_of_le _ (mem_range.2 (Nat.succ_pos n)) ?_
  exact le_max_of_le_right (outboard_nonneg hx (thrustShear_nonneg x motors hT) 0)

theorem shearAt_mono {n : ℕ} {x : ℕ → ℝ} (hx : Monotone x) {L L' : ℝ} (h : L ≤ L') (i : ℕ) :
    shearAt n x L i ≤ shearAt n x L' i := outboard_mono hx (liftAt_mono hx h) i

/-- A wing has positive mass. -/
theorem C151_positive {m : Mats} {s : Sect} (hm : m.Ok) (hs : s.Ok) {n : ℕ} {x : ℕ → ℝ} (hx : Monotone x) (motors : List ℝ)
    {mtow G frac SF T chord cmocl LoD grace : ℝ} (hL : 0 ≤ halfLift mtow G frac SF) (hT : 0 ≤ T) (hg : 0 < grace)
    (hlen : x 0 < x n) : 0 < wingBuildup m s n x motors mtow G frac SF T chord cmocl LoD grace := by
  have hb : 0 ≤ ribMass m s := by
    have := hm.ribWid; have := hm.ribMGT; have := hm.ribDen; have := hs.area; have := hs.skinLength
    unfold ribMass; positivity
  have hZ := chordMoment_nonneg (n := n) (L := halfLift mtow G frac SF) (LoD := LoD) hx hT motors
  have hsum : 0 < ∑ i ∈ range n, linearMass m s x (shearAt n x (halfLift mtow G frac SF) i)
      (momentAt n x (halfLift mtow G frac SF) i) (torqueAt n x (halfLift mtow G frac SF) chord cmocl i)
      (chordMoment n x (halfLift mtow G frac SF) LoD motors T) * (x (i + 1) - x i) := by
    have hp : ∀ i, 0 < linearMass m s x (shearAt n x (halfLift mtow G frac SF) i)
      (momentAt n x (halfLift mtow G frac SF) i) (torqueAt n x (halfLift mtow G frac SF) chord cmocl i)
      (chordMoment n x (halfLift mtow G frac SF) LoD motors T) := fun i =>
        linearMass_pos hm hs ((C151_decreasing hx hL).2.2.2 i) hZ
    have hd : ∀ i, 0 ≤ x (i + 1) - x i := fun i => sub_nonneg.2 (hx (Nat.le_succ i))
    refine sum_pos' (fun i _ => mul_nonneg (hp i).le (hd i)) ?_
    by_contra hcon
    push Not at hcon
    have hz : ∀ i ∈ range n, x (i + 1) - x i ≤ 0 := fun i hi => by
      have := hcon i hi
      by_contra h'
      push Not at h'
      exact absurd (mul_pos (hp i) h') (not_lt.2 this)
    have := sum_nonpos hz
    rw [sum_range_sub] at this
    linarith
  unfold wingBuildup
  dsimp only
  positivity

/-- It grows with take-off mass, load factor, safety factor and thrust. -/
theorem C151_monotone {m : Mats} {s : Sect} (hm : m.Ok) (hs : s.Ok) {n : ℕ} {x : ℕ → ℝ} (hx : Monotone x) (motors : List ℝ)
    {mtow mtow' G G' frac SF SF' T T' chord cmocl LoD grace : ℝ} (h0 : 0 ≤ mtow) (h1 : mtow ≤ mtow') (h2 : 0 ≤ G)
    (h3 : G ≤ G') (h4 : 0 ≤ frac) (h5 : 0 ≤ SF) (h6 : SF ≤ SF') (hT : T ≤ T') (hc : 0 ≤ chord) (hcm : 0 ≤ cmocl)
    (hD : 0 ≤ LoD) (hg : 0 ≤ grace) :
    wingBuildup m s n x motors mtow G frac SF T chord cmocl LoD grace
      ≤ wingBuildup m s n x motors mtow' G' frac SF' T' chord cmocl LoD grace := by
  have hm' := h0.trans h1
  have hG' := h2.trans h3
  have hL : halfLift mtow G frac SF ≤ halfLift mtow' G' frac SF' := by unfold halfLift; gcongr
  unfold wingBuildup
  dsimp only
  refine mul_le_mul_of_nonneg_right (mul_le_mul_of_nonneg_left (add_le_add_left (sum_le_sum fun i _ => ?_) _)
    (by norm_num)) hg
  refine mul_le_mul_of_nonneg_right ?_ (sub_nonneg.2 (hx (Nat.le_succ i)))
  refine linearMass_mono hm hs hx (shearAt_mono hx hL i) (outboard_mono hx (shearAt_mono hx hL) i) ?_
    (chordMoment_mono hx hD hL hT motors)
  refine outboard_mono hx (fun j => ?_) i
  have := liftAt_mono (n := n) hx hL j
  gcongr

/-- All properties one. -/
def exMats : Mats := ⟨1, 1, 1, 1, 1, 1, 1, 1, 1, 1, 1, 1, 1, 1, 1, 1, 1⟩
def exSect : Sect := ⟨1, 1, 1, 1, 1, 1, 1, 1, 1, 1, 1⟩

theorem exMats_ok : exMats.Ok := by constructor <;> norm_num [exMats]
theorem exSect_ok : exSect.Ok := by constructor <;> norm_num [exSect]

example : 0 < wingBuildup exMats exSect 2 exX [1] 10 3.8 1 1.5 5 1 0.02 7 1.2 :=
  C151_positive exMats_ok exSect_ok exX_mono _ (by norm_num [halfLift]) (by norm_num) (by norm_num) (by norm_num [exX])

/-- The torsion skin does not carry the torque: with two motors at the innermost place it has minimum thickness whatever the
torque is. -/
theorem C151_torsion_counterexample {m : Mats} {s : Sect} (hm : m.Ok) {x : ℕ → ℝ} (hx : x 1 = x 0) (My : ℝ) :
    torsionThickness m s x My = m.torsMGT := by
  unfold torsionThickness
  rw [hx, sub_self, mul_zero, zero_div]
  exact max_eq_right hm.torsMGT.le

/-- In general it has enough for a torque only if the first interval is a metre or more, or the minimum thickness is. -/
theorem C151_torsion_partial {m : Mats} {s : Sect} (hm : m.Ok) (hs : s.Ok) {x : ℕ → ℝ} {My : ℝ} (hy : 0 < My) :
    My / (2 * m.torsUSS * s.torsionArea) ≤ torsionThickness m s x My
      ↔ 1 ≤ x 1 - x 0 ∨ My / (2 * m.torsUSS * s.torsionArea) ≤ m.torsMGT := by
  have h1 := hm.torsUSS
  have h2 := hs.torsionArea
  unfold torsionThickness
  rw [le_max_iff]
  refine or_congr ?_ Iff.rfl
  rw [div_le_div_iff_of_pos_right (by positivity)]
  constructor
  · intro h; by_contra h'; push Not at h'; nlinarith
  · intro h; nlinarith

example : 50 / (2 * exMats.torsUSS * exSect.torsionArea) ≤ torsionThickness exMats exSect exX 50 :=
  (C151_torsion_partial exMats_ok exSect_ok (by norm_num)).2 (.inl (by norm_num [exX]))

/-- Without loads a wing is skin, core, webs and ribs: its mass per length of one panel is constant from the first station to
the last. -/
theorem C151_unloaded {m : Mats} {s : Sect} (hm : m.Ok) (n : ℕ) (x : ℕ → ℝ) (motors : List ℝ)
    (G frac SF chord cmocl LoD grace : ℝ) :
    wingBuildup m s n x motors 0 G frac SF 0 chord cmocl LoD grace
      = 2 * ((m.torsMGT * s.torsionLength * m.torsDen + m.coreMGT * s.torsionLength * m.coreDen
        + m.shearMGT * s.h * m.shearDen + m.glueMGT * m.glueDen * (s.torsionLength + s.flapLength + s.dragLength)
        + s.skinLength * m.coverMGT * m.coverDen) * (x n - x 0) + ((motors.length : ℝ) + 2) * ribMass m s) * grace := by
  have hL : halfLift 0 G frac SF = 0 := by simp [halfLift]
  have h1 : ∀ i, liftAt n x 0 i = 0 := fun i => by simp [liftAt]
  have h2 : ∀ i, shearAt n x 0 i = 0 := fun i => by simp [shearAt, outboard, h1]
  have h3 : ∀ i, momentAt n x 0 i = 0 := fun i => by simp [momentAt, outboard, h2]
  have h4 : ∀ i, torqueAt n x 0 chord cmocl i = 0 := fun i => by simp [torqueAt, outboard, h1]
  have h5 : chordMoment n x 0 LoD motors 0 = 0 := by
    unfold chordMoment
    have : ∀ i, max (outboard n x (outboard n x fun i => liftAt n x 0 i / LoD) i) (outboard n x (thrustShear x motors 0) i)
        = 0 := fun i => by simp [outboard, h1, thrustShear]
    simp only [this]
    exact sup'_const _ _
  unfold wingBuildup
  dsimp only
  rw [hL, h5]
  simp only [h2, h3, h4]
  have h6 : linearMass m s x 0 0 0 0 = m.torsMGT * s.torsionLength * m.torsDen + m.coreMGT * s.torsionLength * m.coreDen
        + m.shearMGT * s.h * m.shearDen + m.glueMGT * m.glueDen * (s.torsionLength + s.flapLength + s.dragLength)
        + s.skinLength * m.coverMGT * m.coverDen := by
    unfold linearMass torsionThickness
    rw [zero_mul, zero_div, max_eq_right hm.torsMGT.le, mul_zero, zero_div, max_eq_right hm.shearMGT.le]
    ring
  rw [h6, ← mul_sum, sum_range_sub]

/-- Motors of the left side, given with negative places as in the stopped-rotor example, lengthen the panel beyond the root: it
weighs more than with all of them on the right. -/
theorem C151_signed_counterexample : ∃ (x x' : ℕ → ℝ), Monotone x ∧ Monotone x'
    ∧ (∀ y, y ∈ [0, 1, 1, 2] ↔ y ∈ (List.range 4).map x) ∧ (∀ y, y ∈ [-1, 0, 1, 2] ↔ y ∈ (List.range 4).map x')
    ∧ wingBuildup exMats exSect 3 x [1, 1] 0 1 1 1 0 1 1 1 1 < wingBuildup exMats exSect 3 x' [-1, 1] 0 1 1 1 0 1 1 1 1 := by
  refine ⟨fun i => if i = 0 then 0 else if i ≤ 2 then 1 else 2, fun i => (i : ℝ) - 1, ?_, fun a b h => by simpa using h,
    ?_, ?_, ?_⟩
  · intro a b h
    dsimp only
    split_ifs <;> first | omega | norm_num
  · intro y; simp [List.range_succ]
  · intro y; simp [List.range_succ]; norm_num
  · rw [C151_unloaded exMats_ok, C151_unloaded exMats_ok]
    norm_num [exMats, exSect, ribMass]

/-! ### C152 Fuselage and wiring -/

/-- A spherical fuselage has the area of a sphere. -/
theorem C152_sphere (r : ℝ) : fuseWetted (2 * r) (2 * r) (2 * r) = 4 * π * r ^ 2 := by
  unfold fuseWetted
  rw [show 2 * r * (2 * r) / 4 = r ^ 2 by ring, show ((r ^ 2) ^ (1.6 : ℝ) + (r ^ 2) ^ (1.6 : ℝ) + (r ^ 2) ^ (1.6 : ℝ)) / 3
    = (r ^ 2) ^ (1.6 : ℝ) by ring, ← Real.rpow_mul (by positivity)]
  norm_num

example : fuseWetted 2 2 2 = 4 * π := by simpa using C152_sphere 1

/-- The order of the dimensions does not matter for the area, which grows with each. -/
theorem C152_wetted {l l' w w' h h' : ℝ} (hl : 0 ≤ l) (hll : l ≤ l') (hw : 0 ≤ w) (hww : w ≤ w') (hh : 0 ≤ h) (hhh : h ≤ h') :
    fuseWetted l w h = fuseWetted w l h ∧ fuseWetted l w h = fuseWetted l h w
    ∧ fuseWetted l w h ≤ fuseWetted l' w' h' := by
  have hl' := hl.trans hll
  have hw' := hw.trans hww
  have hh' := hh.trans hhh
  unfold fuseWetted
  refine ⟨?_, ?_, ?_⟩
  · rw [mul_comm l w]; ring_nf
  · rw [mul_comm w h]; ring_nf
  · gcongr

example : fuseWetted 5 1 1 ≤ fuseWetted 6 1 1 :=
  (C152_wetted (by norm_num) (by norm_num) (by norm_num) le_rfl (by norm_num) le_rfl).2.2

/-- The fuselage grows with take-off mass and load, and the landing pads as the three halves power of the mass. -/
theorem C152_fuselage {m : FuseMats} {l w h span mtow mtow' G G' LIF SF : ℝ} (m1 : 0 < m.rbmDen) (m2 : 0 < m.rbmUTS)
    (m3 : 0 < m.shearDen) (m4 : 0 < m.shearUSS) (m5 : 0 < m.bearingDen) (m6 : 0 < m.bearingUBS) (m7 : 0 < m.boltUSS)
    (hl : 0 < l) (hw : 0 < w) (hh : 0 < h) (hs : 0 ≤ span) (ht : 0 < mtow) (htt : mtow ≤ mtow') (hG : 0 ≤ G)
    (hGG : G ≤ G') (hLIF : 0 < LIF) (hSF : 0 < SF) :
    fuseBuildup m l w h span mtow G LIF SF ≤ fuseBuildup m l w h span mtow' G' LIF SF
    ∧ keelLanding m (4 * mtow) LIF SF = 8 * keelLanding m mtow LIF SF := by
  have ht' := ht.trans_le htt
  have hG' := hG.trans hGG
  have hform : ∀ M : ℝ, 0 < M → keelLanding m M LIF SF
      = √(SF * M * 9.8 * LIF * 0.6403) ^ 3 * (4 * (π * 400) / 3 * (√m.boltUSS * √π / (2 * m.bearingUBS)) ^ 3 * m.bearingDen) := by
    intro M hM
    obtain ⟨F, hF⟩ : ∃ F, F = SF * M * 9.8 * LIF * 0.6403 := ⟨_, rfl⟩
    have hF0 : 0 < F := by rw [hF]; positivity
    have e : keelLanding m M LIF SF = 4 * (π * (20 * (F / (2 * √(F / m.boltUSS / π) * m.bearingUBS))) ^ 2
        * (F / (2 * √(F / m.boltUSS / π) * m.bearingUBS) / 3)) * m.bearingDen := by
      rw [hF]; rfl
    rw [e, ← hF, Real.sqrt_div (by positivity), Real.sqrt_div hF0.le]
    have h1 : 0 < √F := Real.sqrt_pos.2 hF0
    have h2 : 0 < √m.boltUSS := Real.sqrt_pos.2 m7
    have h3 : 0 < √π := Real.sqrt_pos.2 pi_pos
    have h4 : F = √F ^ 2 := (Real.sq_sqrt hF0.le).symm
    obtain ⟨f, hf⟩ : ∃ f, f = √F := ⟨_, rfl⟩
    rw [← hf] at h1 h4 ⊢
    rw [h4]
    generalize √m.boltUSS = a at *
    generalize √π = b at *
    field_simp
    ring
  have hmono : keelLanding m mtow LIF SF ≤ keelLanding m mtow' LIF SF := by
    rw [hform _ ht, hform _ ht']
    have : SF * mtow * 9.8 * LIF * 0.6403 ≤ SF * mtow' * 9.8 * LIF * 0.6403 := by gcongr
    gcongr
  constructor
  · have e1 : keelLift m l h mtow G SF ≤ keelLift m l h mtow' G' SF := by
      unfold keelLift; dsimp only; gcongr
    have e2 : keelTorsion m l w h span mtow G SF ≤ keelTorsion m l w h span mtow' G' SF := by
      unfold keelTorsion; dsimp only; gcongr
    unfold fuseBuildup
    linarith
  · rw [hform _ ht, hform _ (by positivity)]
    have : √(SF * (4 * mtow) * 9.8 * LIF * 0.6403) = 2 * √(SF * mtow * 9.8 * LIF * 0.6403) := by
      rw [show SF * (4 * mtow) * 9.8 * LIF * 0.6403 = 2 ^ 2 * (SF * mtow * 9.8 * LIF * 0.6403) by ring,
        Real.sqrt_mul (by norm_num), Real.sqrt_sq (by norm_num)]
    rw [this]; ring

example : keelLanding ⟨1, 1, 1, 1, 1, 1, 1, 1, 1⟩ 4 1 1 = 8 * keelLanding ⟨1, 1, 1, 1, 1, 1, 1, 1, 1⟩ 1 1 1 := by
  have := (C152_fuselage (m := ⟨1, 1, 1, 1, 1, 1, 1, 1, 1⟩) (l := 1) (w := 1) (h := 1) (span := 1) (mtow := 1) (mtow' := 1)
    (G := 1) (G' := 1) (LIF := 1) (SF := 1) (by norm_num) (by norm_num) (by norm_num) (by norm_num) (by norm_num)
    (by norm_num) (by norm_num) (by norm_num) (by norm_num) (by norm_num) (by norm_num) (by norm_num) le_rfl (by norm_num)
    le_rfl (by norm_num) (by norm_num)).2
  simpa using this

/-- The mass of the keel's box beam does not depend on its length (perimeter times thickness times density is a mass per
length). -/
theorem C152_keel_counterexample (m : FuseMats) (l l' w h span mtow G SF : ℝ) :
    keelTorsion m l w h span mtow G SF = keelTorsion m l' w h span mtow G SF := rfl

/-- Wiring grows with power and the distance of the motors, whichever side they are on; a wing without motors has none. -/
theorem C152_wiring {l h span power power' : ℝ} (hl : 0 ≤ l) (hh : 0 ≤ h) (hs : 0 ≤ span) (hp : 0 ≤ power)
    (hpp : power ≤ power') (ms : List ℝ) :
    wiring (some ms) l h span power ≤ wiring (some ms) l h span power'
    ∧ wiring (some (ms.map Neg.neg)) l h span power = wiring (some ms) l h span power
    ∧ (∀ y, wiring (some ms) l h span power ≤ wiring (some (y :: ms)) l h span power)
    ∧ wiring none l h span power = 0 := by
  have hsum : 0 ≤ (ms.map fun y => |y|).sum := List.sum_nonneg fun y hy => by
    obtain ⟨z, -, rfl⟩ := List.mem_map.1 hy; exact abs_nonneg z
  refine ⟨?_, ?_, fun y => ?_, rfl⟩
  · unfold wiring; dsimp only; gcongr
  · unfold wiring; simp [List.map_map, Function.comp_def]
  · unfold wiring
    dsimp only
    have h1 : (max ms.length 1 : ℕ) ≤ max (y :: ms).length 1 := by
      simp only [List.length_cons]; omega
    have h2 : ((max ms.length 1 : ℕ) : ℝ) ≤ (max (y :: ms).length 1 : ℕ) := by exact_mod_cast h1
    have h3 : (ms.map fun y => |y|).sum ≤ ((y :: ms).map fun y => |y|).sum := by
      simp only [List.map_cons, List.sum_cons]; linarith [abs_nonneg y]
    gcongr

example : wiring (some [-0.3, 0.3]) 5 1 10 1000 = wiring (some [0.3, -0.3]) 5 1 10 1000 := by
  have := (C152_wiring (l := 5) (h := 1) (span := 10) (power := 1000) (by norm_num) (by norm_num) (by norm_num) (by norm_num)
    le_rfl [0.3, -0.3]).2.1
  simpa using this

/-! ### C153 Rotor blades -/

theorem bladeX_mono (n : ℕ) {R : ℝ} (hR : 0 ≤ R) : Monotone (bladeX n R) := fun a b h => by
  unfold bladeX; gcongr

theorem bladeX_nonneg (n : ℕ) {R : ℝ} (hR : 0 ≤ R) (i : ℕ) : 0 ≤ bladeX n R i := by unfold bladeX; positivity

theorem sum_sq (n : ℕ) : ∑ i ∈ range n, (i : ℝ) ^ 2 = n * (n - 1) * (2 * n - 1) / 6 := by
  induction n with
  | zero => simp
  | succ n ih => rw [sum_range_succ, ih]; push_cast; ring

/-- The shear at the blade's root falls short of its share of the thrust times the safety factor: the load, which grows
outwards, is summed with the inner value of every interval. -/
theorem C153_shear_partial {n : ℕ} (hn : 0 < n) {R SF T blades : ℝ} (hR : 0 < R) :
    bladeShear n R SF T blades 0 = SF * T / blades * (1 - 3 / (2 * n) + 1 / (2 * (n : ℝ) ^ 2)) := by
  have hn' : (n : ℝ) ≠ 0 := by positivity
  unfold bladeShear outboard bladeLoad bladeX
  rw [Nat.Ico_zero_eq_range]
  have : ∀ i ∈ range n, SF * 3 * (T / R ^ 3) * (↑i * (R / ↑n)) ^ 2 / blades * (↑(i + 1) * (R / ↑n) - ↑i * (R / ↑n))
      = SF * T / blades * (3 / (n : ℝ) ^ 3) * (i : ℝ) ^ 2 := fun i _ => by
    push_cast
    field_simp
    ring
  rw [sum_congr rfl this, ← mul_sum, sum_sq]
  rcases eq_or_ne blades 0 with rfl | hb
  · simp
  · field_simp
    ring

/-- With the five stations used, and the safety factor 1.5, it is even less than the thrust itself. -/
theorem C153_shear_counterexample {R T blades : ℝ} (hR : 0 < R) (hT : 0 < T) (hb : 0 < blades) :
    bladeShear 4 R 1.5 T blades 0 < T / blades := by
  rw [C153_shear_partial (by norm_num) hR]
  have : 0 < T / blades := by positivity
  rw [mul_div_assoc]
  norm_num
  linarith

example : bladeShear 4 1 1.5 100 2 0 < 50 := by
  have := C153_shear_counterexample (R := 1) (T := 100) (blades := 2) (by norm_num) (by norm_num) (by norm_num)
  norm_num at this ⊢; exact this

theorem centrifugal_sub (n : ℕ) (R SF omega : ℝ) (m m' : ℕ → ℝ) (i : ℕ) :
    centrifugal n R SF omega m' i - centrifugal n R SF omega m i
      = centrifugal n R SF omega (fun j => m' j - m j) i := by
  unfold centrifugal
  rw [← mul_sub, outboard_sub]
  congr 2; funext j; ring

/-- A bound for the centrifugal force of masses up to `D`. -/
theorem centrifugal_le {n : ℕ} {R SF omega D : ℝ} (hR : 0 ≤ R) (hSF : 0 ≤ SF) {d : ℕ → ℝ} (hd : ∀ j, |d j| ≤ D) (i : ℕ) :
    |centrifugal n R SF omega d i| ≤ SF * omega ^ 2 * (outboard n (bladeX n R) (bladeX n R) 0) * D := by
  have hx := bladeX_mono n hR
  have h0 := bladeX_nonneg n hR
  unfold centrifugal
  rw [abs_mul, abs_of_nonneg (by positivity : 0 ≤ SF * omega ^ 2), mul_assoc (SF * omega ^ 2)]
  refine mul_le_mul_of_nonneg_left ?_ (by positivity)
  calc |outboard n (bladeX n R) (fun j => d j * bladeX n R j) i|
      ≤ outboard n (bladeX n R) (fun j => D * bladeX n R j) i := by
        unfold outboard
        refine (abs_sum_le_sum_abs _ _).trans (sum_le_sum fun j _ => ?_)
        rw [abs_mul, abs_mul, abs_of_nonneg (h0 j), abs_of_nonneg (sub_nonneg.2 (hx (Nat.le_succ j)))]
        exact mul_le_mul_of_nonneg_right (mul_le_mul_of_nonneg_right (hd j) (h0 j)) (sub_nonneg.2 (hx (Nat.le_succ j)))
    _ = D * outboard n (bladeX n R) (bladeX n R) i := outboard_smul _ _ _ _ _
    _ ≤ outboard n (bladeX n R) (bladeX n R) 0 * D := by
        rw [mul_comm]
        have hD : 0 ≤ D := (abs_nonneg _).trans (hd 0)
        exact mul_le_mul_of_nonneg_right (outboard_antitone hx h0 (Nat.zero_le i)) hD

/-- The largest centrifugal force is the root's. -/
theorem centrifugal_sup {n : ℕ} {R SF omega : ℝ} (hR : 0 ≤ R) (hSF : 0 ≤ SF) {m : ℕ → ℝ} (hm : ∀ i, 0 ≤ m i) :
    (range (n + 1)).sup' ⟨0, by simp⟩ (centrifugal n R SF omega m) = centrifugal n R SF omega m 0 := by
  refine le_antisymm (sup'_le _ _ fun i _ => ?_) (le_sup' _ (mem_range.2 (Nat.succ_pos n)))
  unfold centrifugal
  refine mul_le_mul_of_nonneg_left ?_ (by positivity)
  exact outboard_antitone (bladeX_mono n hR) (fun j => mul_nonneg (hm j) (bladeX_nonneg n hR j)) (Nat.zero_le i)

theorem bladeIter_nonneg {n : ℕ} {R SF omega ratio : ℝ} (hR : 0 ≤ R) (hSF : 0 ≤ SF) (hr : 0 ≤ ratio) {c m0 : ℕ → ℝ}
    (hc : ∀ i, 0 ≤ c i) (hm : ∀ i, 0 ≤ m0 i) (k i : ℕ) : 0 ≤ bladeIter n R SF omega ratio c m0 k i := by
  induction k generalizing i with
  | zero => exact hm i
  | succ k ih =>
    have h1 := outboard_nonneg (n := n) (bladeX_mono n hR) (fun j => mul_nonneg (ih j) (bladeX_nonneg n hR j)) i
    have h2 := hc i
    simp only [bladeIter, bladeSweep, centrifugal]
    positivity

theorem bladeIter_step {n : ℕ} {R SF omega ratio D : ℝ} (hR : 0 ≤ R) (hSF : 0 ≤ SF) (hr : 0 ≤ ratio) {c m0 : ℕ → ℝ}
    (hD : ∀ i, |bladeSweep n R SF omega ratio c m0 i - m0 i| ≤ D) (k i : ℕ) :
    |bladeIter n R SF omega ratio c m0 (k + 1) i - bladeIter n R SF omega ratio c m0 k i|
      ≤ (SF * omega ^ 2 * outboard n (bladeX n R) (bladeX n R) 0 * ratio) ^ k * D := by
  induction k generalizing i with
  | zero => simpa [bladeIter] using hD i
  | succ k ih =>
    have e : bladeIter n R SF omega ratio c m0 (k + 1 + 1) i - bladeIter n R SF omega ratio c m0 (k + 1) i
        = centrifugal n R SF omega (fun j => bladeIter n R SF omega ratio c m0 (k + 1) j
          - bladeIter n R SF omega ratio c m0 k j) i * ratio := by
      rw [← centrifugal_sub]
      conv_lhs => rw [bladeIter, bladeIter, bladeSweep, bladeSweep]
      simp only [bladeIter]
      ring
    rw [e, abs_mul, abs_of_nonneg hr]
    calc _ ≤ SF * omega ^ 2 * (outboard n (bladeX n R) (bladeX n R) 0)
          * ((SF * omega ^ 2 * outboard n (bladeX n R) (bladeX n R) 0 * ratio) ^ k * D) * ratio :=
        mul_le_mul_of_nonneg_right (centrifugal_le hR hSF ih i) hr
      _ = _ := by ring

/-- The iteration of the rotor mass comes to an end whenever the blade's own centrifugal load needs less material than it
has. -/
theorem C153_terminates {n : ℕ} {R SF omega ratio blades root fixed : ℝ} (hR : 0 ≤ R) (hSF : 0 ≤ SF) (hr : 0 ≤ ratio)
    {c m0 : ℕ → ℝ} (hc : ∀ i, 0 ≤ c i) (hm : ∀ i, 0 ≤ m0 i) {D : ℝ}
    (hD : ∀ i, |bladeSweep n R SF omega ratio c m0 i - m0 i| ≤ D)
    (hq : SF * omega ^ 2 * outboard n (bladeX n R) (bladeX n R) 0 * ratio < 1) {tol : ℝ} (ht : 0 < tol) :
    ∃ k, |rotorIter n R SF omega ratio blades root fixed c m0 (k + 1)
      - rotorIter n R SF omega ratio blades root fixed c m0 k| ≤ tol := by
  obtain ⟨q, hqd⟩ : ∃ q, q = SF * omega ^ 2 * outboard n (bladeX n R) (bladeX n R) 0 * ratio := ⟨_, rfl⟩
  have hx := bladeX_mono n hR
  have hx0 := bladeX_nonneg n hR
  have hq0 : 0 ≤ q := by
    have := outboard_nonneg (n := n) hx hx0 0
    rw [hqd]; positivity
  rw [← hqd] at hq
  have hD0 : 0 ≤ D := (abs_nonneg _).trans (hD 0)
  have hxn : 0 ≤ bladeX n R n - bladeX n R 0 := sub_nonneg.2 (hx (Nat.zero_le n))
  obtain ⟨K, hK⟩ : ∃ K, K = |blades| * ((bladeX n R n - bladeX n R 0) * D
      + |root| * (SF * omega ^ 2 * outboard n (bladeX n R) (bladeX n R) 0) * D) := ⟨_, rfl⟩
  have hbound : ∀ k, |rotorIter n R SF omega ratio blades root fixed c m0 (k + 1)
      - rotorIter n R SF omega ratio blades root fixed c m0 k| ≤ K * q ^ k := by
    intro k
    unfold rotorIter rotorMass
    rw [centrifugal_sup hR hSF (bladeIter_nonneg hR hSF hr hc hm _), centrifugal_sup hR hSF (bladeIter_nonneg hR hSF hr hc hm _)]
    have e : blades * ((∑ i ∈ range n, bladeIter n R SF omega ratio c m0 (k + 1 + 1) i * (bladeX n R (i + 1) - bladeX n R i))
          + fixed + root * centrifugal n R SF omega (bladeIter n R SF omega ratio c m0 (k + 1)) 0)
        - blades * ((∑ i ∈ range n, bladeIter n R SF omega ratio c m0 (k + 1) i * (bladeX n R (i + 1) - bladeX n R i))
          + fixed + root * centrifugal n R SF omega (bladeIter n R SF omega ratio c m0 k) 0)
        = blades * (outboard n (bladeX n R) (fun i => bladeIter n R SF omega ratio c m0 (k + 1 + 1) i
            - bladeIter n R SF omega ratio c m0 (k + 1) i) 0
          + root * centrifugal n R SF omega (fun j => bladeIter n R SF omega ratio c m0 (k + 1) j
            - bladeIter n R SF omega ratio c m0 k j) 0) := by
      rw [← centrifugal_sub, ← outboard_sub]
      unfold outboard
      rw [Nat.Ico_zero_eq_range]
      ring
    rw [e, abs_mul]
    have s1 : |outboard n (bladeX n R) (fun i => bladeIter n R SF omega ratio c m0 (k + 1 + 1) i
            - bladeIter n R SF omega ratio c m0 (k + 1) i) 0| ≤ q ^ k * ((bladeX n R n - bladeX n R 0) * D) := by
      calc _ ≤ outboard n (bladeX n R) (fun _ => q ^ (k + 1) * D) 0 := by
            unfold outboard
            refine (abs_sum_le_sum_abs _ _).trans (sum_le_sum fun j _ => ?_)
            rw [abs_mul, abs_of_nonneg (sub_nonneg.2 (hx (Nat.le_succ j)))]
            refine mul_le_mul_of_nonneg_right ?_ (sub_nonneg.2 (hx (Nat.le_succ j)))
            rw [hqd]
            exact bladeIter_step hR hSF hr hD (k + 1) j
        _ = q ^ k * q * ((bladeX n R n - bladeX n R 0) * D) := by rw [outboard_const]; ring
        _ ≤ q ^ k * 1 * ((bladeX n R n - bladeX n R 0) * D) := by gcongr
        _ = _ := by ring
    have s2 : |root * centrifugal n R SF omega (fun j => bladeIter n R SF omega ratio c m0 (k + 1) j
            - bladeIter n R SF omega ratio c m0 k j) 0|
        ≤ q ^ k * (|root| * (SF * omega ^ 2 * outboard n (bladeX n R) (bladeX n R) 0) * D) := by
      rw [abs_mul]
      have := centrifugal_le (n := n) (omega := omega) hR hSF
        (fun j => bladeIter_step (c := c) (m0 := m0) (omega := omega) (n := n) hR hSF hr hD k j) 0
      rw [← hqd] at this
      calc _ ≤ |root| * (SF * omega ^ 2 * outboard n (bladeX n R) (bladeX n R) 0 * (q ^ k * D)) := by gcongr
        _ = _ := by ring
    have s3 := (abs_add_le (outboard n (bladeX n R) (fun i => bladeIter n R SF omega ratio c m0 (k + 1 + 1) i
            - bladeIter n R SF omega ratio c m0 (k + 1) i) 0) (root * centrifugal n R SF omega
            (fun j => bladeIter n R SF omega ratio c m0 (k + 1) j - bladeIter n R SF omega ratio c m0 k j) 0)).trans
      (add_le_add s1 s2)
    calc _ ≤ |blades| * (q ^ k * ((bladeX n R n - bladeX n R 0) * D)
          + q ^ k * (|root| * (SF * omega ^ 2 * outboard n (bladeX n R) (bladeX n R) 0) * D)) := by gcongr
      _ = K * q ^ k := by rw [hK]; ring
  have hlim := (tendsto_pow_atTop_nhds_zero_of_lt_one hq0 hq).const_mul K
  rw [mul_zero] at hlim
  obtain ⟨k, hk⟩ := (hlim.eventually (gt_mem_nhds ht)).exists
  exact ⟨k, (hbound k).trans hk.le⟩

example : ∃ k, |rotorIter 1 1 1.5 1 0.01 2 1 1 (fun _ => 1) (fun _ => 1) (k + 1)
    - rotorIter 1 1 1.5 1 0.01 2 1 1 (fun _ => 1) (fun _ => 1) k| ≤ 1e-8 := by
  refine C153_terminates (D := 0) (by norm_num) (by norm_num) (by norm_num) (fun _ => by norm_num) (fun _ => by norm_num)
    (fun i => ?_) ?_ (by norm_num)
  · rcases i with _ | i
    · simp [bladeSweep, centrifugal, outboard, bladeX]
    · simp [bladeSweep, centrifugal, outboard]
  · simp [outboard, bladeX]

/-- The inertia of a polygon about the chord: every segment with its midpoint. -/
noncomputable def capInertiaSpec (l : List (ℝ × ℝ)) : ℝ :=
  ((l.zip l.tail).map fun q => √((q.2.1 - q.1.1) ^ 2 + (q.2.2 - q.1.2) ^ 2) * ((q.2.2 + q.1.2) / 2) ^ 2).sum

/-- For caps of a single segment the inertia is right. -/
theorem C153_inertia_partial (p q : ℝ × ℝ) : capInertia [p, q] = capInertiaSpec [p, q] := by
  simp only [capInertia, capInertiaSpec, List.zip_cons_cons, List.zip_nil_right, List.map_cons, List.map_nil, List.sum_cons,
    List.sum_nil, add_zero, List.tail_cons]
  exact abs_of_nonneg (by positivity)

/-- With more points it is not: all midpoints are taken from the first. -/
theorem C153_inertia_counterexample : capInertia [(0, 0), (0, 1), (0, 2)] < capInertiaSpec [(0, 0), (0, 1), (0, 2)] := by
  simp only [capInertia, capInertiaSpec, List.zip_cons_cons, List.zip_nil_right, List.map_cons, List.map_nil, List.sum_cons,
    List.sum_nil, List.tail_cons]
  norm_num

/-! ### C154 Totals -/

/-- The total is the contingency factor times everything built, and battery, payload and passengers. -/
theorem C154_total {p : EvPar} {pax : ℝ} {nets : List (EvNet × ℝ × ℝ)} {wings : List EvWing} {fus : Option ℝ} {o : EvOut}
    (h : evEmpty p pax nets wings fus = some o) :
    o.total = p.contingency * [o.s.lift, o.s.props, o.s.hubs, o.fuselage, o.gear, o.wings, o.seats, o.avionics, o.ecs,
      o.s.liftMotors, o.s.propMotors, o.s.servos, o.wiring, o.s.brs].sum + o.s.battery + o.s.payload + o.passengers
    ∧ o.total = o.empty + o.s.payload + o.passengers ∧ o.gear = 0.02 * p.mtow ∧ o.passengers = 70 * pax := by
  unfold evEmpty at h
  simp only [Option.bind_eq_some_iff, Option.map_eq_some_iff] at h
  obtain ⟨s, -, w, -, f, -, rfl⟩ := h
  simp only [List.sum_cons, List.sum_nil]
  refine ⟨by ring, trivial, by ring, by ring⟩

/-- Batteries and payloads of all networks count. -/
theorem C154_batteries {p : EvPar} {nets : List (EvNet × ℝ × ℝ)} {st s : EvState} (h : evNets p st nets = some s) :
    s.battery = st.battery + (nets.map fun n => n.2.1).sum ∧ s.payload = st.payload + (nets.map fun n => n.2.2).sum := by
  induction nets generalizing st with
  | nil => simp only [evNets, Option.some.injEq] at h; subst h; simp
  | cons n r ih =>
    obtain ⟨net, b, l⟩ := n
    simp only [evNets, Option.bind_eq_some_iff] at h
    obtain ⟨st', h1, h2⟩ := h
    have h3 := ih h2
    have h4 : st'.battery = st.battery + b ∧ st'.payload = st.payload + l := by
      unfold evStep at h1
      split at h1
      · simp at h1
      · dsimp only at h1
        split at h1
        · simp at h1
        · split_ifs at h1 <;> first
            | (obtain rfl := Option.some_injective _ h1; exact ⟨rfl, rfl⟩)
            | (split at h1
               · simp at h1
               · obtain rfl := Option.some_injective _ h1; exact ⟨rfl, rfl⟩)
    rw [h3.1, h3.2, h4.1, h4.2]
    simp only [List.map_cons, List.sum_cons]
    constructor <;> ring

/-- A vehicle with several lift rotors, all of them listed: each is sized for the others to carry the weight alone; propellers
for a fifth of the lift. -/
theorem C154_rotors {p : EvPar} {st s : EvState} {lift thrust : List Rotor} {b l : ℝ} (h2 : 2 ≤ lift.length)
    (h : evStep p st (.liftCruise lift.length thrust.length lift thrust) b l = some s) :
    s.lift = st.lift + (lift.map fun r => r.mass (p.mtow * p.tw * 9.81 / (lift.length - 1))).sum
    ∧ s.props = st.props + (thrust.map fun r => r.mass (p.mtow * p.tw * 9.81 / 5)).sum
    ∧ s.liftMotors + s.propMotors = st.liftMotors + st.propMotors + ((lift ++ thrust).map Rotor.motor).sum := by
  have hmax : max (lift.length - 1) 1 = lift.length - 1 := by omega
  have hcast : ((lift.length - 1 : ℕ) : ℝ) = lift.length - 1 := by push_cast [Nat.cast_sub (by omega : 1 ≤ lift.length)]; ring
  have ht : (if thrust.length > 0 then thrust else []) = thrust := by
    rcases thrust with _ | _ <;> simp
  have hl : (if lift.length > 0 then lift else []) = lift := by rw [if_pos (by omega)]
  unfold evStep evRotors at h
  simp only [ht, hl, hmax, hcast] at h
  split at h
  · simp at h
  · rw [if_neg (by omega)] at h
    obtain rfl := Option.some_injective _ h
    simp only [EvPar.maxLift, List.map_append, List.sum_append]
    refine ⟨trivial, trivial, by ring⟩

/-- A network that lists one rotor for several identical ones counts its mass once, but the hubs of all. -/
theorem C154_identical_counterexample (p : EvPar) (st : EvState) (r : Rotor) (n : ℕ) (hn : 0 < n) :
    ∃ s, evStep p st (.liftCruise 0 n [] [r]) 0 0 = some s ∧ s.props = st.props + r.mass (p.maxLift / 5)
      ∧ s.hubs = st.hubs + n * (p.mtow * 0.04) := by
  refine ⟨_, by simp only [evStep, evRotors, if_pos hn]; simp; rfl, ?_, ?_⟩
  · simp
  · simp

/-- A rotor for the examples. -/
noncomputable def exRotor : Rotor := ⟨1, 0.1, false, 5, fun T => T / 100⟩

/-- No statement for a `Battery_Propeller` vehicle with lift rotors and propellers. -/
theorem C154_mixed_counterexample (p : EvPar) (pax : ℝ) (ws : List EvWing) (f : Option ℝ) :
    evEmpty p pax [(.batteryPropeller [(.propeller, exRotor), (.liftRotor, exRotor)], 0, 0)] ws f = none := by
  simp [evEmpty, evNets, evStep, evRotors]

/-- None for one without a fuselage. -/
theorem C154_fuselage_counterexample (p : EvPar) (pax : ℝ) (nets : List (EvNet × ℝ × ℝ)) (ws : List EvWing) :
    evEmpty p pax nets ws none = none := by
  unfold evEmpty
  simp only [Option.map_none]
  rcases evNets p _ nets with _ | s
  · rfl
  · simp

/-- None for a winged vehicle without a network, or whose network is of another class. -/
theorem C154_network_counterexample (p : EvPar) (pax : ℝ) (w : EvWing) (ws : List EvWing) (f : Option ℝ) (b l : ℝ)
    (r : List (EvNet × ℝ × ℝ)) :
    evEmpty p pax [] (w :: ws) f = none ∧ evEmpty p pax ((.other, b, l) :: r) (w :: ws) f = none := by
  constructor
  · simp [evEmpty, evNets]
  · simp [evEmpty, evNets, evStep, evRotors]

/-- The masses of the vehicle's components come short of its total by rotors, motors, hubs, servos, gear, avionics, battery and
payload and by the contingency, whatever mass the network itself has been given. -/
theorem C154_components_partial {p : EvPar} {pax : ℝ} {nets : List (EvNet × ℝ × ℝ)} {wings : List EvWing} {fus : Option ℝ}
    {o : EvOut} (h : evEmpty p pax nets wings fus = some o) (net : ℝ) :
    o.total - vehicleMass (evWritten o net)
      = o.s.lift + o.s.props + o.s.hubs + o.gear + o.avionics + o.s.liftMotors + o.s.propMotors + o.s.servos + o.s.battery
        + o.s.payload + (p.contingency - 1) * [o.s.lift, o.s.props, o.s.hubs, o.fuselage, o.gear, o.wings, o.seats, o.avionics,
          o.ecs, o.s.liftMotors, o.s.propMotors, o.s.servos, o.wiring, o.s.brs].sum - net := by
  rw [(C154_total h).1]
  simp only [evWritten, vehicleMass, sumMass, itemMass, List.sum_cons, List.sum_nil]
  ring

/-- An aircraft for the examples. -/
noncomputable def exEv : Option EvOut :=
  evEmpty ⟨1000, 1.1, 221, 1.15, 0.833, 1.1⟩ 2 [(.liftCruise 2 0 [exRotor, exRotor] [], 200, 0)] [] (some 100)

theorem C154_components_counterexample : ∃ o, exEv = some o ∧ vehicleMass (evWritten o 0) < o.total := by
  obtain ⟨o, ho⟩ : ∃ o, exEv = some o := by
    simp [exEv, evEmpty, evNets, evStep, evRotors]
  refine ⟨o, ho, ?_⟩
  have hd := C154_components_partial ho 0
  unfold exEv evEmpty evNets evNets evStep evRotors at ho
  simp [exRotor, EvPar.maxLift] at ho
  subst ho
  norm_num at hd
  linarith

/-! ### C155 Convergence -/

theorem convLoop_true {F : ℝ → Option ℝ} {n : ℕ} {m diff m' : ℝ} (hd : F m = some (m - diff))
    (h : convLoop F n m diff = some (true, m')) : ∃ b, F m' = some b ∧ |m' - b| ≤ 1 := by
  induction n generalizing m diff with
  | zero =>
    unfold convLoop at h
    split_ifs at h with hc
    · rcases hF : F (m - diff) with _ | b <;> simp [hF] at h
    · simp only [Option.some.injEq, Prod.mk.injEq, true_and] at h
      subst h
      exact ⟨_, hd, by simpa using hc⟩
  | succ n ih =>
    unfold convLoop at h
    split_ifs at h with hc
    · rcases hF : F (m - diff) with _ | b
      · simp [hF] at h
      · simp only [hF, Option.bind_some] at h
        refine ih ?_ h
        rw [hF]; simp
    · simp only [Option.some.injEq, Prod.mk.injEq, true_and] at h
      subst h
      exact ⟨_, hd, by simpa using hc⟩

/-- When the loop reports success, the take-off mass left in the vehicle is that of its build-up, to a kilogram. -/
theorem C155_success {F : ℝ → Option ℝ} {m m' : ℝ} (h : converge F m = some (true, m')) :
    ∃ b, F m' = some b ∧ |m' - b| ≤ 1 := by
  unfold converge at h
  rcases hF : F m with _ | b
  · simp [hF] at h
  · simp only [hF, Option.bind_some] at h
    exact convLoop_true (by rw [hF]; simp) h

theorem convLoop_contract {f : ℝ → ℝ} {q : ℝ} (hq0 : 0 ≤ q) (hf : ∀ a b, |f a - f b| ≤ q * |a - b|) (n : ℕ) (m : ℝ)
    (h : q ^ n * |m - f m| ≤ 1) : ∃ m', convLoop (fun a => some (f a)) n m (m - f m) = some (true, m') ∨
      (convLoop (fun a => some (f a)) n m (m - f m) = some (false, m') ∧ n = 0) := by
  induction n generalizing m with
  | zero =>
    unfold convLoop
    split_ifs
    · exact ⟨_, .inr ⟨rfl, rfl⟩⟩
    · exact ⟨_, .inl rfl⟩
  | succ n ih =>
    unfold convLoop
    split_ifs
    · simp only [Option.bind_some, sub_sub_cancel]
      have h1 : q ^ n * |f m - f (f m)| ≤ 1 := by
        calc q ^ n * |f m - f (f m)| ≤ q ^ n * (q * |m - f m|) := by
              have := hf m (f m); gcongr
          _ = q ^ (n + 1) * |m - f m| := by ring
          _ ≤ 1 := h
      obtain ⟨m', h' | ⟨h', rfl⟩⟩ := ih (f m) h1
      · exact ⟨m', .inl h'⟩
      · refine ⟨f m, .inl ?_⟩
        unfold convLoop
        rw [if_neg (by simpa using h1)]
    · exact ⟨_, .inl rfl⟩

/-- It succeeds from any starting mass for which the growth of the build-up with the take-off mass brings the difference
below a kilogram in 99 steps. -/
theorem C155_converges {f : ℝ → ℝ} {q : ℝ} (hq0 : 0 ≤ q) (hf : ∀ a b, |f a - f b| ≤ q * |a - b|) {m : ℝ}
    (h : q ^ 99 * |m - f m| ≤ 1) : ∃ m', converge (fun a => some (f a)) m = some (true, m') := by
  unfold converge
  obtain ⟨m', h' | ⟨-, h'⟩⟩ := convLoop_contract hq0 hf 99 m h
  · exact ⟨m', h'⟩
  · norm_num at h'

/-- And then the mass found is within `1 / (1 - q)` kilograms of the true one. -/
theorem C155_accuracy {f : ℝ → ℝ} {q : ℝ} (hq : q < 1) (hf : ∀ a b, |f a - f b| ≤ q * |a - b|) {m m' t : ℝ}
    (ht : f t = t) (h : converge (fun a => some (f a)) m = some (true, m')) : |m' - t| ≤ 1 / (1 - q) := by
  obtain ⟨b, hb, h1⟩ := C155_success h
  obtain rfl : f m' = b := by simpa using hb
  have h2 := hf m' t
  rw [ht] at h2
  have h3 : |m' - t| ≤ |m' - f m'| + |f m' - t| := by
    have := abs_add_le (m' - f m') (f m' - t); simpa using this
  rw [le_div_iff₀ (by linarith)]
  nlinarith

example : ∃ m', converge (fun a => some (100 + 0.5 * a)) 1000 = some (true, m') ∧ |m' - 200| ≤ 2 := by
  have hf : ∀ a b : ℝ, |(100 + 0.5 * a) - (100 + 0.5 * b)| ≤ 0.5 * |a - b| := fun a b => by
    rw [show (100 + 0.5 * a) - (100 + 0.5 * b) = 0.5 * (a - b) by ring, abs_mul]; norm_num
  obtain ⟨m', h⟩ := C155_converges (f := fun a => 100 + 0.5 * a) (q := 0.5) (by norm_num) hf (m := 1000) (by norm_num)
  refine ⟨m', h, ?_⟩
  have := C155_accuracy (f := fun a => 100 + 0.5 * a) (q := 0.5) (by norm_num) hf (t := 200) (by norm_num) h
  norm_num at this; exact this

theorem convLoop_never {F : ℝ → Option ℝ} {m0 : ℝ} (hF : ∀ a, m0 ≤ a → ∃ b, F a = some b ∧ a + 1 < b) (n : ℕ) {m diff : ℝ}
    (hm : m0 ≤ m) (hd : F m = some (m - diff)) : ∃ m', convLoop F n m diff = some (false, m') := by
  have hneg : diff < -1 := by
    obtain ⟨b, hb, h1⟩ := hF m hm
    rw [hd] at hb
    have := Option.some_injective _ hb
    linarith
  have habs : 1 < |diff| := by rw [abs_of_neg (by linarith)]; linarith
  have hm' : m0 ≤ m - diff := by linarith
  obtain ⟨b, hb, -⟩ := hF _ hm'
  induction n generalizing m diff b with
  | zero => exact ⟨m - diff, by unfold convLoop; rw [if_pos habs, hb]; rfl⟩
  | succ n ih =>
    unfold convLoop
    rw [if_pos habs, hb]
    simp only [Option.bind_some]
    have hd' : F (m - diff) = some (m - diff - (m - diff - b)) := by rw [hb]; simp
    have hneg' : m - diff - b < -1 := by
      obtain ⟨b', hb', h1⟩ := hF _ hm'
      rw [hb] at hb'
      have := Option.some_injective _ hb'
      linarith
    obtain ⟨b', hb', -⟩ := hF (m - diff - (m - diff - b)) (by linarith)
    exact ih hm' hd' hneg' (by rw [abs_of_neg (by linarith)]; linarith) (by linarith) b' hb'

/-- If the build-up always exceeds the take-off mass by more than a kilogram the loop reports failure. -/
theorem C155_fails {F : ℝ → Option ℝ} {m : ℝ} (hF : ∀ a, m ≤ a → ∃ b, F a = some b ∧ a + 1 < b) :
    ∃ m', converge F m = some (false, m') := by
  obtain ⟨b, hb, -⟩ := hF m le_rfl
  unfold converge
  rw [hb]
  exact convLoop_never hF 99 le_rfl (by rw [hb]; simp)

/-- Every propeller's hub is a twenty-fifth of the take-off mass: an aircraft with 23 propellers never converges, whatever it is
made of. -/
theorem C155_hubs_counterexample (r : Rotor) (hr : ∀ T, 0 ≤ r.mass T) (hmot : 0 ≤ r.motor) {m f : ℝ} (hm : 0 ≤ m) (hf : 0 ≤ f)
    {tw vtip k eta : ℝ} :
    ∃ m', converge (fun a => (evEmpty ⟨a, tw, vtip, k, eta, 1.1⟩ 0 [(.liftCruise 0 23 [] (List.replicate 23 r), 0, 0)] []
      (some f)).map EvOut.total) m = some (false, m') := by
  refine C155_fails fun a ha => ?_
  have ha0 := hm.trans ha
  simp only [evEmpty, evNets, evStep, evRotors]
  simp
  have := hr (EvPar.maxLift ⟨a, tw, vtip, k, eta, 1.1⟩ / 5)
  split_ifs <;> norm_num <;> nlinarith

/-- A build-up that comes within a kilogram at the last iteration is reported as a failure. -/
theorem C155_last_counterexample : ∃ (f : ℝ → ℝ) (m m' : ℝ), converge (fun a => some (f a)) m = some (false, m')
    ∧ |m' - f m'| ≤ 1 := by
  have key : ∀ n : ℕ, ∀ m : ℝ, m = 2 * (n + 1) → convLoop (fun a : ℝ => some (max (a - 2) 0)) n m (m - max (m - 2) 0)
      = some (false, 0) := by
    intro n
    induction n with
    | zero =>
      intro m hm
      norm_num at hm
      subst hm
      unfold convLoop
      norm_num
    | succ n ih =>
      intro m hm
      push_cast at hm
      have e : max (m - 2) 0 = m - 2 := max_eq_left (by rw [hm]; have : (0 : ℝ) ≤ n := by positivity
                                                        linarith)
      unfold convLoop
      rw [e, if_pos (by norm_num)]
      simp only [Option.bind_some]
      rw [show m - (m - (m - 2)) = m - 2 by ring]
      exact ih (m - 2) (by rw [hm]; ring)
  refine ⟨fun a => max (a - 2) 0, 200, 0, ?_, by norm_num⟩
  unfold converge
  simp only [Option.bind_some]
  exact key 99 200 (by norm_num)


/-- **C152, bulkheads.** Besides skin, canopy and keel the fuselage has three elliptic bulkheads as wide and as high as itself. -/
theorem C152_bulkheads (m : FuseMats) (l w h span mtow G LIF SF : ℝ) :
    fuseBuildup m l w h span mtow G LIF SF = fuseWetted l w h * (m.skin + m.canopy / 8) + 3 * (π * (w / 2) * (h / 2)) * m.skin
      + (keelLift m l h mtow G SF + keelTorsion m l w h span mtow G SF + keelLanding m mtow LIF SF) := by
  unfold fuseBuildup
  ring

end Verif.Weights
