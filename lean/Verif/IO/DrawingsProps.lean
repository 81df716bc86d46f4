import Verif.IO.Drawings
import Mathlib.Tactic.Ring
import Mathlib.Tactic.FieldSimp
import Mathlib.Tactic.Linarith
import Mathlib.Tactic.NormNum
import Mathlib.Tactic.Positivity

/-! Proofs for C371 and C372. -/

namespace Verif.IO.Drawings

/-! ### C371 nacelles -/

/-- Spec: a closed shape drawn from `n` stations starts at the front of the nacelle and ends at its length. -/
def Spans (L : ℝ) (n : ℕ) (x : ℕ → ℝ) : Prop := x 0 = 0 ∧ x (n - 1) = L ∧ ∀ k, k + 1 < n → x k < x (k + 1)

/-- C371 in part: a nacelle one metre long without airfoil or stations spans its length, its ends have the radius of the inlet and its
middle half the diameter, everything on circles about its axis. -/
theorem C371_nacelle_partial (nac : Nac) (m : ℕ) (hm : 1 ≤ m) (hseg : nac.segments = []) (hp : nac.profile = none)
    (hL : nac.length = 1) (hf : nac.flowThrough = true) (hd : nac.inlet + 0.002 ≤ nac.diameter) :
    Spans nac.length (2 * m + 1) (fun k => (point nac (4 * m + 1) k 0).1)
      ∧ (plain nac (4 * m + 1) 0).2 = nac.inlet / 2 ∧ (plain nac (4 * m + 1) (2 * m)).2 = nac.inlet / 2
      ∧ (plain nac (4 * m + 1) m).2 = nac.diameter / 2
      ∧ ∀ k θ, (point nac (4 * m + 1) k θ).2.1 ^ 2 + (point nac (4 * m + 1) k θ).2.2 ^ 2 = (plain nac (4 * m + 1) k).2 ^ 2 := by
  have hc : count nac (4 * m + 1) = 2 * m + 1 := by simp [count, hseg]; omega
  have hm0 : (m : ℝ) ≠ 0 := by exact_mod_cast (by omega : m ≠ 0)
  have hmp : (0 : ℝ) < m := by exact_mod_cast hm
  have hb : max ((nac.diameter - nac.inlet) / 2) 0.001 = (nac.diameter - nac.inlet) / 2 :=
    max_eq_left (by norm_num at hd ⊢; linarith)
  have hx : ∀ k, (plain nac (4 * m + 1) k).1 = k / (2 * m) := by
    intro k
    simp only [plain, hp, hc, hL, linspace]
    push_cast
    field_simp
    ring
  refine ⟨⟨?_, ?_, ?_⟩, ?_, ?_, ?_, ?_⟩
  · simp [point, hseg, hx]
  · simp only [point, hseg, List.getElem?_nil, hx, hL]
    push_cast
    field_simp
  · intro k _
    simp only [point, hseg, List.getElem?_nil, hx]
    push_cast
    have : (0 : ℝ) < 2 * m := by positivity
    gcongr
    linarith
  · simp only [plain, hp, hc, hL, hf, linspace, hb]
    norm_num
  · simp only [plain, hp, hc, hL, hf, linspace, hb, Nat.add_sub_cancel]
    push_cast
    have : (-(1 / 2) + 2 * (m : ℝ) * ((1 / 2 - -(1 / 2)) / (2 * m)) : ℝ) = 1 / 2 := by field_simp; norm_num
    rw [this]
    norm_num
  · simp only [plain, hp, hc, hL, hf, linspace, hb, Nat.add_sub_cancel]
    push_cast
    have : (-(1 / 2) + (m : ℝ) * ((1 / 2 - -(1 / 2)) / (2 * m)) : ℝ) = 0 := by field_simp; norm_num
    rw [this]
    have hpos : 0 ≤ (nac.diameter - nac.inlet) / 2 := by norm_num at hd; linarith
    norm_num
    rw [Real.sqrt_sq hpos]
    ring
  · intro k θ
    simp only [point, hseg, List.getElem?_nil]
    have := Real.sin_sq_add_cos_sq θ
    generalize (plain nac (4 * m + 1) k).2 = r
    linear_combination r ^ 2 * this

/-- A nacelle with the default numbers. -/
example : ∃ nac : Nac, nac.segments = [] ∧ nac.profile = none ∧ nac.length = 1 ∧ nac.flowThrough = true
    ∧ nac.inlet + 0.002 ≤ nac.diameter :=
  ⟨⟨1, 1, 0.8, true, none, []⟩, rfl, rfl, rfl, rfl, by norm_num⟩

/-- C371 fails for any other length: drawn from the front to the square of its length. -/
theorem C371_length_counterexample (nac : Nac) (m : ℕ) (hm : 1 ≤ m) (hseg : nac.segments = []) (hp : nac.profile = none)
    (hL : 0 < nac.length) :
    (point nac (4 * m + 1) (2 * m) 0).1 = nac.length ^ 2
      ∧ ((point nac (4 * m + 1) (2 * m) 0).1 = nac.length ↔ nac.length = 1) := by
  have hc : count nac (4 * m + 1) = 2 * m + 1 := by simp [count, hseg]; omega
  have hm0 : (m : ℝ) ≠ 0 := by exact_mod_cast (by omega : m ≠ 0)
  have h : (point nac (4 * m + 1) (2 * m) 0).1 = nac.length ^ 2 := by
    simp only [point, hseg, List.getElem?_nil, plain, hp, hc, linspace, Nat.add_sub_cancel]
    push_cast
    field_simp
    ring
  refine ⟨h, ?_⟩
  rw [h]
  constructor
  · intro e
    have : nac.length * (nac.length - 1) = 0 := by linarith [sq nac.length]
    rcases mul_eq_zero.mp this with h0 | h1
    · exact absurd h0 hL.ne'
    · linarith
  · intro e; rw [e]; norm_num

example : ∃ nac : Nac, nac.segments = [] ∧ nac.profile = none ∧ 0 < nac.length ∧ nac.length ≠ 1 :=
  ⟨⟨4, 2, 1.8, true, none, []⟩, rfl, rfl, by norm_num, by norm_num⟩

/-- C371 fails with an airfoil: all stations are drawn at the trailing edge, so the nacelle is a ring. -/
theorem C371_airfoil_counterexample (nac : Nac) (p : ℕ → ℝ × ℝ) (points : ℕ) (hseg : nac.segments = [])
    (hp : nac.profile = some p) (hte : (p 0).1 = 1) (k j : ℕ) (θ : ℝ) :
    (point nac points k θ).1 = nac.length ∧ point nac points k θ = point nac points j θ := by
  simp [point, hseg, plain, hp, hte]

example : ∃ (nac : Nac) (p : ℕ → ℝ × ℝ), nac.segments = [] ∧ nac.profile = some p ∧ (p 0).1 = 1 :=
  ⟨⟨4, 2, 1.8, true, some fun k => (1 - k / 10, 0.05), []⟩, fun k => (1 - k / 10, 0.05), rfl, rfl, by norm_num⟩

/-- C371 in part: stations of a nacelle are drawn where they were put along it, with their width and height. -/
theorem C371_stations_partial (nac : Nac) (points k : ℕ) (s : NSeg) (h : nac.segments[k]? = some s) (hw : 0 ≤ s.width)
    (hh : 0 ≤ s.height) :
    count nac points = nac.segments.length
      ∧ point nac points k 0 = (s.x * nac.length, s.width / 2 + s.y * nac.length, s.z * nac.length)
      ∧ point nac points k Real.pi = (s.x * nac.length, -(s.width / 2) + s.y * nac.length, s.z * nac.length)
      ∧ point nac points k (Real.pi / 2) = (s.x * nac.length, s.y * nac.length, s.height / 2 + s.z * nac.length) := by
  have hw' : 0 ≤ s.width / 2 := by positivity
  have hh' : 0 ≤ s.height / 2 := by positivity
  have hne : nac.segments ≠ [] := by intro e; simp [e] at h
  refine ⟨?_, ?_, ?_, ?_⟩
  · simp [count, hne]
  · simp [point, h, Real.sqrt_sq hw']
  · simp [point, h, Real.sqrt_sq hw']
  · simp [point, h, Real.sqrt_sq hh']

example : ∃ (nac : Nac) (s : NSeg), nac.segments[1]? = some s ∧ 0 ≤ s.width ∧ 0 ≤ s.height :=
  ⟨⟨4, 2, 1.8, true, none, [⟨0, 0, 0, 0, 0⟩, ⟨0.5, 0, 0, 2, 1⟩]⟩, ⟨0.5, 0, 0, 2, 1⟩, rfl, by norm_num, by norm_num⟩

/-! ### C372 blades -/

/-- Spec: rotation about the axis of the rotor, the first axis. -/
def Turned (φ : ℝ) (p q : ℝ × ℝ × ℝ) : Prop :=
  q.1 = p.1 ∧ q.2.1 = Real.cos φ * p.2.1 - Real.sin φ * p.2.2 ∧ q.2.2 = Real.sin φ * p.2.1 + Real.cos φ * p.2.2

/-- C372 in part: without airfoils of its own every blade of a rotor is drawn, each the one before turned by an equal part of a full
turn about the axis, and the last one part of a turn before the first. -/
theorem C372_blades_partial (rot : Rot) (s : Sec) (x z : ℝ) (ha : rot.airfoils = 0) (i : ℕ) (hi : i < rot.blades) :
    ∃ p, blade rot s i x z = some p
      ∧ (∀ q, blade rot s (i + 1) x z = some q → Turned (2 * Real.pi / rot.blades) p q)
      ∧ (i + 1 = rot.blades → ∀ q, blade rot s 0 x z = some q → Turned (2 * Real.pi / rot.blades) p q) := by
  have hb : (rot.blades : ℝ) ≠ 0 := by exact_mod_cast (by omega : rot.blades ≠ 0)
  have hang : ∀ j, j < rot.blades → angle rot j = some (j * (2 * Real.pi / rot.blades) + rot.start + Real.pi / 2) := by
    intro j hj
    simp [angle, angleIndex, ha, hj, linspace]
  have hturn : ∀ (a d : ℝ) (p : ℝ × ℝ × ℝ), Turned d (turnAxis a p) (turnAxis (a + d) p) := by
    intro a d p
    simp only [Turned, turnAxis, Real.cos_add, Real.sin_add]
    refine ⟨trivial, by ring, by ring⟩
  refine ⟨turnAxis (i * (2 * Real.pi / rot.blades) + rot.start + Real.pi / 2) (turnPitch (pitchOf rot s) (local3 rot s x z)),
    by simp only [blade, hang i hi, Option.map_some], ?_, ?_⟩
  · intro q hq
    by_cases hj : i + 1 < rot.blades
    · simp only [blade, hang _ hj, Option.map_some, Option.some.injEq] at hq
      subst hq
      have := hturn (i * (2 * Real.pi / rot.blades) + rot.start + Real.pi / 2) (2 * Real.pi / rot.blades)
        (turnPitch (pitchOf rot s) (local3 rot s x z))
      convert this using 2
      push_cast
      ring
    · simp [blade, angle, angleIndex, ha, hj] at hq
  · intro hl q hq
    simp only [blade, hang 0 (by omega), Option.map_some, Option.some.injEq] at hq
    subst hq
    have := hturn (i * (2 * Real.pi / rot.blades) + rot.start + Real.pi / 2) (2 * Real.pi / rot.blades)
      (turnPitch (pitchOf rot s) (local3 rot s x z))
    have he : (i * (2 * Real.pi / rot.blades) + rot.start + Real.pi / 2 + 2 * Real.pi / rot.blades : ℝ)
        = (rot.start + Real.pi / 2) + 2 * Real.pi := by
      have : (rot.blades : ℝ) = i + 1 := by exact_mod_cast hl.symm
      rw [this] at hb ⊢
      field_simp
      ring
    rw [he] at this
    have h2 : ∀ p, turnAxis (rot.start + Real.pi / 2 + 2 * Real.pi) p = turnAxis (rot.start + Real.pi / 2) p := by
      intro p; simp only [turnAxis, Real.cos_add_two_pi, Real.sin_add_two_pi]
    rw [h2] at this
    convert this using 2
    push_cast
    ring

/-- Three blades. -/
example : ∃ rot : Rot, rot.airfoils = 0 ∧ 2 < rot.blades := ⟨⟨-1, 3, 0, 0⟩, rfl, by norm_num⟩

/-- C372: a section is turned rigidly, at its radius, so a point keeps its distance from the hub; its chord and thickness are those asked
for. -/
theorem C372_section (rot : Rot) (s : Sec) (i : ℕ) (x z : ℝ) (p : ℝ × ℝ × ℝ) (h : blade rot s i x z = some p) :
    p.1 ^ 2 + p.2.1 ^ 2 + p.2.2 ^ 2
        = ((if rot.rotation = 1 then -s.chord else s.chord) * (x - 1 / 2) - s.mca) ^ 2 + s.radius ^ 2
          + (s.thickness * (z / s.ratio)) ^ 2
      ∧ ∀ x' z' p', blade rot s i x' z' = some p' →
        (p'.1 - p.1) ^ 2 + (p'.2.1 - p.2.1) ^ 2 + (p'.2.2 - p.2.2) ^ 2
          = s.chord ^ 2 * (x' - x) ^ 2 + s.thickness ^ 2 * ((z' - z) / s.ratio) ^ 2 := by
  unfold blade at h
  cases ha : angle rot i with
  | none => simp [ha] at h
  | some φ =>
    simp only [ha, Option.map_some, Option.some.injEq] at h
    subst h
    have h1 := Real.sin_sq_add_cos_sq φ
    have h2 := Real.sin_sq_add_cos_sq (Real.pi / 2 - pitchOf rot s)
    have iso : ∀ a b c : ℝ, (turnAxis φ (turnPitch (pitchOf rot s) (a, b, c))).1 ^ 2
        + (turnAxis φ (turnPitch (pitchOf rot s) (a, b, c))).2.1 ^ 2
        + (turnAxis φ (turnPitch (pitchOf rot s) (a, b, c))).2.2 ^ 2 = a ^ 2 + b ^ 2 + c ^ 2 := by
      intro a b c
      simp only [turnAxis, turnPitch]
      generalize Real.sin (Real.pi / 2 - pitchOf rot s) = sb at *
      generalize Real.cos (Real.pi / 2 - pitchOf rot s) = cb at *
      linear_combination (b ^ 2 + (sb * a + cb * c) ^ 2) * h1 + (a ^ 2 + c ^ 2) * h2
    refine ⟨?_, ?_⟩
    · simp only [local3]
      rw [iso]
      ring
    · intro x' z' p' hp'
      simp only [blade, ha, Option.map_some, Option.some.injEq] at hp'
      subst hp'
      have lin : ∀ a b c a' b' c' : ℝ,
          ((turnAxis φ (turnPitch (pitchOf rot s) (a', b', c'))).1 - (turnAxis φ (turnPitch (pitchOf rot s) (a, b, c))).1) ^ 2
          + ((turnAxis φ (turnPitch (pitchOf rot s) (a', b', c'))).2.1
              - (turnAxis φ (turnPitch (pitchOf rot s) (a, b, c))).2.1) ^ 2
          + ((turnAxis φ (turnPitch (pitchOf rot s) (a', b', c'))).2.2
              - (turnAxis φ (turnPitch (pitchOf rot s) (a, b, c))).2.2) ^ 2
          = (a' - a) ^ 2 + (b' - b) ^ 2 + (c' - c) ^ 2 := by
        intro a b c a' b' c'
        have := iso (a' - a) (b' - b) (c' - c)
        simp only [turnAxis, turnPitch] at this ⊢
        rw [← this]
        ring
      simp only [local3]
      rw [lin]
      split_ifs <;> ring

example : ∃ (rot : Rot) (s : Sec) (p : ℝ × ℝ × ℝ), blade rot s 1 0.25 0.05 = some p :=
  let ⟨p, hp, _⟩ := C372_blades_partial ⟨1, 2, 0, 0⟩ ⟨0.1, 0.3, 1, 0, 0.01, 0.12⟩ 0.25 0.05 rfl 1 (by norm_num)
  ⟨⟨1, 2, 0, 0⟩, ⟨0.1, 0.3, 1, 0, 0.01, 0.12⟩, p, hp⟩

/-- C372: rotors of opposite sense have mirrored blades: with the mid chord alignment turned too, the points of a blade at the
same angle lie at the same place along the axis and at the same radius along the blade, and on opposite sides of it. -/
theorem C372_sense (rot rot' : Rot) (s : Sec) (i : ℕ) (x z : ℝ) (p p' : ℝ × ℝ × ℝ) (φ : ℝ) (h1 : rot.rotation = 1)
    (h2 : rot'.rotation = -1) (hφ : angle rot i = some φ) (hφ' : angle rot' i = some φ)
    (h : blade rot s i x z = some p) (h' : blade rot' { s with mca := -s.mca } i x z = some p') :
    p.1 = p'.1 ∧ p.2.1 * Real.cos φ + p.2.2 * Real.sin φ = p'.2.1 * Real.cos φ + p'.2.2 * Real.sin φ
      ∧ -p.2.1 * Real.sin φ + p.2.2 * Real.cos φ = -(-p'.2.1 * Real.sin φ + p'.2.2 * Real.cos φ) := by
  have e1 : Real.cos (Real.pi / 2 - -s.pitch) = -Real.sin s.pitch := by
    rw [Real.cos_pi_div_two_sub, Real.sin_neg]
  have e2 : Real.sin (Real.pi / 2 - -s.pitch) = Real.cos s.pitch := by
    rw [Real.sin_pi_div_two_sub, Real.cos_neg]
  unfold blade at h h'
  rw [hφ, Option.map_some, Option.some.injEq] at h
  rw [hφ', Option.map_some, Option.some.injEq] at h'
  subst h h'
  simp only [turnAxis, turnPitch, pitchOf, local3, h1, h2, if_true, if_neg (by norm_num : ¬ ((-1 : ℤ) = 1)), e1, e2,
    Real.cos_pi_div_two_sub, Real.sin_pi_div_two_sub]
  generalize Real.sin s.pitch = a at *
  generalize Real.cos s.pitch = b at *
  generalize Real.sin φ = c at *
  generalize Real.cos φ = d at *
  generalize s.thickness / s.ratio = t
  refine ⟨by ring, by ring, ?_⟩
  ring

/-- Two rotors that turn in opposite senses. -/
example : ∃ (rot rot' : Rot) (φ : ℝ), rot.rotation = 1 ∧ rot'.rotation = -1 ∧ angle rot 0 = some φ ∧ angle rot' 0 = some φ :=
  ⟨⟨1, 2, 0, 0⟩, ⟨-1, 2, 0, 0⟩, _, rfl, rfl, by simp only [angle, angleIndex]; rfl, by simp only [angle, angleIndex]; rfl⟩

/-- C372 fails for swept blades: the mid chord alignment is not turned with the sense of rotation, so the blade of the rotor that turns
the other way is not the mirror image: the points along the axis are apart by twice the alignment times the sine of the pitch. -/
theorem C372_sweep_counterexample (rot rot' : Rot) (s : Sec) (i : ℕ) (x z : ℝ) (p p' : ℝ × ℝ × ℝ) (h1 : rot.rotation = 1)
    (h2 : rot'.rotation = -1) (hm : s.mca ≠ 0) (hp : Real.sin s.pitch ≠ 0)
    (h : blade rot s i x z = some p) (h' : blade rot' s i x z = some p') :
    p.1 - p'.1 = 2 * s.mca * Real.sin s.pitch ∧ p.1 ≠ p'.1 := by
  have e1 : Real.cos (Real.pi / 2 - -s.pitch) = -Real.sin s.pitch := by
    rw [Real.cos_pi_div_two_sub, Real.sin_neg]
  have e2 : Real.sin (Real.pi / 2 - -s.pitch) = Real.cos s.pitch := by
    rw [Real.sin_pi_div_two_sub, Real.cos_neg]
  obtain ⟨φ, -, h⟩ := Option.map_eq_some_iff.mp h
  obtain ⟨φ', -, h'⟩ := Option.map_eq_some_iff.mp h'
  have e : p.1 - p'.1 = 2 * s.mca * Real.sin s.pitch := by
    subst h h'
    simp only [turnAxis, turnPitch, pitchOf, local3, h1, h2, if_true, if_neg (by norm_num : ¬ ((-1 : ℤ) = 1)), e1, e2,
      Real.cos_pi_div_two_sub, Real.sin_pi_div_two_sub]
    ring
  refine ⟨e, fun hc => ?_⟩
  rw [hc, sub_self] at e
  rcases mul_eq_zero.mp e.symm with h3 | h3
  · exact hm (by linarith)
  · exact hp h3

/-- A blade with sweep and pitch. -/
example : (⟨0.1, Real.pi / 2, 1, 0.05, 0.01, 0.12⟩ : Sec).mca ≠ 0 ∧ Real.sin (⟨0.1, Real.pi / 2, 1, 0.05, 0.01, 0.12⟩ : Sec).pitch ≠ 0 := by
  constructor
  · norm_num
  · simp

/-- C372 fails for a rotor with airfoils: all its blades are drawn at the same place. -/
theorem C372_airfoil_counterexample (rot : Rot) (s : Sec) (x z : ℝ) (ha : rot.airfoils ≠ 0) (i j : ℕ) :
    blade rot s i x z = blade rot s j x z := by
  simp [blade, angle, angleIndex, ha]

example : ∃ rot : Rot, rot.airfoils ≠ 0 ∧ 2 ≤ rot.blades := ⟨⟨-1, 3, 0, 1⟩, by norm_num, by norm_num⟩

/-- C372 fails for a rotor with more airfoils than blades: nothing is drawn, an error is raised. -/
theorem C372_index_counterexample (rot : Rot) (s : Sec) (x z : ℝ) (ha : rot.blades < rot.airfoils) (i : ℕ) :
    blade rot s i x z = none := by
  have h0 : rot.airfoils ≠ 0 := by omega
  have : ¬ rot.airfoils - 1 < rot.blades := by omega
  simp [blade, angle, angleIndex, h0, this]

example : ∃ rot : Rot, rot.blades < rot.airfoils := ⟨⟨-1, 2, 0, 3⟩, by norm_num⟩

end Verif.IO.Drawings
