import Verif.Rotor.VortexWake
import Verif.Rotor.PowerProps
import Verif.Rotor.WakeProps
import Mathlib.Analysis.Real.Pi.Bounds
import Mathlib.Analysis.SpecialFunctions.Trigonometric.Arctan
import Mathlib.Analysis.Real.Sqrt

/-! Shape and circulation of the vortex wake of a rotor (C328 – C331). -/

namespace Verif.Rotor.Vortex
open Real Verif.Rotor Verif.Vlm

/-- A rotor with two blades and four azimuthal stations, for the examples. -/
noncomputable def demo : Shape :=
  { R := 2, hub := 1, r := fun j => j + 1, chord := fun _ => 1 / 5, twist := fun _ => 1 / 2, pitch := 0, B := 2, Na := 4, Nr := 2,
    ω₁ := 10, ω := 10, V := ![30, 0, 0], va := fun _ _ => 3, circ := fun j i => j + i, rot := 1, origin := ⟨0, 0, 0⟩, offset := 0,
    te := fun _ => (1, 0), le := fun _ => (0, 0), M := 1 }

/-! ### C328: circulation -/

/-- A panel of the wake lies at the angle where the first blade is at some station of the disc, and carries the circulation
the blade has at that station, provided the blades fall on stations and the rotor speed is that of the first control point. -/
theorem C328_shed_partial (w : Shape) (hN : 0 < w.Na) (hB : 0 < w.B) (hd : w.B ∣ w.Na) (hω : w.ω₁ ≠ 0) (hrow : w.ω = w.ω₁)
    (hrot : w.rot = 1 ∨ w.rot = -1) (i b k : ℕ) :
    ∃ s < w.Na, cos (w.panelAngle i b k) = cos (w.rot * (w.start + 2 * π * s / w.Na)) ∧
      sin (w.panelAngle i b k) = -sin (w.rot * (w.start + 2 * π * s / w.Na)) ∧
      ∀ j, w.gamma i b j k = (w.circ j s + w.circ (j + 1) s) / 2 := by
  have hNz : (w.Na : ℤ) ≠ 0 := by exact_mod_cast hN.ne'
  have hNr : (w.Na : ℝ) ≠ 0 := by exact_mod_cast hN.ne'
  have hBr : (w.B : ℝ) ≠ 0 := by exact_mod_cast hB.ne'
  obtain ⟨d, hde⟩ : ∃ d, w.Na / w.B = d := ⟨_, rfl⟩
  have hdr : (d : ℝ) = w.Na / w.B := by rw [← hde, Nat.cast_div hd hBr]
  set q : ℤ := (i : ℤ) + b * (d : ℤ) - k with hq
  have hs0 : 0 ≤ q % (w.Na : ℤ) := Int.emod_nonneg _ hNz
  have hs1 : q % (w.Na : ℤ) < w.Na := Int.emod_lt_of_pos _ (by exact_mod_cast hN)
  have hsz : ((w.shedAt i b k : ℕ) : ℤ) = q % (w.Na : ℤ) := by
    unfold Shape.shedAt
    rw [hde]
    exact Int.toNat_of_nonneg hs0
  have hdiv := Int.emod_add_mul_ediv q (w.Na : ℤ)
  have hr : ((w.shedAt i b k : ℕ) : ℝ) = (i : ℝ) + b * (w.Na / w.B) - k - w.Na * ((q / (w.Na : ℤ) : ℤ) : ℝ) := by
    have h1 : ((w.shedAt i b k : ℕ) : ℤ) = (i : ℤ) + b * (d : ℤ) - k - w.Na * (q / (w.Na : ℤ)) := by
      rw [hsz]; linarith
    have h2 : (((w.shedAt i b k : ℕ) : ℤ) : ℝ) = (((i : ℤ) + b * (d : ℤ) - k - w.Na * (q / (w.Na : ℤ)) : ℤ) : ℝ) := by
      rw [h1]
    push_cast at h2
    rw [← hdr]
    simpa using h2
  have hang : w.panelAngle i b k = -(w.rot * (w.start + 2 * π * (w.shedAt i b k : ℕ) / w.Na)) - w.rot * ((q / (w.Na : ℤ) : ℤ) : ℝ) * (2 * π) := by
    simp only [Shape.panelAngle, Shape.bladeAngle, Shape.age, Shape.dt, hrow]
    rw [hr]
    field_simp
    ring
  refine ⟨w.shedAt i b k, by exact_mod_cast hsz ▸ hs1, ?_, ?_, ?_⟩
  · rw [hang]
    rcases hrot with h | h <;> rw [h]
    · rw [one_mul, one_mul, cos_sub_int_mul_two_pi, cos_neg]
    · rw [show -(-1 * (w.start + 2 * π * (w.shedAt i b k : ℕ) / w.Na)) - -1 * ((q / (w.Na : ℤ) : ℤ) : ℝ) * (2 * π) =
        -(-1 * (w.start + 2 * π * (w.shedAt i b k : ℕ) / w.Na)) + ((q / (w.Na : ℤ) : ℤ) : ℝ) * (2 * π) by ring,
        cos_add_int_mul_two_pi, cos_neg]
  · rw [hang]
    rcases hrot with h | h <;> rw [h]
    · rw [one_mul, one_mul, sin_sub_int_mul_two_pi, sin_neg]
    · rw [show -(-1 * (w.start + 2 * π * (w.shedAt i b k : ℕ) / w.Na)) - -1 * ((q / (w.Na : ℤ) : ℤ) : ℝ) * (2 * π) =
        -(-1 * (w.start + 2 * π * (w.shedAt i b k : ℕ) / w.Na)) + ((q / (w.Na : ℤ) : ℤ) : ℝ) * (2 * π) by ring,
        sin_add_int_mul_two_pi, sin_neg]
  · intro j
    unfold Shape.gamma
    ring

example : ∃ s < demo.Na, cos (demo.panelAngle 1 1 3) = cos (demo.rot * (demo.start + 2 * π * s / demo.Na)) ∧
      sin (demo.panelAngle 1 1 3) = -sin (demo.rot * (demo.start + 2 * π * s / demo.Na)) ∧
      ∀ j, demo.gamma 1 1 j 3 = (demo.circ j s + demo.circ (j + 1) s) / 2 :=
  C328_shed_partial demo (by norm_num [demo]) (by norm_num [demo]) (by norm_num [demo]) (by norm_num [demo]) rfl (Or.inl rfl) 1 1 3

/-- A wake behind a disc whose circulation is the same at all azimuths carries that circulation everywhere, whatever the
number of blades. -/
theorem C328_axisymmetric (w : Shape) (g : ℕ → ℝ) (h : ∀ j i, w.circ j i = g j) (i b j k : ℕ) :
    w.gamma i b j k = (g j + g (j + 1)) / 2 := by
  unfold Shape.gamma
  rw [h, h]
  ring

example : ({demo with circ := fun j _ => j} : Shape).gamma 1 1 0 3 = (((0 : ℕ) : ℝ) + ((0 + 1 : ℕ) : ℝ)) / 2 :=
  C328_axisymmetric _ (fun j => (j : ℝ)) (fun _ _ => rfl) 1 1 0 3

/-- With five blades and 24 stations the second blade is at 72 degrees and carries the circulation of 60 degrees. -/
theorem C328_blades_counterexample :
    ¬ ∀ (w : Shape) (i b k : ℕ), 0 < w.Na → 0 < w.B → w.ω₁ ≠ 0 → w.ω = w.ω₁ → w.rot = 1 →
      ∃ s < w.Na, cos (w.panelAngle i b k) = cos (w.rot * (w.start + 2 * π * s / w.Na)) ∧
        ∀ j, w.gamma i b j k = (w.circ j s + w.circ (j + 1) s) / 2 := by
  intro h
  obtain ⟨s, hs, hc, hg⟩ := h { demo with B := 5, Na := 24, circ := fun _ i => i } 0 1 0 (by norm_num) (by norm_num)
    (by norm_num [demo]) rfl rfl
  have hg0 := hg 0
  have hs4 : s = 4 := by
    have : (({ demo with B := 5, Na := 24, circ := fun _ i => i } : Shape).shedAt 0 1 0) = 4 := by decide
    unfold Shape.gamma at hg0
    rw [this] at hg0
    simp only at hg0
    norm_num at hg0
    exact_mod_cast hg0.symm
  subst hs4
  simp only [Shape.panelAngle, Shape.start, Shape.bladeAngle, Shape.age, Shape.dt, demo] at hc
  norm_num at hc
  rw [show 2 * π * 4 / 24 = π / 3 by ring] at hc
  have := Real.injOn_cos (x₁ := 2 * π / 5) (x₂ := π / 3) ⟨by positivity, by linarith [pi_pos]⟩ ⟨by positivity, by linarith [pi_pos]⟩ hc
  linarith [pi_pos]

/-- At a control point with twice the speed of the first one the panels lie between the stations whose circulation they
carry. -/
theorem C328_rows_counterexample :
    ¬ ∀ (w : Shape) (i b k : ℕ), 0 < w.Na → 0 < w.B → w.B ∣ w.Na → w.ω₁ ≠ 0 → w.rot = 1 →
      ∃ s < w.Na, cos (w.panelAngle i b k) = cos (w.rot * (w.start + 2 * π * s / w.Na)) ∧
        ∀ j, w.gamma i b j k = (w.circ j s + w.circ (j + 1) s) / 2 := by
  intro h
  obtain ⟨s, hs, hc, hg⟩ := h { demo with ω := 20, circ := fun _ i => i } 1 0 1 (by norm_num [demo]) (by norm_num [demo])
    (by norm_num [demo]) (by norm_num [demo]) rfl
  have hg0 := hg 0
  have hs0 : s = 0 := by
    have : (({ demo with ω := 20, circ := fun _ i => i } : Shape).shedAt 1 0 1) = 0 := by decide
    unfold Shape.gamma at hg0
    rw [this] at hg0
    simp only at hg0
    norm_num at hg0
    exact_mod_cast hg0.symm
  subst hs0
  simp only [Shape.panelAngle, Shape.start, Shape.bladeAngle, Shape.age, Shape.dt, demo] at hc
  norm_num at hc
  rw [show 20 * (2 * π / 4 / 10) - 2 * π / 4 = π / 2 by ring, cos_pi_div_two] at hc
  norm_num at hc

/-! ### C329: the blade in the wake -/

/-- Specification: the point of section `j` at `p` (in chords from the leading edge) of a blade at the angle `φ`, relative to
the hub.  The chord is laid across the radius, its middle on the radius, and turned by the pitch of the blade. -/
noncomputable def sectionPoint (w : Shape) (j : ℕ) (φ : ℝ) (p : ℝ × ℝ) : Vec3 :=
  let x := -w.rot * w.chord j * (p.1 - 1 / 2)
  let y := -w.rot * w.chord j * p.2
  let β := -w.rot * (w.twist j + w.pitch)
  let across := cos β * x - sin β * y
  ⟨sin β * x + cos β * y, w.r j * sin φ - across * cos φ, w.r j * cos φ + across * sin φ⟩

/-- The wake starts from the trailing edge. -/
theorem C329_trailing (w : Shape) (i b j k : ℕ) : w.edge i b j k = sectionPoint w j (w.panelAngle i b k) (w.te j) := by
  simp only [Shape.edge, sectionPoint, Shape.trailing, Shape.twisted, Shape.c, Shape.beta]
  ext <;> ring_nf

/-- The bound vortex lies a quarter of the way from the leading to the trailing edge, for airfoils that start at the origin. -/
theorem C329_quarter (w : Shape) (i b j k : ℕ) (h : w.le j = (0, 0)) :
    w.bound i b j k = sectionPoint w j (w.panelAngle i b k) ((w.te j).1 / 4, (w.te j).2 / 4) := by
  simp only [Shape.bound, sectionPoint, Shape.quarter, Shape.twisted, Shape.c, Shape.beta, h]
  ext <;> ring_nf

example : demo.bound 1 1 0 0 = sectionPoint demo 0 (demo.panelAngle 1 1 0) (1 / 4, 0 / 4) := C329_quarter demo 1 1 0 0 rfl

/-- Two points of a section are as far apart on the blade as in the airfoil. -/
theorem C329_rigid (w : Shape) (hrot : w.rot = 1 ∨ w.rot = -1) (j : ℕ) (φ : ℝ) (p q : ℝ × ℝ) :
    (sectionPoint w j φ p - sectionPoint w j φ q).x ^ 2 + (sectionPoint w j φ p - sectionPoint w j φ q).y ^ 2 +
      (sectionPoint w j φ p - sectionPoint w j φ q).z ^ 2 = w.chord j ^ 2 * ((p.1 - q.1) ^ 2 + (p.2 - q.2) ^ 2) := by
  have hr2 : w.rot ^ 2 = 1 := by rcases hrot with h | h <;> rw [h] <;> norm_num
  simp only [sectionPoint, Vec3.sub_x, Vec3.sub_y, Vec3.sub_z]
  generalize -w.rot * (w.twist j + w.pitch) = β
  have h1 := sin_sq_add_cos_sq β
  have h2 := sin_sq_add_cos_sq φ
  generalize hsb : sin β = sb at *
  generalize hcb : cos β = cb at *
  generalize hsf : sin φ = sf at *
  generalize hcf : cos φ = cf at *
  generalize hx : -w.rot * w.chord j * (p.1 - 1 / 2) = x
  generalize hy : -w.rot * w.chord j * p.2 = y
  generalize hx' : -w.rot * w.chord j * (q.1 - 1 / 2) = x'
  generalize hy' : -w.rot * w.chord j * q.2 = y'
  have e1 : x - x' = -w.rot * w.chord j * (p.1 - q.1) := by rw [← hx, ← hx']; ring
  have e2 : y - y' = -w.rot * w.chord j * (p.2 - q.2) := by rw [← hy, ← hy']; ring
  have e3 : (x - x') ^ 2 + (y - y') ^ 2 = w.chord j ^ 2 * ((p.1 - q.1) ^ 2 + (p.2 - q.2) ^ 2) := by
    rw [e1, e2]
    linear_combination (w.chord j ^ 2 * ((p.1 - q.1) ^ 2 + (p.2 - q.2) ^ 2)) * hr2
  rw [← e3]
  linear_combination ((x - x') ^ 2 + (y - y') ^ 2) * h1 + ((cb * (x - x') - sb * (y - y')) ^ 2) * h2

example : (sectionPoint demo 0 1 (1, 0) - sectionPoint demo 0 1 (1 / 4, 0)).x ^ 2 + (sectionPoint demo 0 1 (1, 0) - sectionPoint demo 0 1 (1 / 4, 0)).y ^ 2 +
      (sectionPoint demo 0 1 (1, 0) - sectionPoint demo 0 1 (1 / 4, 0)).z ^ 2 = (1 / 5) ^ 2 * ((1 - 1 / 4) ^ 2 + (0 - 0) ^ 2) :=
  C329_rigid demo (Or.inl rfl) 0 1 (1, 0) (1 / 4, 0)

/-- All blades are alike: the trailing edges of any two blades at any two ages are turned into each other about the axis. -/
theorem C329_blades (w : Shape) (i b i' b' j k k' : ℕ) :
    let θ := w.panelAngle i' b' k' - w.panelAngle i b k
    let e := w.edge i b j k
    w.edge i' b' j k' = ⟨e.x, e.y * cos θ + e.z * sin θ, e.z * cos θ - e.y * sin θ⟩ := by
  simp only [Shape.edge]
  generalize hα : w.panelAngle i b k = α
  generalize hα' : w.panelAngle i' b' k' = α'
  have hs : sin α' = sin α * cos (α' - α) + cos α * sin (α' - α) := by
    rw [← sin_add]; congr 1; ring
  have hc : cos α' = cos α * cos (α' - α) - sin α * sin (α' - α) := by
    rw [← cos_add]; congr 1; ring
  ext
  · rfl
  · simp only
    rw [hs, hc]
    ring
  · simp only
    rw [hs, hc]
    ring

/-- A rotor turning the other way leaves the mirror image of the wake, in flight without sideslip and with sharp symmetric
trailing edges. -/
theorem C329_mirror (w : Shape) (hV : w.V 1 = 0) (hte : ∀ j, (w.te j).2 = 0) (i b j k : ℕ) :
    ({ w with rot := -w.rot } : Shape).shed i b j k =
      ⟨(w.shed i b j k).x, 2 * w.origin.y - (w.shed i b j k).y, (w.shed i b j k).z⟩ := by
  have ht : ∀ j, ({ w with rot := -w.rot } : Shape).trailing j = (-(w.trailing j).1, (w.trailing j).2) := by
    intro j
    simp only [Shape.trailing, Shape.twisted, Shape.c, Shape.beta, hte]
    rw [show - -w.rot * (w.twist j + w.pitch) = -(-w.rot * (w.twist j + w.pitch)) by ring, cos_neg, sin_neg]
    ext <;> simp only <;> ring
  have hp : ∀ i b k, ({ w with rot := -w.rot } : Shape).panelAngle i b k = -w.panelAngle i b k := by
    intro i b k
    simp only [Shape.panelAngle, Shape.bladeAngle, Shape.age, Shape.dt, Shape.start]
    ring
  have hx : ∀ i b j k, (({ w with rot := -w.rot } : Shape).edge i b j k).x = (w.edge i b j k).x := by
    intro i b j k
    simp only [Shape.edge, ht]
  have hd : ∀ j k, ({ w with rot := -w.rot } : Shape).drift j k = w.drift j k := by
    intro j k
    simp only [Shape.drift, Shape.speed, Shape.skew, Shape.vbar, Shape.age, Shape.dt, hV]
    simp
  have hn : ({ w with rot := -w.rot } : Shape).narrow j k = w.narrow j k := by
    simp only [Shape.narrow, hx, hd]
    rfl
  have hdy : (w.drift j k).y = 0 := by simp [Shape.drift, hV]
  simp only [Shape.shed, hn, hd, hdy, hx]
  simp only [Shape.edge, ht, hp, sin_neg, cos_neg]
  ext <;> simp only <;> ring

example : ({ demo with rot := -demo.rot } : Shape).shed 1 1 0 2 =
      ⟨(demo.shed 1 1 0 2).x, 2 * demo.origin.y - (demo.shed 1 1 0 2).y, (demo.shed 1 1 0 2).z⟩ :=
  C329_mirror demo (by simp [demo]) (fun _ => rfl) 1 1 0 2

/-! ### C330: the wake drifts with the air -/

/-- Specification: displacement, in the frame of the vehicle (`x` aft, `y` right, `z` up), of air that the rotor left `t` ago
and that moves back with the induced velocity `v`; the vehicle flies with `V` (`x` forward, `y` right, `z` down). -/
def airDrift (V : Fin 3 → ℝ) (v t : ℝ) : Vec3 := ⟨(V 0 + v) * t, -(V 1) * t, V 2 * t⟩

/-- In straight flight the wake goes aft with the flight speed and the induced velocity of each station. -/
theorem C330_level_partial (w : Shape) (hM : w.M = 1) (h1 : w.V 1 = 0) (h2 : w.V 2 = 0) (j k : ℕ) (hp : 0 ≤ w.V 0 + w.vbar j) :
    w.drift j k = airDrift w.V (w.vbar j) (w.age k) := by
  have hb : bodyToProp (1 : Matrix (Fin 3) (Fin 3) ℝ) = 1 := by
    unfold bodyToProp
    rw [mul_one, rotY_mul, show π + π = 0 + 2 * π by ring, rotY_two_pi]
    ext a b
    fin_cases a <;> fin_cases b <;> simp [rotY]
  have hsk : w.skew = 0 := by
    simp only [Shape.skew, hM, hb]
    rw [show (∑ a, w.V a * (1 : Matrix (Fin 3) (Fin 3) ℝ) 2 a) = 0 by
      simp [Fin.sum_univ_three, Matrix.one_apply, h2]]
    simp
  simp only [Shape.drift, airDrift, hsk, Shape.speed, h1, h2]
  ext <;> simp [sqrt_sq hp]

example : demo.drift 1 2 = airDrift demo.V (demo.vbar 1) (demo.age 2) :=
  C330_level_partial demo rfl (by simp [demo]) (by simp [demo]) 1 2 (by
    simp only [Shape.vbar, meanAz, demo]
    norm_num)

/-- The wake of every station leaves with the speed of the flow through the disc. -/
theorem C330_speed (w : Shape) (h1 : w.V 1 = 0) (j k : ℕ) :
    (w.drift j k).x ^ 2 + (w.drift j k).y ^ 2 + (w.drift j k).z ^ 2 =
      ((w.V 0 + w.vbar j) ^ 2 + w.V 2 ^ 2) * w.age k ^ 2 := by
  have hs : w.speed j ^ 2 = (w.V 0 + w.vbar j) ^ 2 + w.V 2 ^ 2 := sq_sqrt (by positivity)
  simp only [Shape.drift, h1]
  rw [← hs]
  linear_combination (w.speed j * w.age k) ^ 2 * sin_sq_add_cos_sq w.skew

/-- With the same induced velocity at all stations the vertical drift has the wrong sign and the lateral one the sign of the
rotation. -/
theorem C330_uniform (w : Shape) (hM : w.M = 1) (hω : w.ω * w.R ≠ 0) (hN : 0 < w.Nr) (v : ℝ) (hv : ∀ j, w.vbar j = v) (hp : 0 < w.V 0 + v)
    (j k : ℕ) :
    w.drift j k = ⟨(airDrift w.V v (w.age k)).x, w.rot * (airDrift w.V v (w.age k)).y, -(airDrift w.V v (w.age k)).z⟩ := by
  have hb : bodyToProp (1 : Matrix (Fin 3) (Fin 3) ℝ) = 1 := by
    unfold bodyToProp
    rw [mul_one, rotY_mul, show π + π = 0 + 2 * π by ring, rotY_two_pi]
    ext a b
    fin_cases a <;> fin_cases b <;> simp [rotY]
  have hNr : (w.Nr : ℝ) ≠ 0 := by exact_mod_cast hN.ne'
  have hsk : w.skew = -arctan (w.V 2 / (w.V 0 + v)) := by
    simp only [Shape.skew, hM, hb, hv]
    rw [show (∑ a, w.V a * (1 : Matrix (Fin 3) (Fin 3) ℝ) 2 a) = w.V 2 by simp [Fin.sum_univ_three, Matrix.one_apply],
      show (∑ a, w.V a * (1 : Matrix (Fin 3) (Fin 3) ℝ) 0 a) = w.V 0 by simp [Fin.sum_univ_three, Matrix.one_apply]]
    simp only [Finset.sum_const, Finset.card_range, nsmul_eq_mul]
    rw [mul_div_cancel_left₀ _ hNr, div_div_div_cancel_right₀ hω]
  have hsp : w.speed j = (w.V 0 + v) * sqrt (1 + (w.V 2 / (w.V 0 + v)) ^ 2) := by
    simp only [Shape.speed, hv]
    rw [show (w.V 0 + v) ^ 2 + w.V 2 ^ 2 = (w.V 0 + v) ^ 2 * (1 + (w.V 2 / (w.V 0 + v)) ^ 2) by field_simp,
      sqrt_mul (by positivity), sqrt_sq hp.le]
  have hq : sqrt (1 + (w.V 2 / (w.V 0 + v)) ^ 2) ≠ 0 := (sqrt_pos.2 (by positivity)).ne'
  simp only [Shape.drift, airDrift, hsk, cos_neg, sin_neg, cos_arctan, sin_arctan, hsp]
  ext
  · simp only
    field_simp
  · simp only
    ring
  · simp only
    field_simp

example : ({ demo with V := ![30, 2, 5] } : Shape).drift 1 2 =
    ⟨(airDrift ![30, 2, 5] 3 (demo.age 2)).x, 1 * (airDrift ![30, 2, 5] 3 (demo.age 2)).y, -(airDrift ![30, 2, 5] 3 (demo.age 2)).z⟩ :=
  C330_uniform { demo with V := ![30, 2, 5] } rfl (by norm_num [demo]) (by norm_num [demo]) 3 (by
    intro j
    simp only [Shape.vbar, meanAz, demo]
    norm_num) (by norm_num) 1 2

/-- In a descent the wake is laid below the rotor, though the rotor sinks away from it. -/
theorem C330_vertical_counterexample :
    ¬ ∀ (w : Shape) (j k : ℕ), w.M = 1 → w.V 1 = 0 → (∀ j, w.vbar j = 3) → w.V 0 = 30 → w.Nr = 2 → w.ω * w.R ≠ 0 →
      w.drift j k = airDrift w.V 3 (w.age k) := by
  intro h
  have hv : ∀ j, ({ demo with V := ![30, 0, 5] } : Shape).vbar j = 3 := by
    intro j
    simp only [Shape.vbar, meanAz, demo]
    norm_num
  have h1 := h { demo with V := ![30, 0, 5] } 1 1 rfl (by simp) hv (by simp) rfl (by norm_num [demo])
  rw [C330_uniform { demo with V := ![30, 0, 5] } rfl (by norm_num [demo]) (by norm_num [demo]) 3 hv (by norm_num) 1 1] at h1
  have h2 := congrArg Vec3.z h1
  simp only [airDrift, Shape.age, Shape.dt, demo, Matrix.cons_val] at h2
  norm_num at h2
  linarith [pi_pos]

/-- In a sideslip the wakes of two rotors that turn in opposite senses drift to opposite sides. -/
theorem C330_lateral_counterexample :
    ¬ ∀ (w : Shape) (j k : ℕ), w.M = 1 → w.V 2 = 0 → (∀ j, w.vbar j = 3) → w.V 0 = 30 → w.Nr = 2 → w.ω * w.R ≠ 0 →
      w.rot = -1 → w.drift j k = airDrift w.V 3 (w.age k) := by
  intro h
  have hv : ∀ j, ({ demo with V := ![30, 5, 0], rot := -1 } : Shape).vbar j = 3 := by
    intro j
    simp only [Shape.vbar, meanAz, demo]
    norm_num
  have h1 := h { demo with V := ![30, 5, 0], rot := -1 } 1 1 rfl (by simp) hv (by simp) rfl (by norm_num [demo]) rfl
  rw [C330_uniform { demo with V := ![30, 5, 0], rot := -1 } rfl (by norm_num [demo]) (by norm_num [demo]) 3 hv (by norm_num) 1 1] at h1
  have h2 := congrArg Vec3.y h1
  simp only [airDrift, Shape.age, Shape.dt, demo, Matrix.cons_val] at h2
  norm_num at h2
  linarith [pi_pos]

/-! ### C331: place of the wake -/

/-- Moving the rotor sideways or up moves its wake along with it. -/
theorem C331_moved_partial (w : Shape) (y z : ℝ) (i b j k : ℕ) :
    ({ w with origin := ⟨w.origin.x, w.origin.y + y, w.origin.z + z⟩ } : Shape).grid i b j k = w.grid i b j k + ⟨0, y, z⟩ := by
  cases k with
  | zero =>
    simp only [Shape.grid]
    have hb : ({ w with origin := ⟨w.origin.x, w.origin.y + y, w.origin.z + z⟩ } : Shape).bound i b j 0 = w.bound i b j 0 := rfl
    rw [hb]
    ext <;> simp only [Vec3.add_x, Vec3.add_y, Vec3.add_z] <;> ring
  | succ k =>
    have he : ({ w with origin := ⟨w.origin.x, w.origin.y + y, w.origin.z + z⟩ } : Shape).edge i b j k = w.edge i b j k := rfl
    have hd : ({ w with origin := ⟨w.origin.x, w.origin.y + y, w.origin.z + z⟩ } : Shape).drift j k = w.drift j k := rfl
    have hn : ({ w with origin := ⟨w.origin.x, w.origin.y + y, w.origin.z + z⟩ } : Shape).narrow j k = w.narrow j k := rfl
    simp only [Shape.grid, Shape.shed, he, hd, hn]
    ext <;> simp only [Vec3.add_x, Vec3.add_y, Vec3.add_z] <;> ring

/-- Without induced velocity the wake keeps its width and moves with the rotor in every direction. -/
theorem C331_unloaded (w : Shape) (hr : ∀ j, 0 < w.r j) (hh : w.hub = w.r 0) (hv : ∀ j, w.vbar j = 0) (hV : w.V 0 ≠ 0) (i b j k : ℕ) :
    w.shed i b j k = w.origin + (w.edge i b j k + w.drift j k) := by
  have hn : w.narrow j k = 1 := by
    simp only [Shape.narrow, hh]
    exact C188_no_contraction _ _ _ _ _ hr (Or.inr ⟨hv, hV⟩) j
  simp only [Shape.shed, hn, mul_one]
  rfl

example : ({ demo with va := fun _ _ => 0, origin := ⟨4, 1, 2⟩ } : Shape).shed 1 1 0 2 =
    ⟨4, 1, 2⟩ + (({ demo with va := fun _ _ => 0, origin := ⟨4, 1, 2⟩ } : Shape).edge 1 1 0 2 +
      ({ demo with va := fun _ _ => 0, origin := ⟨4, 1, 2⟩ } : Shape).drift 0 2) :=
  C331_unloaded { demo with va := fun _ _ => 0, origin := ⟨4, 1, 2⟩ } (fun j => by simp only [demo]; positivity) (by simp [demo]) (by
    intro j
    simp [Shape.vbar, meanAz]) (by simp [demo]) 1 1 0 2

/-- A rotor at `x = 0` with blades without chord sheds its wake from the blades. -/
theorem C331_start (w : Shape) (hr : ∀ j, 0 < w.r j) (hh : w.hub = w.r 0) (ho : w.origin.x = (w.edge 0 0 (w.Nr - 1) 0).x)
    (hv : ∀ j, 2 * w.V 0 + (w.vbar (j + 1) + w.vbar j) ≠ 0) (i b j : ℕ) :
    w.shed i b j 0 = w.origin + w.edge i b j 0 := by
  have hn : w.narrow j 0 = 1 := by
    simp only [Shape.narrow, hh]
    refine C188_no_contraction _ _ _ _ _ hr (Or.inl ⟨?_, hv⟩) j
    rw [ho]
    simp [Shape.drift, Shape.age]
  simp only [Shape.shed, hn, mul_one]
  ext <;> simp [Shape.drift, Shape.age]

example : ({ demo with chord := fun _ => 0 } : Shape).shed 1 1 0 0 = ⟨0, 0, 0⟩ + ({ demo with chord := fun _ => 0 } : Shape).edge 1 1 0 0 :=
  C331_start { demo with chord := fun _ => 0 } (fun j => by simp only [demo]; positivity) (by simp [demo])
    (by simp [Shape.edge, Shape.trailing, Shape.twisted, Shape.c, demo]) (by
      intro j
      simp only [Shape.vbar, meanAz, demo]
      norm_num) 1 1 0

/-- A rotor four metres behind the nose: its wake is already wider than the disc at the blades, because the distance behind
the disc is reduced by the position of the rotor. -/
theorem C331_nose_counterexample :
    ¬ ∀ (w : Shape) (i b j : ℕ), (∀ j, 0 < w.r j) → w.hub = w.r 0 → (∀ j, w.chord j = 0) → (∀ j, 0 < w.vbar j) → 0 < w.V 0 →
      w.shed i b j 0 = w.origin + w.edge i b j 0 := by
  intro h
  have hv : ∀ j, ({ demo with chord := fun _ => 0, V := ![1, 0, 0], va := fun _ _ => 1, R := 3, origin := ⟨4, 0, 0⟩ } : Shape).vbar j = 1 := by
    intro j
    simp only [Shape.vbar, meanAz, demo]
    norm_num
  have h1 := h { demo with chord := fun _ => 0, V := ![1, 0, 0], va := fun _ _ => 1, R := 3, origin := ⟨4, 0, 0⟩ } 0 0 1
    (fun j => by simp only [demo]; positivity) (by simp [demo]) (fun _ => rfl) (fun j => by rw [hv j]; norm_num) (by simp)
  have h2 := congrArg Vec3.z h1
  simp only [Shape.shed, Shape.narrow, Vec3.add_z, contraction, rPrime, kv, hv, develop] at h2
  simp only [Shape.edge, Shape.drift, Shape.trailing, Shape.twisted, Shape.c, Shape.panelAngle, Shape.age, Shape.start, Shape.bladeAngle, demo] at h2
  norm_num at h2
  rw [show (25 : ℝ) = 5 ^ 2 by norm_num, sqrt_sq (by norm_num)] at h2
  norm_num at h2
  have h3 : sqrt 6 = 2 := by linarith
  have h4 := sq_sqrt (show (0 : ℝ) ≤ 6 by norm_num)
  rw [h3] at h4
  norm_num at h4

end Verif.Rotor.Vortex
