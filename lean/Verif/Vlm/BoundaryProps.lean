import Verif.Vlm.Boundary

/-!
# Properties of the boundary condition (C195-C197)
-/

namespace Verif.Vlm

/-- Specification.  Unit vector of the free stream at incidence `alpha` and sideslip `psi`. -/
noncomputable def windDir (alpha psi : ℝ) : Vec3 :=
  ⟨Real.cos alpha * Real.cos psi, Real.cos alpha * Real.sin psi, Real.sin alpha⟩

/-- Specification.  The angular velocity of the vehicle, roll about `x`, pitch about `y`, yaw about
`z`. -/
def omega (f : Flight) : Vec3 := ⟨f.roll, f.pitch, f.yaw⟩

/-- **C195.** The air velocity relative to a panel is the free stream, minus the rigid-body velocity
`ω × r` of the panel, plus the slipstream; the right-hand side of the boundary condition is its
component along the panel normal, in units of the flight speed. -/
theorem C195_onset (f : Flight) (g ind nrm : Vec3) (hV : f.V ≠ 0) :
    onset f g ind = Vec3.smul f.V (windDir f.alpha f.psi) - Vec3.cross (omega f) g + ind ∧
    f.V * rhsNormal f g ind nrm =
      Vec3.dot (Vec3.smul f.V (windDir f.alpha f.psi) - Vec3.cross (omega f) g + ind) nrm := by
  have h : onset f g ind = Vec3.smul f.V (windDir f.alpha f.psi) - Vec3.cross (omega f) g + ind := by
    unfold onset rotationVelocity windDir omega Vec3.cross Vec3.smul
    ext
    · simp only [Vec3.add_x, Vec3.sub_x]; ring
    · simp only [Vec3.add_y, Vec3.sub_y]; ring
    · simp only [Vec3.add_z, Vec3.sub_z]; ring
  refine ⟨h, ?_⟩
  rw [← h]
  unfold rhsNormal Vec3.dot
  field_simp

/-- **C195.** The lever arm is taken to the three-quarter point of the panel when the panels of the
strip have equal chords. -/
theorem C195_three_quarter (xle ych zch chord n xbar zbar : ℝ) :
    (giro (xle + 1 / 4 * (chord / n)) ych zch chord n xbar zbar).x = xle + 3 / 4 * (chord / n) - xbar := by
  unfold giro
  simp only
  ring

/-- Specification.  A panel lying in the plane `z = a x + b y + const` has this upward normal. -/
noncomputable def planeNormal (a b : ℝ) : Vec3 :=
  Vec3.smul (1 / Real.sqrt (1 + a ^ 2 + b ^ 2)) ⟨-a, -b, 1⟩

/-- The normal which the influence matrix uses for such a panel is shorter than a unit vector by the
factor shown. -/
theorem influence_planeNormal (c : Vec3) (a b : ℝ) :
    influence c (Real.arctan a) (Real.arctan b) =
      -(Real.sqrt (1 + a ^ 2 + b ^ 2) / (Real.sqrt (1 + a ^ 2) * Real.sqrt (1 + b ^ 2)))
        * Vec3.dot c (planeNormal a b) := by
  unfold influence planeNormal Vec3.dot Vec3.smul
  rw [Real.sin_arctan, Real.sin_arctan, Real.cos_arctan, Real.cos_arctan]
  have h1 : Real.sqrt (1 + a ^ 2) ≠ 0 := (Real.sqrt_pos.2 (by positivity)).ne'
  have h2 : Real.sqrt (1 + b ^ 2) ≠ 0 := (Real.sqrt_pos.2 (by positivity)).ne'
  have h3 : Real.sqrt (1 + a ^ 2 + b ^ 2) ≠ 0 := (Real.sqrt_pos.2 (by positivity)).ne'
  field_simp
  ring

/-- Total velocity at a control point: the onset flow plus the vortices with circulation
`γ j` (in units of the flight speed). -/
noncomputable def totalVelocity {N : ℕ} (V : ℝ) (on : Vec3) (c : Fin N → Vec3) (γ : Fin N → ℝ) : Vec3 :=
  ⟨on.x + V * ∑ j, γ j * (c j).x, on.y + V * ∑ j, γ j * (c j).y, on.z + V * ∑ j, γ j * (c j).z⟩

/-- **C196.** What the solved circulations do to the flow through a panel which lies in the plane
`z = a x + b y`: the normal velocity that remains is a definite fraction of the normal velocity
without vortices. -/
theorem C196_residual {N : ℕ} (f : Flight) (g ind : Vec3) (c : Fin N → Vec3) (γ : Fin N → ℝ)
    (a b : ℝ) (hV : f.V ≠ 0)
    (hsolve : ∑ j, influence (c j) (Real.arctan a) (Real.arctan b) * γ j
      = rhsNormal f g ind (planeNormal a b)) :
    Vec3.dot (totalVelocity f.V (onset f g ind) c γ) (planeNormal a b)
      = (1 - Real.sqrt (1 + a ^ 2) * Real.sqrt (1 + b ^ 2) / Real.sqrt (1 + a ^ 2 + b ^ 2))
        * Vec3.dot (onset f g ind) (planeNormal a b) := by
  have hr : f.V * rhsNormal f g ind (planeNormal a b)
      = Vec3.dot (onset f g ind) (planeNormal a b) := by
    unfold rhsNormal Vec3.dot
    field_simp
  obtain ⟨n, hn⟩ : ∃ n, n = planeNormal a b := ⟨_, rfl⟩
  simp only [influence_planeNormal] at hsolve
  rw [← hn] at hsolve hr ⊢
  have h1 : Real.sqrt (1 + a ^ 2) ≠ 0 := (Real.sqrt_pos.2 (by positivity)).ne'
  have h2 : Real.sqrt (1 + b ^ 2) ≠ 0 := (Real.sqrt_pos.2 (by positivity)).ne'
  have h3 : Real.sqrt (1 + a ^ 2 + b ^ 2) ≠ 0 := (Real.sqrt_pos.2 (by positivity)).ne'
  obtain ⟨k, hk⟩ : ∃ k, k = Real.sqrt (1 + a ^ 2 + b ^ 2)
      / (Real.sqrt (1 + a ^ 2) * Real.sqrt (1 + b ^ 2)) := ⟨_, rfl⟩
  rw [← hk] at hsolve
  have hk0 : k ≠ 0 := by rw [hk]; positivity
  have hkinv : Real.sqrt (1 + a ^ 2) * Real.sqrt (1 + b ^ 2) / Real.sqrt (1 + a ^ 2 + b ^ 2) = 1 / k := by
    rw [hk]; field_simp
  rw [hkinv]
  have hs : ∑ j, -k * Vec3.dot (c j) n * γ j = -k * ∑ j, γ j * Vec3.dot (c j) n := by
    rw [Finset.mul_sum]; apply Finset.sum_congr rfl; intro j _; ring
  rw [hs] at hsolve
  have hdot : ∑ j, γ j * Vec3.dot (c j) n
      = (∑ j, γ j * (c j).x) * n.x + (∑ j, γ j * (c j).y) * n.y + (∑ j, γ j * (c j).z) * n.z := by
    rw [Finset.sum_mul, Finset.sum_mul, Finset.sum_mul, ← Finset.sum_add_distrib,
      ← Finset.sum_add_distrib]
    apply Finset.sum_congr rfl; intro j _; unfold Vec3.dot; ring
  have hS : ∑ j, γ j * Vec3.dot (c j) n = -(1 / k) * rhsNormal f g ind n := by
    rw [← hsolve]; field_simp
  have htot : Vec3.dot (totalVelocity f.V (onset f g ind) c γ) n
      = Vec3.dot (onset f g ind) n + f.V * ∑ j, γ j * Vec3.dot (c j) n := by
    rw [hdot]; unfold totalVelocity Vec3.dot; ring
  rw [htot, hS, ← hr]
  ring

/-- **C196 (partial).** No air passes through a panel which is level along the flow or across it.
Missing: panels with both a slope along the flow and dihedral (see the counterexample). -/
theorem C196_tangential_partial {N : ℕ} (f : Flight) (g ind : Vec3) (c : Fin N → Vec3)
    (γ : Fin N → ℝ) (a b : ℝ) (hV : f.V ≠ 0) (hab : a = 0 ∨ b = 0)
    (hsolve : ∑ j, influence (c j) (Real.arctan a) (Real.arctan b) * γ j
      = rhsNormal f g ind (planeNormal a b)) :
    Vec3.dot (totalVelocity f.V (onset f g ind) c γ) (planeNormal a b) = 0 := by
  rw [C196_residual f g ind c γ a b hV hsolve]
  have h1 : Real.sqrt (1 + a ^ 2) ≠ 0 := (Real.sqrt_pos.2 (by positivity)).ne'
  have h2 : Real.sqrt (1 + b ^ 2) ≠ 0 := (Real.sqrt_pos.2 (by positivity)).ne'
  rcases hab with h | h
  · subst h
    norm_num
    left
    rw [div_self h2]; ring
  · subst h
    norm_num
    left
    rw [div_self h1]; ring

/-- A panel of slope 1 along the flow and 1 across it, with one vortex that induces a unit downwash:
the solved circulation leaves air passing through the panel. -/
theorem C196_tangential_counterexample :
    ∃ (f : Flight) (g ind : Vec3) (c : Fin 1 → Vec3) (γ : Fin 1 → ℝ), f.V = 1 ∧
      ∑ j, influence (c j) (Real.arctan 1) (Real.arctan 1) * γ j
        = rhsNormal f g ind (planeNormal 1 1) ∧
      Vec3.dot (totalVelocity f.V (onset f g ind) c γ) (planeNormal 1 1) ≠ 0 := by
  let f : Flight := ⟨1, 0, 0, 0, 0, 0⟩
  let c : Fin 1 → Vec3 := fun _ => ⟨0, 0, -1⟩
  have hinf : influence ⟨0, 0, -1⟩ (Real.arctan 1) (Real.arctan 1) = 1 / 2 := by
    unfold influence
    rw [Real.cos_arctan]
    have h2 : Real.sqrt (1 + 1 ^ 2) * Real.sqrt (1 + 1 ^ 2) = 2 := by
      rw [Real.mul_self_sqrt (by norm_num)]; norm_num
    have h0 : Real.sqrt (1 + (1:ℝ) ^ 2) ≠ 0 := (Real.sqrt_pos.2 (by norm_num)).ne'
    generalize Real.sqrt (1 + (1:ℝ) ^ 2) = r at *
    field_simp
    linarith
  have hs : ∑ j : Fin 1, influence (c j) (Real.arctan 1) (Real.arctan 1)
      * (2 * rhsNormal f ⟨0, 0, 0⟩ ⟨0, 0, 0⟩ (planeNormal 1 1))
      = rhsNormal f ⟨0, 0, 0⟩ ⟨0, 0, 0⟩ (planeNormal 1 1) := by
    rw [Fin.sum_univ_one]
    show influence ⟨0, 0, -1⟩ _ _ * _ = _
    rw [hinf]; ring
  refine ⟨f, ⟨0, 0, 0⟩, ⟨0, 0, 0⟩, c, fun _ => 2 * rhsNormal f ⟨0, 0, 0⟩ ⟨0, 0, 0⟩ (planeNormal 1 1),
    rfl, hs, ?_⟩
  rw [C196_residual f ⟨0, 0, 0⟩ ⟨0, 0, 0⟩ c _ 1 1 one_ne_zero hs]
  have hd : Vec3.dot (onset f ⟨0, 0, 0⟩ ⟨0, 0, 0⟩) (planeNormal 1 1)
      = -(1 / Real.sqrt (1 + 1 ^ 2 + 1 ^ 2)) := by
    unfold onset rotationVelocity planeNormal Vec3.dot Vec3.smul
    simp [f]
  rw [hd]
  have h3 : 0 < Real.sqrt (1 + (1:ℝ) ^ 2 + 1 ^ 2) := Real.sqrt_pos.2 (by norm_num)
  have h33 : Real.sqrt (1 + (1:ℝ) ^ 2 + 1 ^ 2) ^ 2 = 3 := by
    rw [Real.sq_sqrt (by norm_num)]; norm_num
  have h2 : Real.sqrt (1 + (1:ℝ) ^ 2) * Real.sqrt (1 + 1 ^ 2) = 2 := by
    rw [Real.mul_self_sqrt (by norm_num)]; norm_num
  rw [h2]
  generalize Real.sqrt (1 + (1:ℝ) ^ 2 + 1 ^ 2) = r at *
  apply mul_ne_zero
  · intro h
    have : r = 2 := by field_simp at h; linarith
    rw [this] at h33; norm_num at h33
  · have : 1 / r > 0 := by positivity
    linarith

/-- **C196.** The alternative right-hand side is minus the first one for an uncambered, untwisted
panel without slipstream. -/
theorem C196_vorlax_flat (f : Flight) (g : Vec3) (phi : ℝ) (hV : f.V ≠ 0) :
    aloc f g 0 phi = -rhsNormal f g ⟨0, 0, 0⟩ ⟨0, -Real.sin phi, Real.cos phi⟩ := by
  have hs : scntl 0 = 0 := by unfold scntl; simp
  have hc : ccntl 0 = 1 := by unfold ccntl; rw [hs]; simp
  unfold aloc rhsNormal onset rotationVelocity
  rw [hs, hc]
  field_simp
  ring

/-- The alternative right-hand side does not use a unit normal on an inclined panel: the two
components do not belong to one angle. -/
theorem C196_vorlax_counterexample : scntl 1 ^ 2 + ccntl 1 ^ 2 ≠ 1 := by
  have hs : scntl 1 ^ 2 = 1 / 2 := by
    unfold scntl; rw [div_pow, Real.sq_sqrt (by norm_num)]; norm_num
  have hc : ccntl 1 ^ 2 = 2 / 3 := by
    unfold ccntl; rw [hs, div_pow, Real.sq_sqrt (by norm_num)]; norm_num
  rw [hs, hc]; norm_num

/-- The components are consistent exactly for level panels. -/
theorem C196_vorlax_iff (slope : ℝ) : scntl slope ^ 2 + ccntl slope ^ 2 = 1 ↔ slope = 0 := by
  have hs : scntl slope ^ 2 = slope ^ 2 / (1 + slope ^ 2) := by
    unfold scntl; rw [div_pow, Real.sq_sqrt (by positivity)]
  have hc : ccntl slope ^ 2 = 1 / (1 + slope ^ 2 / (1 + slope ^ 2)) := by
    unfold ccntl; rw [hs, div_pow, Real.sq_sqrt (by positivity), one_pow]
  have hp : 0 < 1 + slope ^ 2 := by positivity
  have hq : 0 < 1 + slope ^ 2 + slope ^ 2 := by positivity
  rw [hs, hc]
  constructor
  · intro h
    have : slope ^ 2 * slope ^ 2 = 0 := by
      have e : 1 + slope ^ 2 / (1 + slope ^ 2) = (1 + slope ^ 2 + slope ^ 2) / (1 + slope ^ 2) := by
        field_simp
      rw [e] at h
      field_simp at h
      nlinarith
    have : slope ^ 2 = 0 := by simpa using this
    simpa using this
  · intro h; rw [h]; norm_num

/-- Specification.  The slipstream of all propellers and rotors of all networks. -/
def allSlipstreams (nets : List Net) : Vec3 :=
  sumVec (nets.flatMap fun n => n.props.getD [] ++ n.rotors.getD [])

theorem sumVec_append (a b : List Vec3) : sumVec (a ++ b) = sumVec a + sumVec b := by
  induction a with
  | nil => ext <;> simp [sumVec]
  | cons v vs ih =>
    simp only [List.cons_append, sumVec, ih]
    ext <;> simp <;> ring

/-- **C197 (partial).** With a single network every propeller and rotor slipstream reaches the wing;
without networks there is none.  Missing: vehicles with several networks. -/
theorem C197_slipstream_partial (nets : List Net) (h : nets.length ≤ 1) :
    slipstream true nets = allSlipstreams nets := by
  match nets, h with
  | [], _ => rfl
  | [⟨ps, rs⟩], _ =>
    unfold slipstream allSlipstreams
    simp only [if_true, List.flatMap_cons, List.flatMap_nil, List.append_nil, sumVec_append]
    cases ps <;> cases rs <;> rfl

/-- With two networks the slipstream of the second is lost. -/
theorem C197_networks_counterexample :
    slipstream true [⟨some [], none⟩, ⟨some [⟨5, 0, 0⟩], none⟩] ≠
      allSlipstreams [⟨some [], none⟩, ⟨some [⟨5, 0, 0⟩], none⟩] := by
  intro h
  have hx := congrArg Vec3.x h
  simp [slipstream, allSlipstreams, sumVec] at hx

/-- **C197.** What the wing sees is the slipstream of the first network, whatever follows; with the
wake model off it sees none. -/
theorem C197_first_only (n : Net) (rest : List Net) :
    slipstream true (n :: rest) = allSlipstreams [n] ∧
    slipstream false (n :: rest) = ⟨0, 0, 0⟩ := by
  refine ⟨?_, rfl⟩
  rw [← C197_slipstream_partial [n] (by simp)]
  rfl

/-- Three times the length of one vector of a unit triple is its squared norm. -/
theorem norm_sq (v : Vec3) : v.norm ^ 2 = v.x ^ 2 + v.y ^ 2 + v.z ^ 2 := by
  unfold Vec3.norm; exact Real.sq_sqrt (by positivity)

/-- **C198.** The panel normal is a unit vector, perpendicular to both edges of the panel from which it
is computed, and never points down; only a panel of zero extent has none. -/
theorem C198_unit_normal (a1 b1 a2 : Vec3) :
    (∀ u, unitNormal a1 b1 a2 = some u →
      u.norm = 1 ∧ Vec3.dot u (b1 - a1) = 0 ∧ Vec3.dot u (a2 - a1) = 0 ∧ 0 ≤ u.z) ∧
    (unitNormal a1 b1 a2 = none ↔ (Vec3.cross (b1 - a1) (a2 - a1)).norm = 0) := by
  constructor
  · intro u hu
    unfold unitNormal at hu
    simp only at hu
    split at hu
    · exact absurd hu (by simp)
    · rename_i hne
      simp only [Option.some.injEq] at hu
      have hpos : 0 < (panelCross a1 b1 a2).norm :=
        lt_of_le_of_ne (Real.sqrt_nonneg _) (Ne.symm hne)
      obtain ⟨w, hw⟩ : ∃ w, w = Vec3.smul (1 / (panelCross a1 b1 a2).norm) (panelCross a1 b1 a2) :=
        ⟨_, rfl⟩
      rw [← hw] at hu
      have hwn : w.x ^ 2 + w.y ^ 2 + w.z ^ 2 = 1 := by
        have hs := norm_sq (panelCross a1 b1 a2)
        rw [hw]; simp only [Vec3.smul]
        have : (1 / (panelCross a1 b1 a2).norm * (panelCross a1 b1 a2).x) ^ 2
            + (1 / (panelCross a1 b1 a2).norm * (panelCross a1 b1 a2).y) ^ 2
            + (1 / (panelCross a1 b1 a2).norm * (panelCross a1 b1 a2).z) ^ 2
            = ((panelCross a1 b1 a2).x ^ 2 + (panelCross a1 b1 a2).y ^ 2
              + (panelCross a1 b1 a2).z ^ 2) / (panelCross a1 b1 a2).norm ^ 2 := by
          field_simp
        rw [this, ← hs]
        exact div_self (by positivity)
      have hd1 : Vec3.dot w (b1 - a1) = 0 := by
        rw [hw]; unfold Vec3.dot Vec3.smul panelCross Vec3.cross; simp only; ring
      have hd2 : Vec3.dot w (a2 - a1) = 0 := by
        rw [hw]; unfold Vec3.dot Vec3.smul panelCross Vec3.cross; simp only; ring
      by_cases hz : w.z < 0
      · rw [if_pos hz] at hu
        subst hu
        refine ⟨?_, ?_, ?_, ?_⟩
        · unfold Vec3.norm
          simp only [Vec3.neg_x, Vec3.neg_y, Vec3.neg_z, neg_sq]
          rw [hwn, Real.sqrt_one]
        · unfold Vec3.dot at hd1 ⊢; simp only [Vec3.neg_x, Vec3.neg_y, Vec3.neg_z]; linarith
        · unfold Vec3.dot at hd2 ⊢; simp only [Vec3.neg_x, Vec3.neg_y, Vec3.neg_z]; linarith
        · simp only [Vec3.neg_z]; linarith
      · rw [if_neg hz] at hu
        subst hu
        refine ⟨?_, hd1, hd2, not_lt.1 hz⟩
        unfold Vec3.norm; rw [hwn, Real.sqrt_one]
  · unfold unitNormal panelCross
    simp only
    split
    · rename_i h; simp [h]
    · rename_i h; simp [h]

/-- The normal is the geometric upward normal of the plane in which the panel lies. -/
theorem C198_normal_of_plane (a b c0 : ℝ) (a1 b1 a2 : Vec3)
    (h1 : a1.z = a * a1.x + b * a1.y + c0) (h2 : b1.z = a * b1.x + b * b1.y + c0)
    (h3 : a2.z = a * a2.x + b * a2.y + c0) (u : Vec3) (hu : unitNormal a1 b1 a2 = some u) :
    u = planeNormal a b := by
  obtain ⟨hn, hd1, hd2, hz⟩ := (C198_unit_normal a1 b1 a2).1 u hu
  have hne : (panelCross a1 b1 a2).norm ≠ 0 := by
    intro h
    have := (C198_unit_normal a1 b1 a2).2.2 h
    rw [this] at hu; exact absurd hu (by simp)
  -- the cross product is a multiple of (-a, -b, 1)
  obtain ⟨m, hm⟩ : ∃ m, m = (b1.x - a1.x) * (a2.y - a1.y) - (b1.y - a1.y) * (a2.x - a1.x) := ⟨_, rfl⟩
  have hz1 : b1.z - a1.z = a * (b1.x - a1.x) + b * (b1.y - a1.y) := by rw [h1, h2]; ring
  have hz2 : a2.z - a1.z = a * (a2.x - a1.x) + b * (a2.y - a1.y) := by rw [h1, h3]; ring
  have hc : panelCross a1 b1 a2 = Vec3.smul m ⟨-a, -b, 1⟩ := by
    unfold panelCross Vec3.cross Vec3.smul
    simp only [Vec3.sub_x, Vec3.sub_y, Vec3.sub_z]
    rw [hz1, hz2, hm]
    ext <;> simp only <;> ring
  have hr : 0 < Real.sqrt (1 + a ^ 2 + b ^ 2) := Real.sqrt_pos.2 (by positivity)
  have hnorm : (panelCross a1 b1 a2).norm = |m| * Real.sqrt (1 + a ^ 2 + b ^ 2) := by
    rw [hc]; unfold Vec3.norm Vec3.smul
    simp only
    rw [show (m * -a) ^ 2 + (m * -b) ^ 2 + (m * 1) ^ 2 = m ^ 2 * (1 + a ^ 2 + b ^ 2) by ring,
      Real.sqrt_mul (sq_nonneg m), Real.sqrt_sq_eq_abs]
  have hm0 : m ≠ 0 := by
    intro h; apply hne; rw [hnorm, h]; simp
  unfold unitNormal at hu
  simp only at hu
  rw [if_neg hne, hnorm, hc] at hu
  simp only [Option.some.injEq] at hu
  have habs : |m| ≠ 0 := abs_ne_zero.2 hm0
  have hr' := hr.ne'
  rw [← hu]
  unfold planeNormal
  rcases lt_or_gt_of_ne hm0 with hneg | hpos
  · have hlt : (Vec3.smul (1 / (|m| * Real.sqrt (1 + a ^ 2 + b ^ 2))) (Vec3.smul m ⟨-a, -b, 1⟩)).z < 0 := by
      simp only [Vec3.smul]
      rw [mul_one]
      have : 0 < 1 / (|m| * Real.sqrt (1 + a ^ 2 + b ^ 2)) := by positivity
      exact mul_neg_of_pos_of_neg this hneg
    rw [if_pos hlt, abs_of_neg hneg]
    have hm' : -m ≠ 0 := neg_ne_zero.2 hm0
    ext
    · simp only [Vec3.neg_x, Vec3.smul]; field_simp
    · simp only [Vec3.neg_y, Vec3.smul]; field_simp
    · simp only [Vec3.neg_z, Vec3.smul]; field_simp
  · have hlt : ¬ (Vec3.smul (1 / (|m| * Real.sqrt (1 + a ^ 2 + b ^ 2))) (Vec3.smul m ⟨-a, -b, 1⟩)).z < 0 := by
      simp only [Vec3.smul]
      rw [mul_one, not_lt]
      positivity
    rw [if_neg hlt, abs_of_pos hpos]
    ext
    · simp only [Vec3.smul]; field_simp
    · simp only [Vec3.smul]; field_simp
    · simp only [Vec3.smul]; field_simp

/-- **C198.** A flat trapezoidal panel with edges along the flow of lengths `ca` and `cb`, a distance `h`
apart, has area `h (ca + cb) / 2`, wherever it is and however it is swept. -/
theorem C198_trapezoid_area (p : Vec3) (dx h ca cb : ℝ) (hh : 0 ≤ h) (hca : 0 ≤ ca) (hcb : 0 ≤ cb) :
    panelArea p (p + ⟨dx, h, 0⟩) (p + ⟨ca, 0, 0⟩) (p + ⟨dx + cb, h, 0⟩) = h * (ca + cb) / 2 := by
  have e1 : (Vec3.cross (p + ⟨dx, h, 0⟩ - p) (p + ⟨ca, 0, 0⟩ - p)).norm = h * ca := by
    unfold Vec3.norm Vec3.cross
    simp only [Vec3.add_x, Vec3.add_y, Vec3.add_z, Vec3.sub_x, Vec3.sub_y, Vec3.sub_z]
    rw [← Real.sqrt_sq (mul_nonneg hh hca)]
    congr 1; ring
  have e2 : (Vec3.cross (p + ⟨ca, 0, 0⟩ - (p + ⟨dx, h, 0⟩)) (p + ⟨dx + cb, h, 0⟩ - (p + ⟨dx, h, 0⟩))).norm
      = h * cb := by
    unfold Vec3.norm Vec3.cross
    simp only [Vec3.add_x, Vec3.add_y, Vec3.add_z, Vec3.sub_x, Vec3.sub_y, Vec3.sub_z]
    rw [← Real.sqrt_sq (mul_nonneg hh hcb)]
    congr 1; ring
  unfold panelArea
  rw [e1, e2]; ring

/-- A concrete panel: corners (0,0,0), (1,1,0), (2,0,0) has the vertical normal. -/
example : unitNormal ⟨0, 0, 0⟩ ⟨1, 1, 0⟩ ⟨2, 0, 0⟩ = some ⟨0, 0, 1⟩ := by
  have hc : panelCross ⟨0, 0, 0⟩ ⟨1, 1, 0⟩ ⟨2, 0, 0⟩ = ⟨0, 0, -2⟩ := by
    unfold panelCross Vec3.cross
    simp only [Vec3.sub_x, Vec3.sub_y, Vec3.sub_z]
    ext <;> norm_num
  have hn : (⟨0, 0, -2⟩ : Vec3).norm = 2 := by
    unfold Vec3.norm
    simp only
    rw [show (0:ℝ) ^ 2 + 0 ^ 2 + (-2) ^ 2 = 2 ^ 2 by norm_num]
    exact Real.sqrt_sq (by norm_num)
  unfold unitNormal
  simp only [hc, hn]
  rw [if_neg (two_ne_zero : (2:ℝ) ≠ 0)]
  simp only [Vec3.smul]
  norm_num
  ext <;> simp

end Verif.Vlm
