import Verif.Vsp.Bem
import Verif.Rotor.OrientationProps
import Mathlib.Tactic.Linarith
import Mathlib.Tactic.Positivity
import Mathlib.Tactic.FinCases
import Mathlib.Algebra.Order.Round

/-!
Properties of the blade element file of a propeller (C441).
-/

namespace Verif.Vsp

open Real

theorem pyRound_near (v : ℝ) : |(pyRound v : ℝ) - v| ≤ 1 / 2 := by
  unfold pyRound
  have hf := Int.self_sub_floor v
  split_ifs with h h2
  · rw [abs_le]; constructor <;> linarith
  · push_cast
    rw [abs_le]; constructor <;> linarith
  · rw [abs_sub_comm]; exact abs_sub_round v

theorem roundTo_near (d : ℕ) (x : ℝ) : |roundTo d x - x| ≤ 1 / (2 * 10 ^ d) := by
  have hp : (0 : ℝ) < 10 ^ d := by positivity
  have h := pyRound_near (x * 10 ^ d)
  have e : roundTo d x - x = ((pyRound (x * 10 ^ d) : ℝ) - x * 10 ^ d) / 10 ^ d := by
    unfold roundTo; field_simp
  rw [e, abs_div, abs_of_pos hp, div_le_div_iff₀ hp (by positivity)]
  nlinarith

theorem mapM_some_get {α β : Type} (f : α → Option β) (l : List α) (r : List β) (h : l.mapM f = some r) :
    r.length = l.length ∧ ∀ i (hi : i < l.length) (hr : i < r.length), f (l[i]) = some (r[i]) := by
  induction l generalizing r with
  | nil => simp at h; subst h; simp
  | cons a l ih =>
    rw [List.mapM_cons] at h
    cases hf : f a with
    | none => rw [hf] at h; simp at h
    | some b =>
      cases hm : l.mapM f with
      | none => rw [hf, hm] at h; simp at h
      | some r' =>
        rw [hf, hm] at h
        simp only [Option.pure_def, Option.bind_eq_bind, Option.bind_some, Option.some.injEq] at h
        subst h
        obtain ⟨h1, h2⟩ := ih r' hm
        refine ⟨by simp [h1], ?_⟩
        intro i hi hr
        cases i with
        | zero => simpa using hf
        | succ i => simpa using h2 i (by simpa using hi) (by simpa using hr)

/-- **C441, counts.** The number of sections announced in the header is that of the rows and that of the airfoils, which
are numbered from 0 on. -/
theorem C441_counts (p : BemProp) (f : BemFile) (h : writeBem p = some f) :
    f.header.sections = f.rows.length ∧ f.rows.length = f.airfoils.length ∧ f.header.blades = p.blades ∧
    ∀ i (hi : i < f.airfoils.length), (f.airfoils[i]).1 = i := by
  unfold writeBem at h
  cases ha : bemAirfoils p with
  | none => rw [ha] at h; simp at h
  | some a =>
    rw [ha] at h
    simp only [Option.bind_eq_bind, Option.bind_some, Option.some.injEq] at h
    subst h
    obtain ⟨h1, h2⟩ := mapM_some_get _ _ _ ha
    refine ⟨by simp [bemHeader], by simpa using h1.symm, rfl, ?_⟩
    intro i hi
    have := h2 i (by simpa [h1] using hi) hi
    simp only [List.getElem_range] at this
    cases hk : p.polar[i]? with
    | none => rw [hk] at this; simp at this
    | some k =>
      cases hb : p.airfoils[k]? with
      | none => rw [hk] at this; simp [hb] at this
      | some b =>
        cases hq : bemPoints b with
        | none => rw [hk] at this; simp [hb, hq] at this
        | some q =>
          rw [hk] at this
          simp only [Option.bind_eq_bind, Option.bind_some, hb, hq, Option.some.injEq] at this
          rw [← this]

/-- **C441, airfoils.** Station `i` gets the airfoil its polar station names, point by point to seven decimals. -/
theorem C441_airfoil (p : BemProp) (f : BemFile) (h : writeBem p = some f) (i : ℕ) (hi : i < p.stations.length) :
    ∃ k a b, p.polar[i]? = some k ∧ p.airfoils[k]? = some a ∧ f.airfoils[i]? = some b ∧ b.2.length = a.1.length ∧
      ∀ (j : ℕ) (hj : j < b.2.length), ∃ x y, a.1[j]? = some x ∧ a.2[j]? = some y ∧
        |(b.2[j]).1 - x| ≤ 1 / (2 * 10 ^ 7) ∧ |(b.2[j]).2 - y| ≤ 1 / (2 * 10 ^ 7) := by
  unfold writeBem at h
  cases ha : bemAirfoils p with
  | none => rw [ha] at h; simp at h
  | some r =>
    rw [ha] at h
    simp only [Option.bind_eq_bind, Option.bind_some, Option.some.injEq] at h
    subst h
    obtain ⟨h1, h2⟩ := mapM_some_get _ _ _ ha
    have hl : i < r.length := by rw [h1]; simpa using hi
    have := h2 i (by simpa using hi) hl
    simp only [List.getElem_range] at this
    cases hk : p.polar[i]? with
    | none => rw [hk] at this; simp at this
    | some k =>
      cases hb : p.airfoils[k]? with
      | none => rw [hk] at this; simp [hb] at this
      | some a =>
        cases hq : bemPoints a with
        | none => rw [hk] at this; simp [hb, hq] at this
        | some q =>
          rw [hk] at this
          simp only [Option.bind_eq_bind, Option.bind_some, hb, hq, Option.some.injEq] at this
          obtain ⟨g1, g2⟩ := mapM_some_get _ _ _ hq
          refine ⟨k, a, (i, q), rfl, hb, ?_, by simpa using g1, ?_⟩
          · simp only [List.getElem?_eq_getElem hl, this]
          · intro j hj
            have e := g2 j (by simpa [g1] using hj) hj
            simp only [List.getElem_range] at e
            cases hx : a.1[j]? with
            | none => rw [hx] at e; simp at e
            | some x =>
              cases hy : a.2[j]? with
              | none => rw [hx] at e; simp [hy] at e
              | some y =>
                rw [hx] at e
                simp only [Option.bind_eq_bind, Option.bind_some, hy, Option.some.injEq] at e
                refine ⟨x, y, rfl, rfl, ?_, ?_⟩
                · simp only [← e]; exact roundTo_near 7 x
                · simp only [← e]; exact roundTo_near 7 y

/-- Between two neighbouring entries `np.interp` is the straight line through them. -/
theorem npInterp_between (l : List (ℝ × ℝ)) (h : l.Pairwise fun p q => p.1 < q.1) (p q : ℝ × ℝ) (hi : [p, q] <:+: l) (x : ℝ)
    (h1 : p.1 ≤ x) (h2 : x ≤ q.1) :
    Num.npInterp l x = p.2 + (q.2 - p.2) / (q.1 - p.1) * (x - p.1) := by
  induction l with
  | nil => simp at hi
  | cons a l ih =>
    cases l with
    | nil =>
      exfalso
      obtain ⟨s, t, e⟩ := hi
      have := congrArg List.length e
      simp at this
      omega
    | cons b l =>
      have hab := (List.pairwise_cons.1 h).1 b (by simp)
      have ht := (List.pairwise_cons.1 h).2
      simp only [Num.npInterp]
      rcases List.infix_cons_iff.1 hi with hp | hp
      · obtain ⟨t, e⟩ := hp
        simp only [List.cons_append, List.nil_append, List.cons.injEq] at e
        obtain ⟨rfl, rfl, rfl⟩ := e
        split_ifs with g1 g2
        · have : x = p.1 := le_antisymm g1 h1
          subst this; ring
        · rfl
        · have : x = q.1 := le_antisymm h2 (not_lt.1 g2)
          subst this
          have hne : q.1 - p.1 ≠ 0 := by linarith
          have e2 : p.2 + (q.2 - p.2) / (q.1 - p.1) * (q.1 - p.1) = q.2 := by
            rw [div_mul_cancel₀ _ hne]; ring
          rw [e2]
          exact Num.npInterp_node _ ht q (by simp)
      · have hmem : p ∈ b :: l := hp.subset (by simp)
        have hpa : a.1 < p.1 := (List.pairwise_cons.1 h).1 p hmem
        have hbp : b.1 ≤ p.1 := by
          rcases List.mem_cons.1 hmem with rfl | hm
          · exact le_rfl
          · exact ((List.pairwise_cons.1 ht).1 p hm).le
        rw [if_neg (not_le.2 (hpa.trans_le h1)), if_neg (not_lt.2 (hbp.trans h1))]
        exact ih ht hp

/-- **C441, three quarters.** The twist announced in the header is, to half a unit of its fifth decimal, that on the line
between the stations around three quarters of the tip radius. -/
theorem C441_beta (p : BemProp) (f : BemFile) (h : writeBem p = some f)
    (hinc : p.stations.Pairwise fun s t => s.radius < t.radius) (s t : Station) (hi : [s, t] <:+: p.stations)
    (h1 : s.radius ≤ 3 / 4 * p.tip) (h2 : 3 / 4 * p.tip ≤ t.radius) :
    |f.header.beta34 * (π / 180) -
      (s.twist + (t.twist - s.twist) * ((3 / 4 * p.tip - s.radius) / (t.radius - s.radius)))| ≤
      1 / (2 * 10 ^ 5) * (π / 180) := by
  have hst : s.radius < t.radius := by
    have := hinc.sublist hi.sublist
    simpa using this
  have e : f.header.beta34 = bemBeta p := by
    unfold writeBem at h
    cases ha : bemAirfoils p with
    | none => rw [ha] at h; simp at h
    | some a =>
      rw [ha] at h
      simp only [Option.bind_eq_bind, Option.bind_some, Option.some.injEq] at h
      subst h
      rfl
  have hinfix : [(s.radius, roundTo 5 (s.twist / (π / 180))), (t.radius, roundTo 5 (t.twist / (π / 180)))] <:+:
      p.stations.map fun s => (s.radius, roundTo 5 (s.twist / (π / 180))) := by
    simpa using hi.map fun s : Station => (s.radius, roundTo 5 (s.twist / (π / 180)))
  have hb := npInterp_between _ (by rw [List.pairwise_map]; exact hinc) _ _ hinfix (p.tip * (3 / 4)) (by simpa using by linarith)
    (by simpa using by linarith)
  rw [e, bemBeta, hb]
  have r1 := abs_le.1 (roundTo_near 5 (s.twist / (π / 180)))
  have r2 := abs_le.1 (roundTo_near 5 (t.twist / (π / 180)))
  simp only
  have hd : (0 : ℝ) < t.radius - s.radius := by linarith
  generalize hw : (3 / 4 * p.tip - s.radius) / (t.radius - s.radius) = w
  have hw0 : 0 ≤ w := by rw [← hw]; exact div_nonneg (by linarith) hd.le
  have hw1 : w ≤ 1 := by rw [← hw, div_le_one hd]; linarith
  have hpi : (0 : ℝ) < π / 180 := by positivity
  generalize hu : s.twist / (π / 180) = u at *
  generalize hv : t.twist / (π / 180) = v at *
  have hs : s.twist = u * (π / 180) := by rw [← hu]; field_simp
  have ht' : t.twist = v * (π / 180) := by rw [← hv]; field_simp
  have e3 : (roundTo 5 v - roundTo 5 u) / (t.radius - s.radius) * (p.tip * (3 / 4) - s.radius) =
      (roundTo 5 v - roundTo 5 u) * w := by rw [← hw]; field_simp
  rw [e3, hs, ht']
  have e4 : (roundTo 5 u + (roundTo 5 v - roundTo 5 u) * w) * (π / 180) -
      (u * (π / 180) + (v * (π / 180) - u * (π / 180)) * w) =
      ((1 - w) * (roundTo 5 u - u) + w * (roundTo 5 v - v)) * (π / 180) := by ring
  rw [e4, abs_mul, abs_of_pos hpi]
  apply mul_le_mul_of_nonneg_right _ hpi.le
  rw [abs_le]
  have hw2 : 0 ≤ 1 - w := by linarith
  constructor
  · nlinarith [mul_le_mul_of_nonneg_left r1.1 hw2, mul_le_mul_of_nonneg_left r2.1 hw0]
  · nlinarith [mul_le_mul_of_nonneg_left r1.2 hw2, mul_le_mul_of_nonneg_left r2.2 hw0]

/-- The direction of the thrust in the axes of the geometry: first axis to the tail, third axis up, so the first and third
coordinate of the direction in body axes change sign. -/
noncomputable def thrustAxis (p : BemProp) : Fin 3 → ℝ :=
  let t := Rotor.thrustVector (Rotor.rotvec (Rotor.rotorAngles p.angles p.tilt)) 1
  ![-t 0, t 1, -t 2]

theorem bemNormal_eq (p : BemProp) : bemNormal p = ![thrustAxis p 0, -thrustAxis p 1, thrustAxis p 2] := by
  unfold bemNormal thrustAxis Rotor.thrustVector Rotor.bodyToRotor
  generalize Rotor.bodyToProp (Rotor.rotvec (Rotor.rotorAngles p.angles p.tilt)) = M
  ext i
  fin_cases i <;> simp [Matrix.mulVec, dotProduct, Fin.sum_univ_three]

/-- **C441, size and place.** Diameter, centre and normal are written to five decimals; the normal is the direction of the
thrust for a rotor whose thrust has no sideways part.  Missing: rotors that are toed in or out, see the counterexample. -/
theorem C441_disc_partial (p : BemProp) (f : BemFile) (h : writeBem p = some f) (hside : thrustAxis p 1 = 0) :
    |f.header.diameter - 2 * p.tip| ≤ 1 / (2 * 10 ^ 5) ∧ (∀ i, |f.header.centre i - p.origin i| ≤ 1 / (2 * 10 ^ 5)) ∧
    ∀ i, |f.header.normal i - thrustAxis p i| ≤ 1 / (2 * 10 ^ 5) := by
  unfold writeBem at h
  cases ha : bemAirfoils p with
  | none => rw [ha] at h; simp at h
  | some a =>
    rw [ha] at h
    simp only [Option.bind_eq_bind, Option.bind_some, Option.some.injEq] at h
    subst h
    refine ⟨?_, fun i => roundTo_near 5 _, fun i => ?_⟩
    · rw [mul_comm 2 p.tip]; exact roundTo_near 5 _
    · have e : thrustAxis p i = bemNormal p i := by
        rw [bemNormal_eq]
        fin_cases i <;> simp [hside]
      rw [e]
      exact roundTo_near 5 _

/-- **C441, tilt.** A rotor turned about the lateral axis only has no sideways thrust: the theorem above applies to every
propeller, lift rotor and tilted rotor of that kind. -/
theorem C441_tilted (p : BemProp) (h0 : p.angles 0 = 0) (h2 : p.angles 2 = 0) :
    thrustAxis p = ![-cos (p.angles 1 + p.tilt), 0, sin (p.angles 1 + p.tilt)] := by
  have e : Rotor.rotorAngles p.angles p.tilt = ![0, p.angles 1 + p.tilt, 0] := by
    ext i; fin_cases i <;> simp [Rotor.rotorAngles, h0, h2]
  unfold thrustAxis
  rw [e, (Rotor.C416_single_axis _).2.1]
  simp only [Rotor.thrustVector, Rotor.bodyToProp, Rotor.rotY, Rotor.aboutY, Matrix.transpose_transpose]
  ext i
  fin_cases i <;> simp [Matrix.mulVec, Matrix.mul_apply, dotProduct, Fin.sum_univ_three]

/-- **C441**, refuted: a rotor toed by `a` is written toed by `-a`. -/
theorem C441_toe_counterexample (p : BemProp) (a : ℝ) (ha : p.angles = ![0, 0, a]) (ht : p.tilt = 0) :
    thrustAxis p = ![-cos a, -sin a, 0] ∧ bemNormal p = ![-cos a, sin a, 0] := by
  have e : Rotor.rotorAngles p.angles p.tilt = ![0, 0, a] := by
    ext i; fin_cases i <;> simp [Rotor.rotorAngles, ha, ht]
  have hta : thrustAxis p = ![-cos a, -sin a, 0] := by
    unfold thrustAxis
    rw [e, (Rotor.C416_single_axis _).2.2]
    simp only [Rotor.thrustVector, Rotor.bodyToProp, Rotor.rotY, Rotor.aboutZ, Matrix.transpose_transpose]
    ext i
    fin_cases i <;> simp [Matrix.mulVec, Matrix.mul_apply, dotProduct, Fin.sum_univ_three]
  refine ⟨hta, ?_⟩
  rw [bemNormal_eq, hta]
  simp

/-- A blade of two stations with one airfoil of two points: the file is written. -/
example : (writeBem { stations := [⟨1 / 2, 1 / 10, 1, 0, 1 / 10, 1 / 100⟩, ⟨1, 1 / 10, 1 / 2, 0, 1 / 10, 1 / 100⟩], tip := 1
                      blades := 3, origin := ![0, 0, 0], angles := ![0, 0, 0], tilt := 0
                      airfoils := [([0, 1], [0, 0])], polar := [0, 0] }).isSome := by
  simp [writeBem, bemAirfoils, bemPoints, List.range_succ]

end Verif.Vsp
