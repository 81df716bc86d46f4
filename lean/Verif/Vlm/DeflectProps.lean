import Verif.Vlm.Deflect
import Mathlib.Tactic

/-!
# Properties of control surface deflection (C203-C205)
-/

namespace Verif.Vlm

/-- Specification.  Rodrigues' formula: rotation by `th` about the line through `o` with unit direction
`d`, right-hand rule. -/
noncomputable def rodrigues (o d : Vec3) (th : ℝ) (p : Vec3) : Vec3 :=
  o + Vec3.smul (Real.cos th) (p - o) + Vec3.smul (Real.sin th) (Vec3.cross d (p - o))
    + Vec3.smul ((1 - Real.cos th) * Vec3.dot d (p - o)) d

/-- Specification.  A unit vector. -/
def IsUnit3 (d : Vec3) : Prop := d.x ^ 2 + d.y ^ 2 + d.z ^ 2 = 1

/-- **C203.** For a unit hinge vector the matrix is the rotation about the hinge line by the deflection
angle. -/
theorem C203_rodrigues (o d : Vec3) (th : ℝ) (p : Vec3) (hd : IsUnit3 d) :
    hingeRotate o d th p = rodrigues o d th p := by
  unfold IsUnit3 at hd
  unfold hingeRotate rodrigues Vec3.cross Vec3.dot Vec3.smul
  generalize Real.cos th = c
  generalize Real.sin th = s
  obtain ⟨u, v, w⟩ := d
  obtain ⟨a, b, e⟩ := o
  obtain ⟨x, y, z⟩ := p
  simp only at hd ⊢
  ext
  · simp only [Vec3.add_x, Vec3.sub_x, Vec3.sub_y, Vec3.sub_z]
    linear_combination (c * (x - a) + a) * hd
  · simp only [Vec3.add_y, Vec3.sub_x, Vec3.sub_y, Vec3.sub_z]
    linear_combination (c * (y - b) + b) * hd
  · simp only [Vec3.add_z, Vec3.sub_x, Vec3.sub_y, Vec3.sub_z]
    linear_combination (c * (z - e) + e) * hd

/-- Angles about one hinge line add. -/
theorem C203_add (o d : Vec3) (s t : ℝ) (p : Vec3) (hd : IsUnit3 d) :
    hingeRotate o d s (hingeRotate o d t p) = hingeRotate o d (s + t) p := by
  rw [C203_rodrigues o d t p hd, C203_rodrigues o d (s + t) p hd, C203_rodrigues o d s _ hd]
  unfold IsUnit3 at hd
  unfold rodrigues Vec3.cross Vec3.dot Vec3.smul
  rw [Real.cos_add, Real.sin_add]
  generalize Real.cos s = c1
  generalize Real.sin s = s1
  generalize Real.cos t = c2
  generalize Real.sin t = s2
  obtain ⟨u, v, w⟩ := d
  obtain ⟨a, b, e⟩ := o
  obtain ⟨x, y, z⟩ := p
  simp only at hd ⊢
  obtain ⟨X, hX⟩ : ∃ X, X = x - a := ⟨_, rfl⟩
  obtain ⟨Y, hY⟩ : ∃ Y, Y = y - b := ⟨_, rfl⟩
  obtain ⟨Z, hZ⟩ : ∃ Z, Z = z - e := ⟨_, rfl⟩
  ext
  · simp only [Vec3.add_x, Vec3.sub_x, Vec3.sub_y, Vec3.sub_z, Vec3.add_y, Vec3.add_z]
    rw [← hX, ← hY, ← hZ]
    linear_combination (-s1 * s2 * X + (1 - c1) * (1 - c2) * u * (u * X + v * Y + w * Z)) * hd
  · simp only [Vec3.add_x, Vec3.sub_x, Vec3.sub_y, Vec3.sub_z, Vec3.add_y, Vec3.add_z]
    rw [← hX, ← hY, ← hZ]
    linear_combination (-s1 * s2 * Y + (1 - c1) * (1 - c2) * v * (u * X + v * Y + w * Z)) * hd
  · simp only [Vec3.add_x, Vec3.sub_x, Vec3.sub_y, Vec3.sub_z, Vec3.add_y, Vec3.add_z]
    rw [← hX, ← hY, ← hZ]
    linear_combination (-s1 * s2 * Z + (1 - c1) * (1 - c2) * w * (u * X + v * Y + w * Z)) * hd

/-- **C203.** Deflection is rigid: distances between the points of the surface are unchanged. -/
theorem C203_rigid (o d : Vec3) (th : ℝ) (p q : Vec3) (hd : IsUnit3 d) :
    (hingeRotate o d th p - hingeRotate o d th q).norm = (p - q).norm := by
  rw [C203_rodrigues o d th p hd, C203_rodrigues o d th q hd]
  unfold IsUnit3 at hd
  unfold Vec3.norm rodrigues Vec3.cross Vec3.dot Vec3.smul
  have hcs := Real.sin_sq_add_cos_sq th
  generalize Real.cos th = c at *
  generalize Real.sin th = s at *
  obtain ⟨u, v, w⟩ := d
  obtain ⟨a, b, e⟩ := o
  obtain ⟨x, y, z⟩ := p
  obtain ⟨x', y', z'⟩ := q
  simp only at hd ⊢
  congr 1
  simp only [Vec3.add_x, Vec3.sub_x, Vec3.sub_y, Vec3.sub_z, Vec3.add_y, Vec3.add_z]
  obtain ⟨X, hX⟩ : ∃ X, X = x - x' := ⟨_, rfl⟩
  obtain ⟨Y, hY⟩ : ∃ Y, Y = y - y' := ⟨_, rfl⟩
  obtain ⟨Z, hZ⟩ : ∃ Z, Z = z - z' := ⟨_, rfl⟩
  obtain ⟨k, hk⟩ : ∃ k, k = u * X + v * Y + w * Z := ⟨_, rfl⟩
  have e1 : a + c * (x - a) + s * (v * (z - e) - w * (y - b))
        + (1 - c) * (u * (x - a) + v * (y - b) + w * (z - e)) * u
      - (a + c * (x' - a) + s * (v * (z' - e) - w * (y' - b))
        + (1 - c) * (u * (x' - a) + v * (y' - b) + w * (z' - e)) * u)
      = c * X + s * (v * Z - w * Y) + (1 - c) * k * u := by rw [hk, hX, hY, hZ]; ring
  have e2 : b + c * (y - b) + s * (w * (x - a) - u * (z - e))
        + (1 - c) * (u * (x - a) + v * (y - b) + w * (z - e)) * v
      - (b + c * (y' - b) + s * (w * (x' - a) - u * (z' - e))
        + (1 - c) * (u * (x' - a) + v * (y' - b) + w * (z' - e)) * v)
      = c * Y + s * (w * X - u * Z) + (1 - c) * k * v := by rw [hk, hX, hY, hZ]; ring
  have e3 : e + c * (z - e) + s * (u * (y - b) - v * (x - a))
        + (1 - c) * (u * (x - a) + v * (y - b) + w * (z - e)) * w
      - (e + c * (z' - e) + s * (u * (y' - b) - v * (x' - a))
        + (1 - c) * (u * (x' - a) + v * (y' - b) + w * (z' - e)) * w)
      = c * Z + s * (u * Y - v * X) + (1 - c) * k * w := by rw [hk, hX, hY, hZ]; ring
  rw [e1, e2, e3, ← hX, ← hY, ← hZ]
  have hcross : (v * Z - w * Y) ^ 2 + (w * X - u * Z) ^ 2 + (u * Y - v * X) ^ 2
      = X ^ 2 + Y ^ 2 + Z ^ 2 - k ^ 2 := by
    rw [hk]; linear_combination (X ^ 2 + Y ^ 2 + Z ^ 2) * hd
  have hs : s ^ 2 = 1 - c ^ 2 := by linarith
  calc _ = c ^ 2 * (X ^ 2 + Y ^ 2 + Z ^ 2)
        + s ^ 2 * ((v * Z - w * Y) ^ 2 + (w * X - u * Z) ^ 2 + (u * Y - v * X) ^ 2)
        + (1 - c) ^ 2 * k ^ 2 * (u ^ 2 + v ^ 2 + w ^ 2)
        + 2 * c * (1 - c) * k * (u * X + v * Y + w * Z) := by ring
    _ = _ := by rw [hcross, hd, ← hk, hs]; ring

/-- **C203.** Points on the hinge line do not move. -/
theorem C203_hinge_fixed (o d : Vec3) (th t : ℝ) (hd : IsUnit3 d) :
    hingeRotate o d th (o + Vec3.smul t d) = o + Vec3.smul t d := by
  rw [C203_rodrigues o d th _ hd]
  unfold IsUnit3 at hd
  unfold rodrigues Vec3.cross Vec3.dot Vec3.smul
  generalize Real.cos th = c
  generalize Real.sin th = s
  obtain ⟨u, v, w⟩ := d
  obtain ⟨a, b, e⟩ := o
  simp only at hd ⊢
  ext
  · simp only [Vec3.add_x, Vec3.sub_x, Vec3.sub_y, Vec3.sub_z, Vec3.add_y, Vec3.add_z]
    linear_combination ((1 - c) * t * u) * hd
  · simp only [Vec3.add_x, Vec3.sub_x, Vec3.sub_y, Vec3.sub_z, Vec3.add_y, Vec3.add_z]
    linear_combination ((1 - c) * t * v) * hd
  · simp only [Vec3.add_x, Vec3.sub_x, Vec3.sub_y, Vec3.sub_z, Vec3.add_y, Vec3.add_z]
    linear_combination ((1 - c) * t * w) * hd

/-- No rotation leaves everything in place. -/
theorem hingeRotate_zero (o d p : Vec3) (hd : IsUnit3 d) : hingeRotate o d 0 p = p := by
  rw [C203_rodrigues o d 0 p hd]
  unfold rodrigues Vec3.smul
  ext <;> simp [Real.cos_zero, Real.sin_zero]

/-- Rotations are affine: hinge points of a rotated strip are the rotated hinge points. -/
theorem hingePoint_rotate (o d : Vec3) (th f : ℝ) (p q : Vec3) :
    hingePoint f (hingeRotate o d th p) (hingeRotate o d th q)
      = hingeRotate o d th (hingePoint f p q) := by
  unfold hingePoint hingeRotate Vec3.smul
  ext
  · simp only [Vec3.add_x, Vec3.sub_x, Vec3.sub_y, Vec3.sub_z, Vec3.add_y, Vec3.add_z]; ring
  · simp only [Vec3.add_x, Vec3.sub_x, Vec3.sub_y, Vec3.sub_z, Vec3.add_y, Vec3.add_z]; ring
  · simp only [Vec3.add_x, Vec3.sub_x, Vec3.sub_y, Vec3.sub_z, Vec3.add_y, Vec3.add_z]; ring

theorem flip2_flip1 (vert : Bool) (inv : ℝ) (h : inv ^ 2 = 1) (p : Vec3) :
    flip2 vert inv (flip1 vert inv p) = p := by
  cases vert with
  | false => rfl
  | true =>
    unfold flip2 flip1
    ext
    · rfl
    · rfl
    · simp only [if_true]; linear_combination p.z * h

theorem flip1_flip2 (vert : Bool) (inv : ℝ) (h : inv ^ 2 = 1) (p : Vec3) :
    flip1 vert inv (flip2 vert inv p) = p := by
  cases vert with
  | false => rfl
  | true =>
    unfold flip2 flip1
    ext
    · rfl
    · simp only [if_true]; linear_combination p.y * h
    · rfl

theorem Side.map_map (f g : Vec3 → Vec3) (s : Side) : (s.map f).map g = s.map (fun p => g (f p)) := by
  unfold Side.map
  simp only [List.map_map]
  rfl

theorem Side.map_id' (f : Vec3 → Vec3) (h : ∀ p, f p = p) (s : Side) : s.map f = s := by
  unfold Side.map
  have : f = id := funext h
  subst this
  simp

/-- Specification.  The hinge line of the first strip has two distinct points. -/
def Hinged (w : Surface) (s : Side) : Prop :=
  hingePoint w.hingeFraction s.ibLE s.ibTE ≠ hingePoint w.hingeFraction s.obLE s.obTE

theorem unit_of_diff (v : Vec3) (h : v ≠ ⟨0, 0, 0⟩) : IsUnit3 (Vec3.smul (1 / v.norm) v) := by
  have hp : 0 < v.x ^ 2 + v.y ^ 2 + v.z ^ 2 := by
    by_contra hcon
    have hx : v.x ^ 2 = 0 := by nlinarith [sq_nonneg v.x, sq_nonneg v.y, sq_nonneg v.z]
    have hy : v.y ^ 2 = 0 := by nlinarith [sq_nonneg v.x, sq_nonneg v.y, sq_nonneg v.z]
    have hz : v.z ^ 2 = 0 := by nlinarith [sq_nonneg v.x, sq_nonneg v.y, sq_nonneg v.z]
    apply h
    ext
    · simpa using hx
    · simpa using hy
    · simpa using hz
  have hn : v.norm ^ 2 = v.x ^ 2 + v.y ^ 2 + v.z ^ 2 := by
    unfold Vec3.norm; exact Real.sq_sqrt hp.le
  have hn0 : 0 < v.norm := Real.sqrt_pos.2 hp
  unfold IsUnit3 Vec3.smul
  simp only
  rw [show (1 / v.norm * v.x) ^ 2 + (1 / v.norm * v.y) ^ 2 + (1 / v.norm * v.z) ^ 2
      = (v.x ^ 2 + v.y ^ 2 + v.z ^ 2) / v.norm ^ 2 by field_simp, ← hn]
  exact div_self (by positivity)

theorem sub_ne_zero' (a b : Vec3) (h : a ≠ b) : b - a ≠ ⟨0, 0, 0⟩ := by
  intro hc
  apply h
  have h1 := congrArg Vec3.x hc
  have h2 := congrArg Vec3.y hc
  have h3 := congrArg Vec3.z hc
  simp only [Vec3.sub_x, Vec3.sub_y, Vec3.sub_z] at h1 h2 h3
  ext <;> linarith

/-- For control surfaces the hinge vector is recomputed on every call and is the unit vector along the hinge line. -/
theorem hingeVector_cs (w : Surface) (stored : Vec3) (s : Side) (hcs : w.isCS = true ∨ w.constFraction = true) :
    hingeVector w stored s =
      Vec3.smul (1 / (hingePoint w.hingeFraction s.obLE s.obTE - hingePoint w.hingeFraction s.ibLE s.ibTE).norm)
        (hingePoint w.hingeFraction s.obLE s.obTE - hingePoint w.hingeFraction s.ibLE s.ibTE) := by
  have h1 : ¬ (w.isCS = false ∧ w.constFraction = false ∧ stored ≠ ⟨0, 0, 0⟩) := by
    rintro ⟨a, b, _⟩; rcases hcs with h | h
    · rw [h] at a; exact absurd a (by simp)
    · rw [h] at b; exact absurd b (by simp)
  have h2 : ¬ (w.isCS = false ∧ w.constFraction = false) := by
    rintro ⟨a, b⟩; rcases hcs with h | h
    · rw [h] at a; exact absurd a (by simp)
    · rw [h] at b; exact absurd b (by simp)
  unfold hingeVector
  rw [if_neg h1]
  unfold computedHinge
  simp only
  rw [if_neg h2]

/-- **C204.** Control surfaces remember no path: deflecting first to one angle and then by a further amount is the same
as deflecting by the sum in one step, for either side, for horizontal and vertical surfaces, flaps and slats. -/
theorem C204_path_independent (w : Surface) (st st' st'' : Vec3) (left : Bool) (d1 d2 : ℝ) (s : Side)
    (hcs : w.isCS = true ∨ w.constFraction = true) (hinv : w.inverted ^ 2 = 1)
    (hh : Hinged w (s.map (flip1 w.vertical w.inverted))) :
    (deflectSide w st' left d2 (deflectSide w st left d1 s).1).1
      = (deflectSide w st'' left (d1 + d2) s).1 := by
  obtain ⟨f, hf⟩ : ∃ f, f = s.map (flip1 w.vertical w.inverted) := ⟨_, rfl⟩
  rw [← hf] at hh
  obtain ⟨ib, hib⟩ : ∃ ib, ib = hingePoint w.hingeFraction f.ibLE f.ibTE := ⟨_, rfl⟩
  obtain ⟨ob, hob⟩ : ∃ ob, ob = hingePoint w.hingeFraction f.obLE f.obTE := ⟨_, rfl⟩
  obtain ⟨d, hd⟩ : ∃ d, d = Vec3.smul (1 / (ob - ib).norm) (ob - ib) := ⟨_, rfl⟩
  have hne : ib ≠ ob := by rw [hib, hob]; exact hh
  have hdu : IsUnit3 d := by rw [hd]; exact unit_of_diff _ (sub_ne_zero' _ _ hne)
  have hv : ∀ x, hingeVector w x f = d := by
    intro x; rw [hingeVector_cs w x f hcs, ← hib, ← hob, hd]
  have hdelta : deltaDeflection w left (d1 + d2) = deltaDeflection w left d2 + deltaDeflection w left d1 := by
    unfold deltaDeflection; ring
  obtain ⟨t1, ht1⟩ : ∃ t, t = deltaDeflection w left d1 := ⟨_, rfl⟩
  obtain ⟨t2, ht2⟩ : ∃ t, t = deltaDeflection w left d2 := ⟨_, rfl⟩
  -- first step
  have s1 : (deflectSide w st left d1 s).1
      = (f.map (hingeRotate ib d t1)).map (flip2 w.vertical w.inverted) := by
    unfold deflectSide
    simp only
    rw [← hf, hv st, ← hib, ← ht1]
  have s3 : (deflectSide w st'' left (d1 + d2) s).1
      = (f.map (hingeRotate ib d (t2 + t1))).map (flip2 w.vertical w.inverted) := by
    unfold deflectSide
    simp only
    rw [← hf, hv st'', ← hib, hdelta, ← ht1, ← ht2]
  rw [s1, s3]
  obtain ⟨g, hg⟩ : ∃ g, g = f.map (hingeRotate ib d t1) := ⟨_, rfl⟩
  rw [← hg]
  have hback : (g.map (flip2 w.vertical w.inverted)).map (flip1 w.vertical w.inverted) = g := by
    rw [Side.map_map]
    exact Side.map_id' _ (fun p => flip1_flip2 _ _ hinv p) g
  have hobline : ob = ib + Vec3.smul (ob - ib).norm d := by
    have hn0 : (ob - ib).norm ≠ 0 := by
      intro h0
      unfold IsUnit3 at hdu
      rw [hd, h0] at hdu
      simp [Vec3.smul] at hdu
    rw [hd]
    unfold Vec3.smul
    ext
    · simp only [Vec3.add_x, Vec3.sub_x]; field_simp; ring
    · simp only [Vec3.add_y, Vec3.sub_y]; field_simp; ring
    · simp only [Vec3.add_z, Vec3.sub_z]; field_simp; ring
  have hib0 : hingeRotate ib d t1 ib = ib := by
    have h0 := C203_hinge_fixed ib d t1 0 hdu
    have e : ib + Vec3.smul 0 d = ib := by ext <;> simp [Vec3.smul]
    rw [e] at h0; exact h0
  have hob0 : hingeRotate ib d t1 ob = ob := by
    have h0 := C203_hinge_fixed ib d t1 (ob - ib).norm hdu
    rw [← hobline] at h0; exact h0
  have gib : hingePoint w.hingeFraction g.ibLE g.ibTE = ib := by
    rw [hg]; show hingePoint _ (hingeRotate ib d t1 f.ibLE) (hingeRotate ib d t1 f.ibTE) = ib
    rw [hingePoint_rotate, ← hib, hib0]
  have gob : hingePoint w.hingeFraction g.obLE g.obTE = ob := by
    rw [hg]; show hingePoint _ (hingeRotate ib d t1 f.obLE) (hingeRotate ib d t1 f.obTE) = ob
    rw [hingePoint_rotate, ← hob, hob0]
  have hgv : hingeVector w st' g = d := by
    rw [hingeVector_cs w st' g hcs, gib, gob, hd]
  unfold deflectSide
  simp only
  rw [hback, hgv, gib, ← ht2, hg, Side.map_map (hingeRotate ib d t1) (hingeRotate ib d t2) f]
  have : (fun p => hingeRotate ib d t2 (hingeRotate ib d t1 p)) = hingeRotate ib d (t2 + t1) :=
    funext fun p => C203_add ib d t2 t1 p hdu
  rw [this]

/-- **C204.** Setting the deflection back restores every point. -/
theorem C204_restore (w : Surface) (st st' : Vec3) (left : Bool) (d1 : ℝ) (s : Side)
    (hcs : w.isCS = true ∨ w.constFraction = true) (hinv : w.inverted ^ 2 = 1)
    (hh : Hinged w (s.map (flip1 w.vertical w.inverted))) :
    (deflectSide w st' left (-d1) (deflectSide w st left d1 s).1).1 = s := by
  rw [C204_path_independent w st st' st left d1 (-d1) s hcs hinv hh]
  have hdu : IsUnit3 (hingeVector w st (s.map (flip1 w.vertical w.inverted))) := by
    rw [hingeVector_cs w st _ hcs]
    exact unit_of_diff _ (sub_ne_zero' _ _ hh)
  unfold deflectSide
  simp only
  have hz : deltaDeflection w left (d1 + -d1) = 0 := by unfold deltaDeflection; ring
  rw [hz, Side.map_id' (hingeRotate _ _ 0) (fun p => hingeRotate_zero _ _ p hdu), Side.map_map]
  exact Side.map_id' _ (fun p => flip2_flip1 _ _ hinv p) s

theorem mirror_norm (v : Vec3) : (Vec3.mirror v).norm = v.norm := by
  unfold Vec3.mirror Vec3.norm; simp only [neg_sq]

theorem mirror_hingePoint (f : ℝ) (p q : Vec3) :
    hingePoint f (Vec3.mirror p) (Vec3.mirror q) = Vec3.mirror (hingePoint f p q) := by
  unfold hingePoint Vec3.mirror Vec3.smul
  ext
  · simp
  · simp only [Vec3.add_y, Vec3.sub_y]; ring
  · simp

/-- Rotation about the mirrored hinge by the opposite angle is the mirror image of the rotation. -/
theorem mirror_rotate (o d : Vec3) (th : ℝ) (p : Vec3) :
    hingeRotate (Vec3.mirror o) (Vec3.mirror d) (-th) (Vec3.mirror p)
      = Vec3.mirror (hingeRotate o d th p) := by
  unfold hingeRotate Vec3.mirror
  simp only [Real.cos_neg, Real.sin_neg]
  ext
  · simp only; ring
  · simp only; ring
  · simp only; ring

/-- Specification.  The angle by which the left side is to move so as to mirror (`sign_duplicate = 1`, flaps) or
oppose (`-1`, ailerons) the right one. -/
noncomputable def leftTarget (w : Surface) (dd : ℝ) : ℝ := w.signDuplicate * dd

/-- **C204.** For horizontal control surfaces the left side moves as the mirror image of the right side deflected by
`sign_duplicate` times the angle: flaps and elevators symmetrically, ailerons oppositely. -/
theorem C204_symmetric (w : Surface) (st : Vec3) (last target : ℝ) (s : Side)
    (hcs : w.isCS = true ∨ w.constFraction = true) (hv : w.vertical = false) :
    (deflectBoth w st last target s (s.map Vec3.mirror)).2.1
      = ((deflectSide w st false (leftTarget w (target - last)) s).1).map Vec3.mirror := by
  have hflip1 : ∀ t : Side, t.map (flip1 w.vertical w.inverted) = t := by
    intro t; exact Side.map_id' _ (fun p => by unfold flip1; rw [hv]; rfl) t
  have hflip2 : ∀ t : Side, t.map (flip2 w.vertical w.inverted) = t := by
    intro t; exact Side.map_id' _ (fun p => by unfold flip2; rw [hv]; rfl) t
  unfold deflectBoth deflectSide
  simp only
  rw [hflip1, hflip1, hflip2, hflip2]
  rw [hingeVector_cs w _ (s.map Vec3.mirror) hcs, hingeVector_cs w st s hcs]
  have hi : hingePoint w.hingeFraction (s.map Vec3.mirror).ibLE (s.map Vec3.mirror).ibTE
      = Vec3.mirror (hingePoint w.hingeFraction s.ibLE s.ibTE) := mirror_hingePoint _ _ _
  have ho : hingePoint w.hingeFraction (s.map Vec3.mirror).obLE (s.map Vec3.mirror).obTE
      = Vec3.mirror (hingePoint w.hingeFraction s.obLE s.obTE) := mirror_hingePoint _ _ _
  rw [hi, ho]
  generalize hingePoint w.hingeFraction s.ibLE s.ibTE = ib
  generalize hingePoint w.hingeFraction s.obLE s.obTE = ob
  have hsub : Vec3.mirror ob - Vec3.mirror ib = Vec3.mirror (ob - ib) := by
    unfold Vec3.mirror; ext
    · rfl
    · simp only [Vec3.sub_y]; ring
    · rfl
  have hsm : ∀ (k : ℝ) (v : Vec3), Vec3.smul k (Vec3.mirror v) = Vec3.mirror (Vec3.smul k v) := by
    intro k v; unfold Vec3.smul Vec3.mirror; ext
    · rfl
    · simp only; ring
    · rfl
  rw [hsub, mirror_norm, hsm, Side.map_map, Side.map_map]
  have hang : deltaDeflection w true (target - last)
      = -deltaDeflection w false (leftTarget w (target - last)) := by
    unfold deltaDeflection leftTarget
    rw [hv]
    simp only [if_true, Bool.false_eq_true, if_false]
    ring
  rw [hang]
  congr 1
  funext p
  exact mirror_rotate _ _ _ _

/-- A straight tail section: leading edge at 0, trailing edge at 4, one unit of span. -/
def tailSide : Side := ⟨⟨0, 0, 0⟩, ⟨4, 0, 0⟩, ⟨0, 1, 0⟩, ⟨4, 1, 0⟩, []⟩

/-- The defaults of an all-moving surface: hinge at the quarter chord, symmetric deflection. -/
noncomputable def stabilator : Surface := ⟨false, false, 1 / 4, false, 1, false, 1⟩

theorem stabilator_hinge : hingeVector stabilator ⟨0, 0, 0⟩ tailSide = ⟨0, 1, 0⟩ := by
  unfold hingeVector computedHinge stabilator tailSide hingePoint
  simp only [ne_eq, not_true_eq_false, and_false, if_false, and_self, if_true]
  have hv : (⟨(⟨0, 0, 0⟩ + Vec3.smul (1 / 4) (⟨4, 0, 0⟩ - ⟨0, 0, 0⟩) : Vec3).x,
      (⟨0, 1, 0⟩ + Vec3.smul (1 / 4) (⟨4, 1, 0⟩ - ⟨0, 1, 0⟩) : Vec3).y,
      (⟨0, 1, 0⟩ + Vec3.smul (1 / 4) (⟨4, 1, 0⟩ - ⟨0, 1, 0⟩) : Vec3).z⟩
      - (⟨0, 0, 0⟩ + Vec3.smul (1 / 4) (⟨4, 0, 0⟩ - ⟨0, 0, 0⟩)) : Vec3) = ⟨0, 1, 0⟩ := by
    ext <;> simp [Vec3.smul]
  rw [hv]
  have hn : (⟨0, 1, 0⟩ : Vec3).norm = 1 := by unfold Vec3.norm; simp
  rw [hn]
  ext <;> simp [Vec3.smul]

/-- An all-moving tail with default attributes, deflected by 90 degrees: the trailing edge of the right half goes down
by the length aft of the hinge, the trailing edge of the left half goes **up** by the same amount, although the surface
is declared symmetric. -/
theorem C205_all_moving_counterexample :
    let r := deflectBoth stabilator ⟨0, 0, 0⟩ 0 (Real.pi / 2) tailSide (tailSide.map Vec3.mirror)
    r.1.ibTE.z = -3 ∧ r.2.1.ibTE.z = 3 ∧ r.2.1 ≠ r.1.map Vec3.mirror := by
  have hR : (deflectSide stabilator ⟨0, 0, 0⟩ false (Real.pi / 2 - 0) tailSide).2 = ⟨0, 1, 0⟩ := by
    unfold deflectSide
    simp only
    have e : tailSide.map (flip1 stabilator.vertical stabilator.inverted) = tailSide :=
      Side.map_id' _ (fun p => rfl) _
    rw [e, stabilator_hinge]
  have hz1 : (deflectSide stabilator ⟨0, 0, 0⟩ false (Real.pi / 2 - 0) tailSide).1.ibTE.z = -3 := by
    unfold deflectSide
    simp only
    have e : tailSide.map (flip1 stabilator.vertical stabilator.inverted) = tailSide :=
      Side.map_id' _ (fun p => rfl) _
    rw [e, stabilator_hinge]
    have ed : deltaDeflection stabilator false (Real.pi / 2 - 0) = Real.pi / 2 := by
      unfold deltaDeflection stabilator; simp
    rw [ed]
    show (flip2 false 1 (hingeRotate _ _ _ tailSide.ibTE)).z = -3
    unfold flip2 hingeRotate hingePoint tailSide stabilator Vec3.smul
    simp only [Real.cos_pi_div_two, Real.sin_pi_div_two, Bool.false_eq_true, if_false,
      Vec3.add_x, Vec3.sub_x, Vec3.add_y, Vec3.add_z, Vec3.sub_y, Vec3.sub_z]
    norm_num
  have hz2 : (deflectSide stabilator ⟨0, 1, 0⟩ true (Real.pi / 2 - 0) (tailSide.map Vec3.mirror)).1.ibTE.z = 3 := by
    unfold deflectSide
    simp only
    have e : (tailSide.map Vec3.mirror).map (flip1 stabilator.vertical stabilator.inverted)
        = tailSide.map Vec3.mirror := Side.map_id' _ (fun p => rfl) _
    rw [e]
    have hvv : hingeVector stabilator ⟨0, 1, 0⟩ (tailSide.map Vec3.mirror) = ⟨0, 1, 0⟩ := by
      unfold hingeVector stabilator
      have : (⟨0, 1, 0⟩ : Vec3) ≠ ⟨0, 0, 0⟩ := by
        intro h; have := congrArg Vec3.y h; simp at this
      simp [this]
    rw [hvv]
    have ed : deltaDeflection stabilator true (Real.pi / 2 - 0) = -(Real.pi / 2) := by
      unfold deltaDeflection stabilator; simp
    rw [ed]
    show (flip2 false 1 (hingeRotate _ _ _ (Vec3.mirror tailSide.ibTE))).z = 3
    unfold flip2 hingeRotate hingePoint tailSide stabilator Vec3.smul Vec3.mirror Side.map
    simp only [Real.cos_neg, Real.sin_neg, Real.cos_pi_div_two, Real.sin_pi_div_two, Bool.false_eq_true,
      if_false, Vec3.add_x, Vec3.sub_x, Vec3.add_y, Vec3.add_z, Vec3.sub_y, Vec3.sub_z]
    norm_num
  refine ⟨hz1, ?_, ?_⟩
  · unfold deflectBoth; simp only; rw [hR]; exact hz2
  · intro h
    have h1 : (deflectBoth stabilator ⟨0, 0, 0⟩ 0 (Real.pi / 2) tailSide (tailSide.map Vec3.mirror)).2.1.ibTE.z
        = 3 := by unfold deflectBoth; simp only; rw [hR]; exact hz2
    rw [h] at h1
    have h2 : ((deflectBoth stabilator ⟨0, 0, 0⟩ 0 (Real.pi / 2) tailSide (tailSide.map Vec3.mirror)).1.map
        Vec3.mirror).ibTE.z = -3 := hz1
    rw [h2] at h1; norm_num at h1

/-- A hinge vector given by the user is not normalised: with the vector `(0, 2, 0)` a surface is stretched even though
it is not deflected. -/
theorem C205_hinge_vector_counterexample :
    hingeRotate ⟨0, 0, 0⟩ ⟨0, 2, 0⟩ 0 ⟨0, 1, 0⟩ = ⟨0, 4, 0⟩ := by
  unfold hingeRotate
  ext <;> norm_num [Real.cos_zero, Real.sin_zero]

/-- **C205 (partial).** All-moving surfaces with a constant hinge fraction are restored when set back and their halves
move as mirror images when they are horizontal.  Missing: the default hinge perpendicular to the root chord and
user-defined hinge vectors. -/
theorem C205_all_moving_partial (w : Surface) (st st' : Vec3) (last target : ℝ) (s : Side)
    (hf : w.constFraction = true) (hv : w.vertical = false)
    (hsd : w.signDuplicate = 1) (hinv : w.inverted ^ 2 = 1) (hh : Hinged w s) :
    (deflectBoth w st last target s (s.map Vec3.mirror)).2.1
      = (deflectBoth w st last target s (s.map Vec3.mirror)).1.map Vec3.mirror ∧
    (deflectSide w st' false (last - target) (deflectBoth w st last target s (s.map Vec3.mirror)).1).1 = s := by
  constructor
  · rw [C204_symmetric w st last target s (Or.inr hf) hv]
    unfold leftTarget deflectBoth
    simp only
    rw [hsd, one_mul]
  · have e : last - target = -(target - last) := by ring
    rw [e]
    have hflip1 : s.map (flip1 w.vertical w.inverted) = s :=
      Side.map_id' _ (fun p => by unfold flip1; rw [hv]; rfl) s
    exact C204_restore w st st' false (target - last) s (Or.inr hf) hinv (by rw [hflip1]; exact hh)

/-- A vertical all-moving fin with default attributes. -/
noncomputable def fin : Surface := ⟨false, false, 1 / 4, true, 1, false, 1⟩

/-- A straight fin: chord 4, height 1. -/
def finSide : Side := ⟨⟨0, 0, 0⟩, ⟨4, 0, 0⟩, ⟨0, 0, 1⟩, ⟨4, 0, 1⟩, []⟩

/-- A vertical all-moving fin with the default hinge: the first deflection turns about its span axis, which is then
stored; the second call exchanges the stored `y` and `z` and turns about another axis. -/
theorem C205_vertical_counterexample (d1 d2 : ℝ) (s : Side) :
    (deflectSide fin ⟨0, 0, 0⟩ false d1 finSide).2 = ⟨0, 1, 0⟩ ∧
    (deflectSide fin (deflectSide fin ⟨0, 0, 0⟩ false d1 finSide).2 false d2 s).2 = ⟨0, 0, 1⟩ := by
  have h1 : (deflectSide fin ⟨0, 0, 0⟩ false d1 finSide).2 = ⟨0, 1, 0⟩ := by
    unfold deflectSide
    simp only
    have e : finSide.map (flip1 fin.vertical fin.inverted) = tailSide := by
      unfold Side.map finSide tailSide flip1 fin
      simp
    rw [e]
    have := stabilator_hinge
    unfold hingeVector computedHinge stabilator at this
    unfold hingeVector computedHinge fin
    simpa using this
  refine ⟨h1, ?_⟩
  rw [h1]
  unfold deflectSide hingeVector
  have : (⟨0, 1, 0⟩ : Vec3) ≠ ⟨0, 0, 0⟩ := by
    intro h; have := congrArg Vec3.y h; simp at this
  simp [this, fin]

example : Hinged ⟨true, false, 0, false, 1, false, 1⟩ tailSide := by
  unfold Hinged hingePoint tailSide
  intro h
  have := congrArg Vec3.y h
  simp [Vec3.smul] at this

end Verif.Vlm
