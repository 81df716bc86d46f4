import Verif.Energy.Sun
import Verif.Energy.ElectricProps
import Mathlib.Data.Real.Sign

/-! Properties C114-C116: solar radiation. -/

namespace Verif.Sun
open Real

/-- The spherical law of cosines stays within range. -/
theorem cosZ_range (p : Place) : -1 ≤ p.cosZ ∧ p.cosZ ≤ 1 := by
  unfold Place.cosZ
  generalize decl p.day = d
  generalize p.lat * π / 180 = l
  have h1 := sin_sq_add_cos_sq d
  have h2 := sin_sq_add_cos_sq l
  have h3 := cos_le_one p.hra
  have h4 := neg_one_le_cos p.hra
  generalize cos p.hra = c at *
  generalize sin d = a at *
  generalize cos d = b at *
  generalize sin l = e at *
  generalize cos l = f at *
  have key : (a * e + b * f * c) ^ 2 ≤ 1 := by
    have hc : c ^ 2 ≤ 1 := by nlinarith
    have : (a * e + b * f * c) ^ 2 ≤ (a ^ 2 + b ^ 2) * (e ^ 2 + f ^ 2 * c ^ 2) := by nlinarith [sq_nonneg (a * (f * c) - b * e)]
    rw [h1] at this
    nlinarith [sq_nonneg f, mul_le_mul_of_nonneg_left hc (sq_nonneg f)]
  exact abs_le.1 ((sq_le_one_iff_abs_le_one _).1 key)

theorem cos_zenith (p : Place) : cos p.zenith = p.cosZ := cos_arccos (cosZ_range p).1 (cosZ_range p).2

theorem direct_pos (alt z : ℝ) : 0 < direct alt z := by
  unfold direct
  split_ifs
  · norm_num
  · positivity

/-- With the sun off the horizon, the intensity on the panel is the direct intensity times the cosine of the
angle of incidence. -/
theorem raw_eq (p : Place) (h : p.cosZ ≠ 0) : p.raw = direct p.alt p.zenith * cos p.incidence := by
  have e : cos (p.lat * π / 180) * cos (decl p.day) * cos p.hra + sin (p.lat * π / 180) * sin (decl p.day) = p.cosZ := by
    unfold Place.cosZ; ring
  simp only [Place.raw]
  rw [e, cos_zenith]
  field_simp

theorem airMass_nonneg (alt z : ℝ) (h : -9000 ≤ alt) : 0 ≤ airMass alt z := by
  unfold airMass
  dsimp only
  split_ifs with hlt
  · have hc : alt / 9000 < 1 := by rw [div_lt_one (by norm_num)]; exact hlt
    have hc' : -1 ≤ alt / 9000 := by rw [le_div_iff₀ (by norm_num)]; linarith
    have hr : 0 < rAtm := by norm_num [rAtm]
    generalize alt / 9000 = c at *
    generalize rAtm = r at *
    rw [show (0.5 : ℝ) = 1 / 2 by norm_num, ← sqrt_eq_rpow, sub_nonneg]
    apply le_sqrt_of_sq_le
    nlinarith [mul_pos hr (show 0 < 1 - c by linarith), mul_nonneg (show 0 ≤ 1 - c by linarith) (show 0 ≤ 1 + c by linarith)]
  · exact le_rfl

theorem direct_le (alt z : ℝ) (h : -9000 ≤ alt) : direct alt z ≤ 1367 := by
  unfold direct
  split_ifs
  · exact le_rfl
  · have : (0.7 : ℝ) ^ (airMass alt z ^ (0.678 : ℝ)) ≤ 1 :=
      rpow_le_one (by norm_num) (by norm_num) (rpow_nonneg (airMass_nonneg alt z h) _)
    nlinarith

/-! ## C114: what reaches the panel -/

/-- The flux is never negative and never above the solar constant. -/
theorem C114_range (p : Place) (h : p.cosZ ≠ 0) (ha : -9000 ≤ p.alt) : 0 ≤ p.flux ∧ p.flux ≤ 1367 := by
  refine ⟨le_max_left _ _, max_le (by norm_num) ?_⟩
  split_ifs
  · norm_num
  · rw [raw_eq p h]
    have h1 := direct_le p.alt p.zenith ha
    have h2 := direct_pos p.alt p.zenith
    nlinarith [cos_le_one p.incidence]

theorem neg_half (p : Place) : ¬ p.zenith < -π / 2 := by
  have := arccos_nonneg p.cosZ
  have h := pi_pos
  unfold Place.zenith
  intro hc
  linarith

/-- Level flight: the panel faces the zenith, so the flux is the direct intensity times the sine of the sun's
elevation, nothing at night, whatever the heading. -/
theorem C114_level (p : Place) (h : p.cosZ ≠ 0) (h1 : p.φ = 0) (h2 : p.θ = 0) :
    p.flux = direct p.alt p.zenith * max 0 p.cosZ := by
  have ht : p.tilt = 0 := by unfold Place.tilt; rw [h1, h2]; simp
  have hi : cos p.incidence = p.cosZ := by
    unfold Place.incidence
    rw [ht, cos_zenith]
    simp only [cos_zero, mul_one, sin_zero, mul_zero, zero_mul, add_zero]
    exact cos_arccos (cosZ_range p).1 (cosZ_range p).2
  have hd := direct_pos p.alt p.zenith
  unfold Place.flux
  rw [raw_eq p h, hi]
  split_ifs with hc
  · have hz : π / 2 < p.zenith := by
      rcases hc with hc | hc
      · exact absurd hc (neg_half p)
      · have := pi_pos; linarith
    have : p.cosZ < 0 := by
      rw [← cos_zenith]
      apply cos_neg_of_pi_div_two_lt_of_lt hz
      have := arccos_le_pi p.cosZ
      have h3 := pi_pos
      unfold Place.zenith
      linarith
    rw [max_eq_left this.le]; simp
  · rcases le_total 0 p.cosZ with hp | hp
    · rw [max_eq_right hp, max_eq_right (mul_nonneg hd.le hp)]
    · rw [max_eq_left hp, max_eq_left (mul_nonpos_of_nonneg_of_nonpos hd.le hp)]; simp

/-- Any attitude: the direct intensity on the panel's side facing the sun, and nothing once the sun is far
below the horizon. -/
theorem C114_attitude (p : Place) (h : p.cosZ ≠ 0) :
    p.flux = if 96.70995 * π / 180 < p.zenith then 0 else direct p.alt p.zenith * max 0 (cos p.incidence) := by
  have hd := direct_pos p.alt p.zenith
  unfold Place.flux
  rw [raw_eq p h]
  simp only [neg_half p, false_or]
  split_ifs
  · simp
  · rcases le_total 0 (cos p.incidence) with hp | hp
    · rw [max_eq_right hp, max_eq_right (mul_nonneg hd.le hp)]
    · rw [max_eq_left hp, max_eq_left (mul_nonpos_of_nonneg_of_nonpos hd.le hp)]; simp

/-- The tilt of the panel is that of the body's vertical: the angle with the zenith after pitch and roll. -/
theorem C114_tilt (p : Place) : cos p.tilt = cos p.θ * cos p.φ := by
  unfold Place.tilt
  have h1 := cos_le_one p.θ
  have h2 := neg_one_le_cos p.θ
  have h3 := cos_le_one p.φ
  have h4 := neg_one_le_cos p.φ
  apply cos_arccos <;> nlinarith

/-- Above 9000 m nothing is absorbed. -/
theorem C114_high (alt z : ℝ) (h : 9000 < alt) : direct alt z = 1367 := by unfold direct; rw [if_pos h]

/-! ## C115: path through the atmosphere -/

/-- In units of 9000 m, the path `L` from radius `a` to the top of the atmosphere at radius `b`, leaving under
zenith angle `z`: law of cosines. -/
def Path (a b L cosz : ℝ) : Prop := 0 ≤ L ∧ a ^ 2 + L ^ 2 + 2 * a * L * cosz = b ^ 2

theorem airMass_arg (alt z : ℝ) (h0 : -9000 ≤ alt) (h1 : alt < 9000) :
    0 ≤ (rAtm + alt / 9000) * (rAtm + alt / 9000) * (cos z * cos z) + 2 * rAtm * (1 - alt / 9000) - alt / 9000 * (alt / 9000) + 1 := by
  have hc : alt / 9000 < 1 := by rw [div_lt_one (by norm_num)]; exact h1
  have hc' : -1 ≤ alt / 9000 := by rw [le_div_iff₀ (by norm_num)]; linarith
  have hr : 0 < rAtm := by norm_num [rAtm]
  generalize alt / 9000 = c at *
  generalize rAtm = r at *
  generalize cos z = x
  nlinarith [mul_pos hr (show 0 < 1 - c by linarith), mul_nonneg (show 0 ≤ 1 - c by linarith) (show 0 ≤ 1 + c by linarith), sq_nonneg ((r + c) * x)]

/-- The air mass is the length of the sun's ray through a spherical atmosphere 9000 m high, on a planet of a
thousand times the radius used. -/
theorem C115_path_partial (alt z : ℝ) (h0 : -9000 ≤ alt) (h1 : alt < 9000) :
    Path (1000 * 6371000 + alt) (1000 * 6371000 + 9000) (9000 * airMass alt z) (cos z) := by
  refine ⟨mul_nonneg (by norm_num) (airMass_nonneg alt z h0), ?_⟩
  have harg := airMass_arg alt z h0 h1
  have hs := Verif.Electric.rpow_half_sq harg
  have e : airMass alt z + (rAtm + alt / 9000) * cos z = ((rAtm + alt / 9000) * (rAtm + alt / 9000) * (cos z * cos z)
      + 2 * rAtm * (1 - alt / 9000) - alt / 9000 * (alt / 9000) + 1) ^ (0.5 : ℝ) := by
    simp only [airMass, if_pos h1]; ring
  rw [← e] at hs
  have hr : (1000 * 6371000 : ℝ) = 9000 * rAtm := by norm_num [rAtm]
  rw [hr]
  have ha : alt = 9000 * (alt / 9000) := by field_simp
  generalize airMass alt z = A at *
  generalize alt / 9000 = c at *
  rw [ha]
  linear_combination (9000 : ℝ) ^ 2 * hs

/-- On the planet whose radius is given it is not: the radius in metres is divided by nine kilometres. -/
theorem C115_radius_counterexample :
    ¬ ∀ alt z : ℝ, 0 ≤ alt → alt < 9000 → Path (6371000 + alt) (6371000 + 9000) (9000 * airMass alt z) (cos z) := by
  intro h
  have h1 := (h 0 (π / 2) le_rfl (by norm_num)).2
  have h2 := (C115_path_partial 0 (π / 2) (by norm_num) (by norm_num)).2
  rw [cos_pi_div_two] at h1 h2
  norm_num at h1 h2
  linarith

/-- Higher up there is less air above, so by day the sun is never weaker. -/
theorem C115_altitude (a b z : ℝ) (h0 : 0 ≤ a) (hab : a ≤ b) (hz : 0 ≤ cos z) : direct a z ≤ direct b z := by
  have hb := direct_le a z (by linarith)
  by_cases hb9 : 9000 < b
  · rw [C114_high b z hb9]; exact hb
  · push Not at hb9
    unfold direct
    rw [if_neg (by linarith), if_neg (by linarith)]
    apply mul_le_mul_of_nonneg_left _ (by norm_num)
    apply rpow_le_rpow_of_exponent_ge (by norm_num) (by norm_num)
    apply rpow_le_rpow (airMass_nonneg b z (by linarith)) _ (by norm_num)
    rcases hb9.lt_or_eq with hlt | heq
    · have pa := C115_path_partial a z (by linarith) (by linarith)
      have pb := C115_path_partial b z (by linarith) hlt
      obtain ⟨na, ea⟩ := pa
      obtain ⟨nb, eb⟩ := pb
      by_contra hc
      push Not at hc
      generalize airMass a z = x at *
      generalize airMass b z = y at *
      have h1 : (1000 * 6371000 + a) ^ 2 ≤ (1000 * 6371000 + b) ^ 2 := by nlinarith
      have h2 : (9000 * x) ^ 2 < (9000 * y) ^ 2 := by nlinarith
      have h3 : (1000 * 6371000 + a) * (9000 * x) ≤ (1000 * 6371000 + b) * (9000 * y) := by
        apply mul_le_mul <;> linarith
      nlinarith [mul_le_mul_of_nonneg_right h3 hz]
    · have : airMass b z = 0 := by simp only [airMass]; rw [if_neg (by linarith)]
      rw [this]
      exact airMass_nonneg a z (by linarith)

example : direct 10000 0 = 1367 := C114_high _ _ (by norm_num)
example : 0 ≤ airMass 0 (π / 2) := airMass_nonneg _ _ (by norm_num)

/-! ## C116: the sun depends on the instant and the place -/

theorem flux_congr {p q : Place} (hd : q.day = p.day) (hh : q.hra = p.hra) (h1 : q.lat = p.lat) (h2 : q.φ = p.φ)
    (h3 : q.θ = p.θ) (h4 : q.ψ = p.ψ) (h5 : q.alt = p.alt) : q.flux = p.flux := by
  have hz : q.cosZ = p.cosZ := by simp only [Place.cosZ, hd, hh, h1]
  have hz' : q.zenith = p.zenith := by simp only [Place.zenith, hz]
  have ha : q.azimuth = p.azimuth := by simp only [Place.azimuth, hz', hh, hd, h1]
  have ht : q.tilt = p.tilt := by simp only [Place.tilt, h2, h3]
  have hi : q.incidence = p.incidence := by simp only [Place.incidence, hz', ha, ht, h4]
  have hr : q.raw = p.raw := by simp only [Place.raw, hz', hh, hd, h1, h5, hi]
  unfold Place.flux
  rw [hz', hr]

theorem floor_add_day (t : ℝ) (k : ℤ) : ⌊(t + k * 86400) / (24 * 60 * 60)⌋ = ⌊t / (24 * 60 * 60)⌋ + k := by
  have : (t + k * 86400) / (24 * 60 * 60) = t / (24 * 60 * 60) + k := by field_simp; ring
  rw [this, Int.floor_add_intCast]

/-- Whole days of mission time are days of the calendar. -/
theorem C116_days (p : Place) (k : ℤ) :
    Place.flux { p with time := p.time + k * 86400 } = Place.flux { p with yday := p.yday + k } := by
  have hd : Place.day { p with time := p.time + k * 86400 } = Place.day { p with yday := p.yday + k } := by
    simp only [Place.day, floor_add_day]; push_cast; ring
  have ht : Place.tutc { p with time := p.time + k * 86400 } = Place.tutc { p with yday := p.yday + k } := by
    simp only [Place.tutc, floor_add_day]; push_cast; ring
  have hl : Place.lst { p with time := p.time + k * 86400 } = Place.lst { p with yday := p.yday + k } := by
    simp only [Place.lst, hd, ht]
  have hh : Place.hra { p with time := p.time + k * 86400 } = Place.hra { p with yday := p.yday + k } := by
    simp only [Place.hra, hl]
  exact flux_congr hd hh rfl rfl rfl rfl rfl

/-- Fifteen degrees east the sun stands as it will here an hour later in the same day. -/
theorem C116_hour (p : Place) (h : 0 ≤ p.time) (h1 : p.time + 3600 < 86400) :
    Place.flux { p with lon := p.lon + 15 } = Place.flux { p with time := p.time + 3600 } := by
  have f0 : ⌊p.time / (24 * 60 * 60)⌋ = 0 := by
    rw [Int.floor_eq_zero_iff]
    exact ⟨by positivity, by rw [div_lt_one (by norm_num)]; linarith⟩
  have f1 : ⌊(p.time + 3600) / (24 * 60 * 60)⌋ = 0 := by
    rw [Int.floor_eq_zero_iff]
    exact ⟨by positivity, by rw [div_lt_one (by norm_num)]; linarith⟩
  have hd : Place.day { p with lon := p.lon + 15 } = Place.day { p with time := p.time + 3600 } := by
    simp only [Place.day, f0, f1]
  have hl : Place.lst { p with lon := p.lon + 15 } = Place.lst { p with time := p.time + 3600 } := by
    simp only [Place.lst, hd, Place.tutc, f0, f1]; push_cast; ring
  have hh : Place.hra { p with lon := p.lon + 15 } = Place.hra { p with time := p.time + 3600 } := by
    simp only [Place.hra, hl]
  exact flux_congr hd hh rfl rfl rfl rfl rfl

theorem hra_turn (p : Place) : Place.hra { p with lon := p.lon + 360 } = p.hra + 2 * π := by
  have : Place.day { p with lon := p.lon + 360 } = p.day := rfl
  have ht : Place.tutc { p with lon := p.lon + 360 } = p.tutc := rfl
  simp only [Place.hra, Place.lst, this, ht]
  ring

theorem cosZ_turn (p : Place) : Place.cosZ { p with lon := p.lon + 360 } = p.cosZ := by
  have hd : Place.day { p with lon := p.lon + 360 } = p.day := rfl
  simp only [Place.cosZ, hd, hra_turn, cos_add_two_pi]

/-- In level flight a longitude may be given in any turn. -/
theorem C116_turn_partial (p : Place) (h : p.cosZ ≠ 0) (h1 : p.φ = 0) (h2 : p.θ = 0) :
    Place.flux { p with lon := p.lon + 360 } = p.flux := by
  have hz := cosZ_turn p
  have h3 := C114_level { p with lon := p.lon + 360 } (by rw [hz]; exact h) h1 h2
  rw [C114_level p h h1 h2, h3, hz]
  simp only [Place.zenith, hz]

/-- At the north pole in early spring, level at 10 km. -/
noncomputable def polar (yday sec time : ℝ) : Place := ⟨yday, sec, time, 90, 0, 0, 0, 0, 10000⟩

theorem polar_cosZ (yday sec time : ℝ) : (polar yday sec time).cosZ = sin (decl (polar yday sec time).day) := by
  have : (polar yday sec time).lat * π / 180 = π / 2 := by simp only [polar]; ring
  simp only [Place.cosZ, this, cos_pi_div_two, sin_pi_div_two]
  ring

theorem decl_pos_lt : 0 < sin (decl 100) ∧ sin (decl 100) < sin (decl 101) := by
  have hp := pi_pos
  have hc : cos ((360 / 365) * (101 + 10) * π / 180) < cos ((360 / 365) * (100 + 10) * π / 180) := by
    apply cos_lt_cos_of_nonneg_of_le_pi <;> nlinarith
  have hn : cos ((360 / 365) * (100 + 10) * π / 180) < 0 := by
    apply cos_neg_of_pi_div_two_lt_of_lt <;> nlinarith
  have hm : -1 ≤ cos ((360 / 365) * (101 + 10) * π / 180) := neg_one_le_cos _
  have e0 : 0 < decl 100 := by unfold decl; nlinarith
  have e1 : decl 100 < decl 101 := by
    unfold decl
    generalize cos ((360 / 365) * (101 + 10) * π / 180) = u at *
    generalize cos ((360 / 365) * (100 + 10) * π / 180) = w at *
    nlinarith
  have e2 : decl 101 < π / 2 := by unfold decl; nlinarith
  exact ⟨sin_pos_of_pos_of_lt_pi e0 (by linarith), sin_lt_sin_of_lt_of_le_pi_div_two (by linarith) e2.le e1⟩

/-- Starting at 23:00 and flying two hours, or starting at midnight and flying one: the same instant, another
sun, because the start time does not carry into the day. -/
theorem C116_midnight_counterexample :
    Place.flux (polar 100 (23 * 3600) (2 * 3600)) ≠ Place.flux (polar 101 0 3600) := by
  obtain ⟨h0, h1⟩ := decl_pos_lt
  have d1 : (polar 100 (23 * 3600) (2 * 3600)).day = 100 := by
    have : ⌊(2 * 3600 : ℝ) / (24 * 60 * 60)⌋ = 0 := by rw [Int.floor_eq_zero_iff]; constructor <;> norm_num
    simp only [Place.day, polar, this]; norm_num
  have d2 : (polar 101 0 3600).day = 101 := by
    have : ⌊(3600 : ℝ) / (24 * 60 * 60)⌋ = 0 := by rw [Int.floor_eq_zero_iff]; constructor <;> norm_num
    simp only [Place.day, polar, this]; norm_num
  have c1 := polar_cosZ 100 (23 * 3600) (2 * 3600)
  have c2 := polar_cosZ 101 0 3600
  rw [d1] at c1
  rw [d2] at c2
  rw [C114_level _ (by rw [c1]; linarith) rfl rfl, C114_level _ (by rw [c2]; linarith) rfl rfl, c1, c2,
    C114_high _ _ (by norm_num [polar]), C114_high _ _ (by norm_num [polar]), max_eq_right h0.le, max_eq_right (h0.trans h1).le]
  intro h
  linarith

/-- On the equator at the December solstice, banked by a right angle, heading south-west by the code's
angles, at the longitude where the sun stands at an hour angle of `-π/4`. -/
noncomputable def banked : Place :=
  ⟨355, 12 * 3600, 0, 0, (-180 - eot 355) / 4, π / 2, 0, 3 * π / 2, 10000⟩

theorem banked_day : banked.day = 355 := by simp [Place.day, banked]

theorem banked_hra : banked.hra = -(π / 4) := by
  unfold Place.hra Place.lst Place.tutc
  rw [banked_day]
  simp only [banked]
  norm_num
  ring

theorem decl_355 : decl 355 = -23.44 * π / 180 := by
  unfold decl
  rw [show (360 / 365 * (355 + 10) * π / 180 : ℝ) = 2 * π by ring, cos_two_pi]
  ring

/-- The same place with the longitude given one turn on: the banked panel sees another sun, because the sign of
the hour angle is taken without bringing it into one turn. -/
theorem C116_turn_counterexample : Place.flux { banked with lon := banked.lon + 360 } ≠ banked.flux := by
  have hp := pi_pos
  have hs : sin (decl 355) < 0 := by
    rw [decl_355]
    rw [show -23.44 * π / 180 = -(23.44 * π / 180) by ring, sin_neg]
    have := sin_pos_of_pos_of_lt_pi (x := 23.44 * π / 180) (by positivity) (by linarith)
    linarith
  have hc : 0 < cos (decl 355) := by
    rw [decl_355]
    apply cos_pos_of_mem_Ioo
    constructor <;> linarith
  have hlat : banked.lat * π / 180 = 0 := by simp [banked]
  have hcz : banked.cosZ = cos (decl 355) * cos (π / 4) := by
    simp only [Place.cosZ, banked_day, banked_hra, hlat, cos_neg, sin_zero, cos_zero]; ring
  have hq : 0 < cos (π / 4) := cos_pos_of_mem_Ioo ⟨by linarith, by linarith⟩
  have hz0 : 0 < banked.cosZ := by rw [hcz]; positivity
  have hzl : banked.zenith < π / 2 := by
    unfold Place.zenith
    exact arccos_lt_pi_div_two.2 hz0
  have hz1 : banked.cosZ ^ 2 < 1 - sin (decl 355) ^ 2 := by
    have h1 := sin_sq_add_cos_sq (decl 355)
    have h2 : cos (π / 4) ^ 2 < 1 := by
      have := sin_sq_add_cos_sq (π / 4)
      have h3 := sin_pos_of_pos_of_lt_pi (x := π / 4) (by linarith) (by linarith)
      nlinarith
    rw [hcz, mul_pow]
    have h4 : 0 < cos (decl 355) ^ 2 := by positivity
    nlinarith
  have hsz : sin banked.zenith ^ 2 = 1 - banked.cosZ ^ 2 := by
    have := sin_sq_add_cos_sq banked.zenith
    rw [cos_zenith] at this
    linarith
  have hsn : 0 ≤ sin banked.zenith := sin_nonneg_of_nonneg_of_le_pi (arccos_nonneg _) (arccos_le_pi _)
  have hlt : -sin (decl 355) < sin banked.zenith := by
    by_contra hcon
    push Not at hcon
    nlinarith
  have hsz0 : 0 < sin banked.zenith := by linarith
  obtain ⟨g, hg⟩ : ∃ g, g = |(cos banked.zenith * sin (banked.lat * π / 180) - sin (decl banked.day))
      / (sin banked.zenith * cos (banked.lat * π / 180))| := ⟨_, rfl⟩
  have hgv : g = -sin (decl 355) / sin banked.zenith := by
    rw [hg, hlat, banked_day, sin_zero, cos_zero, mul_zero, mul_one, zero_sub]
    exact abs_of_pos (div_pos (by linarith) hsz0)
  have hg0 : 0 < g := by rw [hgv]; exact div_pos (by linarith) hsz0
  have hg1 : g < 1 := by rw [hgv, div_lt_one hsz0]; exact hlt
  have hsg : 0 < sin g := sin_pos_of_pos_of_lt_pi hg0 (by linarith [pi_gt_three])
  have haz : banked.azimuth = -g := by
    unfold Place.azimuth
    rw [← hg, banked_hra, sign_neg (by linarith)]
    simp
  have hzen : Place.zenith { banked with lon := banked.lon + 360 } = banked.zenith := by
    unfold Place.zenith; rw [cosZ_turn]
  have haz' : Place.azimuth { banked with lon := banked.lon + 360 } = g := by
    unfold Place.azimuth
    rw [hra_turn, banked_hra, hzen]
    have hd : Place.day { banked with lon := banked.lon + 360 } = banked.day := rfl
    rw [hd]
    change ((SignType.sign (-(π / 4) + 2 * π) : SignType) : ℝ) * |(cos banked.zenith * sin (banked.lat * π / 180) - sin (decl banked.day))
      / (sin banked.zenith * cos (banked.lat * π / 180))| = g
    rw [← hg, sign_pos (by linarith)]
    simp
  have htilt : banked.tilt = π / 2 := by
    unfold Place.tilt; simp [banked]
  have htilt' : Place.tilt { banked with lon := banked.lon + 360 } = π / 2 := htilt
  have hb := sin_le_one banked.zenith
  have hgl := sin_le_one g
  have c1 : cos banked.incidence = -(sin banked.zenith * sin g) := by
    unfold Place.incidence
    rw [htilt, haz, cos_pi_div_two, sin_pi_div_two]
    have : -g - (banked.ψ - π) = -(g + π / 2) := by simp only [banked]; ring
    rw [this, cos_neg, cos_add_pi_div_two]
    rw [cos_arccos] <;> nlinarith
  have c2 : cos (Place.incidence { banked with lon := banked.lon + 360 }) = sin banked.zenith * sin g := by
    unfold Place.incidence
    rw [htilt', haz', hzen, cos_pi_div_two, sin_pi_div_two]
    change cos (arccos (cos banked.zenith * 0 + sin banked.zenith * 1 * cos (g - (banked.ψ - π)))) = _
    have : g - (banked.ψ - π) = g - π / 2 := by simp only [banked]; ring
    rw [this, cos_sub_pi_div_two]
    rw [cos_arccos] <;> nlinarith
  have hcut : ¬ 96.70995 * π / 180 < banked.zenith := by
    intro hcon; linarith
  have hne : banked.cosZ ≠ 0 := hz0.ne'
  rw [C114_attitude banked hne, C114_attitude _ (by rw [cosZ_turn]; exact hne), hzen, if_neg hcut, if_neg hcut, c1, c2]
  have hpos : 0 < sin banked.zenith * sin g := mul_pos hsz0 hsg
  rw [max_eq_right hpos.le, max_eq_left (by linarith), mul_zero]
  exact (mul_pos (direct_pos _ _) hpos).ne'

/-- Cosine of the angle between the sun and the panel's normal, from the directions themselves: the sun towards
the zenith, south and west; the panel tilted towards its azimuth `ψ - π` from south. -/
noncomputable def sunOnPanel (p : Place) : ℝ :=
  p.cosZ * cos p.tilt + sin p.tilt *
    ((cos (decl p.day) * cos p.hra * sin (p.lat * π / 180) - sin (decl p.day) * cos (p.lat * π / 180)) * cos (p.ψ - π)
      + cos (decl p.day) * sin p.hra * sin (p.ψ - π))

/-- Level, the angle of incidence is the true one. -/
theorem C114_incidence_partial (p : Place) (h1 : p.φ = 0) (h2 : p.θ = 0) : cos p.incidence = sunOnPanel p := by
  have ht : p.tilt = 0 := by unfold Place.tilt; rw [h1, h2]; simp
  unfold Place.incidence sunOnPanel
  rw [ht, cos_zenith]
  simp only [cos_zero, mul_one, sin_zero, mul_zero, zero_mul, add_zero]
  exact cos_arccos (cosZ_range p).1 (cosZ_range p).2

/-- As `banked`, three hours after noon. -/
noncomputable def afternoon : Place :=
  ⟨355, 12 * 3600, 0, 0, (180 - eot 355) / 4, π / 2, 0, 3 * π / 2, 10000⟩

theorem afternoon_day : afternoon.day = 355 := by simp [Place.day, afternoon]

theorem afternoon_hra : afternoon.hra = π / 4 := by
  unfold Place.hra Place.lst Place.tutc
  rw [afternoon_day]
  simp only [afternoon]
  norm_num
  ring

/-- Banked, it is not: where the sun's azimuth belongs, the code uses the absolute value of its cosine. -/
theorem C114_incidence_counterexample : cos afternoon.incidence < sunOnPanel afternoon := by
  have hp := pi_pos
  have hpu := pi_lt_d2
  have hs : sin (decl 355) < 0 := by
    rw [decl_355, show -23.44 * π / 180 = -(23.44 * π / 180) by ring, sin_neg]
    have := sin_pos_of_pos_of_lt_pi (x := 23.44 * π / 180) (by positivity) (by linarith)
    linarith
  have hsl : -sin (decl 355) < 0.42 := by
    rw [decl_355, show -23.44 * π / 180 = -(23.44 * π / 180) by ring, sin_neg, neg_neg]
    have := sin_lt (x := 23.44 * π / 180) (by positivity)
    nlinarith
  have hc : 0 < cos (decl 355) := by
    rw [decl_355]
    apply cos_pos_of_mem_Ioo
    constructor <;> linarith
  have hlat : afternoon.lat * π / 180 = 0 := by simp [afternoon]
  have htilt : afternoon.tilt = π / 2 := by unfold Place.tilt; simp [afternoon]
  have hcz : afternoon.cosZ = cos (decl 355) * cos (π / 4) := by
    simp only [Place.cosZ, afternoon_day, afternoon_hra, hlat, sin_zero, cos_zero]; ring
  have hq : 0 < cos (π / 4) := cos_pos_of_mem_Ioo ⟨by linarith, by linarith⟩
  have hq2 : cos (π / 4) ^ 2 = 1 / 2 := by rw [cos_pi_div_four, div_pow, sq_sqrt (by norm_num)]; norm_num
  have hsz : sin afternoon.zenith ^ 2 = 1 - afternoon.cosZ ^ 2 := by
    have := sin_sq_add_cos_sq afternoon.zenith
    rw [cos_zenith] at this
    linarith
  have hsn : 0 ≤ sin afternoon.zenith := sin_nonneg_of_nonneg_of_le_pi (arccos_nonneg _) (arccos_le_pi _)
  have h1 := sin_sq_add_cos_sq (decl 355)
  have hsz0 : 0 < sin afternoon.zenith := by
    rcases hsn.lt_or_eq with h | h
    · exact h
    · rw [← h, hcz, mul_pow, hq2] at hsz; nlinarith
  obtain ⟨g, hg⟩ : ∃ g, g = |(cos afternoon.zenith * sin (afternoon.lat * π / 180) - sin (decl afternoon.day))
      / (sin afternoon.zenith * cos (afternoon.lat * π / 180))| := ⟨_, rfl⟩
  have hgv : g = -sin (decl 355) / sin afternoon.zenith := by
    rw [hg, hlat, afternoon_day, sin_zero, cos_zero, mul_zero, mul_one, zero_sub]
    exact abs_of_pos (div_pos (by linarith) hsz0)
  have hg0 : 0 < g := by rw [hgv]; exact div_pos (by linarith) hsz0
  have haz : afternoon.azimuth = g := by
    unfold Place.azimuth
    rw [← hg, afternoon_hra, sign_pos (by linarith)]
    simp
  have hb := sin_le_one afternoon.zenith
  have hgl := sin_le_one g
  have hgm := neg_one_le_sin g
  have c1 : cos afternoon.incidence = sin afternoon.zenith * sin g := by
    unfold Place.incidence
    rw [htilt, haz, cos_pi_div_two, sin_pi_div_two]
    have : g - (afternoon.ψ - π) = g - π / 2 := by simp only [afternoon]; ring
    rw [this, cos_sub_pi_div_two]
    rw [cos_arccos] <;> nlinarith
  have c2 : sunOnPanel afternoon = cos (decl 355) * cos (π / 4) := by
    unfold sunOnPanel
    have : afternoon.ψ - π = π / 2 := by simp only [afternoon]; ring
    rw [htilt, this, afternoon_day, afternoon_hra, hlat, cos_pi_div_two, sin_pi_div_two, sin_pi_div_four, cos_pi_div_four]
    ring
  have h2 : sin afternoon.zenith * sin g < -sin (decl 355) := by
    have := mul_lt_mul_of_pos_left (sin_lt hg0) hsz0
    rw [hgv, mul_div_cancel₀ _ hsz0.ne'] at this
    rw [← hgv] at this
    exact this
  rw [c1, c2]
  have h3 : 0.42 < cos (decl 355) * cos (π / 4) := by
    have : (0.42 : ℝ) ^ 2 < (cos (decl 355) * cos (π / 4)) ^ 2 := by rw [mul_pow, hq2]; nlinarith
    have hpos := mul_pos hc hq
    nlinarith
  linarith

end Verif.Sun
