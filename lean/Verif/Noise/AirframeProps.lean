import Verif.Noise.Airframe
import Mathlib.Tactic.IntervalCases

/-!
C127 airframe noise.
-/

namespace Verif.Noise.Air
open Real

theorem tenth (x : ℝ) : (10 : ℝ) ^ (0.1 * x) = power x := by
  unfold power; congr 1; norm_num; ring

theorem airTotal_eq (p : Parts) : airTotal p
    = level (power p.wing + power p.ht + power p.flap + power p.slat + power p.main + power p.nose) := by
  unfold airTotal level
  simp only [tenth]

/-- A step with no source. -/
noncomputable abbrev silent : Step :=
  ⟨0, fun _ => 0, fun _ => 0, fun _ => 0, fun _ => 0, fun _ => 0, fun _ => 0, fun _ => 0⟩

/-! ## C127 -/

/-- The total is above each of wing, horizontal tail, flap, slat, main and nose gear, and below the loudest plus
`10 log10 6`. -/
theorem C127_total_partial (p : Parts) :
    (p.wing < airTotal p ∧ p.ht < airTotal p ∧ p.flap < airTotal p ∧ p.slat < airTotal p ∧ p.main < airTotal p
      ∧ p.nose < airTotal p)
    ∧ ∀ m, p.wing ≤ m → p.ht ≤ m → p.flap ≤ m → p.slat ≤ m → p.main ≤ m → p.nose ≤ m →
        airTotal p ≤ m + 10 * logb 10 6 := by
  rw [airTotal_eq]
  have h1 := power_pos p.wing; have h2 := power_pos p.ht; have h3 := power_pos p.flap
  have h4 := power_pos p.slat; have h5 := power_pos p.main; have h6 := power_pos p.nose
  have key : ∀ x, 0 < power x → power x < power p.wing + power p.ht + power p.flap + power p.slat + power p.main + power p.nose →
      x < level (power p.wing + power p.ht + power p.flap + power p.slat + power p.main + power p.nose) := by
    intro x h0 hx
    calc x = level (power x) := (level_power _).symm
      _ < _ := level_lt h0 hx
  refine ⟨⟨key _ h1 (by linarith), key _ h2 (by linarith), key _ h3 (by linarith), key _ h4 (by linarith),
    key _ h5 (by linarith), key _ h6 (by linarith)⟩, ?_⟩
  intro m a1 a2 a3 a4 a5 a6
  have b1 := power_le a1; have b2 := power_le a2; have b3 := power_le a3
  have b4 := power_le a4; have b5 := power_le a5; have b6 := power_le a6
  have hm := power_pos m
  calc _ ≤ level (power m * 6) := level_le (by positivity) (by linarith)
    _ = _ := by rw [level_mul hm (by norm_num), level_power]; rfl

/-- The vertical tail is left out: the total does not hear it. -/
theorem C127_fin_counterexample : ¬ ∀ p : Parts, p.vt ≤ airTotal p := by
  intro H
  have h := H ⟨0, 0, 100, 0, 0, 0, 0⟩
  have h2 := (C127_total_partial ⟨0, 0, 100, 0, 0, 0, 0⟩).2 0 le_rfl le_rfl le_rfl le_rfl le_rfl le_rfl
  have : logb 10 (6 : ℝ) ≤ 1 := by
    rw [Real.logb_le_iff_le_rpow (by norm_num) (by norm_num)]; norm_num
  linarith

theorem delta_dist (ft S b : ℝ) (c : Cond) (d : ℝ) : delta ft S b { c with dist := d } = delta ft S b c := rfl

/-- Spherical spreading: `k` times as far, wing, flap and gear are quieter by `20 log10 k`. -/
theorem C127_distance (ft kts : ℝ) (c : Cond) (k : ℝ) (hk : 0 < k) (hd : 0 < c.dist) :
    (∀ S b ND horz f, (if horz then cos c.phi else sin c.phi) ≠ 0 → 0 < delta ft S b c → 0 < b →
        cleanWing ft kts S b ND horz { c with dist := k * c.dist } f = cleanWing ft kts S b ND horz c f - 20 * logb 10 k)
      ∧ (∀ Sf cf deltaf slots f, 0 < Sf → sin deltaf ≠ 0 →
        flap ft kts Sf cf deltaf slots { c with dist := k * c.dist } f = flap ft kts Sf cf deltaf slots c f - 20 * logb 10 k)
      ∧ (∀ D H wheels f, 0 < D →
        landingGear ft kts D H wheels { c with dist := k * c.dist } f
          = (landingGear ft kts D H wheels c f).map fun x => x - 20 * logb 10 k) := by
  have sq : ∀ x : ℝ, 0 < x → 10 * logb 10 (x / (k * c.dist) ^ 2) = 10 * logb 10 (x / c.dist ^ 2) - 20 * logb 10 k := by
    intro x hx
    have e : x / (k * c.dist) ^ 2 = x / c.dist ^ 2 / k ^ 2 := by field_simp
    rw [e, Real.logb_div (by positivity) (by positivity), Real.logb_pow]
    push_cast; ring
  refine ⟨?_, ?_, ?_⟩
  · intro S b ND horz f hdir hdel hb
    unfold cleanWing
    dsimp only
    rw [delta_dist, if_neg hdir, if_neg hdir, sq _ (by positivity)]
    ring
  · intro Sf cf deltaf slots f hS hs
    unfold flap
    dsimp only
    rw [sq _ (by positivity)]
    ring
  · intro D H wheels f hD
    unfold landingGear
    dsimp only
    rw [Option.map_map]
    congr 1
    funext g
    have e : D / (k * c.dist) = D / c.dist / k := by field_simp
    rw [e, Real.logb_div (by positivity) hk.ne']
    simp only [Function.comp]
    ring

/-- A wing of 10 ft by 2 ft seen at right angles. -/
example : (if true then cos (0 : ℝ) else sin 0) ≠ 0 ∧ 0 < delta 1 20 10 ⟨100, 1, 0, 0, 1, 1000⟩ := by
  constructor
  · simp
  · unfold delta; positivity

/-- Absorption by the air is in proportion to the distance, and grows from band to band. -/
theorem C127_attenuation (d k : ℝ) (i : ℕ) :
    attenuation (k * d) i = k * attenuation d i
      ∧ (0 ≤ d → i < 23 → attenuation d i ≤ attenuation d (i + 1) ∧ 0 ≤ attenuation d i) := by
  constructor
  · unfold attenuation; ring
  · intro hd hi
    have ht : attTable.getD i 0 ≤ attTable.getD (i + 1) 0 ∧ 0 ≤ attTable.getD i 0 := by
      have : i < 23 := hi
      interval_cases i <;> norm_num [attTable]
    unfold attenuation
    constructor
    · have := mul_le_mul_of_nonneg_right ht.1 hd
      linarith
    · have := mul_nonneg ht.2 hd
      linarith

/-- A slat louder than the wing by more than 3 dB, at most 6 dB at the peak of the wing spectrum. -/
theorem C127_slat (wing s2 : ℕ → ℝ) (i : ℕ) (hi : i < 24) :
    wing i + 3 < slat wing s2 i ∧ slat wing s2 i ≤ top wing + 3 + 10 * logb 10 2 := by
  have hw : wing i ≤ top wing := Finset.le_sup' wing (Finset.mem_range.2 hi)
  have hs : s2 i ≤ top s2 := Finset.le_sup' s2 (Finset.mem_range.2 hi)
  have e : slat wing s2 i = level (power (wing i + 3) + power (s2 i + (3 + top wing - top s2))) := by
    unfold slat level
    simp only [tenth]
  rw [e]
  have h1 := power_pos (wing i + 3)
  have h2 := power_pos (s2 i + (3 + top wing - top s2))
  constructor
  · calc wing i + 3 = level (power (wing i + 3)) := (level_power _).symm
      _ < _ := level_lt h1 (by linarith)
  · have b1 := power_le (show wing i + 3 ≤ top wing + 3 by linarith)
    have b2 := power_le (show s2 i + (3 + top wing - top s2) ≤ top wing + 3 by linarith)
    have hm := power_pos (top wing + 3)
    calc _ ≤ level (power (top wing + 3) * 2) := level_le (by positivity) (by linarith)
      _ = _ := by rw [level_mul hm (by norm_num), level_power]; rfl

/-- Lowering the wing spectrum by `a` in every band lowers the slat by `a`. -/
theorem C127_slat_shift (wing s2 : ℕ → ℝ) (a : ℝ) (i : ℕ) : slat (fun j => wing j - a) s2 i = slat wing s2 i - a := by
  have ht : top (fun j => wing j - a) = top wing - a := by
    unfold top
    apply le_antisymm
    · apply Finset.sup'_le
      intro j hj
      have := Finset.le_sup' wing hj
      linarith
    · have : (Finset.range 24).sup' ⟨0, by simp⟩ wing ≤ (Finset.range 24).sup' ⟨0, by simp⟩ (fun j => wing j - a) + a := by
        apply Finset.sup'_le
        intro j hj
        have : wing j - a ≤ _ := Finset.le_sup' (fun j => wing j - a) hj
        linarith
      linarith
  have e : ∀ w : ℕ → ℝ, slat w s2 i = level (power (w i + 3) + power (s2 i + (3 + top w - top s2))) := by
    intro w
    unfold slat level
    simp only [tenth]
  rw [e, e, ht]
  have e1 : power (wing i - a + 3) = power (wing i + 3) * power (-a) := by rw [← power_add]; congr 1; ring
  have e2 : power (s2 i + (3 + (top wing - a) - top s2)) = power (s2 i + (3 + top wing - top s2)) * power (-a) := by
    rw [← power_add]; congr 1; ring
  have h1 := power_pos (wing i + 3)
  have h2 := power_pos (s2 i + (3 + top wing - top s2))
  rw [e1, e2, ← add_mul, level_mul (by positivity) (power_pos _), level_power]
  ring

/-- The slat is given the wing spectrum already absorbed and is absorbed again: it should be `slat` less the absorption. -/
theorem C127_slat_counterexample :
    ¬ ∀ (k : Config) (s : Step) (i : ℕ), i < 24 → (parts k s i).slat = slat s.wing s.s2 i - attenuation s.dist i := by
  intro H
  -- one wing band far above the others
  have h := H ⟨0, true, 0⟩ ⟨1000, fun _ => 0, fun _ => 0, fun _ => 0, fun _ => 0, fun _ => 0, fun _ => 0, fun _ => 0⟩ 0
    (by norm_num)
  have e1 : (parts ⟨0, true, 0⟩ ⟨1000, fun _ => 0, fun _ => 0, fun _ => 0, fun _ => 0, fun _ => 0, fun _ => 0, fun _ => 0⟩ 0).slat
      = slat (fun j => 0 - attenuation 1000 j) (fun _ => 0) 0 - attenuation 1000 0 := rfl
  rw [e1] at h
  have h' : slat (fun j => 0 - attenuation 1000 j) (fun _ => 0) 0 = slat (fun _ => 0) (fun _ => 0) 0 := by linarith
  have hatt : ∀ j < 24, 0.09 ≤ attenuation 1000 j := by
    intro j hj
    unfold attenuation
    interval_cases j <;> norm_num [attTable]
  have ht1 : top (fun j => 0 - attenuation 1000 j) ≤ -0.09 := by
    unfold top
    apply Finset.sup'_le
    intro j hj
    have := hatt j (Finset.mem_range.1 hj)
    linarith
  have ht0 : top (fun _ => (0 : ℝ)) = 0 := Finset.sup'_const _ 0
  have e : ∀ w : ℕ → ℝ, slat w (fun _ => 0) 0 = level (power (w 0 + 3) + power (0 + (3 + top w - top (fun _ => 0)))) := by
    intro w
    unfold slat level
    simp only [tenth]
  rw [e, e, ht0] at h'
  have a0 := hatt 0 (by norm_num)
  have b1 := power_le (show (0 - attenuation 1000 0) + 3 ≤ 0 + 3 by linarith)
  have b2 : power (0 + (3 + top (fun j => 0 - attenuation 1000 j) - 0)) < power (0 + (3 + 0 - 0)) :=
    Real.rpow_lt_rpow_of_exponent_lt (by norm_num) (by linarith)
  have p1 := power_pos ((0 - attenuation 1000 0) + 3)
  have p2 := power_pos (0 + (3 + top (fun j => 0 - attenuation 1000 j) - 0))
  have : level (power ((0 - attenuation 1000 0) + 3) + power (0 + (3 + top (fun j => 0 - attenuation 1000 j) - 0)))
      < level (power (0 + 3) + power (0 + (3 + 0 - 0))) := level_lt (by linarith) (by linarith)
  linarith

/-- With the gear up and the flap retracted they count as 0 dB each; with one main unit the total is the energy sum of
wing, tail, slat and three sources of 0 dB. -/
theorem C127_clean (k : Config) (s : Step) (i : ℕ) (h1 : k.deltaf = 0) (h2 : k.gearUp = true) (h3 : k.mainUnits ≤ 1) :
    airTotal (parts k s i)
      = level (power (parts k s i).wing + power (parts k s i).ht + power (parts k s i).slat + 3) := by
  have hp : power 0 = 1 := by unfold power; norm_num
  rw [airTotal_eq]
  have e1 : (parts k s i).flap = 0 := by
    show (if k.deltaf = 0 then (0 : ℝ) else _) = 0
    rw [if_pos h1]
  have e2 : (parts k s i).main = 0 := by
    show (if 1 < k.mainUnits then (if k.gearUp then (0 : ℝ) else _) + _ else (if k.gearUp then (0 : ℝ) else _)) = 0
    rw [if_neg (not_lt.2 h3), h2]; simp
  have e3 : (parts k s i).nose = 0 := by
    show (if k.gearUp then (0 : ℝ) else _) = 0
    rw [h2]; simp
  rw [e1, e2, e3, hp]
  congr 1; ring

/-- A retracted gear is heard: with more main units the clean aircraft is louder. -/
theorem C127_retracted_counterexample :
    ¬ ∀ (k k' : Config) (s : Step) (i : ℕ), k.gearUp = true → k'.gearUp = true → k.deltaf = k'.deltaf →
      airTotal (parts k s i) = airTotal (parts k' s i) := by
  intro H
  have h := H ⟨0, true, 1⟩ ⟨0, true, 2⟩
    silent 0 rfl rfl rfl
  rw [airTotal_eq, airTotal_eq] at h
  have p1 := power_pos (parts ⟨0, true, 1⟩ silent 0).wing
  have p2 := power_pos (parts ⟨0, true, 1⟩ silent 0).ht
  have p3 := power_pos (parts ⟨0, true, 1⟩ silent 0).slat
  have m1 : (parts ⟨0, true, 1⟩ silent 0).main = 0 := by
    simp [parts]
  have m2 : (parts ⟨0, true, 2⟩ silent 0).main = 3 := by
    norm_num [parts]
  have e1 : (parts ⟨0, true, 2⟩ silent 0).wing
    = (parts ⟨0, true, 1⟩ silent 0).wing := rfl
  have e2 : (parts ⟨0, true, 2⟩ silent 0).ht
    = (parts ⟨0, true, 1⟩ silent 0).ht := rfl
  have e3 : (parts ⟨0, true, 2⟩ silent 0).slat
    = (parts ⟨0, true, 1⟩ silent 0).slat := rfl
  have e4 : (parts ⟨0, true, 2⟩ silent 0).flap
    = (parts ⟨0, true, 1⟩ silent 0).flap := rfl
  have e5 : (parts ⟨0, true, 2⟩ silent 0).nose
    = (parts ⟨0, true, 1⟩ silent 0).nose := rfl
  have p4 := power_pos (parts ⟨0, true, 1⟩ silent 0).flap
  have p5 := power_pos (parts ⟨0, true, 1⟩ silent 0).nose
  rw [e1, e2, e3, e4, e5, m1, m2] at h
  have q : power 0 < power 3 := Real.rpow_lt_rpow_of_exponent_lt (by norm_num) (by norm_num)
  have q0 := power_pos 0
  exact absurd h (ne_of_lt (level_lt (by linarith) (by linarith)))

/-- Every time step but the last gets its total. -/
theorem C127_history_partial (k : Config) (s : List Step) (i t : ℕ) (h : t + 1 < s.length) :
    history k s i t = airTotal (parts k (s[t]'(by omega)) i) := by
  unfold history
  rw [if_pos (by omega), List.getElem?_eq_getElem (by omega)]
  rfl

/-- The last step stays at 0 dB. -/
theorem C127_last_counterexample :
    ¬ ∀ (k : Config) (s : List Step) (i t : ℕ) (h : t < s.length), history k s i t = airTotal (parts k s[t] i) := by
  intro H
  have h := H ⟨0, true, 1⟩ [silent] 0 0
    (by simp)
  have h1 := (C127_total_partial (parts ⟨0, true, 1⟩
    silent 0)).1.2.2.1
  have h2 : (parts ⟨0, true, 1⟩ silent 0).flap = 0 := by
    simp [parts]
  rw [h2] at h1
  have h3 : history ⟨0, true, 1⟩ [silent] 0 0 = 0 := by
    simp [history]
  rw [h3] at h
  simp only [List.getElem_cons_zero] at h
  linarith

/-- Bogies with one, two and four wheels are known; six are an error. -/
theorem C127_wheels_counterexample :
    ¬ ∀ (ft kts D H : ℝ) (wheels : ℕ) (c : Cond) (f : ℝ), 0 < wheels → (landingGear ft kts D H wheels c f).isSome := by
  intro H
  have h := H 1 1 1 1 6 ⟨1, 1, 0, 0, 1, 1⟩ 1 (by norm_num)
  simp [landingGear, gearG] at h

theorem C127_wheels_partial (ft kts D H : ℝ) (wheels : ℕ) (c : Cond) (f : ℝ) (h : wheels = 1 ∨ wheels = 2 ∨ wheels = 4) :
    (landingGear ft kts D H wheels c f).isSome := by
  rcases h with rfl | rfl | rfl <;> simp [landingGear, gearG]

theorem log2_bounds : (0.3010 : ℝ) ≤ logb 10 2 ∧ logb 10 2 ≤ 0.3011 := by
  constructor
  · rw [Real.le_logb_iff_rpow_le (by norm_num) (by norm_num)]
    have h : ((10 : ℝ) ^ (0.3010 : ℝ)) ^ (1000 : ℕ) ≤ (2 : ℝ) ^ (1000 : ℕ) := by
      rw [← rpow_natCast, ← rpow_mul (by norm_num)]
      have : (0.3010 : ℝ) * ((1000 : ℕ) : ℝ) = ((301 : ℕ) : ℝ) := by norm_num
      rw [this, rpow_natCast]
      exact_mod_cast (by decide +kernel : (10 : ℕ) ^ 301 ≤ 2 ^ 1000)
    exact le_of_pow_le_pow_left₀ (by norm_num) (by norm_num) h
  · rw [Real.logb_le_iff_le_rpow (by norm_num) (by norm_num)]
    have h : (2 : ℝ) ^ (10000 : ℕ) ≤ ((10 : ℝ) ^ (0.3011 : ℝ)) ^ (10000 : ℕ) := by
      rw [← rpow_natCast (_ ^ (0.3011 : ℝ)), ← rpow_mul (by norm_num)]
      have : (0.3011 : ℝ) * ((10000 : ℕ) : ℝ) = ((3011 : ℕ) : ℝ) := by norm_num
      rw [this, rpow_natCast]
      exact_mod_cast (by decide +kernel : (2 : ℕ) ^ 10000 ≤ 10 ^ 3011)
    exact le_of_pow_le_pow_left₀ (by norm_num) (by positivity) h

/-- The pieces of the spectrum of a single or double slotted flap join to a hundredth of a decibel. -/
theorem C127_flap_joins_partial (slots : ℕ) (h : slots = 1 ∨ slots = 2) :
    |(99 + 10 * logb 10 2) - flapG slots 2| ≤ 0.01 ∧ |(103.82 - 6 * logb 10 20) - flapG slots 20| ≤ 0.01 := by
  obtain ⟨a, b⟩ := log2_bounds
  have e : logb 10 (20 : ℝ) = 1 + logb 10 2 := by
    rw [show (20 : ℝ) = 10 * 2 by norm_num, Real.logb_mul (by norm_num) (by norm_num), Real.logb_self_eq_one (by norm_num)]
  unfold flapG
  rw [if_pos h, if_pos h, e]
  norm_num [abs_le] at *
  constructor <;> constructor <;> linarith

/-- Those of a triple slotted flap are 3 dB apart. -/
theorem C127_flap_joins_counterexample : ¬ |(102.61 - 2 * logb 10 75) - flapG 3 75| ≤ 2.9 := by
  intro h
  have e : 28 * logb 10 (75 : ℝ) ≤ 52.52 := by
    have : logb 10 (75 : ℝ) ≤ 1.8755 := by
      rw [Real.logb_le_iff_le_rpow (by norm_num) (by norm_num)]
      have h : (75 : ℝ) ^ (2000 : ℕ) ≤ ((10 : ℝ) ^ (1.8755 : ℝ)) ^ (2000 : ℕ) := by
        rw [← rpow_natCast (_ ^ (1.8755 : ℝ)), ← rpow_mul (by norm_num)]
        have : (1.8755 : ℝ) * ((2000 : ℕ) : ℝ) = ((3751 : ℕ) : ℝ) := by norm_num
        rw [this, rpow_natCast]
        exact_mod_cast (by decide +kernel : (75 : ℕ) ^ 2000 ≤ 10 ^ 3751)
      exact le_of_pow_le_pow_left₀ (by norm_num) (by positivity) h
    linarith
  unfold flapG at h
  norm_num [abs_le] at h
  linarith [h.1]

/-- As the line of sight nears the plane of the flap, its sound fades; beyond, it comes back in full. -/
theorem C127_directivity (phi theta deltaf : ℝ) (h0 : 0 < theta) (h1 : theta < π) (h2 : 0 < deltaf) :
    directivity phi theta deltaf ≤ 0 ∧ (π ≤ theta + deltaf → directivity phi theta deltaf = 0) := by
  constructor
  · unfold directivity
    split_ifs with h
    · exact le_rfl
    · have hs : 0 < sin theta := sin_pos_of_pos_of_lt_pi h0 h1
      have hs2 : 0 < sin (theta + deltaf) := sin_pos_of_pos_of_lt_pi (by linarith) (by linarith)
      have hle : sin theta * cos phi ^ 2 * sin (theta + deltaf) ≤ 1 := by
        have a := sin_le_one theta; have b := sin_le_one (theta + deltaf); have c := cos_sq_le_one phi
        have d := sq_nonneg (cos phi)
        calc sin theta * cos phi ^ 2 * sin (theta + deltaf) ≤ 1 * 1 * 1 := by gcongr
          _ = 1 := by norm_num
      have := Real.logb_nonpos (b := 10) (by norm_num) (by positivity) hle
      linarith
  · intro h; unfold directivity; rw [if_pos h]

/-- Two main units: 3 dB more than one, within a hundredth of a decibel of twice the energy. -/
theorem C127_units_partial (k : Config) (s : Step) (i : ℕ) (hu : k.mainUnits = 2) (hg : k.gearUp = false) :
    |(parts k s i).main - level (2 * power (s.main i - attenuation s.dist i))| ≤ 0.02 := by
  have e : (parts k s i).main = s.main i - attenuation s.dist i + 3 := by
    show (if 1 < k.mainUnits then (if k.gearUp then (0 : ℝ) else _) + 3 * (k.mainUnits - 1) else _) = _
    rw [hu, hg, if_pos (by norm_num)]
    norm_num
  rw [e, level_mul (by norm_num) (power_pos _), level_power]
  obtain ⟨a, b⟩ := log2_bounds
  have e2 : level 2 = 10 * logb 10 2 := rfl
  rw [e2, abs_le]
  constructor <;> linarith

/-- Three main units count as four: 6 dB instead of 4.8. -/
theorem C127_units_counterexample :
    ¬ ∀ (k : Config) (s : Step) (i : ℕ), 1 ≤ k.mainUnits → k.gearUp = false →
      |(parts k s i).main - level (k.mainUnits * power (s.main i - attenuation s.dist i))| ≤ 1 := by
  intro H
  have h := H ⟨0, false, 3⟩ silent 0 (by norm_num) rfl
  have e : (parts ⟨0, false, 3⟩ silent 0).main = 6 := by norm_num [parts, attenuation]
  have e0 : silent.main 0 - attenuation silent.dist 0 = 0 := by norm_num [attenuation]
  rw [e, e0, level_mul (by norm_num) (power_pos _), level_power] at h
  have e2 : level 3 = 10 * logb 10 3 := rfl
  have h3 : logb 10 (3 : ℝ) ≤ 0.48 := by
    rw [Real.logb_le_iff_le_rpow (by norm_num) (by norm_num)]
    have h : (3 : ℝ) ^ (25 : ℕ) ≤ ((10 : ℝ) ^ (0.48 : ℝ)) ^ (25 : ℕ) := by
      rw [← rpow_natCast (_ ^ (0.48 : ℝ)), ← rpow_mul (by norm_num)]
      have : (0.48 : ℝ) * ((25 : ℕ) : ℝ) = ((12 : ℕ) : ℝ) := by norm_num
      rw [this, rpow_natCast]
      norm_num
    exact le_of_pow_le_pow_left₀ (by norm_num) (by positivity) h
  dsimp only at h
  rw [e2, abs_le] at h
  linarith [h.2]

/-- The main gear does not depend on the nose strut, nor the nose gear on the main tyre. -/
theorem C127_gear_partial (ft kts : ℝ) (g g' : GearDims) (wheels : ℕ) (c : Cond) (f : ℝ) :
    (g.mainTire = g'.mainTire → g.noseTire = g'.noseTire → mainGear ft kts g wheels c f = mainGear ft kts g' wheels c f)
      ∧ (g.mainStrut = g'.mainStrut → g.noseStrut = g'.noseStrut →
        noseGear ft kts g wheels c f = noseGear ft kts g' wheels c f) := by
  constructor
  · intro h1 h2; unfold mainGear; rw [h1, h2]
  · intro h1 h2; unfold noseGear; rw [h1, h2]

theorem gear_four (D x : ℝ) (hD : 0 < D) (hx : x = D) :
    landingGear 1 1 D 1 4 ⟨1, 1, 0, 0, 0, 1⟩ 1
      = some (60 * logb 10 (1 / 194) + 20 * logb 10 D
        + 10 * logb 10 ((10 : ℝ) ^ (12 + (logb 10 x) ^ 2 * (0.4 + x ^ 2) ^ (-1.6 : ℝ)) + 1)) := by
  subst hx
  simp [landingGear, gearG]

/-- The nose gear takes the length of the main strut for its tyre: lengthen the main strut and the nose gear is heard
more. -/
theorem C127_gear_counterexample :
    ¬ ∀ (ft kts : ℝ) (g g' : GearDims) (wheels : ℕ) (c : Cond) (f : ℝ),
      g.noseTire = g'.noseTire → g.noseStrut = g'.noseStrut →
        noseGear ft kts g wheels c f = noseGear ft kts g' wheels c f := by
  intro H
  have h := H 1 1 ⟨1, 1, 1, 1⟩ ⟨1, 1, 10, 1⟩ 4 ⟨1, 1, 0, 0, 0, 1⟩ 1 rfl rfl
  unfold noseGear at h
  dsimp only at h
  rw [gear_four 1 1 (by norm_num) rfl, gear_four 10 10 (by norm_num) rfl] at h
  have h' := Option.some.inj h
  rw [Real.logb_one, Real.logb_self_eq_one (by norm_num)] at h'
  have e : (10 : ℝ) ^ (12 + (0 : ℝ) ^ 2 * (0.4 + 1 ^ 2) ^ (-1.6 : ℝ)) ≤ (10 : ℝ) ^ (12 + (1 : ℝ) ^ 2 * (0.4 + 10 ^ 2) ^ (-1.6 : ℝ)) := by
    apply Real.rpow_le_rpow_of_exponent_le (by norm_num)
    have : 0 ≤ ((0.4 : ℝ) + 10 ^ 2) ^ (-1.6 : ℝ) := by positivity
    linarith
  have l := Real.logb_le_logb_of_le (b := 10) (by norm_num) (by positivity) (add_le_add_left e 1)
  linarith


/-- **C127, boundary layer of the wing.** Its thickness is that of a turbulent flat plate of the mean chord: 0.37 chords at
Reynolds number one and smaller as its fifth root. -/
theorem C127_layer (ft S b k : ℝ) (c : Cond) (hft : 0 < ft) (hS : 0 < S) (hb : 0 < b) (hv : 0 < c.v) (hm : 0 < c.visc) (hk : 0 < k) :
    delta ft S b { c with v := k * c.v } = delta ft S b c / k ^ (0.2 : ℝ)
    ∧ (c.v / ft * (S / b) = c.visc → delta ft S b c = 0.37 * (S / b)) := by
  constructor
  · unfold delta
    have e : k * c.v / ft * S / (b * c.visc) = k * (c.v / ft * S / (b * c.visc)) := by ring
    have h0 : 0 ≤ c.v / ft * S / (b * c.visc) := by positivity
    dsimp only
    rw [e, mul_rpow hk.le h0, rpow_neg hk.le]
    ring
  · intro h
    unfold delta
    have e : c.v / ft * S / (b * c.visc) = 1 := by
      rw [← h]
      field_simp
    rw [e, one_rpow, mul_one]

example : ∃ c : Cond, (0 : ℝ) < c.v ∧ 0 < c.visc ∧ c.v / 1 * (20 / 10) = c.visc := ⟨⟨100, 200, 0, 0, 1, 1000⟩, by norm_num⟩

end Verif.Noise.Air
