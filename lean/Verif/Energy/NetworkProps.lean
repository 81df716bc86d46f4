import Verif.Energy.ElectricProps

/-! Properties C107-C113: low-fidelity motor, speed controller, gearbox, and the electric networks. -/

namespace Verif.Electric
open Real

/-! ## C107: low-fidelity motor -/

theorem inside_eq (m : Motor) (η v : ℝ) :
    m.inside η v = (v - m.io * m.res + η * v) ^ 2 - 4 * (η * v ^ 2) := by
  unfold Motor.inside; ring

theorem omegaLo_eq (m : Motor) (η v : ℝ) (hv : v ≠ 0) (hi : 0 ≤ m.inside η v) :
    m.omegaLo η v = m.Kv * ((v - m.io * m.res + η * v + √(m.inside η v)) / 2) := by
  simp only [Motor.omegaLo, if_neg hv, if_neg (not_lt.2 hi), ← sqrt_eq_rpow]
  ring

/-- At internal voltage `x` the efficiency is `η` exactly when `x` solves this quadratic. -/
theorem efficiency_iff (m : Motor) (η v x : ℝ) (hv : v ≠ 0) (hr : 0 < m.res) (hx : v - x ≠ 0) :
    m.efficiency v ((v - x) / m.res) = some η ↔ x ^ 2 - x * (v - m.io * m.res + η * v) + η * v ^ 2 = 0 := by
  have hr' := hr.ne'
  unfold Motor.efficiency
  rw [if_neg (not_or.2 ⟨div_ne_zero hx hr', hv⟩), Option.some_inj]
  have e : (1 - m.io / ((v - x) / m.res)) * (1 - (v - x) / m.res * m.res / v)
      = (x * (v - x - m.io * m.res)) / (v * (v - x)) := by
    generalize m.io = io
    field_simp
    ring
  rw [e, div_eq_iff (mul_ne_zero hv hx)]
  constructor <;> intro h <;> linarith

theorem omegaLo_lt (m : Motor) (η v : ℝ) (hv : 0 < v) (hr : 0 < m.res) (hio : 0 < m.io) (hη : η ≤ 1)
    (hi : 0 ≤ m.inside η v) : (v - m.io * m.res + η * v + √(m.inside η v)) / 2 < v := by
  have hp : 0 < m.io * m.res := mul_pos hio hr
  have h1 : η * v ≤ v := by nlinarith
  have : √(m.inside η v) < v + m.io * m.res - η * v := by
    rw [sqrt_lt hi (by linarith), inside_eq]
    nlinarith [mul_pos hv hp]
  linarith

/-- The motor runs at the configured efficiency whenever that can be reached. -/
theorem C107_efficiency (m : Motor) (η v : ℝ) (hv : 0 < v) (hG : m.gear ≠ 0) (hK : 0 < m.Kv) (hr : 0 < m.res)
    (hio : 0 < m.io) (hη : η ≤ 1) (hi : 0 ≤ m.inside η v) :
    m.efficiency v (m.current v (m.omegaLo η v)) = some η := by
  have hlt := omegaLo_lt m η v hv hr hio hη hi
  have hw := omegaLo_eq m η v hv.ne' hi
  obtain ⟨x, hx⟩ : ∃ x, x = (v - m.io * m.res + η * v + √(m.inside η v)) / 2 := ⟨_, rfl⟩
  rw [← hx] at hlt hw
  have hd : m.omegaLo η v / m.Kv = x := by rw [hw]; field_simp
  rw [current_eq m v _ hG (by rw [hd]; linarith) hr, hd]
  rw [efficiency_iff m η v x hv.ne' hr (by linarith)]
  have hs := mul_self_sqrt hi
  have e : √(m.inside η v) = 2 * x - (v - m.io * m.res + η * v) := by rw [hx]; ring
  rw [e, inside_eq] at hs
  linarith

/-- Of the speeds with that efficiency it is the highest. -/
theorem C107_highest (m : Motor) (η v ω : ℝ) (hv : 0 < v) (hG : m.gear ≠ 0) (hK : 0 < m.Kv) (hr : 0 < m.res)
    (h0 : 0 ≤ v - ω / m.Kv) (he : m.efficiency v (m.current v ω) = some η) : ω ≤ m.omegaLo η v := by
  rw [current_eq m v ω hG h0 hr] at he
  have hne : v - ω / m.Kv ≠ 0 := by
    intro h
    rw [h, zero_div] at he
    simp [Motor.efficiency] at he
  rw [efficiency_iff m η v _ hv.ne' hr hne] at he
  have hi : 0 ≤ m.inside η v := by
    rw [inside_eq]
    nlinarith [sq_nonneg (2 * (ω / m.Kv) - (v - m.io * m.res + η * v))]
  rw [omegaLo_eq m η v hv.ne' hi]
  have e : ω = m.Kv * (ω / m.Kv) := by field_simp
  rw [e]
  apply mul_le_mul_of_nonneg_left _ hK.le
  have : 2 * (ω / m.Kv) - (v - m.io * m.res + η * v) ≤ √(m.inside η v) := by
    apply le_sqrt_of_sq_le
    rw [inside_eq]
    nlinarith
  linarith

/-- What can be reached: up to the peak efficiency `(1 - √(io R / v))²` of the motor at this voltage. -/
theorem C107_reachable (m : Motor) (η v : ℝ) (hv : 0 < v) (hr : 0 < m.res) (hio : 0 < m.io) (hη : η ≤ 1)
    (hl : m.io * m.res ≤ v) :
    0 ≤ m.inside η v ↔ η ≤ (1 - √(m.io * m.res / v)) ^ 2 := by
  have hp : 0 < m.io * m.res := mul_pos hio hr
  obtain ⟨y, hy⟩ : ∃ y, y = √(m.io * m.res / v) := ⟨_, rfl⟩
  have hy0 : 0 < y := by rw [hy]; exact sqrt_pos.2 (div_pos hp hv)
  have hyy : m.io * m.res = y ^ 2 * v := by
    rw [hy, sq_sqrt (div_pos hp hv).le]; field_simp
  have hy1 : y ≤ 1 := by
    by_contra h
    push Not at h
    have : v < y ^ 2 * v := by nlinarith [mul_pos hv (show 0 < y - 1 by linarith)]
    linarith
  rw [← hy]
  have e : m.inside η v = v ^ 2 * (((1 + y) ^ 2 - η) * ((1 - y) ^ 2 - η)) := by
    rw [inside_eq, hyy]; ring
  rw [e, mul_nonneg_iff_of_pos_left (by positivity), mul_nonneg_iff_of_pos_left (by nlinarith)]
  constructor <;> intro h <;> linarith

/-- Beyond that no speed has the requested efficiency, and the motor silently runs at another one. -/
theorem C107_unreachable_counterexample (m : Motor) (η v ω : ℝ) (hv : 0 < v) (hG : m.gear ≠ 0) (hr : 0 < m.res)
    (hi : m.inside η v < 0) (h0 : 0 ≤ v - ω / m.Kv) : m.efficiency v (m.current v ω) ≠ some η := by
  intro he
  rw [current_eq m v ω hG h0 hr] at he
  have hne : v - ω / m.Kv ≠ 0 := by
    intro h
    rw [h, zero_div] at he
    simp [Motor.efficiency] at he
  rw [efficiency_iff m η v _ hv.ne' hr hne] at he
  rw [inside_eq] at hi
  nlinarith [sq_nonneg (2 * (ω / m.Kv) - (v - m.io * m.res + η * v))]

/-- Without a no-load current (the default) the root chosen is the one where the motor is unloaded: no
current, no torque and no efficiency, whatever efficiency was configured. -/
theorem C107_no_load_counterexample (m : Motor) (η v : ℝ) (hv : 0 < v) (hG : m.gear ≠ 0) (hK : 0 < m.Kv) (hr : 0 < m.res)
    (hio : m.io = 0) (hη : η ≤ 1) :
    m.current v (m.omegaLo η v) = 0 ∧ m.torque v (m.omegaLo η v) = 0
      ∧ m.efficiency v (m.current v (m.omegaLo η v)) = none := by
  have h1 : 0 ≤ v - η * v := by nlinarith
  have e : m.inside η v = (v - η * v) ^ 2 := by rw [inside_eq, hio]; ring
  have hi : 0 ≤ m.inside η v := by rw [e]; positivity
  have hd : m.omegaLo η v / m.Kv = v := by
    rw [omegaLo_eq m η v hv.ne' hi, e, sqrt_sq h1, hio]
    field_simp
    ring
  have hc : m.current v (m.omegaLo η v) = 0 := by
    rw [current_eq m v _ hG (by rw [hd]; linarith) hr, hd]; simp
  refine ⟨hc, ?_, by rw [hc]; simp [Motor.efficiency]⟩
  rw [Motor.torque, hd, hio]; simp

/-- `power_lo`: the configured efficiency is that of the power given out, and at the rated voltage the
rated power is taken in. -/
theorem C107_power_lo (η rated vRate v : ℝ) (hη : η ≠ 0) (hv : v ≠ 0) :
    (powerLo η rated vRate v).1 = η * (v * (powerLo η rated vRate v).2)
      ∧ (vRate ≠ 0 → v = vRate → v * (powerLo η rated vRate v).2 = rated) := by
  constructor
  · simp only [powerLo]
    split_ifs with h
    · rw [h]; ring
    · field_simp
  · intro h1 h2
    simp only [powerLo]
    split_ifs with h
    · subst h2
      have : rated * η = 0 := by rwa [mul_div_assoc, div_self h1, mul_one] at h
      rcases mul_eq_zero.1 this with h3 | h3
      · rw [h3]; ring
      · exact absurd h3 hη
    · subst h2; field_simp

example : demo.efficiency 20 (demo.current 20 (demo.omegaLo 0.8 20)) = some 0.8 := by
  apply C107_efficiency <;> norm_num [demo, Motor.Kv, Motor.io, Motor.inside]

/-! ## C108: speed controller -/

theorem clamp_range (t : ℝ) : 0 ≤ clampThrottle t ∧ clampThrottle t ≤ 1 := by
  unfold clampThrottle
  dsimp only
  split_ifs with h1 h2 h2
  all_goals constructor <;> linarith

theorem clamp_id {t : ℝ} (h0 : 0 ≤ t) (h1 : t ≤ 1) : clampThrottle t = t := by
  unfold clampThrottle
  dsimp only
  split_ifs with h2 h3 h3 <;> linarith

theorem clamp_high {t : ℝ} (h : 1 ≤ t) : clampThrottle t = 1 := by
  unfold clampThrottle
  dsimp only
  split_ifs with h2 h3 h3 <;> linarith

theorem clamp_low {t : ℝ} (h : t ≤ 0) : clampThrottle t = 0 := by
  unfold clampThrottle
  dsimp only
  rw [if_pos h, if_neg (by norm_num)]

/-- The motor never sees more than the supply voltage, nor a reversed one, and more throttle never gives
less. -/
theorem C108_voltage (t t' v : ℝ) (hv : 0 ≤ v) (h : t ≤ t') :
    0 ≤ escVoltage t v ∧ escVoltage t v ≤ v ∧ escVoltage t v ≤ escVoltage t' v := by
  obtain ⟨h0, h1⟩ := clamp_range t
  refine ⟨mul_nonneg h0 hv, by unfold escVoltage; nlinarith, mul_le_mul_of_nonneg_right ?_ hv⟩
  rcases le_total t 0 with a | a
  · rw [clamp_low a]; exact (clamp_range t').1
  · rcases le_total 1 t' with b | b
    · rw [clamp_high b]; exact h1
    · rw [clamp_id a (h.trans b), clamp_id (a.trans h) b]; exact h

/-- Within the throttle range, the power delivered is `efficiency` times the power taken. -/
theorem C108_power_partial (t eff v i : ℝ) (h0 : 0 ≤ t) (h1 : t ≤ 1) (he : eff ≠ 0) :
    escVoltage t v * i = eff * (v * escCurrent t eff i) := by
  unfold escVoltage escCurrent
  rw [clamp_id h0 h1]
  field_simp

/-- Outside it the two disagree: the voltage is limited and the current is not. -/
theorem C108_range_counterexample (t eff v i : ℝ) (h : t < 0 ∨ 1 < t) (he : eff ≠ 0) (hv : v ≠ 0) (hi : i ≠ 0) :
    escVoltage t v * i ≠ eff * (v * escCurrent t eff i) := by
  have e : eff * (v * escCurrent t eff i) = t * v * i := by unfold escCurrent; field_simp
  rw [e]
  unfold escVoltage
  intro hc
  have hc' : clampThrottle t = t := mul_right_cancel₀ hv (mul_right_cancel₀ hi hc)
  obtain ⟨a, b⟩ := clamp_range t
  rcases h with h | h <;> linarith

example : escVoltage 0.5 100 * 10 = 0.9 * (100 * escCurrent 0.5 0.9 10) :=
  C108_power_partial 0.5 0.9 100 10 (by norm_num) (by norm_num) (by norm_num)

/-! ## C109: battery and propeller network -/

/-- What one propeller does on its own: speed, current, thrust and power at the controller voltage. -/
noncomputable def Drive.ω (d : Drive) (ρ v : ℝ) : ℝ := d.motor.omega ρ d.Cp v
noncomputable def Drive.amps (d : Drive) (ρ v : ℝ) : ℝ := d.motor.current v (d.ω ρ v)
noncomputable def Drive.pull (d : Drive) (ρ v : ℝ) : Fin 3 → ℝ := (d.spin (d.ω ρ v)).F
noncomputable def Drive.power (d : Drive) (ρ v : ℝ) : ℝ := (d.spin (d.ω ρ v)).P

theorem fold_current (ρ t v f : ℝ) (ds : List Drive) (s : Tally) :
    (ds.foldl (step ρ t v f) s).current = s.current + f * (ds.map fun d => d.amps ρ v).sum := by
  induction ds generalizing s with
  | nil => simp
  | cons d ds ih =>
    rw [List.foldl_cons, ih]
    simp only [step, List.map_cons, List.sum_cons, Drive.amps, Drive.ω]
    ring

theorem fold_thrust (ρ t v f : ℝ) (ds : List Drive) (s : Tally) (k : Fin 3) :
    (ds.foldl (step ρ t v f) s).thrust k = s.thrust k + f * (ds.map fun d => over t (d.pull ρ v k)).sum := by
  induction ds generalizing s with
  | nil => simp
  | cons d ds ih =>
    rw [List.foldl_cons, ih]
    simp only [step, List.map_cons, List.sum_cons, Drive.pull, Drive.ω]
    ring

theorem fold_recs (ρ t v f : ℝ) (ds : List Drive) (s : Tally) :
    (ds.foldl (step ρ t v f) s).recs.map (fun r => (r.volts, r.current, r.ω, r.motorTorque, r.propTorque, r.P))
      = s.recs.map (fun r => (r.volts, r.current, r.ω, r.motorTorque, r.propTorque, r.P))
        ++ ds.map (fun d => (v, d.amps ρ v, d.ω ρ v, d.motor.torque v (d.ω ρ v), (d.spin (d.ω ρ v)).Q,
            over t (d.power ρ v))) := by
  induction ds generalizing s with
  | nil => simp
  | cons d ds ih =>
    rw [List.foldl_cons, ih]
    simp [step, Drive.amps, Drive.power, Drive.ω]

theorem fold_lastP (ρ t v f : ℝ) (ds : List Drive) (s : Tally) :
    (ds.foldl (step ρ t v f) s).recs.getLast?.map (·.P)
      = match ds.getLast? with
        | none => s.recs.getLast?.map (·.P)
        | some d => some (over t (d.power ρ v)) := by
  induction ds generalizing s with
  | nil => simp
  | cons d ds ih =>
    rw [List.foldl_cons, ih]
    cases h : ds.getLast? with
    | none =>
      rw [List.getLast?_eq_none_iff] at h
      subst h
      simp [step, Drive.power, Drive.ω]
    | some x =>
      rw [List.getLast?_cons, h]
      simp

/-- The propellers that count, each with its multiplicity: one taken `n` times, or the first `n`. -/
def fleet (g : Group) : List Drive :=
  if g.identical then
    match g.drives with
    | [] => []
    | d :: _ => List.replicate g.n d
  else g.drives.take g.n

theorem run_spec (g : Group) (ρ t volts : ℝ) (r : Tally × ℝ) (h : g.run ρ t volts = some r) :
    r.1.current = ((fleet g).map fun d => d.amps ρ (escVoltage t volts)).sum
      ∧ (∀ k, r.1.thrust k = ((fleet g).map fun d => over t (d.pull ρ (escVoltage t volts) k)).sum)
      ∧ r.2 = escCurrent t g.eff r.1.current := by
  unfold Group.run at h
  rw [Option.map_eq_some_iff] at h
  obtain ⟨e, he, rfl⟩ := h
  dsimp only
  unfold evaluated at he
  unfold fleet
  cases hid : g.identical with
  | true =>
    rw [hid] at he
    simp only [if_true] at he ⊢
    cases hd : g.drives with
    | nil => rw [hd] at he; simp at he
    | cons d ds =>
      rw [hd] at he
      obtain rfl := (Option.some.inj he)
      refine ⟨?_, fun k => ?_, trivial⟩
      · unfold loop; rw [fold_current]; simp
      · unfold loop; rw [fold_thrust]; simp
  | false =>
    rw [hid] at he
    simp only [Bool.false_eq_true, if_false] at he ⊢
    split_ifs at he with hn
    obtain rfl := (Option.some.inj he)
    refine ⟨?_, fun k => ?_, trivial⟩
    · unfold loop; rw [fold_current]; simp
    · unfold loop; rw [fold_thrust]; simp

/-- Thrust of the network is the sum over the propellers. -/
theorem C109_thrust (g : Group) (nominal avionics payload ρ t volts : ℝ) (o : BatteryOut)
    (h : batteryPropeller g nominal avionics payload ρ t volts = some o) (ht : t ≤ 1) (k : Fin 3) :
    o.thrust k = ((fleet g).map fun d => d.pull ρ (escVoltage t volts) k).sum := by
  unfold batteryPropeller at h
  rw [Option.bind_eq_some_iff] at h
  obtain ⟨r, hr, h⟩ := h
  rw [Option.map_eq_some_iff] at h
  obtain ⟨l, _, rfl⟩ := h
  dsimp only
  rw [(run_spec g ρ t volts r hr).2.1 k]
  have : ∀ x, over t x = x := fun x => by unfold over; rw [if_neg (not_lt.2 ht)]
  simp only [this]

/-- The power taken from the battery, less what the systems take, times the controller efficiency, is the
electrical power of all motors. -/
theorem C109_power (g : Group) (nominal avionics payload ρ t volts : ℝ) (o : BatteryOut)
    (h : batteryPropeller g nominal avionics payload ρ t volts = some o) (h0 : 0 ≤ t) (h1 : t ≤ 1) (he : g.eff ≠ 0) :
    g.eff * (-o.powerIn - (avionics + payload))
      = ((fleet g).map fun d => escVoltage t volts * d.amps ρ (escVoltage t volts)).sum := by
  unfold batteryPropeller at h
  rw [Option.bind_eq_some_iff] at h
  obtain ⟨r, hr, h⟩ := h
  rw [Option.map_eq_some_iff] at h
  obtain ⟨l, _, rfl⟩ := h
  obtain ⟨a, _, c⟩ := run_spec g ρ t volts r hr
  dsimp only
  rw [c, neg_neg, add_sub_cancel_right, ← C108_power_partial t g.eff volts _ h0 h1 he, a,
    ← List.sum_map_mul_left]

/-- Where that power goes once the torques balance: into the propellers, the windings and the no-load
currents. -/
theorem C109_balance (g : Group) (nominal avionics payload ρ t volts : ℝ) (o : BatteryOut)
    (h : batteryPropeller g nominal avionics payload ρ t volts = some o) (h0 : 0 ≤ t) (h1 : t ≤ 1) (he : g.eff ≠ 0)
    (hm : ∀ d ∈ fleet g, d.motor.gear ≠ 0 ∧ d.motor.Kv ≠ 0 ∧ 0 < d.motor.res
      ∧ 0 ≤ escVoltage t volts - d.ω ρ (escVoltage t volts) / d.motor.Kv)
    (hres : ∀ d ∈ fleet g, d.motor.torque (escVoltage t volts) (d.ω ρ (escVoltage t volts))
      = (d.spin (d.ω ρ (escVoltage t volts))).Q)
    (hP : ∀ d ∈ fleet g, ∀ w, (d.spin w).P = (d.spin w).Q * w) :
    g.eff * (-o.powerIn - (avionics + payload))
      = ((fleet g).map fun d => d.power ρ (escVoltage t volts)
          + d.amps ρ (escVoltage t volts) ^ 2 * d.motor.res
          + d.motor.io * (d.ω ρ (escVoltage t volts) / d.motor.Kv)).sum := by
  rw [C109_power g nominal avionics payload ρ t volts o h h0 h1 he]
  congr 1
  apply List.map_congr_left
  intro d hd
  obtain ⟨a, b, c, e⟩ := hm d hd
  have := C106_power d.motor _ _ a b c e
  rw [Drive.amps, this, Drive.power, hP d hd, ← hres d hd]

/-- The short cut for identical propellers: evaluating one and multiplying gives the thrust, current and
power of evaluating all of them. -/
theorem C109_identical (d : Drive) (n : ℕ) (eff nominal avionics payload ρ t volts : ℝ) (o o' : BatteryOut)
    (h : batteryPropeller ⟨List.replicate n d, n, true, eff⟩ nominal avionics payload ρ t volts = some o)
    (h' : batteryPropeller ⟨List.replicate n d, n, false, eff⟩ nominal avionics payload ρ t volts = some o') :
    o.thrust = o'.thrust ∧ o.current = o'.current ∧ o.powerIn = o'.powerIn ∧ o.P = o'.P := by
  unfold batteryPropeller at h h'
  rw [Option.bind_eq_some_iff] at h h'
  obtain ⟨r, hr, h⟩ := h
  obtain ⟨r', hr', h'⟩ := h'
  rw [Option.map_eq_some_iff] at h h'
  obtain ⟨l, hl, rfl⟩ := h
  obtain ⟨l', hl', rfl⟩ := h'
  obtain ⟨a, b, c⟩ := run_spec _ ρ t volts r hr
  obtain ⟨a', b', c'⟩ := run_spec _ ρ t volts r' hr'
  have hf : fleet ⟨List.replicate n d, n, true, eff⟩ = fleet ⟨List.replicate n d, n, false, eff⟩ := by
    cases n with
    | zero => simp [fleet]
    | succ n => simp [fleet, List.replicate_succ]
  have hpos : 0 < n := by
    rcases Nat.eq_zero_or_pos n with h0 | h0
    · subst h0; simp [Group.run, evaluated] at hr
    · exact h0
  rw [hf] at a b
  have ec : r.1.current = r'.1.current := by rw [a, a']
  have hP : l.P = l'.P := by
    obtain ⟨k, rfl⟩ : ∃ k, n = k + 1 := ⟨n - 1, by omega⟩
    have e1 : r.1.recs.getLast?.map (·.P) = some (over t (d.power ρ (escVoltage t volts))) := by
      simp only [Group.run, evaluated, List.replicate_succ, if_true, Option.map_some, Option.some.injEq] at hr
      rw [← hr]
      unfold loop
      rw [fold_lastP]; simp
    have e2 : r'.1.recs.getLast?.map (·.P) = some (over t (d.power ρ (escVoltage t volts))) := by
      simp only [Group.run, evaluated, List.length_replicate, le_refl, if_true, Bool.false_eq_true, if_false,
        Option.map_some, Option.some.injEq] at hr'
      rw [← hr']
      unfold loop
      rw [fold_lastP, List.take_replicate, min_self, List.getLast?_replicate]
      simp
    rw [hl] at e1; rw [hl'] at e2
    simp only [Option.map_some, Option.some.injEq] at e1 e2
    rw [e1, e2]
  refine ⟨funext fun k => by dsimp only; rw [b k, b' k], ?_, ?_, hP⟩ <;> dsimp only <;> rw [c, c', ec]

/-- The current and the power reported for the battery agree only at the nominal voltage (or without
systems): the systems' current is computed with the nominal voltage. -/
theorem C109_current_counterexample (g : Group) (nominal avionics payload ρ t volts : ℝ) (o : BatteryOut)
    (h : batteryPropeller g nominal avionics payload ρ t volts = some o) (hn : nominal ≠ 0)
    (hl : avionics + payload ≠ 0) (hv : volts ≠ nominal) : volts * o.current ≠ -o.powerIn := by
  unfold batteryPropeller at h
  rw [Option.bind_eq_some_iff] at h
  obtain ⟨r, hr, h⟩ := h
  rw [Option.map_eq_some_iff] at h
  obtain ⟨l, _, rfl⟩ := h
  dsimp only
  intro hc
  have : (avionics + payload) * (volts / nominal) = (avionics + payload) * 1 := by
    have : volts * ((avionics + payload) / nominal) = (avionics + payload) * (volts / nominal) := by ring
    linarith
  have := mul_left_cancel₀ hl this
  rw [div_eq_one_iff_eq hn] at this
  exact hv this

/-- A propeller with constant thrust and torque, for the cases below. -/
noncomputable def plain : Drive := ⟨demo, 0.05, fun ω => ⟨![3, 0, 4], 2, 2 * ω⟩⟩

theorem norm3_smul (a : ℝ) (F : Fin 3 → ℝ) (ha : 0 ≤ a) : norm3 (fun k => F k * a) = a * norm3 F := by
  unfold norm3
  rw [show (F 0 * a) ^ 2 + (F 1 * a) ^ 2 + (F 2 * a) ^ 2 = a ^ 2 * (F 0 ^ 2 + F 1 ^ 2 + F 2 ^ 2) by ring,
    sqrt_mul (sq_nonneg a), sqrt_sq ha]

/-- With identical propellers, the thrust recorded for "the propeller" is that of all of them together, and the
power handed on is that of one. -/
theorem C109_record_counterexample (d : Drive) (ds : List Drive) (n : ℕ) (eff nominal avionics payload ρ t volts : ℝ)
    (o : BatteryOut) (h : batteryPropeller ⟨d :: ds, n, true, eff⟩ nominal avionics payload ρ t volts = some o)
    (ht : t ≤ 1) :
    o.recs.map (·.thrust) = [n * norm3 (d.pull ρ (escVoltage t volts))] ∧ o.P = d.power ρ (escVoltage t volts) := by
  have hov : ∀ x, over t x = x := fun x => by unfold over; rw [if_neg (not_lt.2 ht)]
  unfold batteryPropeller at h
  simp only [Group.run, evaluated, if_true, Option.map_some, Option.bind_some, loop, List.foldl_cons, List.foldl_nil,
    step, List.nil_append, List.getLast?_singleton, Option.some.injEq] at h
  subst h
  simp only [hov, List.map_cons, List.map_nil, Drive.power, Drive.ω, and_true, List.cons.injEq, zero_add]
  exact norm3_smul _ _ (Nat.cast_nonneg n)

/-- So the electronics efficiency reported for `n` identical propellers is the true ratio of propeller power
to battery power divided by `n`. -/
theorem C109_efficiency_counterexample (d : Drive) (ds : List Drive) (n : ℕ) (eff nominal avionics payload ρ t volts : ℝ)
    (o : BatteryOut) (h : batteryPropeller ⟨d :: ds, n, true, eff⟩ nominal avionics payload ρ t volts = some o)
    (ht : t ≤ 1) (hn : 2 ≤ n) (hP : d.power ρ (escVoltage t volts) ≠ 0) (hb : o.powerIn ≠ 0) :
    electronicsEfficiency o.P o.powerIn
      ≠ ((fleet ⟨d :: ds, n, true, eff⟩).map fun d => d.power ρ (escVoltage t volts)).sum / -o.powerIn := by
  rw [(C109_record_counterexample d ds n eff nominal avionics payload ρ t volts o h ht).2]
  simp only [fleet, if_true, List.map_replicate, List.sum_replicate, nsmul_eq_mul, electronicsEfficiency]
  intro hc
  rw [neg_div, div_neg, neg_inj, div_left_inj' hb] at hc
  have h2 : (n : ℝ) = 1 := by
    have : (n : ℝ) * d.power ρ (escVoltage t volts) = 1 * d.power ρ (escVoltage t volts) := by linarith
    exact mul_right_cancel₀ hP this
  have : n = 1 := by exact_mod_cast h2
  omega

/-- A negative throttle, which the solver may try or converge to, charges the battery. -/
theorem C109_negative_throttle_counterexample :
    ∃ o, batteryPropeller ⟨[plain], 1, true, 0.9⟩ 100 0 0 1.2 (-0.5) 100 = some o ∧ 0 < o.powerIn := by
  have hv : escVoltage (-0.5) 100 = 0 := by
    unfold escVoltage; rw [clamp_low (by norm_num)]; ring
  have hw := C104_standstill_counterexample
  have hK := demo_Kv
  have hc : 0 < demo.current 0 (demo.omega 1.2 0.05 0) := by
    rw [current_eq demo 0 _ (by norm_num [demo]) _ (by norm_num [demo])]
    · apply div_pos
      · rw [hK]; linarith
      · norm_num [demo]
    · rw [hK]; linarith
  refine ⟨_, by simp only [batteryPropeller, Group.run, evaluated, if_true, Option.map_some, Option.bind_some, loop,
    List.foldl_cons, List.foldl_nil, step, List.nil_append, List.getLast?_singleton]; rfl, ?_⟩
  dsimp only
  rw [hv]
  simp only [escCurrent, plain, zero_add, Nat.cast_one, one_mul, add_zero]
  have : demo.current 0 (demo.omega 1.2 0.05 0) * -0.5 / 0.9 < 0 :=
    div_neg_of_neg_of_pos (by linarith) (by norm_num)
  linarith

/-- Charging: current and power have the signs of a battery being filled, and agree. -/
theorem C109_charging (cellI cellV ns np : ℝ) (h1 : 0 < cellI) (h2 : 0 < cellV) (h3 : 0 < ns) (h4 : 0 < np) :
    (charging cellI cellV ns np).current < 0 ∧ 0 < (charging cellI cellV ns np).powerIn
      ∧ (charging cellI cellV ns np).powerIn = (ns * np) * (cellI * cellV) := by
  simp only [charging]
  refine ⟨by nlinarith [mul_pos h1 h4], ?_, by ring⟩
  rw [show -(-cellI * np) * (cellV * ns) = (cellI * np) * (cellV * ns) by ring]
  positivity

/-- Power per cell times the number of cells is the pack power only without cells in parallel. -/
theorem C109_cell_power_counterexample (powerIn : ℝ) (ns np : ℕ) (hs : 0 < ns) (hp : 2 ≤ np) (h : powerIn ≠ 0) :
    cellPowerDraw powerIn ns * ((ns : ℝ) * np) ≠ powerIn := by
  have h1 : (ns : ℝ) ≠ 0 := by positivity
  have e : cellPowerDraw powerIn ns * ((ns : ℝ) * np) = np * powerIn := by unfold cellPowerDraw; field_simp
  rw [e]
  intro hc
  have h2 : (np : ℝ) = 1 := mul_right_cancel₀ h (by linarith)
  have : np = 1 := by exact_mod_cast h2
  omega

/-- Energy per cell does use the number of cells. -/
theorem C109_cell_energy (energy : ℝ) (ns np : ℕ) (hs : 0 < ns) (hp : 0 < np) :
    cellEnergy energy ns np * ((ns * np : ℕ) : ℝ) = energy := by
  have h1 : (ns : ℝ) ≠ 0 := by positivity
  have h2 : (np : ℝ) ≠ 0 := by positivity
  unfold cellEnergy
  push_cast
  field_simp

example : ∃ o, batteryPropeller ⟨[plain], 2, true, 0.9⟩ 100 50 20 1.2 0.5 90 = some o ∧ o.thrust 0 = 6 ∧ o.thrust 2 = 8 := by
  refine ⟨_, by simp only [batteryPropeller, Group.run, evaluated, if_true, Option.map_some, Option.bind_some, loop,
    List.foldl_cons, List.foldl_nil, step, List.nil_append, List.getLast?_singleton]; rfl, ?_, ?_⟩
  · norm_num [plain, over]
  · norm_num [plain, over]
    rw [show (![3, 0, 4] : Fin 3 → ℝ) 2 = 4 from rfl]; norm_num

/-! ## C110: lift and cruise network -/

theorem liftCruise_parts {f l : Group} {avionics payload ρ t tl volts : ℝ} {o : BatteryOut}
    (h : liftCruise f l avionics payload ρ t tl volts = some o) :
    ∃ rf rl, f.run ρ t volts = some rf ∧ l.run ρ tl volts = some rl
      ∧ o.thrust = (fun k => rf.1.thrust k + rl.1.thrust k)
      ∧ o.current = rl.2 + rf.2 + (avionics + payload) / volts ∧ o.powerIn = -(o.current * volts) := by
  unfold liftCruise at h
  rw [Option.bind_eq_some_iff] at h
  obtain ⟨rf, hf, h⟩ := h
  rw [Option.bind_eq_some_iff] at h
  obtain ⟨rl, hl, h⟩ := h
  rw [Option.bind_eq_some_iff] at h
  obtain ⟨a, _, h⟩ := h
  rw [Option.map_eq_some_iff] at h
  obtain ⟨b, _, rfl⟩ := h
  exact ⟨rf, rl, hf, hl, rfl, rfl, rfl⟩

/-- Current and power of the battery agree, and the battery feeds both groups and the systems. -/
theorem C110_power (f l : Group) (avionics payload ρ t tl volts : ℝ) (o : BatteryOut)
    (h : liftCruise f l avionics payload ρ t tl volts = some o) (h0 : 0 ≤ t) (h1 : t ≤ 1) (h2 : 0 ≤ tl) (h3 : tl ≤ 1)
    (hf : f.eff ≠ 0) (hl : l.eff ≠ 0) (hv : volts ≠ 0) :
    -o.powerIn = volts * o.current
      ∧ -o.powerIn = avionics + payload
        + ((fleet f).map fun d => escVoltage t volts * d.amps ρ (escVoltage t volts)).sum / f.eff
        + ((fleet l).map fun d => escVoltage tl volts * d.amps ρ (escVoltage tl volts)).sum / l.eff := by
  obtain ⟨rf, rl, ef, el, _, hc, hp⟩ := liftCruise_parts h
  obtain ⟨a, _, c⟩ := run_spec f ρ t volts rf ef
  obtain ⟨a', _, c'⟩ := run_spec l ρ tl volts rl el
  refine ⟨by rw [hp]; ring, ?_⟩
  have e1 := C108_power_partial t f.eff volts rf.1.current h0 h1 hf
  have e2 := C108_power_partial tl l.eff volts rl.1.current h2 h3 hl
  rw [List.sum_map_mul_left, List.sum_map_mul_left, ← a, ← a', e1, e2, ← c, ← c', hp, hc]
  field_simp
  ring

/-- Thrust is that of all propellers and lift rotors. -/
theorem C110_thrust (f l : Group) (avionics payload ρ t tl volts : ℝ) (o : BatteryOut)
    (h : liftCruise f l avionics payload ρ t tl volts = some o) (h1 : t ≤ 1) (h3 : tl ≤ 1) (k : Fin 3) :
    o.thrust k = ((fleet f).map fun d => d.pull ρ (escVoltage t volts) k).sum
      + ((fleet l).map fun d => d.pull ρ (escVoltage tl volts) k).sum := by
  obtain ⟨rf, rl, ef, el, ht, _⟩ := liftCruise_parts h
  rw [ht]
  dsimp only
  rw [(run_spec f ρ t volts rf ef).2.1 k, (run_spec l ρ tl volts rl el).2.1 k]
  have o1 : ∀ x, over t x = x := fun x => by unfold over; rw [if_neg (not_lt.2 h1)]
  have o2 : ∀ x, over tl x = x := fun x => by unfold over; rw [if_neg (not_lt.2 h3)]
  simp only [o1, o2]

theorem stopped (d : Drive) (ρ : ℝ) (h : d.Cp = 0) : d.ω ρ 0 = 0 ∧ d.amps ρ 0 = 0 := by
  have hw : d.ω ρ 0 = 0 := by
    unfold Drive.ω Motor.omega
    rw [h]
    split_ifs <;> simp
  refine ⟨hw, ?_⟩
  unfold Drive.amps Motor.current
  rw [hw]
  simp

/-- In cruise (lift throttle and lift power coefficient zero, as `unpack_unknowns_cruise` sets them) the lift
rotors stand still and the battery draws what the propellers and systems need. -/
theorem C110_cruise (f l : Group) (avionics payload ρ t volts : ℝ) (o : BatteryOut)
    (h : liftCruise f l avionics payload ρ t 0 volts = some o) (hC : ∀ d ∈ fleet l, d.Cp = 0) :
    (∀ d ∈ fleet l, d.ω ρ (escVoltage 0 volts) = 0)
      ∧ ∃ rf, f.run ρ t volts = some rf ∧ o.current = rf.2 + (avionics + payload) / volts := by
  have hv : escVoltage 0 volts = 0 := by unfold escVoltage; rw [clamp_low le_rfl, zero_mul]
  obtain ⟨rf, rl, ef, el, _, hc, _⟩ := liftCruise_parts h
  obtain ⟨a, _, c⟩ := run_spec l ρ 0 volts rl el
  refine ⟨fun d hd => by rw [hv]; exact (stopped d ρ (hC d hd)).1, rf, ef, ?_⟩
  rw [hc, c]
  unfold escCurrent
  ring

/-- In hover (throttle and power coefficient of the propellers zero, as `unpack_unknowns_lift` sets them) the
propellers stand still and draw nothing. -/
theorem C110_hover (f l : Group) (avionics payload ρ tl volts : ℝ) (o : BatteryOut)
    (h : liftCruise f l avionics payload ρ 0 tl volts = some o) (hC : ∀ d ∈ fleet f, d.Cp = 0) :
    (∀ d ∈ fleet f, d.ω ρ (escVoltage 0 volts) = 0)
      ∧ ∃ rl, l.run ρ tl volts = some rl ∧ o.current = rl.2 + (avionics + payload) / volts := by
  have hv : escVoltage 0 volts = 0 := by unfold escVoltage; rw [clamp_low le_rfl, zero_mul]
  obtain ⟨rf, rl, ef, el, _, hc, _⟩ := liftCruise_parts h
  obtain ⟨a, _, c⟩ := run_spec f ρ 0 volts rf ef
  refine ⟨fun d hd => by rw [hv]; exact (stopped d ρ (hC d hd)).1, rl, el, ?_⟩
  rw [hc, c]
  unfold escCurrent
  ring

example : ∃ o, liftCruise ⟨[plain], 1, true, 0.9⟩ ⟨[plain, plain], 2, false, 0.9⟩ 50 20 1.2 0.5 0.5 90 = some o
    ∧ o.thrust 0 = 9 := by
  refine ⟨_, by simp only [liftCruise, Group.run, evaluated, if_true, Bool.false_eq_true, if_false, List.length_cons,
    List.length_nil, zero_add, Nat.reduceAdd, le_refl, Option.map_some, Option.bind_some, loop, List.take_succ_cons,
    List.take_zero,
    List.foldl_cons, List.foldl_nil, step, List.nil_append, List.cons_append, List.getLast?_singleton, List.getLast?_cons_cons]; rfl, ?_⟩
  norm_num [plain, over]

/-! ## C111: gearbox -/

/-- Speed follows the radii, and power is reduced by the efficiency. -/
theorem C111_speed (R1 R2 η : ℝ) (i : Shaft) (h2 : R2 ≠ 0) :
    (gearbox R1 R2 η i).speed * R2 = i.speed * R1 ∧ (gearbox R1 R2 η i).power = η * i.power := by
  simp only [gearbox]
  exact ⟨by field_simp, by ring⟩

/-- Power is torque times speed on the output shaft when the wheels are equal. -/
theorem C111_power_partial (R η : ℝ) (i : Shaft) (hR : R ≠ 0) (hi : i.power = i.torque * i.speed) :
    (gearbox R R η i).power = (gearbox R R η i).torque * (gearbox R R η i).speed := by
  simp only [gearbox]
  rw [hi]
  field_simp

/-- With unequal wheels it is not: the torque is multiplied by the ratio of the speeds instead of being divided
by it. -/
theorem C111_torque_counterexample (R1 R2 η : ℝ) (i : Shaft) (h1 : 0 < R1) (h2 : 0 < R2) (hne : R1 ≠ R2) (hη : η ≠ 0)
    (hi : i.power = i.torque * i.speed) (hp : i.power ≠ 0) :
    (gearbox R1 R2 η i).power ≠ (gearbox R1 R2 η i).torque * (gearbox R1 R2 η i).speed := by
  simp only [gearbox]
  intro hc
  have e : i.torque * R1 / R2 * η * (i.speed * R1 / R2) = i.power * η * (R1 / R2) ^ 2 := by
    rw [hi]; field_simp
  rw [e] at hc
  have h3 : (R1 / R2) ^ 2 = 1 := by
    have : i.power * η * (R1 / R2) ^ 2 = i.power * η * 1 := by linarith
    exact mul_left_cancel₀ (mul_ne_zero hp hη) this
  have h4 : 0 < R1 / R2 := div_pos h1 h2
  have h5 : R1 / R2 = 1 := by nlinarith
  rw [div_eq_one_iff_eq h2.ne'] at h5
  exact hne h5

example : (gearbox 1 2 1 ⟨10, 100, 1000⟩).speed = 50 ∧ (gearbox 1 2 1 ⟨10, 100, 1000⟩).torque = 5
    ∧ (gearbox 1 2 1 ⟨10, 100, 1000⟩).power = 1000 := by norm_num [gearbox]

/-! ## C112: solar networks -/

/-- What the panels give goes to the systems, the motors and the battery. -/
theorem C112_power (g : Group) (mppt system flux area eff avionics payload ρ t : ℝ) (o : SolarOut)
    (h : solarNetwork g mppt system flux area eff avionics payload ρ t = some o) (h0 : 0 ≤ t) (h1 : t ≤ 1)
    (he : g.eff ≠ 0) :
    flux * area * eff * mppt = o.logic.powerIn + avionics + payload
      + ((fleet g).map fun d => escVoltage t system * d.amps ρ (escVoltage t system)).sum / g.eff := by
  unfold solarNetwork at h
  rw [Option.map_eq_some_iff] at h
  obtain ⟨r, hr, rfl⟩ := h
  obtain ⟨a, _, c⟩ := run_spec g ρ t system r hr
  have e1 := C108_power_partial t g.eff system r.1.current h0 h1 he
  rw [List.sum_map_mul_left, ← a, e1, ← c]
  simp only [solarLogic, solarPower]
  field_simp
  ring

/-- The battery's share is the charging current times the system voltage. -/
theorem C112_charge (g : Group) (mppt system flux area eff avionics payload ρ t : ℝ) (o : SolarOut)
    (h : solarNetwork g mppt system flux area eff avionics payload ρ t = some o) (hv : system ≠ 0) :
    o.logic.powerIn = system * o.logic.current := by
  unfold solarNetwork at h
  rw [Option.map_eq_some_iff] at h
  obtain ⟨r, hr, rfl⟩ := h
  simp only [solarLogic]
  field_simp

/-- The battery current that is recorded is not the battery's: it is the motors' current, so it is a
discharge of the same size by day and by night. -/
theorem C112_current_counterexample (g : Group) (mppt system flux area eff avionics payload ρ t : ℝ) (o : SolarOut)
    (h : solarNetwork g mppt system flux area eff avionics payload ρ t = some o)
    (hne : flux * area * eff * mppt ≠ avionics + payload) : o.logic.powerIn ≠ -(system * o.current) := by
  unfold solarNetwork at h
  rw [Option.map_eq_some_iff] at h
  obtain ⟨r, hr, rfl⟩ := h
  simp only [solarLogic, solarPower]
  intro hc
  exact hne (by linarith)

/-- Low fidelity: from the controller to the thrust power through the configured efficiencies. -/
theorem C112_low_partial (m : Motor) (η etap escEff mppt system flux area eff avionics payload V t n : ℝ)
    (hs : 0 < system) (h0 : 0 < t) (h1 : t ≤ 1) (he : escEff ≠ 0) (hV : V ≠ 0) (hG : m.gear ≠ 0) (hK : 0 < m.Kv)
    (hr : 0 < m.res) (hio : 0 < m.io) (hη : η ≤ 1) (hi : 0 ≤ m.inside η (escVoltage t system)) :
    (solarLow m η etap escEff mppt system flux area eff avionics payload V t n).thrust * V
      = etap * η * escEff * (system * (solarLow m η etap escEff mppt system flux area eff avionics payload V t n).escTotal) := by
  have hv : 0 < escVoltage t system := by
    unfold escVoltage; rw [clamp_id h0.le h1]; exact mul_pos h0 hs
  have hE := C107_efficiency m η _ hv hG hK hr hio hη hi
  have hlt := omegaLo_lt m η _ hv hr hio hη hi
  have hw := omegaLo_eq m η _ hv.ne' hi
  have hd : m.omegaLo η (escVoltage t system) / m.Kv < escVoltage t system := by
    rw [hw, mul_div_assoc, mul_comm, div_mul_cancel₀ _ hK.ne']; exact hlt
  have hP := C106_efficiency m _ _ η hG hK.ne' hr (by linarith) hE
  have ho : ∀ x, over t x = x := fun x => by unfold over; rw [if_neg (not_lt.2 h1)]
  have hC := C108_power_partial t escEff system (m.current (escVoltage t system) (m.omegaLo η (escVoltage t system))) h0.le h1 he
  simp only [solarLow, spinLo, ho]
  rw [← hP, hC]
  field_simp

/-- Above full throttle the low-fidelity network applies the throttle to the current twice. -/
theorem C112_over_counterexample (m : Motor) (η etap escEff mppt system flux area eff avionics payload V t n : ℝ)
    (h1 : 1 < t) (he : escEff ≠ 0)
    (hn : n ≠ 0) (hi : m.current system (m.omegaLo η system) ≠ 0) :
    escEff * (solarLow m η etap escEff mppt system flux area eff avionics payload V t n).escTotal
        = n * t ^ 2 * m.current system (m.omegaLo η system)
      ∧ escEff * (solarLow m η etap escEff mppt system flux area eff avionics payload V t n).escTotal
        ≠ n * t * m.current system (m.omegaLo η system) := by
  have hv : escVoltage t system = system := by unfold escVoltage; rw [clamp_high h1.le, one_mul]
  have e : escEff * (solarLow m η etap escEff mppt system flux area eff avionics payload V t n).escTotal
      = n * t ^ 2 * m.current system (m.omegaLo η system) := by
    simp only [solarLow, hv, over, if_pos h1, escCurrent]
    field_simp
  refine ⟨e, ?_⟩
  rw [e]
  intro hc
  have := mul_right_cancel₀ hi hc
  have h2 : t ^ 2 = t := mul_left_cancel₀ hn this
  nlinarith

example : (solarLogic 0.95 60 1000 50 30 10).powerIn = 270 := by norm_num [solarLogic]

/-! ## C113: ducted-fan networks -/

/-- Battery and ducted fan: the battery gives the fan's power over both efficiencies, plus the systems, whatever
the throttle. -/
theorem C113_power_partial (power motorEff escEff nominal avionics payload t : ℝ) (o : FanOut)
    (h : batteryFan power motorEff escEff nominal avionics payload t = some o) (h1 : t ≤ 1) (he : escEff ≠ 0)
    (hm : motorEff ≠ 0) (hn : nominal ≠ 0) :
    -o.powerIn = power / (motorEff * escEff) + avionics + payload ∧ nominal * o.current = -o.powerIn := by
  unfold batteryFan at h
  split_ifs at h with hz
  obtain rfl := Option.some.inj h
  have ht : 0 < t := by
    by_contra hc
    push Not at hc
    exact hz (by unfold escVoltage; rw [clamp_low hc, zero_mul])
  have ht' := ht.ne'
  simp only [escCurrent, escVoltage, clamp_id ht.le h1]
  constructor
  · field_simp
    ring
  · field_simp

/-- Above full throttle the battery is charged the throttle times that. -/
theorem C113_over_counterexample (power motorEff escEff nominal t : ℝ) (o : FanOut)
    (h : batteryFan power motorEff escEff nominal 0 0 t = some o) (h1 : 1 < t) (he : escEff ≠ 0)
    (hm : motorEff ≠ 0) (hn : nominal ≠ 0) (hp : power ≠ 0) : -o.powerIn ≠ power / (motorEff * escEff) := by
  unfold batteryFan at h
  split_ifs at h with hz
  obtain rfl := Option.some.inj h
  have e : -(-(nominal * escCurrent t escEff (power / motorEff / escVoltage t nominal) + (0 + 0)))
      = t * (power / (motorEff * escEff)) := by
    simp only [escCurrent, escVoltage, clamp_high h1.le]
    field_simp
    ring
  dsimp only
  rw [e]
  intro hc
  have : t = 1 := mul_right_cancel₀ (div_ne_zero hp (mul_ne_zero hm he)) (by linarith)
  linarith

/-- At zero throttle no battery power exists (a division by zero). -/
theorem C113_idle_counterexample (power motorEff escEff nominal avionics payload : ℝ) :
    batteryFan power motorEff escEff nominal avionics payload 0 = none := by
  unfold batteryFan
  rw [if_pos (by unfold escVoltage; rw [clamp_low le_rfl, zero_mul])]

/-- The hybrid network adds what the generator makes. -/
theorem C113_hybrid (power motorEff escEff nominal avionics payload sfc maxPower t : ℝ) (o : FanOut)
    (h : hybridFan power motorEff escEff nominal avionics payload sfc maxPower t = some o) (h1 : t ≤ 1) (he : escEff ≠ 0)
    (hm : motorEff ≠ 0) (hn : nominal ≠ 0) :
    -o.powerIn = power / (motorEff * escEff) + avionics + payload - maxPower ∧ nominal * o.current = -o.powerIn
      ∧ o.massRate = sfc * maxPower := by
  unfold hybridFan at h
  split_ifs at h with hz
  obtain rfl := Option.some.inj h
  have ht : 0 < t := by
    by_contra hc
    push Not at hc
    exact hz (by unfold escVoltage; rw [clamp_low hc, zero_mul])
  have ht' := ht.ne'
  simp only [escCurrent, escVoltage, clamp_id ht.le h1, generator]
  refine ⟨?_, ?_, by ring⟩
  · field_simp
    ring
  · field_simp
    ring

/-- The generator burns fuel at full power even when nothing is asked for. -/
theorem C113_generator_counterexample (motorEff escEff nominal sfc maxPower t : ℝ) (o : FanOut)
    (h : hybridFan 0 motorEff escEff nominal 0 0 sfc maxPower t = some o) (hs : 0 < sfc) (hp : 0 < maxPower) :
    0 < o.massRate := by
  unfold hybridFan at h
  split_ifs at h with hz
  obtain rfl := Option.some.inj h
  simp only [generator]
  positivity

example : ∃ o, batteryFan 9000 0.9 0.5 100 40 10 0.5 = some o ∧ o.powerIn = -20050 := by
  have hv : escVoltage 0.5 100 = 50 := by unfold escVoltage; rw [clamp_id (by norm_num) (by norm_num)]; norm_num
  unfold batteryFan
  rw [hv, if_neg (by norm_num)]
  exact ⟨_, rfl, by norm_num [escCurrent]⟩

end Verif.Electric
