import Mathlib.Analysis.SpecialFunctions.Log.Base
import Mathlib.Analysis.SpecialFunctions.Pow.Real
import Mathlib.Data.Finset.Max
import Mathlib.Order.Interval.Finset.Basic
import Mathlib.Data.Int.Interval

/-!
`Methods/Noise/Fidelity_One/Noise_Tools`: decibel arithmetic, third-octave bands, perceived noise level, tone
correction, effective perceived noise level, A-weighting.  Levels are reals; `-inf` and exceptions are `none`.
-/

namespace Verif.Noise
open Real

/-- `10**(SPL/10)`, the pressure ratio squared of a level (decibel_arithmetic.py:62, 88). -/
noncomputable def power (L : ℝ) : ℝ := (10 : ℝ) ^ (L / 10)

/-- `10*np.log10(p)` (decibel_arithmetic.py:35, 63, 89). -/
noncomputable def level (p : ℝ) : ℝ := 10 * logb 10 p

/-- One entry of `SPL_spectra_arithmetic` (decibel_arithmetic.py:88-91) and of `SPL_arithmetic` for two or more
dimensions (decibel_arithmetic.py:62-65): the values along the summed axis; `none` is the `-inf` of an empty axis. -/
noncomputable def total (s : List ℝ) : Option ℝ :=
  if s = [] then none else some (level (s.map power).sum)

/-- An argument of `SPL_arithmetic`: one dimension, or the values along the summed axis for every other index. -/
inductive Arr where
  | flat (s : List ℝ)
  | rows (r : List (List ℝ))

/-- `SPL_arithmetic` (decibel_arithmetic.py:59-65). -/
noncomputable def splArithmetic : Arr → List (Option ℝ)
  | .flat s => s.map some
  | .rows r => r.map total

/-- A harmonic: frequency and level. -/
structure Tone where
  f : ℝ
  L : ℝ

open Classical in
/-- One band of `SPL_harmonic_to_third_octave` (SPL_harmonic_to_third_octave.py:57-65) at one control point,
microphone and rotor.  The value is written after each harmonic; the last write is that of the whole list.  The
statement in line 64 has no effect. -/
noncomputable def band (hs : List Tone) (lo hi : ℝ) : ℝ :=
  (total ((hs.filter fun h => lo ≤ h.f ∧ h.f ≤ hi).map Tone.L)).getD 0

/-- All bands (SPL_harmonic_to_third_octave.py:58). -/
noncomputable def thirdOctave (lf uf : List ℝ) (hs : List Tone) : List ℝ :=
  (lf.zip uf).map fun b => band hs b.1 b.2

/-- `settings.lower_frequencies` (Analyses/Noise/Fidelity_One.py:95-96). -/
def lowerFrequencies : List ℝ :=
  [14, 18, 22.4, 28, 35.5, 45, 56, 71, 90, 112, 140, 180, 224, 280, 355, 450, 560, 710, 900, 1120, 1400, 1800, 2240,
    2800, 3550, 4500, 5600, 7100, 9000]

/-- `settings.upper_frequencies` (Analyses/Noise/Fidelity_One.py:97-98). -/
def upperFrequencies : List ℝ :=
  [18, 22.4, 28, 35.5, 45, 56, 71, 90, 112, 140, 180, 224, 280, 355, 450, 560, 710, 900, 1120, 1400, 1800, 2240, 2800,
    3550, 4500, 5600, 7100, 9000, 11200]

/-! ## Effective perceived noise level -/

open Classical in
/-- A `while` over the history (epnl_noise.py:49-51, 59-60; senel_noise.py:43-45, 53-54): moves on as long as the
test holds.  The test `i<=nsteps` never stops the loop before the index error at `i = nsteps`, which is `none`. -/
noncomputable def scan (n : ℕ) (c : ℕ → Prop) : ℕ → ℕ → Option ℕ
  | 0, _ => none
  | k + 1, i => if n ≤ i then none else if c i then scan n c k (i + 1) else some i

/-- Python index: `-1` is the last. -/
def wrap (n : ℕ) (i : ℤ) : ℕ := if i < 0 then (n + i).toNat else i.toNat

/-- `np.max` of the history (epnl_noise.py:38, senel_noise.py:37). -/
noncomputable def peak (n : ℕ) (p : ℕ → ℝ) (h : 0 < n) : ℝ :=
  (Finset.range n).sup' ⟨0, Finset.mem_range.2 h⟩ p

open Classical in
/-- The window `t1`, `t2` (epnl_noise.py:49-61, senel_noise.py:43-55). -/
noncomputable def window (n : ℕ) (p : ℕ → ℝ) (m : ℝ) : Option (ℕ × ℤ) :=
  (scan n (fun i => p i ≤ m - 10) (n + 1) 0).bind fun t1 =>
    if m - 10 ≤ p (n - 1) then some (t1, (n : ℤ) - 2)
    else (scan n (fun i => m - 10 ≤ p i) (n + 1) (t1 + 1)).map fun (i : ℕ) => (t1, (i : ℤ) - 1)

/-- The sum over `range(t1-1, t2+1)` (epnl_noise.py:64-66, senel_noise.py:58-60). -/
noncomputable def windowSum (n : ℕ) (p : ℕ → ℝ) (w : ℕ × ℤ) : ℝ :=
  ∑ i ∈ Finset.Ico ((w.1 : ℤ) - 1) (w.2 + 1), power (p (wrap n i))

/-- `senel_noise` (senel_noise.py:37-64). -/
noncomputable def senel (n : ℕ) (p : ℕ → ℝ) : Option ℝ :=
  if h : 0 < n then (window n p (peak n p h)).map fun w => level (windowSum n p w) else none

open Classical in
/-- `epnl_noise` (epnl_noise.py:38-74). -/
noncomputable def epnl (n : ℕ) (p : ℕ → ℝ) : Option ℝ :=
  if h : 0 < n then
    if ∀ i < n, p i = 0 then some 0
    else (window n p (peak n p h)).map fun w =>
      peak n p h + (level (windowSum n p w) - peak n p h - 13)
  else none

/-! ## Perceived noise level -/

/-- Columns 2 to 10 of a row of `noy` (pnl_noise.py:38-61). -/
structure Noy where
  a : ℝ
  b : ℝ
  c : ℝ
  d : ℝ
  e : ℝ
  mb : ℝ
  mc : ℝ
  md : ℝ
  me : ℝ

/-- The table (pnl_noise.py:38-61), one row per band from 50 Hz to 10 kHz. -/
noncomputable def noy : List Noy :=
  [⟨91, 64, 52, 49, 55, 0.043478, 0.030103, 0.07952, 0.058098⟩,
   ⟨85.9, 60, 51, 44, 51, 0.04057, 0.030103, 0.06816, 0.058098⟩,
   ⟨87.3, 56, 49, 39, 46, 0.036831, 0.030103, 0.06816, 0.052288⟩,
   ⟨79.9, 53, 47, 34, 42, 0.036831, 0.030103, 0.05964, 0.047534⟩,
   ⟨79.8, 51, 46, 30, 39, 0.035336, 0.030103, 0.053013, 0.043573⟩,
   ⟨76, 48, 45, 27, 36, 0.033333, 0.030103, 0.053013, 0.043573⟩,
   ⟨74, 46, 43, 24, 33, 0.033333, 0.030103, 0.053013, 0.040221⟩,
   ⟨74.9, 44, 42, 21, 30, 0.032051, 0.030103, 0.053013, 0.037349⟩,
   ⟨94.6, 42, 41, 18, 27, 0.030675, 0.030103, 0.053013, 0.034859⟩,
   ⟨9999999, 40, 40, 16, 25, 0.030103, 0, 0.053013, 0.034859⟩,
   ⟨9999999, 40, 40, 16, 25, 0.030103, 0, 0.053013, 0.034859⟩,
   ⟨9999999, 40, 40, 16, 25, 0.030103, 0, 0.053013, 0.034859⟩,
   ⟨9999999, 40, 40, 16, 25, 0.030103, 0, 0.053013, 0.034859⟩,
   ⟨9999999, 40, 40, 16, 25, 0.030103, 0, 0.053013, 0.034859⟩,
   ⟨9999999, 38, 38, 15, 23, 0.030103, 0, 0.05964, 0.034859⟩,
   ⟨9999999, 34, 34, 12, 21, 0.02996, 0, 0.053013, 0.040221⟩,
   ⟨9999999, 32, 32, 9, 18, 0.02996, 0, 0.053013, 0.037349⟩,
   ⟨9999999, 30, 30, 5, 15, 0.02996, 0, 0.047712, 0.034859⟩,
   ⟨9999999, 29, 29, 4, 14, 0.02996, 0, 0.047712, 0.034859⟩,
   ⟨9999999, 29, 29, 5, 14, 0.02996, 0, 0.053013, 0.034859⟩,
   ⟨9999999, 30, 30, 6, 15, 0.02996, 0, 0.053013, 0.034859⟩,
   ⟨9999999, 31, 31, 10, 17, 0.02996, 0, 0.06816, 0.037349⟩,
   ⟨44.3, 37, 34, 17, 23, 0.042285, 0.02996, 0.07952, 0.037349⟩,
   ⟨50.7, 41, 37, 21, 29, 0.042285, 0.02996, 0.05964, 0.043573⟩]

/-- Noisiness of a band (pnl_noise.py:75-85): four consecutive `if`s, each overwriting.  The first compares with
`noy[1][2]` for every band; `a1` is that number. -/
noncomputable def noisiness (a1 : ℝ) (r : Noy) (L : ℝ) : ℝ :=
  let x0 := 0
  let x1 := if a1 ≤ L then (10 : ℝ) ^ (r.mc * (L - r.c)) else x0
  let x2 := if r.b ≤ L ∧ L < r.a then (10 : ℝ) ^ (r.mb * (L - r.b)) else x1
  let x3 := if r.e ≤ L ∧ L < r.b then 0.3 * (10 : ℝ) ^ (r.me * (L - r.e)) else x2
  if r.d ≤ L ∧ L < r.e then 0.1 * (10 : ℝ) ^ (r.md * (L - r.d)) else x3

/-- `SPL_noy[j]` (pnl_noise.py:66-85): the loop stops before the last band, which stays zero. -/
noncomputable def noys (L : List ℝ) : List ℝ :=
  ((noy.take 23).zip (L.take 23)).map (fun x => noisiness 85.9 x.1 x.2) ++ [0]

/-- `0.85*max_noy+0.15*np.sum(SPL_noy)` (pnl_noise.py:90-91). -/
noncomputable def combine (x : List ℝ) : ℝ := 0.85 * x.foldr max 0 + 0.15 * x.sum

/-- Level of a noisiness (pnl_noise.py:96-98). -/
noncomputable def loudness (N : ℝ) : ℝ :=
  let N' := if N = 0 then 0.0625 else N
  40 + (10 / logb 10 2) * logb 10 N'

/-- `pnl_noise` for one spectrum of 24 bands (pnl_noise.py:72-98). -/
noncomputable def pnl (L : List ℝ) : ℝ := loudness (combine (noys L))

/-! ## Tone correction -/

/-- Step 1 (noise_tone_correction.py:41, 51-52). -/
noncomputable def slope (L : ℕ → ℝ) (i : ℕ) : ℝ := if 3 ≤ i ∧ i < 23 then L i - L (i - 1) else 0

/-- Step 2 (noise_tone_correction.py:57-63). -/
noncomputable def irregular (L : ℕ → ℝ) (i : ℕ) : Prop := 3 ≤ i ∧ i < 23 ∧ 5 < |slope L i - slope L (i - 1)|

/-- Step 3 (noise_tone_correction.py:67-75): whether `step3[i]` is not zero. -/
def encircled (L : ℕ → ℝ) (i : ℕ) : Prop :=
  (irregular L i ∧ 0 < slope L i ∧ slope L (i - 1) < slope L i)
    ∨ (i < 22 ∧ irregular L (i + 1) ∧ slope L (i + 1) ≤ 0 ∧ 0 < slope L i)

open Classical in
/-- Step 4 (noise_tone_correction.py:80-87). -/
noncomputable def smoothed (L : ℕ → ℝ) (i : ℕ) : ℝ :=
  if 1 ≤ i ∧ i < 23 then
    if encircled L i then (if i = 22 then L (i - 1) + slope L (i - 1) else (L (i - 1) + L (i + 1)) / 2) else L i
  else 0

/-- Step 5 (noise_tone_correction.py:92-96). -/
noncomputable def slope5 (L : ℕ → ℝ) (i : ℕ) : ℝ :=
  if 3 ≤ i ∧ i < 23 then smoothed L i - smoothed L (i - 1)
  else if i = 2 then smoothed L 3 - smoothed L 2
  else 0

/-- Step 6 (noise_tone_correction.py:101-106); `i` never reaches 22. -/
noncomputable def slope6 (L : ℕ → ℝ) (i : ℕ) : ℝ :=
  if 2 ≤ i ∧ i < 22 then (slope5 L i + slope5 L (i + 1) + slope5 L (i + 2)) / 3 else 0

/-- Step 7 (noise_tone_correction.py:111-114), for bands 2 to 22. -/
noncomputable def background (L : ℕ → ℝ) : ℕ → ℝ
  | 0 => 0
  | 1 => 0
  | 2 => L 2
  | i + 3 => if i + 3 < 23 then background L (i + 2) + slope6 L (i + 2) else 0

/-- Step 8 (noise_tone_correction.py:119-138). -/
noncomputable def excess (L : ℕ → ℝ) (i : ℕ) : ℝ :=
  if 2 ≤ i ∧ i < 16 then if 1.5 ≤ L i - background L i then L i - background L i else 0
  else if 17 ≤ i ∧ i < 22 then
    if 1.5 ≤ L i - background L i ∧ 0 < L i ∧ 0 < L (i + 1) ∧ 0 < L (i - 1) then L i - background L i else 0
  else if i = 23 then
    if 1.5 ≤ L i - background L i ∧ 0 < L 23 ∧ 0 < L 22 then L i - background L i else 0
  else 0

/-- Step 9 for the low and high bands (noise_tone_correction.py:145-150, 159-164). -/
noncomputable def factorLow (x : ℝ) : ℝ :=
  if 20 < x then 3 + 1 / 3 else if 3 ≤ x ∧ x < 20 then x / 6 else if 1.5 ≤ x ∧ x < 3 then x / 3 - 0.5 else 0

/-- Step 9 for the middle bands (noise_tone_correction.py:152-157). -/
noncomputable def factorMid (x : ℝ) : ℝ :=
  if 20 < x then 6 + 2 / 3 else if 3 ≤ x ∧ x < 20 then x / 3 else if 1.5 ≤ x ∧ x < 3 then 2 / 3 * x - 1 else 0

/-- Step 9 (noise_tone_correction.py:143-164). -/
noncomputable def correction (L : ℕ → ℝ) (i : ℕ) : ℝ :=
  if 2 ≤ i ∧ i < 9 then factorLow (excess L i)
  else if 10 ≤ i ∧ i < 20 then factorMid (excess L i)
  else if 21 ≤ i ∧ i < 23 then factorLow (excess L i)
  else 0

/-- Step 10 (noise_tone_correction.py:169) for one spectrum. -/
noncomputable def toneCorrection (L : ℕ → ℝ) : ℝ :=
  (Finset.range 23).sup' ⟨0, by simp⟩ (correction L)

/-- `noise_tone_correction` (noise_tone_correction.py:40-171): the `return` stands in the loop over the spectra;
without a spectrum nothing is returned. -/
noncomputable def toneCorrections (s : List (ℕ → ℝ)) : Option (List ℝ) :=
  match s with
  | [] => none
  | L :: rest => some (toneCorrection L :: rest.map fun _ => 0)

/-! ## A-weighting -/

/-- `dbA_attenuation` (dbA_noise.py:38). -/
noncomputable def dbA : List ℝ :=
  [-30.2, -26.2, -22.5, -19.1, -16.1, -13.4, -10.9, -8.6, -6.6, -4.8, -3.2, -1.9, -0.8, 0, 0.6, 1, 1.2, 1.3, 1.2, 1, 0.5,
    -0.1, -1.1, -2.5]

/-- `dbA_noise` for one spectrum (dbA_noise.py:41). -/
noncomputable def dbANoise (s : List ℝ) : List ℝ := List.zipWith (· + ·) s dbA

/-- `Ra_f` (dbA_noise.py:64). -/
noncomputable def weight (f : ℝ) : ℝ :=
  (12194 ^ 2 * f ^ 4)
    / ((f ^ 2 + 20.6 ^ 2) * (f ^ 2 + 12194 ^ 2) * (f ^ 2 + 107.7 ^ 2) ^ (0.5 : ℝ) * (f ^ 2 + 737.9 ^ 2) ^ (0.5 : ℝ))

/-- `A_weighting` (dbA_noise.py:64-66), `f` not zero. -/
noncomputable def aWeighting (L f : ℝ) : ℝ := L + (2.0 + 20 * logb 10 (weight f))

end Verif.Noise
