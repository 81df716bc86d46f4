import Verif.Noise.Propeller

/-!
The level of a set of rotors out of its spectra.

Sources: trunk/SUAVE/Methods/Noise/Fidelity_One/Propeller/propeller_mid_fidelity.py 81-92,
trunk/SUAVE/Methods/Noise/Fidelity_One/Noise_Tools/decibel_arithmetic.py 68-91.

Simplifications: one control point and one microphone; levels are reals or `none` for nan. The logarithm of zero, for no rotors or no bands
at all, is that of Lean.
-/

namespace Verif.Noise.Mic

open Real

/-- Harmonic and broadband levels of one rotor in one band, plain and weighted. -/
structure Cell where
  h : Option ℝ
  b : Option ℝ
  hA : Option ℝ
  bA : Option ℝ

/-- The sum of lines 82 and 84, nan when one of the two is. -/
noncomputable def combine (h b : Option ℝ) : Option ℝ := h.bind fun x => b.bind fun y => some (bandTotal x y)

/-- `SPL_total_1_3_spectrum` (82-83): nan is replaced by 0. -/
noncomputable def Cell.plain (c : Cell) : Option ℝ := match combine c.h c.b with
  | none => some 0
  | some v => some v

/-- `SPL_total_1_3_spectrum_dBA` (84-85): 0 where the spectrum of line 83, already cleaned, is nan. -/
noncomputable def Cell.weighted (c : Cell) : Option ℝ := if c.plain.isNone then some 0 else combine c.hA c.bA

/-- `SPL_spectra_arithmetic` (decibel_arithmetic.py 88-89) along the axis summed over. -/
noncomputable def spectraSum (n : ℕ) (f : ℕ → Option ℝ) : Option ℝ :=
  if (List.range n).all fun i => (f i).isSome then some (10 * logb 10 (∑ i ∈ Finset.range n, (10 : ℝ) ^ ((f i).getD 0 / 10))) else none

/-- `SPL` (89): over the rotors, then over the bands. -/
noncomputable def totalSPL (rotors bands : ℕ) (c : ℕ → ℕ → Cell) : Option ℝ :=
  spectraSum bands fun k => spectraSum rotors fun r => (c r k).plain

/-- `SPL_dBA` (90). -/
noncomputable def totalDBA (rotors bands : ℕ) (c : ℕ → ℕ → Cell) : Option ℝ :=
  spectraSum bands fun k => spectraSum rotors fun r => (c r k).weighted

end Verif.Noise.Mic
