import Verif.Avl.Deck

/-!
# What fixes the control surfaces in AVL

The lines of the run case file for control surfaces (`write_run_cases.py` 120-153, `make_controls_case_text` 162-194) and
the commands of the deck (`write_input_deck.py` 100-112, 260-288).  AVL keeps a control surface without line at zero
deflection.  Which variable of AVL a line or command concerns is left to `Deck`; here each goes to its own surface.
-/

namespace Verif.Avl

/-- What fixes a control surface: a deflection in degrees, or a moment that has to vanish. -/
inductive Fix where
  | at (d : ℝ)
  | roll
  | pitch
  | yaw

/-- The line of `make_controls_case_text` for a surface (170-193): none for slats; `= 0.00000` in all cases. -/
def caseLine : Kind → Option Fix
  | .slat => none
  | .flap => some (.at 0)
  | .aileron => some .roll
  | .elevator => some .pitch
  | .rudder => some .yaw

/-- The surface after the run case file has been read: the lines are written for trimmed and untrimmed aircraft alike. -/
def afterCase (s : Surf) : Fix := (caseLine s.kind).getD (.at 0)

/-- The surface after the deck: only an untrimmed aircraft has commands for deflections (105-112, 283-287). -/
noncomputable def fixed (rnd : ℝ → ℝ) (trim : Bool) (s : Surf) : Fix :=
  if trim then afterCase s else .at (rnd (deg s.deflection))

/-- All control surfaces of the aircraft in order. -/
noncomputable def fixedAll (rnd : ℝ → ℝ) (trim : Bool) (wings : List (List Surf)) : List Fix :=
  wings.flatten.map (fixed rnd trim)

end Verif.Avl
