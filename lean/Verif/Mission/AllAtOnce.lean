import Verif.Mission.Points

/-!
Preparing the segments of a mission solved all at once.

Sources: trunk/SUAVE/Methods/Missions/Segments/Common/Sub_Segments.py 24-63 (`expand_sub_segments`) and 66-89 (`update_sub_segments`),
trunk/SUAVE/Methods/Missions/Segments/expand_state.py 12-36, trunk/SUAVE/Methods/skip.py, trunk/SUAVE/Analyses/Mission/All_At_Once.py 58-72.

Simplifications: segments by position; `initials` of a segment, which is another segment's state and not a copy of it, is the position of that
segment. Of the steps that initialize a segment only the first, which expands its state, is modelled.
-/

namespace Verif.Mission

/-- A segment: number of control points set for it, state, whether its first step still is `expand_state` (or `skip`), and the segment whose
state it starts from. -/
structure SubSeg where
  points : ℕ
  state : Fields
  expands : Bool
  initials : Option ℕ

/-- The step `process.initialize.expand_state`: `expand_state` (expand_state.py 32-34) or `skip`. -/
def SubSeg.expandStep (s : SubSeg) : SubSeg := if s.expands then { s with state := stateExpand s.points false s.state } else s

/-- The loop of `expand_sub_segments` (43-55); `last` is the position of the segment before. -/
def expandFrom : Option ℕ → ℕ → List SubSeg → List SubSeg
  | _, _, [] => []
  | last, i, s :: rest =>
    let s := match last with
      | some j => { s with initials := some j }
      | none => s
    { s.expandStep with expands := false } :: expandFrom (some i) (i + 1) rest

/-- `expand_sub_segments`. -/
def expandSubSegments (l : List SubSeg) : List SubSeg := expandFrom none 0 l

/-- The expansion each segment goes through when it is initialized in an iteration (`update_sub_segments`, 82-83). -/
def reinitialize (l : List SubSeg) : List SubSeg := l.map SubSeg.expandStep

/-- Setting the number of control points of every segment. -/
def setPoints (n : ℕ) (l : List SubSeg) : List SubSeg := l.map fun s => { s with points := n }

end Verif.Mission
