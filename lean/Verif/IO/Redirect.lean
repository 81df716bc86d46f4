import Mathlib.Data.List.Basic

/-!
# Redirection of standard output and error

Model of the class `output` in `trunk/SUAVE/Core/redirect.py` (18-85).

Streams are numbered; a stream is open or closed and flushing or writing to a closed stream raises
`ValueError`.  Programs are arbitrary trees of writes, exceptions, handlers and `with` blocks; a
program stands for one execution, loops being unrolled.  Streams are truthy, `open` in append mode
gives a new stream or raises.
-/

namespace Verif.IO.Redirect

/-- An argument of `output`: `None`, a stream, or a file name (`ok` tells whether `open` succeeds). -/
inductive Arg where
  | none
  | stream (s : ℕ)
  | file (ok : Bool)

/-- An `output` object (62-85). -/
structure Obj where
  out : ℕ
  err : ℕ
  newout : Bool
  newerr : Bool
  oldOut : ℕ
  oldErr : ℕ

/-- `sys.stdout`, `sys.stderr`, closed streams, next stream number, text written so far (stream,
text), and named `output` objects. -/
structure World where
  out : ℕ
  err : ℕ
  closed : ℕ → Bool
  next : ℕ
  log : List (ℕ × String)
  objs : ℕ → Option Obj

/-- Programs.  `withNew` is `with output(o, e): body`; `create` and `withObj` use a named object. -/
inductive Prog where
  | skip
  | raise
  | printOut (t : String)
  | printErr (t : String)
  | close (s : ℕ)
  | seq (p q : Prog)
  | attempt (p handler : Prog)
  | withNew (o e : Arg) (body : Prog)
  | create (v : ℕ) (o e : Arg)
  | withObj (v : ℕ) (body : Prog)

/-- Does a run end normally? (`false`: an exception propagates.) -/
abbrev Res := Bool × World

/-- Writing to a stream. -/
def write (s : ℕ) (t : String) (w : World) : Res :=
  if w.closed s then (false, w) else (true, { w with log := w.log ++ [(s, t)] })

/-- `close` on a stream. -/
def closeStream (s : ℕ) (w : World) : World := { w with closed := fun k => k == s || w.closed k }

/-- `isinstance(stdout,str)` and `open` (59-64): the stream or `None`, and whether it is new; `none`
if `open` raises. -/
def openArg (a : Arg) (w : World) : Option (Option ℕ × Bool) × World :=
  match a with
  | .none => (some (none, false), w)
  | .stream s => (some (some s, false), w)
  | .file true => (some (some w.next, true), { w with next := w.next + 1 })
  | .file false => (none, w)

/-- `output.__init__` (37-70). -/
def init (o e : Arg) (w : World) : Option Obj × World :=
  match openArg o w with
  | (none, w) => (none, w)
  | (some (so, no), w) =>
    match openArg e w with
    | (none, w) => (none, w)
    | (some (se, ne), w) => (some ⟨so.getD w.out, se.getD w.err, no, ne, 0, 0⟩, w)

/-- `output.__enter__` (72-75): `none` for the exception of `flush`; nothing is redirected then. -/
def enter (x : Obj) (w : World) : Option (Obj × World) :=
  if w.closed w.out || w.closed w.err then none
  else some ({ x with oldOut := w.out, oldErr := w.err }, { w with out := x.out, err := x.err })

/-- `output.__exit__` (77-85). -/
def exit (x : Obj) (w : World) : Res :=
  if w.closed x.out || w.closed x.err then (false, w)
  else
    let w := { w with out := x.oldOut, err := x.oldErr }
    let w := if x.newout then closeStream x.out w else w
    let w := if x.newerr then closeStream x.err w else w
    (true, w)

/-- Running a program. -/
def run : Prog → World → Res
  | .skip, w => (true, w)
  | .raise, w => (false, w)
  | .printOut t, w => write w.out t w
  | .printErr t, w => write w.err t w
  | .close s, w => (true, closeStream s w)
  | .seq p q, w =>
    match run p w with
    | (false, w) => (false, w)
    | (true, w) => run q w
  | .attempt p h, w =>
    match run p w with
    | (false, w) => run h w
    | (true, w) => (true, w)
  | .withNew o e body, w =>
    match init o e w with
    | (none, w) => (false, w)
    | (some x, w) =>
      match enter x w with
      | none => (false, w)
      | some (x, w) =>
        match run body w with
        | (r, w) =>
          match exit x w with
          | (r', w) => (r && r', w)
  | .create v o e, w =>
    match init o e w with
    | (none, w) => (false, w)
    | (some x, w) => (true, { w with objs := fun k => if k = v then some x else w.objs k })
  | .withObj v body, w =>
    match w.objs v with
    | none => (false, w)
    | some x =>
      match enter x w with
      | none => (false, w)
      | some (x, w) =>
        match run body { w with objs := fun k => if k = v then some x else w.objs k } with
        | (r, w) =>
          match w.objs v with
          | none => (false, w)
          | some x =>
            match exit x w with
            | (r', w) => (r && r', w)

end Verif.IO.Redirect
