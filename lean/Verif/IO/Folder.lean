import Mathlib.Data.List.Basic

/-!
# Working in another folder

Model of the class `folder` in `trunk/SUAVE/Core/redirect.py` (93-235).

Files are identified by directory and name and have contents; directories are never missing (the
folder is made when needed) and path strings are taken in normal form.  Symbolic links are not
modelled: the list `link` is empty and no pushed file is a link.
-/

namespace Verif.IO.Folder

variable {D B C : Type} [DecidableEq D] [DecidableEq B]

/-- A file name as given: an absolute directory, or none for a name relative to the working
directory; `os.path.split(name)[-1]`. -/
structure Name (D B : Type) where
  dir : Option D
  base : B

/-- Working directory and files. -/
structure World (D B C : Type) where
  cwd : D
  fs : D × B → Option C

/-- `os.path.abspath(name)`. -/
def Name.abs (n : Name D B) (cwd : D) : D × B := (n.dir.getD cwd, n.base)

/-- A file is stored or removed. -/
def put (p : D × B) (c : Option C) (fs : D × B → Option C) : D × B → Option C := fun q => if q = p then c else fs q

/-- One file is brought from `src` to `dst` (162-168 and 217-222; `move` tells whether the source
goes away): did it succeed, and the files afterwards. -/
def bring (force move : Bool) (src dst : D × B) (fs : D × B → Option C) : Bool × (D × B → Option C) :=
  if src = dst then (true, fs)
  else if (fs dst).isSome && !force then (true, fs)
  else
    let fs := put dst none fs
    match fs src with
    | none => (false, fs)
    | some c => (true, if move then put src none (put dst (some c) fs) else put dst (some c) fs)

/-- The loops over the names (158-168, 200-222), ending at the first exception; `target` is the directory
the files are brought to. -/
def bringAll (force move : Bool) (cwd target : D) : List (Name D B) → (D × B → Option C) → Bool × (D × B → Option C)
  | [], fs => (true, fs)
  | n :: l, fs =>
    match bring force move (n.abs cwd) (target, n.base) fs with
    | (false, fs) => (false, fs)
    | (true, fs) => bringAll force move cwd target l fs

/-- `__enter__` (142-186), with the directory `origin` found at construction. -/
def enter (origin folder : D) (pull : List (Name D B)) (force : Bool) (w : World D B C) : Bool × World D B C :=
  if folder = origin then (true, w)
  else
    match bringAll force false w.cwd folder pull w.fs with
    | (false, fs) => (false, { w with fs := fs })
    | (true, fs) => (true, ⟨folder, fs⟩)

/-- `__exit__` (188-225). -/
def leave (origin folder : D) (push : List (Name D B)) (force : Bool) (w : World D B C) : Bool × World D B C :=
  if folder = origin then (true, w)
  else
    match bringAll force true w.cwd origin push w.fs with
    | (false, fs) => (false, { w with fs := fs })
    | (true, fs) => (true, ⟨origin, fs⟩)

/-- `with folder(f, pull, force=force) as push: body`.  The body is any program: from a world to
whether it ends normally, the names it appended to `push`, and the world it leaves. -/
def withFolder (f : D) (pull : List (Name D B)) (force : Bool)
    (body : World D B C → Bool × List (Name D B) × World D B C) (w : World D B C) : Bool × World D B C :=
  match enter w.cwd f pull force w with
  | (false, w') => (false, w')
  | (true, w') =>
    match body w' with
    | (r, push, w'') =>
      match leave w.cwd f push force w'' with
      | (r', w''') => (r && r', w''')

end Verif.IO.Folder
