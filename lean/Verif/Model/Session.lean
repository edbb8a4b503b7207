import Verif.Model.Uff
/-
Several objects of class `UFF` (`/repo/pyuff/pyuff.py:68-482`) for the same file, used in turn.
-/
namespace Verif

/-- A public call of an object. -/
inductive Call where
  /-- `UFF(filename)` (`/repo/pyuff/pyuff.py:89-116`): the object is created again. -/
  | create
  /-- `get_n_sets()` (`/repo/pyuff/pyuff.py:122-127`). -/
  | nSets
  /-- `get_set_types()` (`/repo/pyuff/pyuff.py:129-137`). -/
  | types
  /-- `get_set_formats()` (`/repo/pyuff/pyuff.py:139-143`). -/
  | formats
  /-- `file_exists()` (`/repo/pyuff/pyuff.py:149-155`). -/
  | fileExists
  /-- `get_status()` (`/repo/pyuff/pyuff.py:157-162`). -/
  | status
  /-- `refresh()` (`/repo/pyuff/pyuff.py:164-242`). -/
  | refresh
  /-- `read_sets(setn, header_only)` (`/repo/pyuff/pyuff.py:244-282`). -/
  | read (sel : Sel) (header : Bool)
  /-- `write_sets(dsets, mode, force_double)` (`/repo/pyuff/pyuff.py:284-322`), with the environment of the call. -/
  | write (e : Env) (mode : Text) (forceDouble : Bool) (ds : List Dict)

/-- What a call returns or raises. -/
inductive Out where
  | nothing
  | flag (b : Bool)
  | num (n : Nat)
  | types (l : List Int)
  | formats (l : List Nat)
  | sets (r : Res ReadOut)
  | wrote (r : Res Unit)
deriving DecidableEq

/-- One call (`/repo/pyuff/pyuff.py:89-322`, see the definitions used). -/
def World.call (w : World) : Call → World × Out
  | .create => (World.new w.file, .nothing)
  | .nSets => (w.getNSets.1, .num w.getNSets.2)
  | .types => (w.getSetTypes.1, .types w.getSetTypes.2)
  | .formats => (w.getSetFormats.1, .formats w.getSetFormats.2)
  | .fileExists => (w, .flag w.fileExists)
  | .status => (w, .flag w.getStatus)
  | .refresh => (w.refresh.1, .flag w.refresh.2)
  | .read sel header => ((w.readSets sel header).1, .sets (w.readSets sel header).2)
  | .write e mode fd ds => ((w.writeSets e mode fd ds).1, .wrote (w.writeSets e mode fd ds).2.2)

/-- The file and the objects opened for it, by number.  The objects share nothing but the file: all attributes are set on
the instance (`/repo/pyuff/pyuff.py:109-113`). -/
structure Session where
  file : Option Bytes
  objs : Nat → Obj

/-- Object `i` is called (`/repo/pyuff/pyuff.py:89-322`); the others do not notice. -/
def Session.call (s : Session) (i : Nat) (c : Call) : Session × Out :=
  let r := World.call ⟨s.file, s.objs i⟩ c
  (⟨r.1.file, fun j => if j = i then r.1.obj else s.objs j⟩, r.2)

/-- A history of calls (`/repo/pyuff/pyuff.py:89-322`): the answers in order. -/
def Session.run (s : Session) : List (Nat × Call) → Session × List Out
  | [] => (s, [])
  | (i, c) :: cs =>
    let r := s.call i c
    let q := Session.run r.1 cs
    (q.1, r.2 :: q.2)

end Verif
