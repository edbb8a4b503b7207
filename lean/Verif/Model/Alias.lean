import Verif.Model.Uff
/-
`write_sets` with dictionaries that need not be distinct objects.
-/
namespace Verif

/-- The dictionaries of the caller: objects are numbered, `s i` is the present content of object `i`
(`/repo/pyuff/pyuff.py:284-322`; the writers change the dictionary they are given in place). -/
abbrev Heap := Nat → Dict

/-- The content of object `i` changes. -/
def Heap.put (s : Heap) (i : Nat) (d : Dict) : Heap := fun j => if j = i then d else s j

/-- The `for` loops of `write_sets` (`/repo/pyuff/pyuff.py:315-320`) over a list of objects. -/
def World.addRefs (w : World) (s : Heap) (e : Env) (forceDouble : Bool) : List Nat → World × Heap × Res Unit
  | [] => (w, s, .ok ())
  | i :: r =>
    match w.writeSet e forceDouble false (s i) with
    | (w', d', .ok ()) => World.addRefs w' (s.put i d') e.next forceDouble r
    | (w', d', .error x) => (w', s.put i d', .error x)

/-- `write_sets(dsets, mode, force_double)` (`/repo/pyuff/pyuff.py:284-322`) for a list of objects, in which the same object
may occur more than once. -/
def World.writeRefs (w : World) (s : Heap) (e : Env) (mode : Text) (forceDouble : Bool) (l : List Nat) : World × Heap × Res Unit :=
  match l with
  | [] => (w, s, .error (.exc "Nothing to write"))
  | i :: r =>
    if lower mode = "overwrite".toList then
      match w.writeSet e forceDouble true (s i) with
      | (w', d', .ok ()) => World.addRefs w' (s.put i d') e.next forceDouble r
      | (w', d', .error x) => (w', s.put i d', .error x)
    else if lower mode = "add".toList then World.addRefs w s e forceDouble (i :: r)
    else (w, s, .error (.exc "Unknown mode"))

end Verif
