import Verif.Model.Uff
/-
Writing on Windows, where files opened in text mode turn every line feed into CR LF
(`/repo/pyuff/pyuff.py:422,428`, `/repo/pyuff/datasets/dataset_58.py:975,977`: `open` without the argument `newline`).
Files are read in binary mode (`/repo/pyuff/pyuff.py:175,349`).
-/
namespace Verif

/-- The bytes of a text written in text mode on Windows (`/repo/pyuff/pyuff.py:422,428`). -/
def winText (t : Text) : Bytes := encode (t.flatMap fun c => if c = '\n' then ['\r', '\n'] else [c])

/-- `fileAfter` on Windows (`/repo/pyuff/pyuff.py:418-481`): the payload of a binary data-set is written in binary mode
(`/repo/pyuff/datasets/dataset_58.py:963-977`) and stays as it is. -/
def fileAfterWin (over : Bool) (file : Option Bytes) (r : WRes (Option Bytes)) : Bytes :=
  let old := if over then [] else file.getD []
  match r.res with
  | .ok (some payload) => if over then winText tailText else old ++ (winText r.out ++ (payload ++ winText tailText))
  | _ => old ++ winText r.out

/-- `_write_set(dset, mode, force_double)` on Windows (`/repo/pyuff/pyuff.py:403-482`). -/
def World.writeSetWin (w : World) (e : Env) (forceDouble over : Bool) (d : Dict) : World × Dict × Res Unit :=
  let r := writeBody e forceDouble d
  let file := some (fileAfterWin over w.file r)
  match r.res with
  | .ok _ => ((World.refresh ⟨file, w.obj⟩).1, r.dict, .ok ())
  | .error x => (⟨file, w.obj⟩, r.dict, .error x)

/-- The `for` loops of `write_sets` on Windows (`/repo/pyuff/pyuff.py:315-320`). -/
def World.addAllWin (w : World) (e : Env) (forceDouble : Bool) : List Dict → World × List Dict × Res Unit
  | [] => (w, [], .ok ())
  | d :: ds =>
    match w.writeSetWin e forceDouble false d with
    | (w', d', .ok ()) =>
      let r := World.addAllWin w' e.next forceDouble ds
      (r.1, d' :: r.2.1, r.2.2)
    | (w', d', .error x) => (w', d' :: ds, .error x)

/-- `write_sets(dsets, mode, force_double)` on Windows (`/repo/pyuff/pyuff.py:284-322`). -/
def World.writeSetsWin (w : World) (e : Env) (mode : Text) (forceDouble : Bool) (ds : List Dict) :
    World × List Dict × Res Unit :=
  match ds with
  | [] => (w, [], .error (.exc "Nothing to write"))
  | d :: rest =>
    if lower mode = "overwrite".toList then
      match w.writeSetWin e forceDouble true d with
      | (w', d', .ok ()) =>
        let r := World.addAllWin w' e.next forceDouble rest
        (r.1, d' :: r.2.1, r.2.2)
      | (w', d', .error x) => (w', d' :: rest, .error x)
    else if lower mode = "add".toList then World.addAllWin w e forceDouble (d :: rest)
    else (w, d :: rest, .error (.exc "Unknown mode"))

end Verif
