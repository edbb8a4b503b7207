import Verif.Model.DS1858
/-
Data-set 2411, `/repo/pyuff/datasets/dataset_2411.py`.
-/
namespace Verif

/-- `int(v)`: numbers, and strings holding an integer (`/repo/pyuff/datasets/dataset_2411.py:40`). -/
def Val.intCall : Val → Res Int
  | .str s => pyInt s
  | v => v.toInt

/-- `_write2411` (`/repo/pyuff/datasets/dataset_2411.py:32-48`). -/
def write2411 : W Unit := W.guardedAny 2411 do
  W.opt []
  W.emit (headText 2411)
  let ids ← W.key "node_nums"
  let ids ← W.lift ids.items
  W.forL ids.zipIdx fun p => do
    W.row [⟨fun _ => p.1.intCall.map .int, fmtI 10⟩, ⟨Fld.at_ "def_cs" p.2, fmtI 10⟩,
      ⟨Fld.at_ "disp_cs" p.2, fmtI 10⟩, ⟨Fld.at_ "color" p.2, fmtI 10⟩]
    W.row [⟨Fld.at_ "x" p.2, fmtEV 25 16⟩, ⟨Fld.at_ "y" p.2, fmtEV 25 16⟩, ⟨Fld.at_ "z" p.2, fmtEV 25 16⟩]
  W.emit tailText

/-- `float(str.replace("D", "E").replace("d", "E"))` (`/repo/pyuff/datasets/dataset_2411.py:60`). -/
def deFloat (t : Text) : Res F64 := pyFloat (replaceChar 'd' 'E' (replaceChar 'D' 'E' t))

/-- `_extract2411` (`/repo/pyuff/datasets/dataset_2411.py:51-70`). -/
def extract2411 (block : Text) : Res Dict := readGuard 2411 do
  let values ← mapRes deFloat (splitWs ((splitLinesKeep block).drop 2).flatten)
  .ok [("type", .int 2411), ("node_nums", .arrF (everyN 0 7 values)), ("def_cs", .arrF (everyN 1 7 values)),
    ("disp_cs", .arrF (everyN 2 7 values)), ("color", .arrF (everyN 3 7 values)), ("x", .arrF (everyN 4 7 values)),
    ("y", .arrF (everyN 5 7 values)), ("z", .arrF (everyN 6 7 values))]

end Verif
