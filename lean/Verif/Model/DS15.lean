import Verif.Model.Row
/-
Data-set 15, `/repo/pyuff/datasets/dataset_15.py`.
-/
namespace Verif

/-- The optional fields and their defaults for `n` nodes (`/repo/pyuff/datasets/dataset_15.py:41-43`). -/
def opt15 (n : Nat) : List (Key × Val) :=
  [("def_cs", .arrI (List.replicate n 0)), ("disp_cs", .arrI (List.replicate n 0)),
   ("color", .arrI (List.replicate n 0))]

/-- The formats of a node (`/repo/pyuff/datasets/dataset_15.py:32-34`). -/
def formats15 : List RFmt := [.f0 10, .f0 10, .f0 10, .f0 10, .eU 13 5, .eU 13 5, .eU 13 5]

/-- `_write15` (`/repo/pyuff/datasets/dataset_15.py:36-56`). -/
def write15 : W Unit := W.guarded 15 do
  let v ← W.key "node_nums"
  let n ← W.lift v.len
  W.opt (opt15 n)
  writeRecord [.int (-1), .int 15] [.f0 6, .f0 6] true
  W.forL (List.range n) fun i => do
    let d ← W.getDict
    let vs ← W.lift (evalFlds d (["node_nums", "def_cs", "disp_cs", "color", "x", "y", "z"].map
      fun k => ⟨Fld.at_ (.s k) i, fun _ => .ok []⟩))
    writeRecord vs formats15 false
  writeRecord [.int (-1)] [.f0 6] false

/-- `_extract15` (`/repo/pyuff/datasets/dataset_15.py:59-77`). -/
def extract15 (block : Text) : Res Dict := readGuard 15 do
  let values ← mapRes pyFloat (splitWs ((splitLines block).drop 2).flatten)
  let fl (l : List F64) : Val := .list (l.map .float)
  .ok [("type", .int 15), ("node_nums", fl (everyN 0 7 values)), ("def_cs", fl (everyN 1 7 values)),
    ("disp_cs", fl (everyN 2 7 values)), ("color", fl (everyN 3 7 values)), ("x", fl (everyN 4 7 values)),
    ("y", fl (everyN 5 7 values)), ("z", fl (everyN 6 7 values))]

end Verif
