import Verif.Model.DS2411
/-
Data-set 2420, `/repo/pyuff/datasets/dataset_2420.py`.
-/
namespace Verif

/-- The optional fields and their defaults (`/repo/pyuff/datasets/dataset_2420.py:54-57`). -/
def opt2420 : List (Key × Val) :=
  [("Part_UID", .int 1), ("Part_Name", .str "None".toList), ("CS_types", .list [.int 0]), ("CS_colors", .list [.int 8])]

/-- `dset['CS_matrices'][node][j, :]` (`/repo/pyuff/datasets/dataset_2420.py:70`): the matrix must be a
two-dimensional array. -/
def matRow (d : Dict) (node j : Nat) : Res (List F64) :=
  match Fld.at_ "CS_matrices" node d with
  | .error e => .error e
  | .ok (.mat rows) => orIndex rows[j]?
  | .ok (.arrI _) | .ok (.arrF _) | .ok (.arrC _) => .error .index
  | .ok _ => .error .type

/-- `fh.write('%25.16e%25.16e%25.16e\n' % tuple(dset['CS_matrices'][node][j, :]))`
(`/repo/pyuff/datasets/dataset_2420.py:70-73`). -/
def matLine (node j : Nat) : W Unit := do
  let d ← W.getDict
  let row ← W.lift (matRow d node j)
  let t ← W.lift (if row.length = 3 then .ok ((row.map fun x => padLeft 25 (fmtE 16 x)).flatten ++ ['\n'])
    else .error .type)
  W.emit t

/-- `len(dset[k])`. -/
def lenKey (d : Dict) (k : Key) : Res Nat :=
  match d.get k with
  | .error e => .error e
  | .ok v => v.len

/-- `_write2420` (`/repo/pyuff/datasets/dataset_2420.py:52-76`). -/
def write2420 : W Unit := W.guardedAny 2420 do
  W.opt opt2420
  W.emit (headText 2420)
  W.row [.i 10 "Part_UID"]
  W.row [.sl 80 "Part_Name"]
  let d ← W.getDict
  let n ← W.lift (lenKey d "CS_sys_labels")
  let ls ← W.lift (mapRes (lenKey d) ["CS_types", "CS_colors", "CS_names", "CS_matrices"])
  W.lift (if ls.all (· = n) then .ok () else .error .index)
  W.forL (List.range n) fun i => do
    W.row [⟨Fld.at_ "CS_sys_labels" i, fmtI 10⟩, ⟨Fld.at_ "CS_types" i, fmtI 10⟩, ⟨Fld.at_ "CS_colors" i, fmtI 10⟩]
    W.row [⟨Fld.at_ "CS_names" i, fmtSL 0⟩]
    matLine i 0
    matLine i 1
    matLine i 2
    matLine i 3
  W.emit tailText

/-- `replace_d_float` (`/repo/pyuff/datasets/dataset_2420.py:101-102`). -/
def dFloat2420 (t : Text) : Res F64 := pyFloat (replaceChar 'D' 'E' (replaceChar 'd' 'e' t))

/-- `np.vstack((row1[i:(i + 3)], ..., row4[i:(i + 3)]))` (`/repo/pyuff/datasets/dataset_2420.py:107`). -/
def vstack4 (a b c e : List F64) : Res Val :=
  if a.length = b.length ∧ b.length = c.length ∧ c.length = e.length then .ok (.mat [a, b, c, e]) else .error .value

/-- `_extract2420` (`/repo/pyuff/datasets/dataset_2420.py:78-110`); exceptions are not caught here. -/
def extract2420 (block : Text) : Res Dict := do
  let ls := splitLinesKeep block
  let uid ← pyInt (← orIndex ls[2]?)
  let l3 ← orIndex ls[3]?
  let r3 ← mapRes pyInt (splitWs (everyN 4 6 ls).flatten)
  let names := (everyN 5 6 ls).map fun s => Val.str (rstrip s)
  let r1 ← mapRes dFloat2420 (splitWs (everyN 6 6 ls).flatten)
  let r2 ← mapRes dFloat2420 (splitWs (everyN 7 6 ls).flatten)
  let r3' ← mapRes dFloat2420 (splitWs (everyN 8 6 ls).flatten)
  let r4 ← mapRes dFloat2420 (splitWs (everyN 9 6 ls).flatten)
  let ms ← mapRes (fun k => vstack4 (slice r1 (3 * k) (3 * k + 3)) (slice r2 (3 * k) (3 * k + 3))
    (slice r3' (3 * k) (3 * k + 3)) (slice r4 (3 * k) (3 * k + 3))) (List.range ((r1.length + 2) / 3))
  .ok [("type", .int 2420), ("Part_UID", .int uid), ("Part_Name", .str (rstrip l3)),
    ("CS_sys_labels", .list ((everyN 0 3 r3).map .int)), ("CS_types", .list ((everyN 1 3 r3).map .int)),
    ("CS_colors", .list ((everyN 2 3 r3).map .int)), ("CS_names", .list names), ("CS_matrices", .list ms)]

end Verif
