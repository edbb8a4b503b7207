import Verif.Model.DS2411
/-
Data-set 18, `/repo/pyuff/datasets/dataset_18.py`.
-/
namespace Verif

/-- The optional fields and their defaults for `n` systems (`/repo/pyuff/datasets/dataset_18.py:49-54`). -/
def opt18 (n : Nat) : List (Key × Val) :=
  [("cs_type", .arrI (List.replicate n 0)), ("color", .arrI (List.replicate n 0)),
   ("method", .arrI (List.replicate n 1)), ("cs_name", .list (List.replicate n (.str [])))]

/-- `'%{w}i' % int(dset[k][i])` (`/repo/pyuff/datasets/dataset_18.py:57-62`). -/
def Fld.intAt (w : Nat) (k : Key) (i : Nat) : Fld :=
  ⟨fun d => match Fld.at_ k i d with
    | .error e => .error e
    | .ok v => v.intCall.map .int, fmtI w⟩

/-- `_write18` (`/repo/pyuff/datasets/dataset_18.py:45-73`). -/
def write18 : W Unit := W.guarded 18 do
  let v ← W.key "cs_num"
  let n ← W.lift v.len
  W.opt (opt18 n)
  W.emit (headText 18)
  W.forL (List.range n) fun i => do
    W.row [.intAt 10 "cs_num" i, .intAt 10 "cs_type" i, .intAt 10 "ref_cs_num" i, .intAt 10 "color" i,
      .intAt 10 "method" i]
    W.row [⟨Fld.at_ "cs_name" i, fmtSL 40⟩]
    W.row [⟨Fld.at2 "ref_o" i 0, fmtEV 13 5⟩, ⟨Fld.at2 "ref_o" i 1, fmtEV 13 5⟩, ⟨Fld.at2 "ref_o" i 2, fmtEV 13 5⟩,
      ⟨Fld.at2 "x_point" i 0, fmtEV 13 5⟩, ⟨Fld.at2 "x_point" i 1, fmtEV 13 5⟩, ⟨Fld.at2 "x_point" i 2, fmtEV 13 5⟩]
    W.row [⟨Fld.at2 "xz_point" i 0, fmtEV 13 5⟩, ⟨Fld.at2 "xz_point" i 1, fmtEV 13 5⟩,
      ⟨Fld.at2 "xz_point" i 2, fmtEV 13 5⟩]
  W.emit tailText

/-- `np.vstack((a, b, c)).transpose()`: the rows `[a_i, b_i, c_i]`; `ValueError` when the lengths differ
(`/repo/pyuff/datasets/dataset_18.py:97-99`). -/
def vstack3T (a b c : List F64) : Res Val :=
  if a.length = b.length ∧ b.length = c.length then
    .ok (.mat ((a.zip (b.zip c)).map fun t => [t.1, t.2.1, t.2.2]))
  else .error .value

/-- `_extract18` (`/repo/pyuff/datasets/dataset_18.py:76-115`). -/
def extract18 (block : Text) : Res Dict := readGuard 18 do
  let ls := splitLines block
  let r1 ← mapRes pyFloat (splitWs (everyN 2 4 ls).flatten)
  let names := (everyN 3 4 ls).map fun s => Val.str (strip s)
  let r31 ← mapRes pyFloat (chunks 13 (everyN 4 4 ls).flatten)
  let o ← vstack3T (everyN 0 6 r31) (everyN 1 6 r31) (everyN 2 6 r31)
  let x ← vstack3T (everyN 3 6 r31) (everyN 4 6 r31) (everyN 5 6 r31)
  let r32 ← mapRes pyFloat (chunks 13 (everyN 5 4 ls).flatten)
  let xz ← vstack3T (everyN 0 3 r32) (everyN 1 3 r32) (everyN 2 3 r32)
  .ok [("type", .int 18), ("cs_num", .arrF (everyN 0 5 r1)), ("cs_type", .arrF (everyN 1 5 r1)),
    ("ref_cs_num", .arrF (everyN 2 5 r1)), ("color", .arrF (everyN 3 5 r1)), ("method", .arrF (everyN 4 5 r1)),
    ("cs_name", .list names), ("ref_o", o), ("x_point", x), ("xz_point", xz)]

end Verif
