import Verif.Model.Row
import Verif.Model.DS2412
/-
`/repo/pyuff/datasets/dataset_55.py`: data at nodes.
-/
namespace Verif

/-- `a + 1.j * b` on doubles (`/repo/pyuff/datasets/dataset_55.py:492`,
`/repo/pyuff/datasets/dataset_58.py:1140`): `1.j * b` is the complex product of `0 + 1j` and `b + 0j`, and
`a` is added as `a + 0j` (numpy, and python before 3.14). -/
def cplxOf (a b : F64) : F64 × F64 :=
  (a.add ((F64.zero.mul b).sub (F64.one.mul F64.zero)),
   F64.zero.add ((F64.zero.mul F64.zero).add (F64.one.mul b)))

/-- `x + 0.j` for a float `x` (`/repo/pyuff/datasets/dataset_55.py:382`). -/
def addZeroJ (x : F64) : F64 × F64 := (x.add F64.zero, F64.zero.add F64.zero)

namespace Val

/-- `v.real` (`/repo/pyuff/datasets/dataset_55.py:426`). -/
def re : Val → Res Val
  | .int n => .ok (.int n)
  | .bool b => .ok (.int (if b then 1 else 0))
  | .float x => .ok (.float x)
  | .cplx a _ => .ok (.float a)
  | .arrI _ | .arrF _ | .arrC _ | .mat _ => .error .unmodelled
  | _ => .error .attr
/-- `v.imag` (`/repo/pyuff/datasets/dataset_55.py:426`). -/
def im : Val → Res Val
  | .int _ | .bool _ => .ok (.int 0)
  | .float _ => .ok (.float F64.zero)
  | .cplx _ b => .ok (.float b)
  | .arrI _ | .arrF _ | .arrC _ | .mat _ => .error .unmodelled
  | _ => .error .attr

/-- A complex number. -/
def isCplx : Val → Bool
  | .cplx _ _ => true
  | _ => false
/-- A scalar (what a flat list may hold). -/
def isFlat : Val → Bool
  | .arrI _ | .arrF _ | .arrC _ | .mat _ | .list _ | .dict _ => false
  | _ => true

/-- A number that goes into a numeric array (greater integers, text and `None` make an array of objects or of text). -/
def isNumber : Val → Bool
  | .bool _ | .float _ | .cplx _ _ => true
  | .int n => decide (-(2 ^ 63) ≤ n ∧ n < 2 ^ 64)
  | _ => false

/-- `np.iscomplexobj(v)` (`/repo/pyuff/datasets/dataset_55.py:398`): the array made of `v` has a complex
type, that is, all of `v` are numbers and one is complex.  Nested lists are not modelled. -/
def isComplexObj : Val → Res Bool
  | .cplx _ _ => .ok true
  | .arrC _ => .ok true
  | .list l => if l.all isFlat then .ok (l.any isCplx && l.all isNumber) else .error .unmodelled
  | _ => .ok false

/-- `v + 0.j` for a value that is not complex (`/repo/pyuff/datasets/dataset_55.py:382`). -/
def plusZeroJ (v : Val) : Res Val :=
  match v with
  | .arrI _ | .arrF _ | .mat _ => .error .unmodelled
  | v => match v.toFloat with
    | .ok x => .ok (.cplx (addZeroJ x).1 (addZeroJ x).2)
    | .error e => .error e

end Val

/-- `dset[k].real` (`/repo/pyuff/datasets/dataset_55.py:426`). -/
def Fld.re (w p : Nat) (acc : Dict → Res Val) : Fld :=
  ⟨fun d => match acc d with
    | .error e => .error e
    | .ok v => v.re, fmtEV w p⟩
/-- `dset[k].imag` (`/repo/pyuff/datasets/dataset_55.py:426`). -/
def Fld.im (w p : Nat) (acc : Dict → Res Val) : Fld :=
  ⟨fun d => match acc d with
    | .error e => .error e
    | .ok v => v.im, fmtEV w p⟩

/-- The supported analysis types. -/
inductive An55 where
  | normal | cmplx | frf
deriving DecidableEq, Repr

/-- The tests on `dset['analysis_type']` (`/repo/pyuff/datasets/dataset_55.py:370-390`, and again at lines
413-428).  Comparing an array is not modelled. -/
def an55 (v : Val) : Res (Option An55) :=
  match v with
  | .arrI _ | .arrF _ | .arrC _ | .mat _ => .error .unmodelled
  | v =>
    if v.numEq 2 then .ok (some .normal)
    else if v.numEq 3 || v.numEq 7 then .ok (some .cmplx)
    else if v.numEq 5 then .ok (some .frf)
    else .ok none

/-- The defaults (`/repo/pyuff/datasets/dataset_55.py:361-368`). -/
def opt55 : List (Key × Val) :=
  [("units_description", .str [' ']), ("id1", .str "NONE".toList), ("id2", .str "NONE".toList),
   ("id3", .str "NONE".toList), ("id4", .str "NONE".toList), ("id5", .str "NONE".toList), ("model_type", .int 1)]
/-- Defaults for normal modes (`/repo/pyuff/datasets/dataset_55.py:372-375`). -/
def opt55n : List (Key × Val) := [("modal_m", .int 0), ("modal_damp_vis", .int 0), ("modal_damp_his", .int 0)]
/-- Defaults for complex modes (`/repo/pyuff/datasets/dataset_55.py:378-380`). -/
def opt55c : List (Key × Val) :=
  [("modal_b", .cplx F64.zero F64.zero), ("modal_a", .cplx F64.zero F64.zero)]

/-- `if not np.iscomplexobj(dset[k]): dset[k] = dset[k] + 0.j`
(`/repo/pyuff/datasets/dataset_55.py:381-384`). -/
def makeComplex (k : Key) : W Unit :=
  W.bind (W.key k) fun v =>
  W.bind (W.lift v.isComplexObj) fun c =>
  W.when (c = false) (W.bind (W.lift v.plusZeroJ) fun v' => W.put k v')

/-- Defaults and conversions of the analysis type (`/repo/pyuff/datasets/dataset_55.py:370-390`). -/
def prep55 : Option An55 → W Unit
  | some .normal => W.opt opt55n
  | some .cmplx => W.bind (W.opt opt55c) fun _ => W.bind (makeComplex "modal_a") fun _ => makeComplex "modal_b"
  | some .frf => W.pure ()
  | none => W.raise .value

/-- The lines that depend on the analysis type (`/repo/pyuff/datasets/dataset_55.py:413-428`). -/
def head55 : Option An55 → W Unit
  | some .normal => do
    W.row [.c (fmtI 10) (.int 2), .c (fmtI 10) (.int 4), .i 10 "load_case", .i 10 "mode_n"]
    W.row [.e 13 5 "freq", .e 13 5 "modal_m", .e 13 5 "modal_damp_vis", .e 13 5 "modal_damp_his"]
  | some .frf => do
    W.row [.c (fmtI 10) (.int 2), .c (fmtI 10) (.int 1), .i 10 "load_case", .i 10 "freq_step_n"]
    W.row [.e 13 5 "freq"]
  | some .cmplx => do
    W.row [.c (fmtI 10) (.int 2), .c (fmtI 10) (.int 6), .i 10 "load_case", .i 10 "mode_n"]
    W.row [.re 13 5 (·.get "eig"), .im 13 5 (·.get "eig"), .re 13 5 (·.get "modal_a"), .im 13 5 (·.get "modal_a"),
      .re 13 5 (·.get "modal_b"), .im 13 5 (·.get "modal_b")]
  | none => W.raise .value

/-- The values written for the `k`-th node (`/repo/pyuff/datasets/dataset_55.py:429-450`). -/
def vals55 (cplx six : Bool) (k : Nat) : List Fld :=
  if cplx then
    [.re 13 5 (Fld.at_ "r1" k), .im 13 5 (Fld.at_ "r1" k), .re 13 5 (Fld.at_ "r2" k), .im 13 5 (Fld.at_ "r2" k),
     .re 13 5 (Fld.at_ "r3" k), .im 13 5 (Fld.at_ "r3" k)]
  else if six then
    [⟨Fld.at_ "r1" k, fmtEV 13 5⟩, ⟨Fld.at_ "r2" k, fmtEV 13 5⟩, ⟨Fld.at_ "r3" k, fmtEV 13 5⟩,
     ⟨Fld.at_ "r4" k, fmtEV 13 5⟩, ⟨Fld.at_ "r5" k, fmtEV 13 5⟩, ⟨Fld.at_ "r6" k, fmtEV 13 5⟩]
  else
    [⟨Fld.at_ "r1" k, fmtEV 13 5⟩, ⟨Fld.at_ "r2" k, fmtEV 13 5⟩, ⟨Fld.at_ "r3" k, fmtEV 13 5⟩]

/-- `_write55(fh, dset)` (`/repo/pyuff/datasets/dataset_55.py:351-455`). -/
def write55 : W Unit :=
  W.guarded 55 do
    W.opt opt55
    let a ← W.key "analysis_type"
    let an ← W.lift (an55 a)
    prep55 an
    let d ← W.getDict
    let six := d.has "r4" && d.has "r5" && d.has "r6"
    let r1 ← W.key "r1"
    let cplx ← W.lift r1.isComplexObj
    W.emit (headText 55)
    W.row [.sl 80 "id1"]
    W.row [.sl 80 "id2"]
    W.row [.sl 80 "id3"]
    W.row [.sl 80 "id4"]
    W.row [.sl 80 "id5"]
    W.row [.i 10 "model_type", .i 10 "analysis_type", .i 10 "data_ch", .i 10 "spec_data_type",
      .c (fmtI 10) (.int (if cplx then 5 else 2)), .c (fmtI 10) (.int (if six then 6 else 3))]
    head55 an
    let ns ← W.key "node_nums"
    let n ← W.lift ns.len
    W.forL (List.range n) fun k => do
      W.row [⟨Fld.at_ "node_nums" k, fmtI 10⟩]
      W.row (vals55 cplx six k)
    W.emit tailText

/-- `del dset[k]` (`/repo/pyuff/datasets/dataset_55.py:495`). -/
def Dict.del : Dict → Key → Res Dict
  | [], k => .error (.key k)
  | (k', v) :: r, k => if k' = k then .ok r else match Dict.del r k with
    | .ok r' => .ok ((k', v) :: r')
    | .error e => .error e

/-- `dset[a] + 1.j * dset[b]` for the floats just parsed (`/repo/pyuff/datasets/dataset_55.py:492`). -/
def cplxKeys (d : Dict) (a b : Key) : Res Val :=
  match d.get a, d.get b with
  | .ok (.float x), .ok (.float y) => .ok (.cplx (cplxOf x y).1 (cplxOf x y).2)
  | .ok (.float _), .error e => .error e
  | .error e, _ => .error e
  | .ok _, _ => .error .unmodelled

/-- `np.asarray([int(s) ...])` (`/repo/pyuff/datasets/dataset_55.py:506`): an empty list gives a float array;
integers beyond 64 bits give another element type, which is not modelled. -/
def asIntArray (l : List Int) : Res Val :=
  if l.isEmpty then .ok (.arrF [])
  else if l.all (fun n => decide (-(2 ^ 63) ≤ n ∧ n < 2 ^ 63)) then .ok (.arrI l)
  else .error .unmodelled

/-- `np.array(rows, 'd').flatten()` for rows of strings (`/repo/pyuff/datasets/dataset_55.py:507`): rows of
different lengths raise `ValueError`. -/
def floatRows (rows : List (List Text)) : Res (List F64) :=
  match rows with
  | [] => .ok []
  | r :: rs => if rs.all (fun s => s.length == r.length) then mapRes pyFloat rows.flatten else .error .value

/-- Replace the real and imaginary parts by complex numbers (`/repo/pyuff/datasets/dataset_55.py:492-496`). -/
def joinParts (d : Dict) : Res Dict := do
  let d := d.set "modal_a" (← cplxKeys d "modal_a_r" "modal_a_i")
  let d := d.set "modal_b" (← cplxKeys d "modal_b_r" "modal_b_i")
  let d := d.set "eig" (← cplxKeys d "eig_r" "eig_i")
  let d ← d.del "modal_a_r"
  let d ← d.del "modal_a_i"
  let d ← d.del "modal_b_r"
  let d ← d.del "modal_b_i"
  let d ← d.del "eig_r"
  d.del "eig_i"

/-- The header lines of the analysis type (`/repo/pyuff/datasets/dataset_55.py:477-503`). -/
def readHead55 (ls : List Text) (d : Dict) : Res Dict := do
  let a ← d.get "analysis_type"
  match ← an55 a with
  | some .normal =>
    let e8 ← parseHeader (← orIndex ls[8]?) 4 [10, 10, 10, 10, 10, 10, 10, 10]
      [.ign, .ign, .int, .int, .ign, .ign, .ign, .ign] ["", "", "load_case", "mode_n", "", "", "", ""]
    let e9 ← parseHeader (← orIndex ls[9]?) 4 [13, 13, 13, 13, 13, 13] [.flt, .flt, .flt, .flt, .ign, .ign]
      ["freq", "modal_m", "modal_damp_vis", "modal_damp_his", "", ""]
    .ok ((d.update e8).update e9)
  | some .cmplx =>
    let e8 ← parseHeader (← orIndex ls[8]?) 4 [10, 10, 10, 10, 10, 10, 10, 10]
      [.ign, .ign, .int, .int, .ign, .ign, .ign, .ign] ["", "", "load_case", "mode_n", "", "", "", ""]
    let e9 ← parseHeader (← orIndex ls[9]?) 4 [13, 13, 13, 13, 13, 13] [.flt, .flt, .flt, .flt, .flt, .flt]
      ["eig_r", "eig_i", "modal_a_r", "modal_a_i", "modal_b_r", "modal_b_i"]
    let d := (d.update e8).update e9
    joinParts d
  | some .frf =>
    let e8 ← parseHeader (← orIndex ls[8]?) 4 [10, 10, 10, 10, 10, 10, 10, 10]
      [.ign, .ign, .int, .int, .ign, .ign, .ign, .ign] ["", "", "load_case", "freq_step_n", "", "", "", ""]
    let e9 ← parseHeader (← orIndex ls[9]?) 1 [13, 13, 13, 13, 13, 13] [.flt, .ign, .ign, .ign, .ign, .ign]
      ["freq", "", "", "", "", ""]
    .ok ((d.update e8).update e9)
  | none => .ok d

/-- `vals[a::6] + 1.j * vals[b::6]` (`/repo/pyuff/datasets/dataset_55.py:527`): arrays of different lengths
raise `ValueError`, unless one of them has one element, which is then used with every element of the other. -/
def cplxCols (v : List F64) (a b : Nat) : Res Val :=
  let x := everyN a 6 v
  let y := everyN b 6 v
  if x.length = y.length then .ok (.arrC ((x.zip y).map fun p => cplxOf p.1 p.2))
  else match x, y with
    | [a], y => .ok (.arrC (y.map (cplxOf a)))
    | x, [b] => .ok (.arrC (x.map fun a => cplxOf a b))
    | _, _ => .error .value

/-- The data at the nodes (`/repo/pyuff/datasets/dataset_55.py:505-533`). -/
def readBody55 (body : Text) (d : Dict) : Res Dict := do
  let ls := splitLinesKeep body
  let nums ← asIntArray (← mapRes pyInt (everyN 0 2 ls))
  let v ← floatRows ((everyN 1 2 ls).map (chunks 13))
  let dt ← d.get "data_type"
  let nd ← d.get "n_data_per_node"
  if dt.numEq 2 then
    if nd.numEq 3 then
      .ok (d.update [("node_nums", nums), ("r1", .arrF (everyN 0 3 v)), ("r2", .arrF (everyN 1 3 v)),
        ("r3", .arrF (everyN 2 3 v))])
    else
      .ok (d.update [("node_nums", nums), ("r1", .arrF (everyN 0 6 v)), ("r2", .arrF (everyN 1 6 v)),
        ("r3", .arrF (everyN 2 6 v)), ("r4", .arrF (everyN 3 6 v)), ("r5", .arrF (everyN 4 6 v)),
        ("r6", .arrF (everyN 5 6 v))])
  else if dt.numEq 5 then
    if nd.numEq 3 then
      let a ← cplxCols v 0 1
      let b ← cplxCols v 2 3
      let c ← cplxCols v 4 5
      .ok (d.update [("node_nums", nums), ("r1", a), ("r2", b), ("r3", c)])
    else .error (.exc "Cannot handle 6 points per node and complex data when reading data-set #55")
  else .error (.exc "Error reading data-set #55")

/-- `_extract55(block_data)` (`/repo/pyuff/datasets/dataset_55.py:458-538`). -/
def extract55 (t : Text) : Res Dict :=
  readGuard 55 do
    let ls := splitLinesKeep t
    let e2 ← parseHeader (← orIndex ls[2]?) 1 [80] [.str] ["id1"]
    let e3 ← parseHeader (← orIndex ls[3]?) 1 [80] [.str] ["id2"]
    let e4 ← parseHeader (← orIndex ls[4]?) 1 [80] [.str] ["id3"]
    let e5 ← parseHeader (← orIndex ls[5]?) 1 [80] [.str] ["id4"]
    let e6 ← parseHeader (← orIndex ls[6]?) 1 [80] [.str] ["id5"]
    let e7 ← parseHeader (← orIndex ls[7]?) 6 [10, 10, 10, 10, 10, 10] [.int, .int, .int, .int, .int, .int]
      ["model_type", "analysis_type", "data_ch", "spec_data_type", "data_type", "n_data_per_node"]
    let d : Dict := [("type", .int 55)]
    let d := (((((d.update e2).update e3).update e4).update e5).update e6).update e7
    let d ← readHead55 ls d
    readBody55 (ls.drop 10).flatten d

end Verif
