import Verif.Model.DS58
import Verif.Model.DS2467
import Verif.Model.DS18
/-
Data-set 2414, `/repo/pyuff/datasets/dataset_2414.py`.
-/
namespace Verif

/-- The optional fields (`/repo/pyuff/datasets/dataset_2414.py:554-561`): eight fields of records 10 and 11, six
of records 12 and 13. -/
def opt2414 : List (Key × Val) :=
  ([("record10_field1", .int 0), ("record10_field2", .int 0), ("record10_field3", .int 0), ("record10_field4", .int 0),
    ("record10_field5", .int 0), ("record10_field6", .int 0), ("record10_field7", .int 0), ("record10_field8", .int 0)] :
    List (Key × Val)) ++
  (([("record11_field1", .int 0), ("record11_field2", .int 0), ("record11_field3", .int 0), ("record11_field4", .int 0),
    ("record11_field5", .int 0), ("record11_field6", .int 0), ("record11_field7", .int 0), ("record11_field8", .int 0)] :
    List (Key × Val)) ++
  (([("record12_field1", .int 0), ("record12_field2", .int 0), ("record12_field3", .int 0), ("record12_field4", .int 0),
    ("record12_field5", .int 0), ("record12_field6", .int 0)] : List (Key × Val)) ++
   ([("record13_field1", .int 0), ("record13_field2", .int 0), ("record13_field3", .int 0), ("record13_field4", .int 0),
    ("record13_field5", .int 0), ("record13_field6", .int 0)] : List (Key × Val))))

/-- The conversion `'  %.5e'` of `dset[k]` (`/repo/pyuff/datasets/dataset_2414.py:598-604`). -/
def Fld.e2 (k : Key) : Fld := ⟨fun d => d.get k, fun v => (fmtEV 0 5 v).map ([' ', ' '] ++ ·)⟩

/-- `v.shape[0]` (`/repo/pyuff/datasets/dataset_2414.py:612`): only arrays have a shape. -/
def Val.shape0 : Val → Res Nat
  | .arrI l => .ok l.length
  | .arrF l => .ok l.length
  | .arrC l => .ok l.length
  | .mat l => .ok l.length
  | _ => .error .attr

/-- `np.real(v)`, `np.imag(v)` of a scalar (`/repo/pyuff/datasets/dataset_2414.py:616-621`); what they make of
anything that is not a number is not modelled. -/
def npPart (r : Res Val) : Res Val := match r with
  | .error .attr => .error .unmodelled
  | r => r

/-- `'%13.5e'` of `np.real(dset[k][i])` and of `np.imag(dset[k][i])`
(`/repo/pyuff/datasets/dataset_2414.py:616-621`). -/
def reIm (k : Key) (i : Nat) : List Fld :=
  [⟨fun d => match Fld.at_ k i d with
    | .error e => .error e
    | .ok v => npPart v.re, fmtEV 13 5⟩,
   ⟨fun d => match Fld.at_ k i d with
    | .error e => .error e
    | .ok v => npPart v.im, fmtEV 13 5⟩]

/-- The keys of records 10 and 11 of a frequency response (`/repo/pyuff/datasets/dataset_2414.py:586-597`). -/
def freqInts : List Fld :=
  [.i 10 "design_set_id", .i 10 "iteration_number", .i 10 "solution_set_id", .i 10 "boundary_condition",
   .i 10 "load_set", .i 10 "mode_number", .i 10 "time_step_number", .i 10 "frequency_number"]

/-- The values of node `i` of a frequency response (`/repo/pyuff/datasets/dataset_2414.py:613-634`): `n` is the
number of values per node; nothing is written when it is not 1, 2 or 3. -/
def freqNode (n : Val) (i : Nat) : W Unit :=
  W.bind (W.row [.intAt 10 "node_nums" i]) fun _ =>
  if n.numEq 3 then W.row (reIm "x" i ++ (reIm "y" i ++ reIm "z" i))
  else if n.numEq 2 then W.row (reIm "x" i ++ reIm "y" i)
  else if n.numEq 1 then W.row (reIm "x" i)
  else W.pure ()

/-- Records 10 to 15 of a frequency response (`/repo/pyuff/datasets/dataset_2414.py:584-636`). -/
def freqRest : W Unit := do
  W.row freqInts
  W.row [.i 10 "creation_option", .i 10 "number_retained"]
  W.row [.e2 "time", .e2 "frequency", .e2 "eigenvalue", .e2 "modal_mass", .e2 "viscous_damping",
    .e2 "hysteretic_damping"]
  W.row [.e2 "real_part_eigenvalue", .e2 "imaginary_part_eigenvalue", .e2 "real_part_of_modal_A_or_modal_mass",
    .e2 "imaginary_part_of_modal_A_or_modal_mass", .e2 "real_part_of_modal_B_or_modal_mass",
    .e2 "imaginary_part_of_modal_B_or_modal_mass"]
  let v ← W.key "node_nums"
  let n ← W.lift v.shape0
  let c ← W.key "number_of_data_values_for_the_data_component"
  W.forL (List.range n) (freqNode c)
  W.emit tailText

/-- `for field in v: fh.write('%13.5e' % field)` and the line end
(`/repo/pyuff/datasets/dataset_2414.py:673-676`). -/
def writeVals (v : Val) : W Unit :=
  W.bind (W.lift v.items) fun l =>
  W.bind (W.forL l fun x => W.bind (W.format [.c (fmtEV 13 5) x]) W.emit) fun _ =>
  W.emit ['\n']

/-- `dset[k][i]` (`/repo/pyuff/datasets/dataset_2414.py:673`). -/
def W.keyAt (k : Key) (i : Nat) : W Val := fun d => ⟨[], d, Fld.at_ k i d⟩

/-- Records 14 and 15, data at nodes (`/repo/pyuff/datasets/dataset_2414.py:670-677`). -/
def locNodes : W Unit := do
  let v ← W.key "node_nums"
  let n ← W.lift v.shape0
  W.forL (List.range n) fun i => do
    W.row [⟨Fld.at_ "node_nums" i, fmtI 10⟩]
    let l ← W.keyAt "data_at_node" i
    writeVals l
  W.emit tailText

/-- The conversion `'%{w}i'` of `len(dset[k][i])` (`/repo/pyuff/datasets/dataset_2414.py:682`). -/
def Fld.lenAt (w : Nat) (k : Key) (i : Nat) : Fld :=
  ⟨fun d => match Fld.at_ k i d with
    | .error e => .error e
    | .ok l => match l.len with
      | .error e => .error e
      | .ok n => .ok (.int n), fmtI w⟩

/-- Data on elements (`/repo/pyuff/datasets/dataset_2414.py:679-687`). -/
def locElems : W Unit := do
  let v ← W.key "element_nums"
  let n ← W.lift v.shape0
  W.forL (List.range n) fun i => do
    W.row [⟨Fld.at_ "element_nums" i, fmtI 10⟩, .lenAt 10 "data_at_element" i]
    let l ← W.keyAt "data_at_element" i
    writeVals l
  W.emit tailText

/-- Data at nodes on elements (`/repo/pyuff/datasets/dataset_2414.py:689-698`). -/
def locElemNodes : W Unit := do
  let v ← W.key "element_nums"
  let n ← W.lift v.shape0
  W.forL (List.range n) fun i => do
    W.row [⟨Fld.at_ "element_nums" i, fmtI 10⟩, ⟨Fld.at_ "IEXP" i, fmtI 10⟩, ⟨Fld.at_ "number_of_nodes" i, fmtI 10⟩,
      ⟨Fld.at_ "number_of_values_per_node" i, fmtI 10⟩]
    let l ← W.keyAt "data_at_nodes_on_element" i
    let ls ← W.lift l.items
    W.forL ls writeVals
  W.emit tailText

/-- Records 14 and 15 (`/repo/pyuff/datasets/dataset_2414.py:668-705`).  For location 5 nothing is written, not
even the closing delimiter. -/
def locRest (loc : Val) : W Unit :=
  if loc.numEq 1 then locNodes
  else if loc.numEq 2 then locElems
  else if loc.numEq 3 then locElemNodes
  else if loc.numEq 5 then W.pure ()
  else W.emit tailText

/-- Records 10 to 15 of the other analysis types (`/repo/pyuff/datasets/dataset_2414.py:637-705`). -/
def plainRest : W Unit := do
  W.row [.i 10 "record10_field1", .i 10 "record10_field2", .i 10 "record10_field3", .i 10 "record10_field4",
    .i 10 "record10_field5", .i 10 "record10_field6", .i 10 "record10_field7", .i 10 "record10_field8"]
  W.row [.i 10 "record11_field1", .i 10 "record11_field2", .i 10 "record11_field3", .i 10 "record11_field4",
    .i 10 "record11_field5", .i 10 "record11_field6", .i 10 "record11_field7", .i 10 "record11_field8"]
  W.row [.e2 "record12_field1", .e2 "record12_field2", .e2 "record12_field3", .e2 "record12_field4",
    .e2 "record12_field5", .e2 "record12_field6"]
  W.row [.e2 "record13_field1", .e2 "record13_field2", .e2 "record13_field3", .e2 "record13_field4",
    .e2 "record13_field5", .e2 "record13_field6"]
  let loc ← W.key "dataset_location"
  locRest loc

/-- `_write2414` (`/repo/pyuff/datasets/dataset_2414.py:544-707`).  Comparing an array with `==` is not
modelled. -/
def write2414 : W Unit := W.guardedAny 2414 do
  W.opt opt2414
  W.emit (headShort 2414)
  W.row [.i 10 "analysis_dataset_label"]
  W.row [.sl 80 "analysis_dataset_name"]
  W.row [.i 10 "dataset_location"]
  W.row [.sl 80 "id1"]
  W.row [.sl 80 "id2"]
  W.row [.sl 80 "id3"]
  W.row [.sl 80 "id4"]
  W.row [.sl 80 "id5"]
  W.row [.i 10 "model_type", .i 10 "analysis_type", .i 10 "data_characteristic", .i 10 "result_type", .i 10 "data_type",
    .i 10 "number_of_data_values_for_the_data_component"]
  let a ← W.key "analysis_type"
  (if a.numEq 5 then freqRest else plainRest)

/-! Reading. -/

/-- `a + b * 1j` on arrays with broadcasting (`/repo/pyuff/datasets/dataset_2414.py:762`): arrays of equal length,
or one of length 1. -/
def cplxBroadcast (a b : List F64) : Res Val :=
  if a.length = b.length then .ok (.arrC (cplxZip a b))
  else match a, b with
    | [x], b => .ok (.arrC (b.map (cplxOf x)))
    | a, [y] => .ok (.arrC (a.map fun x => cplxOf x y))
    | _, _ => .error .value

/-- The header common to all analysis types (`/repo/pyuff/datasets/dataset_2414.py:717-730`). -/
def readHead2414 (ls : List Text) : Res Dict := do
  let e2 ← parseHeader (← orIndex ls[2]?) 1 [80] [.int] ["analysis_dataset_label"]
  let e3 ← parseHeader (← orIndex ls[3]?) 1 [80] [.str] ["analysis_dataset_name"]
  let e4 ← parseHeader (← orIndex ls[4]?) 1 [80] [.int] ["dataset_location"]
  let e5 ← parseHeader (← orIndex ls[5]?) 1 [80] [.str] ["id1"]
  let e6 ← parseHeader (← orIndex ls[6]?) 1 [80] [.str] ["id2"]
  let e7 ← parseHeader (← orIndex ls[7]?) 1 [80] [.str] ["id3"]
  let e8 ← parseHeader (← orIndex ls[8]?) 1 [80] [.str] ["id4"]
  let e9 ← parseHeader (← orIndex ls[9]?) 1 [80] [.str] ["id5"]
  let e10 ← parseHeader (← orIndex ls[10]?) 6 [10, 10, 10, 10, 10, 10] [.int, .int, .int, .int, .int, .int]
    ["model_type", "analysis_type", "data_characteristic", "result_type", "data_type",
     "number_of_data_values_for_the_data_component"]
  .ok (((((((((Dict.update [("type", .int 2414)] e2).update e3).update e4).update e5).update e6).update e7).update
    e8).update e9).update e10)

/-- Records 10 to 13 of a frequency response (`/repo/pyuff/datasets/dataset_2414.py:737-749`). -/
def readFreqHead (ls : List Text) : Res Dict := do
  let e11 ← parseHeader (← orIndex ls[11]?) 8 [10, 10, 10, 10, 10, 10, 10, 10]
    [.int, .int, .int, .int, .int, .int, .int, .int]
    ["design_set_id", "iteration_number", "solution_set_id", "boundary_condition", "load_set", "mode_number",
     "time_step_number", "frequency_number"]
  let e12 ← parseHeader (← orIndex ls[12]?) 2 [10, 10] [.int, .int] ["creation_option", "number_retained"]
  let e13 ← parseHeader (← orIndex ls[13]?) 6 [13, 13, 13, 13, 13, 13] [.flt, .flt, .flt, .flt, .flt, .flt]
    ["time", "frequency", "eigenvalue", "modal_mass", "viscous_damping", "hysteretic_damping"]
  let e14 ← parseHeader (← orIndex ls[14]?) 6 [13, 13, 13, 13, 13, 13] [.flt, .flt, .flt, .flt, .flt, .flt]
    ["real_part_eigenvalue", "imaginary_part_eigenvalue", "real_part_of_modal_A_or_modal_mass",
     "imaginary_part_of_modal_A_or_modal_mass", "real_part_of_modal_B_or_modal_mass",
     "imaginary_part_of_modal_B_or_modal_mass"]
  .ok (((Dict.update [] e11).update e12).update e13 |>.update e14)

/-- Records 10 to 13 of the other analysis types (`/repo/pyuff/datasets/dataset_2414.py:776-789`). -/
def readPlainHead (ls : List Text) : Res Dict := do
  let e11 ← parseHeader (← orIndex ls[11]?) 1 [10, 10, 10, 10, 10, 10, 10, 10]
    [.int, .int, .int, .int, .int, .int, .int, .int]
    ["record10_field1", "record10_field2", "record10_field3", "record10_field4", "record10_field5", "record10_field6",
     "record10_field7", "record10_field8"]
  let e12 ← parseHeader (← orIndex ls[12]?) 1 [10, 10, 10, 10, 10, 10, 10, 10]
    [.int, .int, .int, .int, .int, .int, .int, .int]
    ["record11_field1", "record11_field2", "record11_field3", "record11_field4", "record11_field5", "record11_field6",
     "record11_field7", "record11_field8"]
  let e13 ← parseHeader (← orIndex ls[13]?) 1 [13, 13, 13, 13, 13, 13] [.flt, .flt, .flt, .flt, .flt, .flt]
    ["record12_field1", "record12_field2", "record12_field3", "record12_field4", "record12_field5", "record12_field6"]
  let e14 ← parseHeader (← orIndex ls[14]?) 1 [13, 13, 13, 13, 13, 13] [.flt, .flt, .flt, .flt, .flt, .flt]
    ["record13_field1", "record13_field2", "record13_field3", "record13_field4", "record13_field5", "record13_field6"]
  .ok (((Dict.update [] e11).update e12).update e13 |>.update e14)

/-- `np.array(values, dtype=int)` of floats (`/repo/pyuff/datasets/dataset_2414.py:760`): truncation; what becomes of
NaN, infinities and numbers beyond 64 bits is not modelled. -/
def truncInts (l : List F64) : Res (List Int) :=
  mapRes (fun x : F64 => match x.toInt with
    | some n => if -(2 ^ 63) ≤ n ∧ n < 2 ^ 63 then .ok n else .error .unmodelled
    | none => .error .unmodelled) l

/-- `l[a::-m]` for `m ≥ 1` (`/repo/pyuff/datasets/dataset_2414.py:760-762`): from element `a`, or from the last one when
there are fewer, towards the first. -/
def everyBack {α : Type} (a m : Nat) (l : List α) : List α := everyN 0 m (l.take (a + 1)).reverse

/-- The data of a frequency response (`/repo/pyuff/datasets/dataset_2414.py:751-768`): `c` values per node.  With a negative
number of values the step is negative (and `c < 2`). -/
def readFreqData (c : Int) (ls : List Text) : Res Dict := do
  let values ← mapRes pyFloat (splitWs ls.flatten)
  let n := c * 2 + 1
  if n < 0 then
    let m := (-n).toNat
    let nodes ← truncInts (everyN 0 m values.reverse)
    let x ← cplxBroadcast (everyBack 1 m values) (everyBack 2 m values)
    .ok [(Key.s "node_nums", .arrI nodes), (Key.s "x", x)]
  else
    let n := n.toNat
    let nodes ← truncInts (everyN 0 n values)
    let x ← cplxBroadcast (everyN 1 n values) (everyN 2 n values)
    let y ← (if c ≥ 2 then (cplxBroadcast (everyN 3 n values) (everyN 4 n values)).map fun v => [(Key.s "y", v)] else .ok [])
    let z ← (if c ≥ 3 then (cplxBroadcast (everyN 5 n values) (everyN 6 n values)).map fun v => [(Key.s "z", v)] else .ok [])
    .ok ([(Key.s "node_nums", .arrI nodes), (Key.s "x", x)] ++ (y ++ z))

/-- `int` of word `k` of a line (`/repo/pyuff/datasets/dataset_2414.py:796-799`). -/
def intWord (k : Nat) (q : List Text) : Res Int :=
  match q[k]? with
  | none => .error .index
  | some t => pyInt t

/-- Column `k` of `np.asarray([s.split() for s in ls], 'U')` as integers
(`/repo/pyuff/datasets/dataset_2414.py:796-799`): `ValueError` when the lines do not have equally many words,
`IndexError` when there is no such column. -/
def intColumn (k : Nat) (ls : List Text) : Res (List Int) :=
  let rows := ls.map splitWs
  match rows with
  | [] => .error .index
  | r :: _ =>
    if rows.all fun q => q.length = r.length then
      match mapRes (intWord k) rows with
      | .error e => .error e
      | .ok l => arr64 l
    else .error .value

/-- `[np.array([float(x) for x in item.split()], float) for item in ls]`
(`/repo/pyuff/datasets/dataset_2414.py:798`). -/
def floatLists (ls : List Text) : Res (List Val) :=
  mapRes (fun l => (mapRes pyFloat (splitWs l)).map Val.arrF) ls

/-- An element record of location 3 (`/repo/pyuff/datasets/dataset_2414.py:818-824`). -/
def elemRecord (l : Text) : Res (Int × Int × Int × Int) := do
  let w := splitWs l
  let e ← pyInt (← orIndex w[0]?)
  let i ← pyInt (← orIndex w[1]?)
  let n ← pyInt (← orIndex w[2]?)
  let v ← pyInt (← orIndex w[3]?)
  .ok (e, i, n, v)

/-- Number of lines of record 15 (`/repo/pyuff/datasets/dataset_2414.py:825-830`).  Simplification: the quotient
in `math.ceil(v / 6)` is taken to be exact (it is below `2 ^ 53`). -/
def elemLines (iexp nodes vals : Int) : Int :=
  if iexp = 1 then nodes * ceilDiv vals 6 else ceilDiv vals 6

/-- The `while` loop of location 3 (`/repo/pyuff/datasets/dataset_2414.py:816-834`) on the lines from `lineIndex`
on.  A negative number of lines, for which the code may loop for ever, is not modelled.  `fuel` bounds the number of
elements; every pass consumes at least one line. -/
def elemLoop : Nat → List Text → Res (List ((Int × Int × Int × Int) × Val))
  | _, [] => .ok []
  | 0, _ :: _ => .error .unmodelled
  | fuel + 1, l :: ls => do
    let e ← elemRecord l
    let k := elemLines e.2.1 e.2.2.1 e.2.2.2
    if k < 0 then .error .unmodelled
    else
      let v ← floatLists (ls.take k.toNat)
      let r ← elemLoop fuel (ls.drop k.toNat)
      .ok ((e, .list v) :: r)

/-- The data of location 3 (`/repo/pyuff/datasets/dataset_2414.py:806-840`). -/
def readElemNodes (ls : List Text) : Res Dict := do
  let es ← elemLoop ls.length ls
  let a ← arr64 (es.map (·.1.1))
  let b ← arr64 (es.map (·.1.2.1))
  let c ← arr64 (es.map (·.1.2.2.1))
  let d ← arr64 (es.map (·.1.2.2.2))
  .ok [("element_nums", .arrI a), ("IEXP", .arrI b), ("number_of_nodes", .arrI c), ("number_of_values_per_node", .arrI d),
    ("data_at_nodes_on_element", .list (es.map (·.2)))]

/-- The data of the other analysis types (`/repo/pyuff/datasets/dataset_2414.py:791-853`). -/
def readPlainData (loc : Int) (ls : List Text) : Res Dict :=
  if loc = 1 then do
    let v ← floatLists (everyN 1 2 ls)
    let n ← intColumn 0 (everyN 0 2 ls)
    .ok [("node_nums", .arrI n), ("data_at_node", .list v)]
  else if loc = 2 then do
    let v ← floatLists (everyN 1 2 ls)
    let n ← intColumn 0 (everyN 0 2 ls)
    let m ← intColumn 1 (everyN 0 2 ls)
    .ok [("element_nums", .arrI n), ("NDVAL", .arrI m), ("data_at_element", .list v)]
  else if loc = 3 then readElemNodes ls
  else .ok []

/-- The integers of the header that the reader uses: location, analysis type, data type, values per node. -/
def args2414 (d : Dict) : Res (Int × Int × Int × Int) :=
  match d.get "dataset_location", d.get "analysis_type", d.get "data_type",
    d.get "number_of_data_values_for_the_data_component" with
  | .ok (.int l), .ok (.int a), .ok (.int t), .ok (.int c) => .ok (l, a, t, c)
  | _, _, _, _ => .error .unmodelled

/-- `_extract2414` (`/repo/pyuff/datasets/dataset_2414.py:710-851`). -/
def extract2414 (block : Text) : Res Dict := readGuard 2414 do
  let ls := splitLinesKeep block
  let d ← readHead2414 (ls.take 15)
  let (loc, a, t, c) ← args2414 d
  if a = 5 then do
    let h ← readFreqHead (ls.take 15)
    let e ← (if t = 5 then readFreqData c (ls.drop 15) else .ok [])
    .ok ((d.update h).update e)
  else do
    let h ← readPlainHead (ls.take 15)
    let e ← readPlainData loc (splitLines (ls.drop 15).flatten)
    .ok ((d.update h).update e)

end Verif
