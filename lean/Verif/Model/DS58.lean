import Verif.Model.DS55
/-
`/repo/pyuff/datasets/dataset_58.py`: function at nodal degree of freedom, ASCII and binary.
-/
namespace Verif

/-- `v == 0` (`/repo/pyuff/datasets/dataset_58.py:830`). -/
def Val.isZero (v : Val) : Bool :=
  match v with
  | .int m => decide (m = 0)
  | .bool b => !b
  | .float x => decide (x.mag = 0)
  | .cplx x y => decide (x.mag = 0 ∧ y.mag = 0)
  | _ => false

/-- `bool(v)` (`/repo/pyuff/datasets/dataset_58.py:901,908`).  The truth value of an array is not
modelled. -/
def Val.truthy (v : Val) : Res Bool :=
  match v with
  | .none => .ok false
  | .bool b => .ok b
  | .int n => .ok (decide (n ≠ 0))
  | .float x => .ok (decide (x.mag ≠ 0))
  | .cplx x y => .ok (decide (¬ (x.mag = 0 ∧ y.mag = 0)))
  | .str s => .ok (!s.isEmpty)
  | .list l => .ok (!l.isEmpty)
  | .dict d => .ok (!d.isEmpty)
  | .arrI _ | .arrF _ | .arrC _ | .mat _ => .error .unmodelled

/-- An array: comparing it with a number gives an array, which is not modelled. -/
def Val.isArr : Val → Bool
  | .arrI _ | .arrF _ | .arrC _ | .mat _ => true
  | _ => false

/-- `dset['func_type'] in [0, 1, 2, 3, 4, 6, 9]` (`/repo/pyuff/datasets/dataset_58.py:830`). -/
def funcOk (v : Val) : Res Bool :=
  if v.isArr then .error .unmodelled
  else .ok (v.isZero || [1, 2, 3, 4, 6, 9].any fun n => v.numEq n)

/-- Defaults (`/repo/pyuff/datasets/dataset_58.py:834-845`). -/
def opt58a : List (Key × Val) :=
  [("units_description", .str []), ("id1", .str "NONE".toList), ("id2", .str "NONE".toList),
   ("id3", .str "NONE".toList), ("id4", .str "NONE".toList), ("id5", .str "NONE".toList), ("func_id", .int 0),
   ("ver_num", .int 0), ("binary", .int 0), ("load_case_id", .int 0), ("rsp_ent_name", .str "NONE".toList),
   ("ref_ent_name", .str "NONE".toList)]
/-- Defaults (`/repo/pyuff/datasets/dataset_58.py:846-855`). -/
def opt58b : List (Key × Val) :=
  [("abscissa_axis_lab", .str "NONE".toList), ("abscissa_axis_units_lab", .str "NONE".toList),
   ("abscissa_len_unit_exp", .int 0), ("abscissa_force_unit_exp", .int 0), ("abscissa_temp_unit_exp", .int 0),
   ("ordinate_len_unit_exp", .int 0), ("ordinate_force_unit_exp", .int 0), ("ordinate_temp_unit_exp", .int 0),
   ("ordinate_axis_lab", .str "NONE".toList), ("ordinate_axis_units_lab", .str "NONE".toList)]
/-- Defaults (`/repo/pyuff/datasets/dataset_58.py:856-865`). -/
def opt58c : List (Key × Val) :=
  [("orddenom_len_unit_exp", .int 0), ("orddenom_force_unit_exp", .int 0), ("orddenom_temp_unit_exp", .int 0),
   ("orddenom_axis_lab", .str "NONE".toList), ("orddenom_axis_units_lab", .str "NONE".toList),
   ("z_axis_len_unit_exp", .int 0), ("z_axis_force_unit_exp", .int 0), ("z_axis_temp_unit_exp", .int 0),
   ("z_axis_axis_lab", .str "NONE".toList), ("z_axis_axis_units_lab", .str "NONE".toList)]
/-- Defaults (`/repo/pyuff/datasets/dataset_58.py:866-872`). -/
def opt58d : List (Key × Val) :=
  [("z_axis_value", .int 0), ("spec_data_type", .int 0), ("abscissa_spec_data_type", .int 0),
   ("ordinate_spec_data_type", .int 0), ("z_axis_spec_data_type", .int 0), ("version_num", .int 0),
   ("abscissa_spacing", .int 0)]
/-- The defaults (`/repo/pyuff/datasets/dataset_58.py:834-872`). -/
def opt58 : List (Key × Val) := opt58a ++ (opt58b ++ (opt58c ++ opt58d))

/-- The precision given by `ord_data_type` (`/repo/pyuff/datasets/dataset_58.py:889-894`): `some true` for
double (4, 6), `some false` for single (2, 5); otherwise `is_double` and `n_bytes` stay unassigned. -/
def prec58 (v : Val) : Res (Option Bool) :=
  if v.isArr then .error .unmodelled
  else if v.numEq 4 || v.numEq 6 then .ok (some true)
  else if v.numEq 2 || v.numEq 5 then .ok (some false)
  else .ok none

/-- `n_bytes` (`/repo/pyuff/datasets/dataset_58.py:891,894`); reading it unassigned raises
`UnboundLocalError`. -/
def nBytes58 (n : Nat) : Option Bool → Res Nat
  | some true => .ok (n * 8)
  | some false => .ok (n * 4)
  | none => .error .unbound

/-- `a - b` for numbers (`/repo/pyuff/datasets/dataset_58.py:906`).  Complex numbers, and integers beyond 64
bits, are not modelled. -/
def Val.minus (a b : Val) : Res Val :=
  match a, b with
  | .int m, .int n => if -(2 ^ 63) ≤ m - n ∧ m - n < 2 ^ 63 then .ok (.int (m - n)) else .error .unmodelled
  | .cplx _ _, _ | _, .cplx _ _ => .error .unmodelled
  | .bool _, _ | _, .bool _ => .error .unmodelled
  | a, b => match a.toFloat, b.toFloat with
    | .ok x, .ok y => .ok (.float (x.sub y))
    | .error e, _ => .error e
    | _, .error e => .error e

/-- `is_even * v` (`/repo/pyuff/datasets/dataset_58.py:926`). -/
def boolTimes (b : Bool) (v : Val) : Res Val :=
  match v with
  | .int n => .ok (.int (if b then n else 0))
  | .float x => .ok (.float ((if b then F64.one else F64.zero).mul x))
  | _ => .error .unmodelled

/-- `' %{w}s'` of `dset[k]` (`/repo/pyuff/datasets/dataset_58.py:921`). -/
def Fld.sr1 (w : Nat) (k : Key) : Fld := ⟨fun d => d.get k, fun v => (fmtSR w v).map fun t => ' ' :: t⟩
/-- `' %-{w}s'` of `dset[k]` (`/repo/pyuff/datasets/dataset_58.py:928`). -/
def Fld.sl1 (w : Nat) (k : Key) : Fld := ⟨fun d => d.get k, fun v => (fmtSL w v).map fun t => ' ' :: t⟩

/-- The floats of the abscissa when it is stored into a float array
(`/repo/pyuff/datasets/dataset_58.py:949,958`). -/
def Val.floats : Val → Res (List F64)
  | .arrI l => .ok (l.map F64.ofInt)
  | .arrF l => .ok l
  | .list l => if l.all Val.isFlat && !l.any Val.isCplx then mapRes Val.toFloat l else .error .unmodelled
  | _ => .error .unmodelled

/-- The ordinate as complex numbers: after `np.nan_to_num` (`/repo/pyuff/pyuff.py:442`) it is an array;
`.real` and `.imag` of a complex array, and a real array with imaginary parts that are never used.  Other
shapes are not modelled. -/
def ordinate58 : Val → Res (List (F64 × F64))
  | .arrI l => .ok (l.map fun n => (F64.ofInt n, F64.zero))
  | .arrF l => .ok (l.map fun x => (x, F64.zero))
  | .arrC l => .ok l
  | _ => .error .unmodelled

/-- The interleaved array `data` (`/repo/pyuff/datasets/dataset_58.py:944-960`).  Assigning an abscissa whose
length is not that of the ordinate raises `ValueError` (the abscissa has at least two items, so it is never
broadcast). -/
def interleave58 (real even : Bool) (x : Val) (ys : List (F64 × F64)) : Res (List F64) :=
  if even then .ok (if real then ys.map (·.1) else ys.flatMap fun z => [z.1, z.2])
  else match x.floats with
    | .error e => .error e
    | .ok xs =>
      if xs.length = ys.length then
        .ok ((xs.zip ys).flatMap fun p => if real then [p.1, p.2.1] else [p.1, p.2.1, p.2.2])
      else .error .value

/-- One line of numbers: the formats `'%{w}.{p}e'` of `ws` (`/repo/pyuff/datasets/dataset_58.py:984-1009`). -/
def numLine (ws : List (Nat × Nat)) (xs : List F64) : Text :=
  (List.zipWith (fun (w : Nat × Nat) x => padLeft w.1 (fmtE w.2 x)) ws xs).flatten ++ ['\n']

/-- `n * fmt % tuple(data[:k * n])` with `n = len(data) // k`, `k` the number of formats on a line, and the
line of the remaining values if there are any (`/repo/pyuff/datasets/dataset_58.py:980-986`). -/
def numLines (ws : List (Nat × Nat)) (xs : List F64) : Text :=
  ((List.range (xs.length / ws.length)).flatMap fun i =>
    numLine ws (slice xs (ws.length * i) (ws.length * (i + 1)))) ++
  (if 0 < xs.length % ws.length then numLine ws (xs.drop (ws.length * (xs.length / ws.length))) else [])

/-- The formats of a line (`/repo/pyuff/datasets/dataset_58.py:979-1009`). -/
def lineFmt (double real even : Bool) : List (Nat × Nat) :=
  if double then
    if even then [(20, 11), (20, 11), (20, 11), (20, 11)]
    else if real then [(13, 5), (20, 11), (13, 5), (20, 11)]
    else [(13, 5), (20, 11), (20, 11)]
  else [(13, 5), (13, 5), (13, 5), (13, 5), (13, 5), (13, 5)]

/-- The ASCII data lines (`/repo/pyuff/datasets/dataset_58.py:979-1009`).  Simplification: in the case of three
values per line the code has no line of remaining values; there are none, since the length of `data` is then
a multiple of three. -/
def asciiLines (double real even : Bool) (xs : List F64) : Text := numLines (lineFmt double real even) xs

/-- The eight bytes of the number `b`, least significant first (`struct.pack('<d', x)`,
`/repo/pyuff/datasets/dataset_58.py:970`). -/
def leBytes : Nat → Nat → Bytes
  | 0, _ => []
  | k + 1, b => UInt8.ofNat (b % 256) :: leBytes k (b / 256)

/-- `struct.pack('<d', x)` (`little`) or `struct.pack('>d', x)`
(`/repo/pyuff/datasets/dataset_58.py:969-972`). -/
def pack64 (little : Bool) (x : F64) : Bytes :=
  if little then leBytes 8 x.bits else (leBytes 8 x.bits).reverse

/-- The keys of a header line of units (`/repo/pyuff/datasets/dataset_58.py:928-943`). -/
structure UnitKeys where
  spec : Key
  len : Key
  force : Key
  temp : Key
  lab : Key
  units : Key

/-- `/repo/pyuff/datasets/dataset_58.py:928-931,1057-1060`. -/
def abscissaKeys : UnitKeys :=
  ⟨"abscissa_spec_data_type", "abscissa_len_unit_exp", "abscissa_force_unit_exp", "abscissa_temp_unit_exp",
   "abscissa_axis_lab", "abscissa_axis_units_lab"⟩
/-- `/repo/pyuff/datasets/dataset_58.py:932-935,1061-1064`. -/
def ordinateKeys : UnitKeys :=
  ⟨"ordinate_spec_data_type", "ordinate_len_unit_exp", "ordinate_force_unit_exp", "ordinate_temp_unit_exp",
   "ordinate_axis_lab", "ordinate_axis_units_lab"⟩
/-- `/repo/pyuff/datasets/dataset_58.py:936-939,1065-1068`. -/
def orddenomKeys : UnitKeys :=
  ⟨"orddenom_spec_data_type", "orddenom_len_unit_exp", "orddenom_force_unit_exp", "orddenom_temp_unit_exp",
   "orddenom_axis_lab", "orddenom_axis_units_lab"⟩
/-- `/repo/pyuff/datasets/dataset_58.py:940-943,1069-1072`. -/
def zAxisKeys : UnitKeys :=
  ⟨"z_axis_spec_data_type", "z_axis_len_unit_exp", "z_axis_force_unit_exp", "z_axis_temp_unit_exp",
   "z_axis_axis_lab", "z_axis_axis_units_lab"⟩

/-- A header line of units: `'%10i%5i%5i%5i %-20s %-20s\n'` (`/repo/pyuff/datasets/dataset_58.py:928-943`). -/
def unitsRow (k : UnitKeys) : W Unit :=
  W.row [.i 10 k.spec, .i 5 k.len, .i 5 k.force, .i 5 k.temp, .sl1 20 k.lab, .sl1 20 k.units]

/-- The rest of the identifier line (`/repo/pyuff/datasets/dataset_58.py:908-915`); `little` is
`sys.byteorder == 'little'`. -/
def idRest58 (little binary : Bool) (nb : Res Nat) : W Unit :=
  if binary then
    W.bind (W.lift nb) fun n =>
    W.row [.c (fun v => (fmtI 6 v).map fun t => 'b' :: t) (.int (if little then 1 else 2)), .c (fmtI 6) (.int 2),
      .c (fmtI 12) (.int 11), .c (fmtI 12) (.int n), .c (fmtI 6) (.int 0), .c (fmtI 6) (.int 0),
      .c (fmtI 12) (.int 0), .c (fmtI 12) (.int 0)]
  else W.emit (padLeft 74 [' '] ++ ['\n'])

/-- The data and the closing delimiter (`/repo/pyuff/datasets/dataset_58.py:962-1011`).  In the binary case
the bytes are returned: they do not go through `fh`. -/
def body58 (little binary : Bool) (pr : Option Bool) (real even : Bool) (data : List F64) : W (Option Bytes) :=
  if binary then W.pure (some (data.flatMap (pack64 little)))
  else match pr with
    | none => W.raise .unbound
    | some double =>
      W.bind (W.emit (asciiLines double real even data)) fun _ =>
      W.bind (W.emit tailText) fun _ => W.pure none

/-- `_write58(fh, dset, mode, _filename, force_double)` (`/repo/pyuff/datasets/dataset_58.py:827-1016`).
The result is `none` for an ASCII data-set.  For a binary one it is the payload: the code then closes `fh`,
reopens the file in binary mode, writes the payload, reopens it in text mode and writes the closing delimiter
(lines 963-977, 1011); what this does to the file depends on the mode and is modelled in `Verif.Model.Uff`. -/
def write58 (little forceDouble : Bool) : W (Option Bytes) :=
  W.guarded 58 do
    let ft ← W.key "func_type"
    let good ← W.lift (funcOk ft)
    W.when (good = false) (W.raise .value)
    W.opt opt58
    let y ← W.key "data"
    let n ← W.lift y.len
    let cplx ← W.lift y.isComplexObj
    W.when (forceDouble = true) (W.put "ord_data_type" (.int (if cplx then 6 else 4)))
    let odt ← W.key "ord_data_type"
    let pr ← W.lift (prec58 odt)
    let d ← W.getDict
    W.when (d.has "n_bytes" = true) (W.bind (W.lift (nBytes58 n pr)) fun k => W.put "n_bytes" (.int k))
    let sp ← W.key "abscissa_spacing"
    let even ← W.lift sp.truthy
    let x ← W.key "x"
    let x0 ← W.lift (x.idx 0)
    W.put "abscissa_min" x0
    let x1 ← W.lift (x.idx 1)
    let dx ← W.lift (x1.minus x0)
    W.emit (padLeft 6 ['-', '1'] ++ '\n' :: padLeft 6 (natRepr 58))
    let b ← W.key "binary"
    let binary ← W.lift b.truthy
    idRest58 little binary (nBytes58 n pr)
    W.row [.sl 80 "id1"]
    W.row [.sl 80 "id2"]
    W.row [.sl 80 "id3"]
    W.row [.sl 80 "id4"]
    W.row [.sl 80 "id5"]
    W.row [.i 5 "func_type", .i 10 "func_id", .i 5 "ver_num", .i 10 "load_case_id", .sr1 10 "rsp_ent_name",
      .i 10 "rsp_node", .i 4 "rsp_dir", .sr1 10 "ref_ent_name", .i 10 "ref_node", .i 4 "ref_dir"]
    W.row [.c (fmtI 10) odt, .c (fmtI 10) (.int n), .c (fmtI 10) (.bool even), ⟨fun _ => boolTimes even x0, fmtEV 13 5⟩,
      ⟨fun _ => boolTimes even dx, fmtEV 13 5⟩, .e 13 5 "z_axis_value"]
    unitsRow abscissaKeys
    unitsRow ordinateKeys
    unitsRow orddenomKeys
    unitsRow zAxisKeys
    let ys ← W.lift (ordinate58 y)
    let data ← W.lift (interleave58 (!cplx) even x ys)
    body58 little binary pr (!cplx) even data

/-- A header line of units (`/repo/pyuff/datasets/dataset_58.py:1057-1072`). -/
def readUnits (line : Res Text) (k : UnitKeys) : Res Dict :=
  match line with
  | .error e => .error e
  | .ok l => parseHeader l 4 [10, 5, 5, 5, 21, 21] [.int, .int, .int, .int, .str, .str]
    [k.spec, k.len, k.force, k.temp, k.lab, k.units]

/-- The identifier line says binary (`/repo/pyuff/datasets/dataset_58.py:1035-1036`). -/
def isBinary58 (l : Text) : Bool := (l[6]?).any fun c => lowerChar c = 'b'

/-- The entries taken from the identifier line (`/repo/pyuff/datasets/dataset_58.py:1031-1046`). -/
def idEntries58 (l1 : Text) : Res Dict :=
  let d : Dict := [("type", .int 58), ("binary", .int 0)]
  if isBinary58 l1 then
    match parseHeader l1 6 [6, 1, 6, 6, 12, 12, 6, 6, 12, 12]
      [.ign, .ign, .int, .int, .int, .int, .ign, .ign, .ign, .ign]
      ["", "", "byte_ordering", "fp_format", "n_ascii_lines", "n_bytes", "", "", "", ""] with
    | .ok e => .ok ((d.set "binary" (.int 1)).update e)
    | .error e => .error e
  else .ok d

/-- The header (`/repo/pyuff/datasets/dataset_58.py:1031-1072`): whether the data-set is binary, and the
dictionary so far. -/
def readHead58 (ls : List Text) : Res (Bool × Dict) := do
  let l1 ← orIndex ls[1]?
  let d ← idEntries58 l1
  let e2 ← parseHeader (← orIndex ls[2]?) 1 [80] [.str] ["id1"]
  let e3 ← parseHeader (← orIndex ls[3]?) 1 [80] [.str] ["id2"]
  let e4 ← parseHeader (← orIndex ls[4]?) 1 [80] [.str] ["id3"]
  let e5 ← parseHeader (← orIndex ls[5]?) 1 [80] [.str] ["id4"]
  let e6 ← parseHeader (← orIndex ls[6]?) 1 [80] [.str] ["id5"]
  let e7 ← parseHeader (← orIndex ls[7]?) 1 [5, 10, 5, 10, 11, 10, 4, 11, 10, 4]
    [.int, .int, .int, .int, .str, .int, .int, .str, .int, .int]
    ["func_type", "func_id", "ver_num", "load_case_id", "rsp_ent_name", "rsp_node", "rsp_dir", "ref_ent_name",
     "ref_node", "ref_dir"]
  let e8 ← parseHeader (← orIndex ls[8]?) 6 [10, 10, 10, 13, 13, 13] [.int, .int, .int, .flt, .flt, .flt]
    ["ord_data_type", "num_pts", "abscissa_spacing", "abscissa_min", "abscissa_inc", "z_axis_value"]
  let e9 ← readUnits (orIndex ls[9]?) abscissaKeys
  let e10 ← readUnits (orIndex ls[10]?) ordinateKeys
  let e11 ← readUnits (orIndex ls[11]?) orddenomKeys
  let e12 ← readUnits (orIndex ls[12]?) zAxisKeys
  .ok (isBinary58 l1, ((((((((((d.update e2).update e3).update e4).update e5).update e6).update e7).update e8).update
    e9).update e10).update e11).update e12)

/-- The number whose bytes are given, most significant first. -/
def beNat (b : Bytes) : Nat := b.foldl (fun n c => n * 256 + c.toNat) 0

/-- Consecutive groups of `w` bytes, a shorter rest dropped
(`split_data[:(len(split_data) // w) * w]`, `/repo/pyuff/datasets/dataset_58.py:1090,1094`). -/
def byteGroups (w : Nat) (b : Bytes) : List Bytes :=
  (List.range (b.length / w)).map fun i => slice b (w * i) (w * (i + 1))

/-- The binary values (`/repo/pyuff/datasets/dataset_58.py:1082-1094`).  Simplification: `int(len / 8)` is
taken to be `len // 8` (equal below `2 ^ 53`). -/
def binValues (little single : Bool) (b : Bytes) : List F64 :=
  if single then (byteGroups 4 b).map fun g => F64.ofBits32 (beNat (if little then g.reverse else g))
  else (byteGroups 8 b).map fun g => F64.ofBits (beNat (if little then g.reverse else g))

/-- The values of a line of two formats, 13 and 20 columns, repeated
(`/repo/pyuff/datasets/dataset_58.py:1111-1113`). -/
def pairCells (line : Text) : List Text := (chunks 33 line).flatMap fun c => [slice c 0 13, slice c 13 33]

/-- The values of the ASCII lines (`/repo/pyuff/datasets/dataset_58.py:1098-1118`); `odt` and `sp` are
`ord_data_type` and `abscissa_spacing`. -/
def asciiValues (odt sp : Int) (ls : List Text) : Res (List F64) :=
  if odt = 2 ∨ odt = 5 then
    match ls.getLast? with
    | none => .error .index
    | some last => mapRes pyFloat ((ls.dropLast.flatMap (chunks 13)) ++
        (chunks 13 last).filter fun c => c ≠ blanks 13)
  else if (odt = 4 ∨ odt = 6) ∧ sp = 1 then mapRes pyFloat (ls.flatMap (chunks 20))
  else if odt = 4 ∧ sp = 0 then mapRes pyFloat (ls.flatMap pairCells)
  else if odt = 6 ∧ sp = 0 then mapRes pyFloat (ls.flatMap fun l => [slice l 0 13, slice l 13 33, slice l 33 53])
  else .error (.exc "Error reading data-set #58b; not proper data case.")

/-- `min_val + np.arange(n) * d` (`/repo/pyuff/datasets/dataset_58.py:1133,1146`). -/
def arange58 (mn inc : F64) (n : Nat) : List F64 := (List.range n).map fun i => mn.add ((F64.ofNat i).mul inc)

/-- `a + 1.j * b` on arrays of the same length (`/repo/pyuff/datasets/dataset_58.py:1140,1147`). -/
def cplxZip (a b : List F64) : List (F64 × F64) := List.zipWith cplxOf a b

/-- Abscissa and ordinate from the values (`/repo/pyuff/datasets/dataset_58.py:1122-1147`).  The two operands
of the sums at lines 1140 and 1147 always have the same length. -/
def assign58 (d : Dict) (odt sp : Int) (mn inc : F64) (v : List F64) : Dict :=
  let n := v.length
  if odt = 2 ∨ odt = 4 then
    if sp = 0 then d.update [("x", .arrF (everyN 0 2 (v.take (n - 1)))), ("data", .arrF (everyN 1 2 v))]
    else d.update [("x", .arrF (arange58 mn inc n)), ("data", .arrF v)]
  else if odt = 5 ∨ odt = 6 then
    if sp = 0 then d.update [("x", .arrF (everyN 0 3 (v.take (n - 2)))),
      ("data", .arrC (cplxZip (everyN 1 3 (v.take (n - 1))) (everyN 2 3 v)))]
    else d.update [("x", .arrF (arange58 mn inc ((n + 1) / 2))),
      ("data", .arrC (cplxZip (everyN 0 2 (v.take (n - 1))) (everyN 1 2 v)))]
  else d

/-- The numbers read from the header that the body depends on. -/
def bodyArgs (d : Dict) : Res (Int × Int × F64 × F64) :=
  match d.get "ord_data_type", d.get "abscissa_spacing", d.get "abscissa_min", d.get "abscissa_inc" with
  | .ok (.int o), .ok (.int s), .ok (.float m), .ok (.float i) => .ok (o, s, m, i)
  | _, _, _, _ => .error .unmodelled

/-- The payload is in little-endian order (`/repo/pyuff/datasets/dataset_58.py:1083-1086`). -/
def littleOf (d : Dict) : Res Bool :=
  match d.get "byte_ordering" with
  | .ok v => .ok (v.numEq 1)
  | .error e => .error e

/-- `_extract58(block_data, header_only)` (`/repo/pyuff/datasets/dataset_58.py:1019-1151`). -/
def extract58 (block : Bytes) (headerOnly : Bool) : Res Dict :=
  readGuard 58 do
    let (binary, d) ← readHead58 (splitLinesKeep (decode ((splitLinesKeepB block).take 13).flatten))
    if headerOnly then .ok ((d.set "x" .none).set "data" .none)
    else
      let (odt, sp, mn, inc) ← bodyArgs d
      let v ← if binary then
          match littleOf d with
          | .error e => .error e
          | .ok little => .ok (binValues little (decide (odt = 2 ∨ odt = 5)) ((splitLinesKeepB block).drop 13).flatten)
        else asciiValues odt sp ((splitLinesKeep (decode block)).drop 13)
      .ok (assign58 d odt sp mn inc v)

end Verif
