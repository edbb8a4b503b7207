import Verif.Spec.S58
/-
Binary data-sets 58 declared as single precision.
-/
namespace Verif
namespace DS58

/-- The dictionary asks for binary storage in single precision: `ord_data_type` 2 or 5 (`force_double` must be off). -/
structure SingleRep (d : Dict) (r : DS58) : Prop extends Content d r where
  binary : ∃ v, d.get? "binary" = some v ∧ (v = .int 1 ∨ v = .bool true)
  prec : d.get? "ord_data_type" = some (.int (match r.ord with | .real _ => 2 | .cplx _ => 5))

/-- The first four bytes of a double in the file, as a number: the lower half of its bits on a little-endian machine, else the
upper half. -/
def firstHalf (little : Bool) (x : F64) : F64 := F64.ofBits32 (if little then x.bits % 2 ^ 32 else x.bits / 2 ^ 32)
/-- The last four bytes. -/
def secondHalf (little : Bool) (x : F64) : F64 := F64.ofBits32 (if little then x.bits / 2 ^ 32 else x.bits % 2 ^ 32)
/-- A double seen as two numbers of four bytes, in the order of its bytes in the file. -/
def halves (little : Bool) (x : F64) : List F64 := [firstHalf little x, secondHalf little x]

/-- What the reader takes for the points: abscissa, real part, imaginary part.  Every double gives two numbers, so that there are
twice as many points, and abscissa and ordinate are mixed. -/
def singlePts (little : Bool) (r : DS58) : List (F64 × F64 × F64) :=
  let a := firstHalf little
  let b := secondHalf little
  match r.ord, r.even with
  | .real l, true => l.flatMap fun y => [(F64.zero, a y, F64.zero), (F64.zero, b y, F64.zero)]
  | .real l, false => (r.abscissaVals.zip l).flatMap fun p => [(a p.1, b p.1, F64.zero), (a p.2, b p.2, F64.zero)]
  | .cplx l, true => l.flatMap fun z => [(F64.zero, a z.1, b z.1), (F64.zero, a z.2, b z.2)]
  | .cplx l, false => (r.abscissaVals.zip l).flatMap fun p => [(a p.1, b p.1, a p.2.1), (b p.2.1, a p.2.2, b p.2.2)]

/-- `a + 1j * b`, computed part by part. -/
def plusJ (a b : F64) : Cplx :=
  (a.add ((F64.zero.mul b).sub (F64.one.mul F64.zero)), F64.zero.add ((F64.zero.mul F64.zero).add (F64.one.mul b)))

/-- The header read: the type is single precision, and `n_bytes` half of what the data take. -/
def singleHead (little : Bool) (r : DS58) : Dict :=
  ([("type", .int 58), ("binary", .int 1), ("byte_ordering", .int (if little then 1 else 2)), ("fp_format", .int 2),
    ("n_ascii_lines", .int 11), ("n_bytes", .int (4 * r.count))] : Dict) ++ (r.idBack ++
  (([("ord_data_type", .int (match r.ord with | .real _ => 2 | .cplx _ => 5)), ("num_pts", .int r.count),
    ("abscissa_spacing", .int (if r.even then 1 else 0)), ("abscissa_min", .float (r.min.quant 5)),
    ("abscissa_inc", .float (r.inc.quant 5)), ("z_axis_value", .float (r.zValue.quant 5))] : Dict) ++ r.axesBack))

/-- The dictionary read: as many points as `singlePts` has. -/
def singleBack (little : Bool) (r : DS58) : Dict :=
  let p := singlePts little r
  singleHead little r ++
  ([("x", .arrF (if r.even then (List.range p.length).map fun i => (r.min.quant 5).add ((F64.ofNat i).mul (r.inc.quant 5))
      else p.map (·.1))),
    ("data", match r.ord with
      | .real _ => .arrF (p.map (·.2.1))
      | .cplx _ => .arrC (p.map fun q => plusJ q.2.1 q.2.2))] : Dict)

/-- The header alone. -/
def singleHeaderBack (little : Bool) (r : DS58) : Dict :=
  singleHead little r ++ ([("x", .none), ("data", .none)] : Dict)

end DS58
end Verif
