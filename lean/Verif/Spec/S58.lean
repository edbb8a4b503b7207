import Verif.Spec.S55
/-
What a data-set 58 means: a function at a nodal degree of freedom.
-/
namespace Verif

/-- The characteristics of an axis. -/
structure Axis58 where
  spec : Int
  len : Int
  force : Int
  temp : Int
  lab : Text
  units : Text

/-- The ordinate. -/
inductive Ord58 where
  | real (l : List F64)
  | cplx (l : List Cplx)

/-- How the data are stored. -/
inductive Store58 where
  /-- As text, with 12 (`double`) or 6 significant digits. -/
  | ascii (double : Bool)
  /-- As doubles in little- or big-endian order. -/
  | binary (little : Bool)

/-- The information in a data-set 58. -/
structure DS58 where
  id1 : Text
  id2 : Text
  id3 : Text
  id4 : Text
  id5 : Text
  func : Int
  funcId : Int
  ver : Int
  load : Int
  rspName : Text
  rspNode : Int
  rspDir : Int
  refName : Text
  refNode : Int
  refDir : Int
  zValue : F64
  abscissa : Axis58
  ordinate : Axis58
  orddenom : Axis58
  zAxis : Axis58
  /-- The abscissa; when it is even only the first two values matter. -/
  x0 : F64
  x1 : F64
  xs : List F64
  even : Bool
  ord : Ord58
  store : Store58

namespace DS58

/-- Number of points. -/
def count (r : DS58) : Nat := match r.ord with
  | .real l => l.length
  | .cplx l => l.length

/-- `ord_data_type`: 2 and 5 for single, 4 and 6 for double precision; 2 and 4 for real data. -/
def ordType (r : DS58) : Int := match r.ord, r.store with
  | .real _, .ascii false => 2
  | .real _, _ => 4
  | .cplx _, .ascii false => 5
  | .cplx _, _ => 6

/-- The abscissa as given. -/
def abscissaVals (r : DS58) : List F64 := r.x0 :: r.x1 :: r.xs

/-- An array or list of floats. -/
def HasFloatSeq (d : Dict) (k : Key) (l : List F64) : Prop :=
  ∃ v, d.get? k = some v ∧ IsSeq (fun v x => v = .float x) v l

/-- The keys that describe an axis. -/
structure AxisRep (d : Dict) (spec len force temp lab units : Key) (a : Axis58) : Prop where
  spec : HasIntOr d spec 0 a.spec
  len : HasIntOr d len 0 a.len
  force : HasIntOr d force 0 a.force
  temp : HasIntOr d temp 0 a.temp
  lab : HasStrOr d lab "NONE" a.lab
  units : HasStrOr d units "NONE" a.units

/-- The ordinate is an array. -/
def OrdRep (d : Dict) : Ord58 → Prop
  | .real l => d.get? "data" = some (.arrF l)
  | .cplx l => d.get? "data" = some (.arrC l)

/-- The storage asked for: `binary`, `force_double` and `ord_data_type`.  Binary data are stored with the byte
order of the machine. -/
def StoreRep (d : Dict) (little forceDouble : Bool) (r : DS58) : Prop :=
  match r.store with
  | .ascii double => (∃ v, d.getOr "binary" (.int 0) = v ∧ (v = .int 0 ∨ v = .bool false)) ∧
    (if forceDouble then double = true else d.get? "ord_data_type" = some (.int r.ordType))
  | .binary le => (∃ v, d.get? "binary" = some v ∧ (v = .int 1 ∨ v = .bool true)) ∧ le = little ∧
    (forceDouble = false → d.get? "ord_data_type" = some (.int r.ordType))

/-- The dictionary given to `write_sets` carries this information, apart from the storage. -/
structure Content (d : Dict) (r : DS58) : Prop where
  type : d.get? "type" = some (.int 58)
  id1 : HasStrOr d "id1" "NONE" r.id1
  id2 : HasStrOr d "id2" "NONE" r.id2
  id3 : HasStrOr d "id3" "NONE" r.id3
  id4 : HasStrOr d "id4" "NONE" r.id4
  id5 : HasStrOr d "id5" "NONE" r.id5
  func : d.get? "func_type" = some (.int r.func)
  funcId : HasIntOr d "func_id" 0 r.funcId
  ver : HasIntOr d "ver_num" 0 r.ver
  load : HasIntOr d "load_case_id" 0 r.load
  rspName : HasStrOr d "rsp_ent_name" "NONE" r.rspName
  rspNode : HasInt d "rsp_node" r.rspNode
  rspDir : HasInt d "rsp_dir" r.rspDir
  refName : HasStrOr d "ref_ent_name" "NONE" r.refName
  refNode : HasInt d "ref_node" r.refNode
  refDir : HasInt d "ref_dir" r.refDir
  zValue : HasFloatOr d "z_axis_value" (.int 0) r.zValue
  abscissa : AxisRep d "abscissa_spec_data_type" "abscissa_len_unit_exp" "abscissa_force_unit_exp"
    "abscissa_temp_unit_exp" "abscissa_axis_lab" "abscissa_axis_units_lab" r.abscissa
  ordinate : AxisRep d "ordinate_spec_data_type" "ordinate_len_unit_exp" "ordinate_force_unit_exp"
    "ordinate_temp_unit_exp" "ordinate_axis_lab" "ordinate_axis_units_lab" r.ordinate
  /-- The type of the denominator has no default. -/
  denomSpec : d.has "orddenom_spec_data_type" = true
  orddenom : AxisRep d "orddenom_spec_data_type" "orddenom_len_unit_exp" "orddenom_force_unit_exp"
    "orddenom_temp_unit_exp" "orddenom_axis_lab" "orddenom_axis_units_lab" r.orddenom
  zAxis : AxisRep d "z_axis_spec_data_type" "z_axis_len_unit_exp" "z_axis_force_unit_exp"
    "z_axis_temp_unit_exp" "z_axis_axis_lab" "z_axis_axis_units_lab" r.zAxis
  spacing : ∃ v, d.getOr "abscissa_spacing" (.int 0) = v ∧
    (v = .int (if r.even then 1 else 0) ∨ v = .bool r.even)
  x : HasFloatSeq d "x" r.abscissaVals
  ord : OrdRep d r.ord

/-- The dictionary given to `write_sets` carries this information (`little` is the byte order of the machine,
`forceDouble` the argument of `write_sets`). -/
structure Rep (little forceDouble : Bool) (d : Dict) (r : DS58) : Prop extends Content d r where
  store : StoreRep d little forceDouble r

/-- The characteristics of an axis fit their fields. -/
structure AxisOk (a : Axis58) : Prop where
  spec : Fits 10 a.spec
  len : Fits 5 a.len
  force : Fits 5 a.force
  temp : Fits 5 a.temp
  lab : FieldText 20 a.lab
  units : FieldText 20 a.units
  noDelim : ¬ delim <:+ padRight 20 a.units

/-- The first value and the increment, as far as the header holds them. -/
def min (r : DS58) : F64 := if r.even then r.x0 else ⟨r.x0.neg, 0, by decide⟩
/-- The increment: the difference of the first two values. -/
def inc (r : DS58) : F64 := if r.even then r.x1.sub r.x0 else ⟨(r.x1.sub r.x0).neg, 0, by decide⟩

/-- The numbers stored one after the other: abscissa (if uneven), real part, imaginary part (if complex). -/
def stored (r : DS58) : List F64 := match r.ord with
  | .real l => if r.even then l else (r.abscissaVals.zip l).flatMap fun p => [p.1, p.2]
  | .cplx l => if r.even then l.flatMap fun z => [z.1, z.2]
    else (r.abscissaVals.zip l).flatMap fun p => [p.1, p.2.1, p.2.2]

/-- The binary data. -/
def payload (little : Bool) (r : DS58) : Bytes := r.stored.flatMap fun x =>
  let le := (List.range 8).map fun i => UInt8.ofNat (x.bits / 256 ^ i % 256)
  if little then le else le.reverse

/-- The ordinate holds no NaN and no infinity. -/
def OrdOk : Ord58 → Prop
  | .real l => ∀ y ∈ l, y.finite = true
  | .cplx l => ∀ z ∈ l, z.Finite

/-- Conditions on the storage: the payload of a binary data-set does not hold the delimiter. -/
def StoreOk (r : DS58) : Prop := match r.store with
  | .ascii _ => True
  | .binary le => ¬ ([32, 32, 32, 32, 45, 49] : Bytes) <:+: payload le r

/-- It fits the fields of the format. -/
structure Fit (r : DS58) : Prop where
  id1 : LineText 80 r.id1
  id2 : LineText 80 r.id2
  id3 : LineText 80 r.id3
  id4 : LineText 80 r.id4
  id5 : LineText 80 r.id5
  func : r.func ∈ ([0, 1, 2, 3, 4, 6, 9] : List Int)
  funcId : Fits 10 r.funcId
  ver : Fits 5 r.ver
  load : Fits 10 r.load
  rspName : FieldText 10 r.rspName
  rspNode : Fits 10 r.rspNode
  rspDir : Fits 4 r.rspDir
  refName : FieldText 10 r.refName
  refNode : Fits 10 r.refNode
  refDir : Fits 4 r.refDir
  zValue : r.zValue.finite = true
  abscissa : AxisOk r.abscissa
  ordinate : AxisOk r.ordinate
  orddenom : AxisOk r.orddenom
  zAxis : AxisOk r.zAxis
  /-- At least one point (an uneven data-set has at least two: the abscissa has). -/
  pos : 0 < r.count
  count : r.count < 10 ^ 10
  xs : ∀ x ∈ r.abscissaVals, x.finite = true
  dx : (r.x1.sub r.x0).finite = true
  length : r.even = false → r.abscissaVals.length = r.count
  ord : OrdOk r.ord

/-- It fits the fields of the format, and binary data do not contain a delimiter. -/
structure Ok (r : DS58) : Prop extends Fit r where
  store : StoreOk r

instance (r : DS58) : Coe (Ok r) (Fit r) := ⟨Ok.toFit⟩

/-- The entries of a binary data-set. -/
def storeBack (r : DS58) : Dict := match r.store with
  | .ascii _ => [("type", .int 58), ("binary", .int 0)]
  | .binary le => [("type", .int 58), ("binary", .int 1), ("byte_ordering", .int (if le then 1 else 2)),
     ("fp_format", .int 2), ("n_ascii_lines", .int 11), ("n_bytes", .int (8 * r.count))]

/-- The identification lines and record 6. -/
def idBack (r : DS58) : Dict :=
  [("id1", .str (strip r.id1)), ("id2", .str (strip r.id2)), ("id3", .str (strip r.id3)),
   ("id4", .str (strip r.id4)), ("id5", .str (strip r.id5)), ("func_type", .int r.func), ("func_id", .int r.funcId),
   ("ver_num", .int r.ver), ("load_case_id", .int r.load), ("rsp_ent_name", .str (strip r.rspName)),
   ("rsp_node", .int r.rspNode), ("rsp_dir", .int r.rspDir), ("ref_ent_name", .str (strip r.refName)),
   ("ref_node", .int r.refNode), ("ref_dir", .int r.refDir)]

/-- Record 7. -/
def formBack (r : DS58) : Dict :=
  [("ord_data_type", .int r.ordType), ("num_pts", .int r.count), ("abscissa_spacing", .int (if r.even then 1 else 0)),
   ("abscissa_min", .float (r.min.quant 5)), ("abscissa_inc", .float (r.inc.quant 5)),
   ("z_axis_value", .float (r.zValue.quant 5))]

/-- The entries of an axis. -/
def axisBack (spec len force temp lab units : Key) (a : Axis58) : Dict :=
  [(spec, .int a.spec), (len, .int a.len), (force, .int a.force), (temp, .int a.temp), (lab, .str (strip a.lab)),
   (units, .str (strip a.units))]

/-- Records 8 to 11. -/
def axesBack (r : DS58) : Dict :=
  axisBack "abscissa_spec_data_type" "abscissa_len_unit_exp" "abscissa_force_unit_exp"
    "abscissa_temp_unit_exp" "abscissa_axis_lab" "abscissa_axis_units_lab" r.abscissa ++
  (axisBack "ordinate_spec_data_type" "ordinate_len_unit_exp" "ordinate_force_unit_exp"
    "ordinate_temp_unit_exp" "ordinate_axis_lab" "ordinate_axis_units_lab" r.ordinate ++
  (axisBack "orddenom_spec_data_type" "orddenom_len_unit_exp" "orddenom_force_unit_exp"
    "orddenom_temp_unit_exp" "orddenom_axis_lab" "orddenom_axis_units_lab" r.orddenom ++
   axisBack "z_axis_spec_data_type" "z_axis_len_unit_exp" "z_axis_force_unit_exp"
    "z_axis_temp_unit_exp" "z_axis_axis_lab" "z_axis_axis_units_lab" r.zAxis))

/-- The header entries. -/
def headBack (r : DS58) : Dict := r.storeBack ++ (r.idBack ++ (r.formBack ++ r.axesBack))

/-- What an ordinate number becomes: unchanged in binary, rounded to 12 or 6 significant digits as text. -/
def keepY (s : Store58) (y : F64) : F64 := match s with
  | .ascii true => y.quant 11
  | .ascii false => y.quant 5
  | .binary _ => y
/-- What an uneven abscissa value becomes: unchanged in binary, rounded to 6 significant digits as text. -/
def keepX (s : Store58) (x : F64) : F64 := match s with
  | .ascii _ => x.quant 5
  | .binary _ => x

/-- The abscissa as read: the stored values, or first value plus multiples of the increment. -/
def xBack (r : DS58) : List F64 :=
  if r.even then (List.range r.count).map fun i => (r.min.quant 5).add ((F64.ofNat i).mul (r.inc.quant 5))
  else r.abscissaVals.map (keepX r.store)

/-- The ordinate as read. -/
def ordBack (r : DS58) : Val := match r.ord with
  | .real l => .arrF (l.map (keepY r.store))
  | .cplx l => .arrC (l.map fun z => Cplx.unsigned (keepY r.store z.1, keepY r.store z.2))

/-- The dictionary returned by `read_sets`. -/
def readBack (r : DS58) : Dict := r.headBack ++ ([("x", .arrF r.xBack), ("data", r.ordBack)] : Dict)

/-- The dictionary returned by `read_sets(header_only=True)`. -/
def headerBack (r : DS58) : Dict := r.headBack ++ ([("x", .none), ("data", .none)] : Dict)

end DS58
end Verif
