import Verif.Spec.S55
import Verif.Spec.S2412
/-
What a data-set 2414 means: analysis data at nodes or on elements.
-/
namespace Verif

/-- A finite number that takes eleven columns under `'%.5e'`: it is not negative and its decimal exponent has two
digits (`C30_columns`). -/
def Eleven (x : F64) : Prop := x.finite = true ∧ (fmtE 5 x).length = 11

/-- A finite number that takes less than thirteen columns under `'%.5e'`, so that a blank separates it from what
stands before: it is not negative or its decimal exponent has two digits (`C30_columns`). -/
def Apart (x : F64) : Prop := x.finite = true ∧ (fmtE 5 x).length < 13

/-- Numbers of a line that can be told apart. -/
def Spaced (l : List F64) : Prop := (∀ x ∈ l, x.finite = true) ∧ ∀ x ∈ l.tail, Apart x

/-- Eight integers of a header line. -/
structure Eight where
  a1 : Int
  a2 : Int
  a3 : Int
  a4 : Int
  a5 : Int
  a6 : Int
  a7 : Int
  a8 : Int

/-- Six numbers of a header line. -/
structure Six where
  x1 : F64
  x2 : F64
  x3 : F64
  x4 : F64
  x5 : F64
  x6 : F64

/-- They fit; the last one does not look like a delimiter. -/
structure Eight.Ok (r : Eight) : Prop where
  a1 : Fits 10 r.a1
  a2 : Fits 10 r.a2
  a3 : Fits 10 r.a3
  a4 : Fits 10 r.a4
  a5 : Fits 10 r.a5
  a6 : Fits 10 r.a6
  a7 : Fits 10 r.a7
  a8 : Fits 10 r.a8
  last : r.a8 ≠ -1

/-- They fit. -/
structure Six.Ok (r : Six) : Prop where
  x1 : Eleven r.x1
  x2 : Eleven r.x2
  x3 : Eleven r.x3
  x4 : Eleven r.x4
  x5 : Eleven r.x5
  x6 : Eleven r.x6

/-- Header of a frequency response. -/
structure FreqHead where
  ids : Eight
  creation : Int
  retained : Int
  rec12 : Six
  rec13 : Six

/-- A complex value at a node. -/
structure C1 where
  num : Int
  x : Cplx
/-- Two complex values at a node. -/
structure C2 where
  num : Int
  x : Cplx
  y : Cplx

/-- The data of a frequency response. -/
inductive FreqData where
  | one (l : List C1)
  | two (l : List C2)
  | three (l : List NodeC)

/-- Header of the other analysis types. -/
structure PlainHead where
  rec10 : Eight
  rec11 : Eight
  rec12 : Six
  rec13 : Six

/-- Values at a node or on an element. -/
structure Vals where
  num : Int
  vals : List F64

/-- Values at the nodes of an element. -/
structure ElemVals where
  num : Int
  iexp : Int
  nodes : Int
  nvals : Int
  rows : List (List F64)

/-- The data of the other analysis types. -/
inductive PlainData where
  | atNodes (l : List Vals)
  | onElems (l : List Vals)
  | atElemNodes (l : List ElemVals)
  /-- Nothing is stored for other locations. -/
  | other (loc : Int)

/-- What depends on the analysis type. -/
inductive Body2414 where
  | freq (loc : Int) (h : FreqHead) (d : FreqData)
  | plain (analysis : Int) (comps : Int) (h : PlainHead) (d : PlainData)

/-- The information in a data-set 2414. -/
structure DS2414 where
  label : Int
  name : Text
  id1 : Text
  id2 : Text
  id3 : Text
  id4 : Text
  id5 : Text
  model : Int
  ch : Int
  result : Int
  dtype : Int
  body : Body2414

namespace DS2414

/-- Analysis type. -/
def analysis : Body2414 → Int
  | .freq .. => 5
  | .plain a .. => a
/-- Location of the data. -/
def loc : Body2414 → Int
  | .freq l .. => l
  | .plain _ _ _ (.atNodes _) => 1
  | .plain _ _ _ (.onElems _) => 2
  | .plain _ _ _ (.atElemNodes _) => 3
  | .plain _ _ _ (.other l) => l
/-- Values per node. -/
def comps : Body2414 → Int
  | .freq _ _ (.one _) => 1
  | .freq _ _ (.two _) => 2
  | .freq _ _ (.three _) => 3
  | .plain _ c _ _ => c

/-- `v` is an array. -/
def IsArray (v : Val) : Prop := (∃ l, v = .arrI l) ∨ ∃ l, v = .arrF l

/-- The dictionary has a key holding an array of integers (of integer or floating type). -/
def HasIntArr (d : Dict) (k : Key) (l : List Int) : Prop := ∃ v, d.get? k = some v ∧ IsArray v ∧ IsSeq IsInt v l

/-- The dictionary carries the header of a frequency response. -/
structure FreqRep (d : Dict) (h : FreqHead) : Prop where
  a1 : HasInt d "design_set_id" h.ids.a1
  a2 : HasInt d "iteration_number" h.ids.a2
  a3 : HasInt d "solution_set_id" h.ids.a3
  a4 : HasInt d "boundary_condition" h.ids.a4
  a5 : HasInt d "load_set" h.ids.a5
  a6 : HasInt d "mode_number" h.ids.a6
  a7 : HasInt d "time_step_number" h.ids.a7
  a8 : HasInt d "frequency_number" h.ids.a8
  creation : HasInt d "creation_option" h.creation
  retained : HasInt d "number_retained" h.retained
  x1 : HasFloat d "time" h.rec12.x1
  x2 : HasFloat d "frequency" h.rec12.x2
  x3 : HasFloat d "eigenvalue" h.rec12.x3
  x4 : HasFloat d "modal_mass" h.rec12.x4
  x5 : HasFloat d "viscous_damping" h.rec12.x5
  x6 : HasFloat d "hysteretic_damping" h.rec12.x6
  y1 : HasFloat d "real_part_eigenvalue" h.rec13.x1
  y2 : HasFloat d "imaginary_part_eigenvalue" h.rec13.x2
  y3 : HasFloat d "real_part_of_modal_A_or_modal_mass" h.rec13.x3
  y4 : HasFloat d "imaginary_part_of_modal_A_or_modal_mass" h.rec13.x4
  y5 : HasFloat d "real_part_of_modal_B_or_modal_mass" h.rec13.x5
  y6 : HasFloat d "imaginary_part_of_modal_B_or_modal_mass" h.rec13.x6

/-- The dictionary carries the data of a frequency response. -/
def FreqDataRep (d : Dict) : FreqData → Prop
  | .one l => HasIntArr d "node_nums" (l.map (·.num)) ∧ DS55.HasCplxs d "x" (l.map (·.x))
  | .two l => HasIntArr d "node_nums" (l.map (·.num)) ∧ DS55.HasCplxs d "x" (l.map (·.x)) ∧
    DS55.HasCplxs d "y" (l.map (·.y))
  | .three l => HasIntArr d "node_nums" (l.map (·.num)) ∧ DS55.HasCplxs d "x" (l.map (·.x)) ∧
    DS55.HasCplxs d "y" (l.map (·.y)) ∧ DS55.HasCplxs d "z" (l.map (·.z))

/-- The dictionary carries the header of the other analysis types; missing entries are `0`. -/
structure PlainRep (d : Dict) (h : PlainHead) : Prop where
  a1 : HasIntOr d "record10_field1" 0 h.rec10.a1
  a2 : HasIntOr d "record10_field2" 0 h.rec10.a2
  a3 : HasIntOr d "record10_field3" 0 h.rec10.a3
  a4 : HasIntOr d "record10_field4" 0 h.rec10.a4
  a5 : HasIntOr d "record10_field5" 0 h.rec10.a5
  a6 : HasIntOr d "record10_field6" 0 h.rec10.a6
  a7 : HasIntOr d "record10_field7" 0 h.rec10.a7
  a8 : HasIntOr d "record10_field8" 0 h.rec10.a8
  b1 : HasIntOr d "record11_field1" 0 h.rec11.a1
  b2 : HasIntOr d "record11_field2" 0 h.rec11.a2
  b3 : HasIntOr d "record11_field3" 0 h.rec11.a3
  b4 : HasIntOr d "record11_field4" 0 h.rec11.a4
  b5 : HasIntOr d "record11_field5" 0 h.rec11.a5
  b6 : HasIntOr d "record11_field6" 0 h.rec11.a6
  b7 : HasIntOr d "record11_field7" 0 h.rec11.a7
  b8 : HasIntOr d "record11_field8" 0 h.rec11.a8
  x1 : HasFloatOr d "record12_field1" (.int 0) h.rec12.x1
  x2 : HasFloatOr d "record12_field2" (.int 0) h.rec12.x2
  x3 : HasFloatOr d "record12_field3" (.int 0) h.rec12.x3
  x4 : HasFloatOr d "record12_field4" (.int 0) h.rec12.x4
  x5 : HasFloatOr d "record12_field5" (.int 0) h.rec12.x5
  x6 : HasFloatOr d "record12_field6" (.int 0) h.rec12.x6
  y1 : HasFloatOr d "record13_field1" (.int 0) h.rec13.x1
  y2 : HasFloatOr d "record13_field2" (.int 0) h.rec13.x2
  y3 : HasFloatOr d "record13_field3" (.int 0) h.rec13.x3
  y4 : HasFloatOr d "record13_field4" (.int 0) h.rec13.x4
  y5 : HasFloatOr d "record13_field5" (.int 0) h.rec13.x5
  y6 : HasFloatOr d "record13_field6" (.int 0) h.rec13.x6

/-- The dictionary carries the data of the other analysis types. -/
def PlainDataRep (d : Dict) : PlainData → Prop
  | .atNodes l => HasIntArr d "node_nums" (l.map (·.num)) ∧ HasRows d "data_at_node" (l.map (·.vals))
  | .onElems l => HasIntArr d "element_nums" (l.map (·.num)) ∧ HasRows d "data_at_element" (l.map (·.vals))
  | .atElemNodes l => HasIntArr d "element_nums" (l.map (·.num)) ∧ HasInts d "IEXP" (l.map (·.iexp)) ∧
    HasInts d "number_of_nodes" (l.map (·.nodes)) ∧ HasInts d "number_of_values_per_node" (l.map (·.nvals)) ∧
    ∃ v, d.get? "data_at_nodes_on_element" = some v ∧ IsSeq (IsSeq (IsSeq IsFloat)) v (l.map (·.rows))
  | .other _ => True

/-- The dictionary carries what depends on the analysis type. -/
def BodyRep (d : Dict) : Body2414 → Prop
  | .freq _ h x => FreqRep d h ∧ FreqDataRep d x
  | .plain _ _ h x => PlainRep d h ∧ PlainDataRep d x

/-- The dictionary given to `write_sets` carries this information. -/
structure Rep (d : Dict) (r : DS2414) : Prop where
  type : d.get? "type" = some (.int 2414)
  label : HasInt d "analysis_dataset_label" r.label
  name : HasStr d "analysis_dataset_name" r.name
  loc : d.get? "dataset_location" = some (.int (loc r.body))
  id1 : HasStr d "id1" r.id1
  id2 : HasStr d "id2" r.id2
  id3 : HasStr d "id3" r.id3
  id4 : HasStr d "id4" r.id4
  id5 : HasStr d "id5" r.id5
  model : HasInt d "model_type" r.model
  analysis : d.get? "analysis_type" = some (.int (analysis r.body))
  ch : HasInt d "data_characteristic" r.ch
  result : HasInt d "result_type" r.result
  dtype : HasInt d "data_type" r.dtype
  comps : d.get? "number_of_data_values_for_the_data_component" = some (.int (comps r.body))
  body : BodyRep d r.body

/-- The parts of complex numbers, in the order they are written. -/
def parts (l : List Cplx) : List F64 := l.flatMap fun z => [z.1, z.2]

/-- The data of a frequency response fit. -/
def FreqDataOk : FreqData → Prop
  | .one l => ∀ n ∈ l, Fits 10 n.num ∧ n.num ≠ -1 ∧ Spaced (parts [n.x])
  | .two l => ∀ n ∈ l, Fits 10 n.num ∧ n.num ≠ -1 ∧ Spaced (parts [n.x, n.y])
  | .three l => ∀ n ∈ l, Fits 10 n.num ∧ n.num ≠ -1 ∧ Spaced (parts [n.x, n.y, n.z])

/-- Number of lines of values of an element, as prescribed by its header: six values on a line, for each node or
once. -/
def lineCount (e : ElemVals) : Int := (if e.iexp = 1 then e.nodes else 1) * ((e.nvals + 5) / 6)

/-- The data of the other analysis types fit.  There is at least one node or element at locations 1 and 2; at
location 3 the number of lines of values is the one prescribed. -/
def PlainDataOk : PlainData → Prop
  | .atNodes l => l ≠ [] ∧ ∀ n ∈ l, Fits 10 n.num ∧ n.num ≠ -1 ∧ Spaced n.vals
  | .onElems l => l ≠ [] ∧ ∀ n ∈ l, Fits 10 n.num ∧ Fits 9 n.vals.length ∧ Spaced n.vals
  | .atElemNodes l => ∀ e ∈ l, Fits 10 e.num ∧ Fits 9 e.iexp ∧ Fits 9 e.nodes ∧ Fits 9 e.nvals ∧ e.nvals ≠ -1 ∧
    (e.rows.length : Int) = lineCount e ∧ ∀ v ∈ e.rows, Spaced v
  | .other loc => loc ≠ 1 ∧ loc ≠ 2 ∧ loc ≠ 3 ∧ loc ≠ 5

/-- What depends on the analysis type fits. -/
def BodyOk : Body2414 → Prop
  | .freq _ h d => h.ids.Ok ∧ Fits 10 h.creation ∧ Fits 10 h.retained ∧ h.retained ≠ -1 ∧ h.rec12.Ok ∧ h.rec13.Ok ∧
    FreqDataOk d
  | .plain a _ h d => a ≠ 5 ∧ h.rec10.Ok ∧ h.rec11.Ok ∧ h.rec12.Ok ∧ h.rec13.Ok ∧ PlainDataOk d

/-- It fits the fields of the format. -/
structure Ok (r : DS2414) : Prop where
  label : Fits 10 r.label
  label1 : r.label ≠ -1
  name : LineText 80 r.name
  loc : Fits 10 (loc r.body)
  loc1 : DS2414.loc r.body ≠ -1
  id1 : LineText 80 r.id1
  id2 : LineText 80 r.id2
  id3 : LineText 80 r.id3
  id4 : LineText 80 r.id4
  id5 : LineText 80 r.id5
  model : Fits 10 r.model
  analysis : Fits 10 (analysis r.body)
  ch : Fits 10 r.ch
  result : Fits 10 r.result
  dtype : Fits 10 r.dtype
  comps : Fits 10 (comps r.body)
  comps1 : DS2414.comps r.body ≠ -1
  body : BodyOk r.body

/-- The entries common to all analysis types. -/
def common (r : DS2414) : Dict :=
  [("type", .int 2414), ("analysis_dataset_label", .int r.label), ("analysis_dataset_name", .str (strip r.name)),
   ("dataset_location", .int (loc r.body)), ("id1", .str (strip r.id1)), ("id2", .str (strip r.id2)),
   ("id3", .str (strip r.id3)), ("id4", .str (strip r.id4)), ("id5", .str (strip r.id5)), ("model_type", .int r.model),
   ("analysis_type", .int (analysis r.body)), ("data_characteristic", .int r.ch), ("result_type", .int r.result),
   ("data_type", .int r.dtype), ("number_of_data_values_for_the_data_component", .int (comps r.body))]

/-- The header entries of a frequency response. -/
def freqBack (h : FreqHead) : Dict :=
  [("design_set_id", .int h.ids.a1), ("iteration_number", .int h.ids.a2), ("solution_set_id", .int h.ids.a3),
   ("boundary_condition", .int h.ids.a4), ("load_set", .int h.ids.a5), ("mode_number", .int h.ids.a6),
   ("time_step_number", .int h.ids.a7), ("frequency_number", .int h.ids.a8), ("creation_option", .int h.creation),
   ("number_retained", .int h.retained), ("time", .float (h.rec12.x1.quant 5)),
   ("frequency", .float (h.rec12.x2.quant 5)), ("eigenvalue", .float (h.rec12.x3.quant 5)),
   ("modal_mass", .float (h.rec12.x4.quant 5)), ("viscous_damping", .float (h.rec12.x5.quant 5)),
   ("hysteretic_damping", .float (h.rec12.x6.quant 5)), ("real_part_eigenvalue", .float (h.rec13.x1.quant 5)),
   ("imaginary_part_eigenvalue", .float (h.rec13.x2.quant 5)),
   ("real_part_of_modal_A_or_modal_mass", .float (h.rec13.x3.quant 5)),
   ("imaginary_part_of_modal_A_or_modal_mass", .float (h.rec13.x4.quant 5)),
   ("real_part_of_modal_B_or_modal_mass", .float (h.rec13.x5.quant 5)),
   ("imaginary_part_of_modal_B_or_modal_mass", .float (h.rec13.x6.quant 5))]

/-- The data entries of a frequency response. -/
def freqDataBack : FreqData → Dict
  | .one l => [("node_nums", .arrI (l.map (·.num))), ("x", .arrC (l.map (·.x.quant 5)))]
  | .two l => [("node_nums", .arrI (l.map (·.num))), ("x", .arrC (l.map (·.x.quant 5))),
    ("y", .arrC (l.map (·.y.quant 5)))]
  | .three l => [("node_nums", .arrI (l.map (·.num))), ("x", .arrC (l.map (·.x.quant 5))),
    ("y", .arrC (l.map (·.y.quant 5))), ("z", .arrC (l.map (·.z.quant 5)))]

/-- The header entries of the other analysis types. -/
def plainBack (h : PlainHead) : Dict :=
  [("record10_field1", .int h.rec10.a1), ("record10_field2", .int h.rec10.a2), ("record10_field3", .int h.rec10.a3),
   ("record10_field4", .int h.rec10.a4), ("record10_field5", .int h.rec10.a5), ("record10_field6", .int h.rec10.a6),
   ("record10_field7", .int h.rec10.a7), ("record10_field8", .int h.rec10.a8),
   ("record11_field1", .int h.rec11.a1), ("record11_field2", .int h.rec11.a2), ("record11_field3", .int h.rec11.a3),
   ("record11_field4", .int h.rec11.a4), ("record11_field5", .int h.rec11.a5), ("record11_field6", .int h.rec11.a6),
   ("record11_field7", .int h.rec11.a7), ("record11_field8", .int h.rec11.a8),
   ("record12_field1", .float (h.rec12.x1.quant 5)), ("record12_field2", .float (h.rec12.x2.quant 5)),
   ("record12_field3", .float (h.rec12.x3.quant 5)), ("record12_field4", .float (h.rec12.x4.quant 5)),
   ("record12_field5", .float (h.rec12.x5.quant 5)), ("record12_field6", .float (h.rec12.x6.quant 5)),
   ("record13_field1", .float (h.rec13.x1.quant 5)), ("record13_field2", .float (h.rec13.x2.quant 5)),
   ("record13_field3", .float (h.rec13.x3.quant 5)), ("record13_field4", .float (h.rec13.x4.quant 5)),
   ("record13_field5", .float (h.rec13.x5.quant 5)), ("record13_field6", .float (h.rec13.x6.quant 5))]

/-- A row of values as read. -/
def rowBack (l : List F64) : Val := .arrF (l.map (F64.quant 5))

/-- The data entries of the other analysis types. -/
def plainDataBack : PlainData → Dict
  | .atNodes l => [("node_nums", .arrI (l.map (·.num))), ("data_at_node", .list (l.map fun n => rowBack n.vals))]
  | .onElems l => [("element_nums", .arrI (l.map (·.num))), ("NDVAL", .arrI (l.map fun n => (n.vals.length : Int))),
    ("data_at_element", .list (l.map fun n => rowBack n.vals))]
  | .atElemNodes l => [("element_nums", .arrI (l.map (·.num))), ("IEXP", .arrI (l.map (·.iexp))),
    ("number_of_nodes", .arrI (l.map (·.nodes))), ("number_of_values_per_node", .arrI (l.map (·.nvals))),
    ("data_at_nodes_on_element", .list (l.map fun e => .list (e.rows.map rowBack)))]
  | .other _ => []

/-- What depends on the analysis type.  The data of a frequency response are only returned when the data type is
5 (double precision complex). -/
def bodyBack (dtype : Int) : Body2414 → Dict
  | .freq _ h d => freqBack h ++ (if dtype = 5 then freqDataBack d else [])
  | .plain _ _ h d => plainBack h ++ plainDataBack d

/-- The dictionary returned by `read_sets`. -/
def readBack (r : DS2414) : Dict := r.common ++ bodyBack r.dtype r.body

end DS2414
end Verif
