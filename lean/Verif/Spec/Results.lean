import Verif.Spec.Records
import Verif.Spec.Systems
import Verif.Spec.S55
/-
Results (2414) as any program may have written them.
-/
namespace Verif

/-- The first fifteen lines of a data-set 2414, with their line ends: delimiter, type, and records 1 to 13. -/
structure ResultLines where
  l0 : Text
  l1 : Text
  label : Text
  name : Text
  loc : Text
  id1 : Text
  id2 : Text
  id3 : Text
  id4 : Text
  id5 : Text
  types : Text
  r10 : Text
  r11 : Text
  r12 : Text
  r13 : Text

namespace ResultLines

/-- The lines. -/
def lines (h : ResultLines) : List Text :=
  [h.l0, h.l1, h.label, h.name, h.loc, h.id1, h.id2, h.id3, h.id4, h.id5, h.types, h.r10, h.r11, h.r12, h.r13]

/-- Where the data are: at nodes (1), on elements (2), at nodes on elements (3), at points (5). -/
def location (h : ResultLines) : Int := intAt h.loc 0 80
/-- The kind of analysis; 5 is a frequency response. -/
def analysis (h : ResultLines) : Int := intAt h.types 10 10
/-- The type of the data; 5 is complex in single precision. -/
def dataType (h : ResultLines) : Int := intAt h.types 40 10
/-- The number of values at each place. -/
def comps (h : ResultLines) : Int := intAt h.types 50 10

/-- All numbers of records 1, 3 and 9 are there; of records 10 to 13, all numbers of a frequency response, otherwise the first
ones. -/
def Good (h : ResultLines) : Prop :=
  IntAt h.label 0 80 ∧ IntAt h.loc 0 80 ∧ (∀ i < 6, IntAt h.types (10 * i) 10) ∧
  if h.analysis = 5 then
    (∀ i < 8, IntAt h.r10 (10 * i) 10) ∧ (∀ i < 2, IntAt h.r11 (10 * i) 10) ∧ (∀ i < 6, FloatAt h.r12 (13 * i) 13) ∧
    ∀ i < 6, FloatAt h.r13 (13 * i) 13
  else IntAt h.r10 0 10 ∧ IntAt h.r11 0 10 ∧ FloatAt h.r12 0 13 ∧ FloatAt h.r13 0 13

instance (h : ResultLines) : Decidable h.Good := by unfold Good; infer_instance

/-- What records 1 to 9 say. -/
def first (h : ResultLines) : Dict :=
  [("type", .int 2414), ("analysis_dataset_label", .int (intAt h.label 0 80)), ("analysis_dataset_name", .str (column h.name 0 80)),
   ("dataset_location", .int h.location), ("id1", .str (column h.id1 0 80)), ("id2", .str (column h.id2 0 80)),
   ("id3", .str (column h.id3 0 80)), ("id4", .str (column h.id4 0 80)), ("id5", .str (column h.id5 0 80)),
   ("model_type", .int (intAt h.types 0 10)), ("analysis_type", .int (intAt h.types 10 10)),
   ("data_characteristic", .int (intAt h.types 20 10)), ("result_type", .int (intAt h.types 30 10)),
   ("data_type", .int (intAt h.types 40 10)), ("number_of_data_values_for_the_data_component", .int (intAt h.types 50 10))]

/-- What records 10 to 13 of a frequency response say. -/
def freq (h : ResultLines) : Dict :=
  ([("design_set_id", .int (intAt h.r10 0 10)), ("iteration_number", .int (intAt h.r10 10 10)),
   ("solution_set_id", .int (intAt h.r10 20 10)), ("boundary_condition", .int (intAt h.r10 30 10)),
   ("load_set", .int (intAt h.r10 40 10)), ("mode_number", .int (intAt h.r10 50 10)),
   ("time_step_number", .int (intAt h.r10 60 10)), ("frequency_number", .int (intAt h.r10 70 10)),
   ("creation_option", .int (intAt h.r11 0 10)), ("number_retained", .int (intAt h.r11 10 10))] : Dict) ++
  ([("time", .float (floatAt h.r12 0 13)), ("frequency", .float (floatAt h.r12 13 13)),
   ("eigenvalue", .float (floatAt h.r12 26 13)), ("modal_mass", .float (floatAt h.r12 39 13)),
   ("viscous_damping", .float (floatAt h.r12 52 13)), ("hysteretic_damping", .float (floatAt h.r12 65 13)),
   ("real_part_eigenvalue", .float (floatAt h.r13 0 13)), ("imaginary_part_eigenvalue", .float (floatAt h.r13 13 13)),
   ("real_part_of_modal_A_or_modal_mass", .float (floatAt h.r13 26 13)),
   ("imaginary_part_of_modal_A_or_modal_mass", .float (floatAt h.r13 39 13)),
   ("real_part_of_modal_B_or_modal_mass", .float (floatAt h.r13 52 13)),
   ("imaginary_part_of_modal_B_or_modal_mass", .float (floatAt h.r13 65 13))] : Dict)

/-- What records 10 to 13 of the other kinds of analysis say. -/
def plain (h : ResultLines) : Dict :=
  ([("record10_field1", .int (intAt h.r10 0 10)), ("record10_field2", .int (intAt h.r10 10 10)),
   ("record10_field3", .int (intAt h.r10 20 10)), ("record10_field4", .int (intAt h.r10 30 10)),
   ("record10_field5", .int (intAt h.r10 40 10)), ("record10_field6", .int (intAt h.r10 50 10)),
   ("record10_field7", .int (intAt h.r10 60 10)), ("record10_field8", .int (intAt h.r10 70 10))] : Dict) ++
  (([("record11_field1", .int (intAt h.r11 0 10)), ("record11_field2", .int (intAt h.r11 10 10)),
   ("record11_field3", .int (intAt h.r11 20 10)), ("record11_field4", .int (intAt h.r11 30 10)),
   ("record11_field5", .int (intAt h.r11 40 10)), ("record11_field6", .int (intAt h.r11 50 10)),
   ("record11_field7", .int (intAt h.r11 60 10)), ("record11_field8", .int (intAt h.r11 70 10))] : Dict) ++
  ([("record12_field1", .float (floatAt h.r12 0 13)), ("record12_field2", .float (floatAt h.r12 13 13)),
   ("record12_field3", .float (floatAt h.r12 26 13)), ("record12_field4", .float (floatAt h.r12 39 13)),
   ("record12_field5", .float (floatAt h.r12 52 13)), ("record12_field6", .float (floatAt h.r12 65 13)),
   ("record13_field1", .float (floatAt h.r13 0 13)), ("record13_field2", .float (floatAt h.r13 13 13)),
   ("record13_field3", .float (floatAt h.r13 26 13)), ("record13_field4", .float (floatAt h.r13 39 13)),
   ("record13_field5", .float (floatAt h.r13 52 13)), ("record13_field6", .float (floatAt h.r13 65 13))] : Dict))

/-- What all of the lines say. -/
def dict (h : ResultLines) : Dict := h.first ++ if h.analysis = 5 then h.freq else h.plain

end ResultLines

/-- Two lines: integers, the first of which is the number of a node, and *one* line with all values. -/
structure NodeVals where
  head : Text
  vals : Text
  nums : List Int
  values : List F64

/-- The lines. -/
def NodeVals.lines (n : NodeVals) : List Text := [n.head, n.vals]

/-- The first line begins with `m` integers of 64 bits, and has `w` words; the second line consists of the values. -/
structure NodeVals.Good (m w : Nat) (n : NodeVals) : Prop where
  words : ∃ ws more, Words n.head (ws ++ more) ∧ (ws ++ more).length = w ∧ OneByOne (fun t i => pyInt t = .ok i) ws n.nums
  count : n.nums.length = m
  small : ∀ i ∈ n.nums, -(2 ^ 63) ≤ i ∧ i < 2 ^ 63
  values : FloatLine n.vals n.values

/-- What is read from data at nodes. -/
def nodesDict2414 (l : List NodeVals) : Dict :=
  [("node_nums", .arrI (l.map fun n => n.nums.headD 0)), ("data_at_node", .list (l.map fun n => .arrF n.values))]

/-- What is read from data on elements. -/
def elemsDict2414 (l : List NodeVals) : Dict :=
  [("element_nums", .arrI (l.map fun n => n.nums.headD 0)), ("NDVAL", .arrI (l.map fun n => n.nums.tail.headD 0)),
   ("data_at_element", .list (l.map fun n => .arrF n.values))]

/-- An element with values at its nodes: a line with four integers, and the lines with values. -/
structure ElemRows where
  head : Text
  rows : List Text
  num : Int
  iexp : Int
  nodes : Int
  nvals : Int
  values : List (List F64)

/-- The lines. -/
def ElemRows.lines (e : ElemRows) : List Text := e.head :: e.rows

/-- There are as many lines with values as announced: one line for up to six values, two for up to twelve, and so on, for each
node if the expansion code is 1 and otherwise once. -/
structure ElemRows.Good (e : ElemRows) : Prop where
  head : IntLineStart e.head [e.num, e.iexp, e.nodes, e.nvals]
  small : ∀ i ∈ [e.num, e.iexp, e.nodes, e.nvals], -(2 ^ 63) ≤ i ∧ i < 2 ^ 63
  count : ∃ per : Nat, 6 * ((per : Int) - 1) < e.nvals ∧ e.nvals ≤ 6 * (per : Int) ∧
    (e.rows.length : Int) = if e.iexp = 1 then e.nodes * per else per
  values : OneByOne FloatLine e.rows e.values

/-- What is read from data at nodes on elements. -/
def elemNodesDict2414 (l : List ElemRows) : Dict :=
  [("element_nums", .arrI (l.map (·.num))), ("IEXP", .arrI (l.map (·.iexp))), ("number_of_nodes", .arrI (l.map (·.nodes))),
   ("number_of_values_per_node", .arrI (l.map (·.nvals))),
   ("data_at_nodes_on_element", .list (l.map fun e => .list (e.values.map .arrF)))]

/-- A node of a frequency response: its number and complex values. -/
structure NodeCplx where
  num : Int
  values : List Cplx

/-- The numbers of a node in the order of the file. -/
def NodeCplx.numbers (n : NodeCplx) : List F64 := F64.ofInt n.num :: n.values.flatMap fun z => [z.1, z.2]

/-- Value `i` of all nodes. -/
def component (i : Nat) (l : List NodeCplx) : Val := .arrC (l.map fun n => Cplx.unsigned (n.values.getD i (F64.zero, F64.zero)))

/-- What is read from `c` values at each node: the first three of them. -/
def freqDict2414 (c : Nat) (l : List NodeCplx) : Dict :=
  ([("node_nums", .arrI (l.map (·.num))), ("x", component 0 l)] : Dict) ++
  ((if 2 ≤ c then [(Key.s "y", component 1 l)] else []) ++ if 3 ≤ c then [(Key.s "z", component 2 l)] else [])

end Verif
