import Verif.Spec.Records
import Verif.Spec.Systems
import Verif.Spec.S55
/-
Data at nodes (55) as any program may have written them.
-/
namespace Verif

/-- The first ten lines of a data-set 55, with their line ends: delimiter, type, and records 1 to 8. -/
structure ShapeLines where
  l0 : Text
  l1 : Text
  id1 : Text
  id2 : Text
  id3 : Text
  id4 : Text
  id5 : Text
  types : Text
  r7 : Text
  r8 : Text

namespace ShapeLines

/-- The lines. -/
def lines (h : ShapeLines) : List Text := [h.l0, h.l1, h.id1, h.id2, h.id3, h.id4, h.id5, h.types, h.r7, h.r8]

/-- The kind of analysis: 2 normal mode, 3 and 7 complex modes, 5 frequency response. -/
def analysis (h : ShapeLines) : Int := intAt h.types 10 10
/-- The type of the data: 2 real, 5 complex. -/
def dataType (h : ShapeLines) : Int := intAt h.types 40 10
/-- The number of values at each node. -/
def comps (h : ShapeLines) : Int := intAt h.types 50 10

/-- The numbers of record 6 are there, and those of records 7 and 8 that belong to the kind of analysis. -/
def Good (h : ShapeLines) : Prop :=
  (∀ i < 6, IntAt h.types (10 * i) 10) ∧
  if h.analysis = 2 ∨ h.analysis = 3 ∨ h.analysis = 7 then
    IntAt h.r7 20 10 ∧ IntAt h.r7 30 10 ∧ ∀ i < 4, FloatAt h.r8 (13 * i) 13
  else if h.analysis = 5 then IntAt h.r7 20 10 ∧ IntAt h.r7 30 10 ∧ FloatAt h.r8 0 13
  else True

instance (h : ShapeLines) : Decidable h.Good := by unfold Good; infer_instance

/-- The numbers of a complex mode are finite. -/
def Finite (h : ShapeLines) : Prop := h.analysis = 3 ∨ h.analysis = 7 → ∀ i < 6, (floatAt h.r8 (13 * i) 13).finite = true

instance (h : ShapeLines) : Decidable h.Finite := by unfold Finite; infer_instance

/-- What records 1 to 6 say. -/
def first (h : ShapeLines) : Dict :=
  [("type", .int 55), ("id1", .str (column h.id1 0 80)), ("id2", .str (column h.id2 0 80)), ("id3", .str (column h.id3 0 80)),
   ("id4", .str (column h.id4 0 80)), ("id5", .str (column h.id5 0 80)), ("model_type", .int (intAt h.types 0 10)),
   ("analysis_type", .int h.analysis), ("data_ch", .int (intAt h.types 20 10)), ("spec_data_type", .int (intAt h.types 30 10)),
   ("data_type", .int h.dataType), ("n_data_per_node", .int h.comps)]

/-- The complex number whose parts are in columns `a` and `b` of a line. -/
def cplxAt (l : Text) (a b : Nat) : Val :=
  .cplx (Cplx.unsigned (floatAt l a 13, floatAt l b 13)).1 (Cplx.unsigned (floatAt l a 13, floatAt l b 13)).2

/-- What records 7 and 8 say. -/
def second (h : ShapeLines) : Dict :=
  if h.analysis = 2 then
    [("load_case", .int (intAt h.r7 20 10)), ("mode_n", .int (intAt h.r7 30 10)), ("freq", .float (floatAt h.r8 0 13)),
     ("modal_m", .float (floatAt h.r8 13 13)), ("modal_damp_vis", .float (floatAt h.r8 26 13)), ("modal_damp_his", .float (floatAt h.r8 39 13))]
  else if h.analysis = 3 ∨ h.analysis = 7 then
    [("load_case", .int (intAt h.r7 20 10)), ("mode_n", .int (intAt h.r7 30 10)), ("modal_a", cplxAt h.r8 26 39),
     ("modal_b", cplxAt h.r8 52 65), ("eig", cplxAt h.r8 0 13)]
  else if h.analysis = 5 then
    [("load_case", .int (intAt h.r7 20 10)), ("freq_step_n", .int (intAt h.r7 30 10)), ("freq", .float (floatAt h.r8 0 13))]
  else []

/-- What all of the lines say. -/
def dict (h : ShapeLines) : Dict := h.first ++ h.second

end ShapeLines

/-- Two lines: the number of a node, and the values in cells of 13 characters. -/
structure NodeCells where
  head : Text
  vals : Text
  num : Int
  values : List F64

/-- The lines. -/
def NodeCells.lines (n : NodeCells) : List Text := [n.head, n.vals]

/-- The first line is a number; the second line consists of `m` cells of 13 characters with numbers and fewer than 13 further
characters. -/
structure NodeCells.Good (m : Nat) (n : NodeCells) : Prop where
  head : pyInt n.head = .ok n.num
  small : -(2 ^ 63) ≤ n.num ∧ n.num < 2 ^ 63
  cells : ∃ cells tail, n.vals = cells.flatten ++ tail ∧ (∀ c ∈ cells, c.length = 13) ∧ tail.length < 13 ∧
    OneByOne (fun t x => pyFloat t = .ok x) cells n.values
  count : n.values.length = m

/-- Value `i` of all nodes. -/
def valueAt (i : Nat) (l : List NodeCells) : Val := .arrF (l.map fun n => n.values.getD i F64.zero)

/-- The complex value with parts `i` and `j` of all nodes. -/
def cplxValueAt (i j : Nat) (l : List NodeCells) : Val :=
  .arrC (l.map fun n => Cplx.unsigned (n.values.getD i F64.zero, n.values.getD j F64.zero))

/-- What is read from three real values at each node. -/
def real3Dict (l : List NodeCells) : Dict :=
  [("node_nums", .arrI (l.map (·.num))), ("r1", valueAt 0 l), ("r2", valueAt 1 l), ("r3", valueAt 2 l)]

/-- What is read from six real values at each node. -/
def real6Dict (l : List NodeCells) : Dict :=
  [("node_nums", .arrI (l.map (·.num))), ("r1", valueAt 0 l), ("r2", valueAt 1 l), ("r3", valueAt 2 l), ("r4", valueAt 3 l),
   ("r5", valueAt 4 l), ("r6", valueAt 5 l)]

/-- What is read from three complex values at each node. -/
def cplx3Dict (l : List NodeCells) : Dict :=
  [("node_nums", .arrI (l.map (·.num))), ("r1", cplxValueAt 0 1 l), ("r2", cplxValueAt 2 3 l), ("r3", cplxValueAt 4 5 l)]

end Verif
