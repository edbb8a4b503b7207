import Verif.Spec.Basic
/-
What a data-set 2412 means: finite elements.
-/
namespace Verif

/-- One element; the beam numbers are used for the descriptors 11, 21, 22, 23 and 24 only. -/
structure Elem where
  num : Int
  fe : Int
  phys : Int
  mat : Int
  color : Int
  numNodes : Int
  beam : Int × Int × Int
  nodes : List Int

/-- The dictionary of an element carries this information. -/
structure IsElem (v : Val) (e : Elem) : Prop where
  ex : ∃ d : Dict, v = .dict d ∧ HasInt d "element_nums" e.num ∧ d.get? "fe_descriptor" = some (.int e.fe) ∧
    HasInt d "phys_table" e.phys ∧ HasInt d "mat_table" e.mat ∧ HasInt d "color" e.color ∧
    HasInt d "num_nodes" e.numNodes ∧ HasInts d "nodes_nums" e.nodes ∧
    (e.fe = 11 → HasInt d "beam_orientation" e.beam.1 ∧ HasInt d "beam_foreend_cross" e.beam.2.1 ∧
      HasInt d "beam_aftend_cross" e.beam.2.2)

/-- The dictionary of an element returned by `read_sets`. -/
def Elem.dict (e : Elem) : Dict :=
  let head : Dict := [("element_nums", .int e.num), ("fe_descriptor", .int e.fe), ("phys_table", .int e.phys),
    ("mat_table", .int e.mat), ("color", .int e.color), ("num_nodes", .int e.numNodes)]
  let beam : Dict := [("beam_orientation", .int e.beam.1), ("beam_foreend_cross", .int e.beam.2.1),
    ("beam_aftend_cross", .int e.beam.2.2)]
  let nodes : Dict := [("nodes_nums", .list (e.nodes.map .int))]
  if e.fe ∈ [11, 21, 22, 23, 24] then head ++ beam ++ nodes else head ++ nodes

/-- Two lists of equal length related one by one. -/
inductive Each {α β : Type} (P : α → β → Prop) : List α → List β → Prop where
  | nil : Each P [] []
  | cons {a b as bs} : P a b → Each P as bs → Each P (a :: as) (b :: bs)

/-- The information in a data-set 2412: groups of elements under integer keys. -/
structure DS2412 where
  groups : List (List Elem)

namespace DS2412

/-- All elements in order. -/
def elems (r : DS2412) : List Elem := r.groups.flatten

/-- The entries of a dictionary with integer keys. -/
def intEntries (d : Dict) : List Val :=
  d.filterMap fun kv => match kv.1 with
    | .i _ => some kv.2
    | .s _ => none

/-- The dictionary given to `write_sets` carries this information. -/
structure Rep (d : Dict) (r : DS2412) : Prop where
  type : d.get? "type" = some (.int 2412)
  groups : Each (IsSeq IsElem) (intEntries d) r.groups

/-- What fits the fields. -/
structure ElemFit (e : Elem) : Prop where
  num : Fits 9 e.num
  fe : Fits 9 e.fe
  phys : Fits 9 e.phys
  mat : Fits 9 e.mat
  color : Fits 9 e.color
  numNodes : Fits 9 e.numNodes
  numNodes1 : e.numNodes ≠ -1
  beam : e.fe = 11 → Fits 9 e.beam.1 ∧ Fits 9 e.beam.2.1 ∧ Fits 9 e.beam.2.2 ∧ e.beam.2.2 ≠ -1
  nodes : ∀ n ∈ e.nodes, Fits 9 n
  last : e.nodes.getLast? ≠ some (-1)

/-- What fits.  `rod`: for the descriptors 21-24 the reader expects a beam record that is never written. -/
structure ElemOk (e : Elem) : Prop extends ElemFit e where
  rod : e.fe ≠ 21 ∧ e.fe ≠ 22 ∧ e.fe ≠ 23 ∧ e.fe ≠ 24

/-- What fits. -/
def Ok (r : DS2412) : Prop := ∀ e ∈ r.elems, ElemOk e

/-- The distinct values of a list in order of first occurrence. -/
def firsts : List Int → List Int
  | [] => []
  | a :: r => a :: (firsts r).filter (· ≠ a)

/-- The elements with a given descriptor. -/
def ofType (r : DS2412) (fe : Int) : List Elem := r.elems.filter (·.fe = fe)

/-- The columns of the elements with a given descriptor, when there are any. -/
def columns (r : DS2412) (fe : Int) (name : Key) : Dict :=
  if r.ofType fe = [] then []
  else [(name, .dict [("element_nums", .list ((r.ofType fe).map (.int ·.num))),
    ("fe_descriptor", .list ((r.ofType fe).map (.int ·.fe))), ("phys_table", .list ((r.ofType fe).map (.int ·.phys))),
    ("mat_table", .list ((r.ofType fe).map (.int ·.mat))), ("color", .list ((r.ofType fe).map (.int ·.color))),
    ("num_nodes", .list ((r.ofType fe).map (.int ·.numNodes))),
    ("nodes_nums", .list ((r.ofType fe).map fun e => .list (e.nodes.map .int)))])]

/-- The dictionary returned by `read_sets`: one list of elements per descriptor, and the columns of the
triangles (41) and of the quads (44). -/
def readBack (r : DS2412) : Dict :=
  let groups : Dict := (firsts (r.elems.map (·.fe))).map fun fe => (.i fe, .list ((r.ofType fe).map (.dict ·.dict)))
  ((Key.s "type", Val.int 2412) :: groups) ++ (r.columns 41 "triangle" ++ r.columns 44 "quad")

end DS2412
end Verif
