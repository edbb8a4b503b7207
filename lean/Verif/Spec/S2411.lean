import Verif.Spec.Basic
/-
What a data-set 2411 means: nodes with double precision coordinates.
-/
namespace Verif

/-- One node. -/
structure Node where
  num : Int
  defCs : Int
  dispCs : Int
  color : Int
  x : F64
  y : F64
  z : F64

/-- The information in a data-set 2411. -/
structure DS2411 where
  nodes : List Node

namespace DS2411

/-- The dictionary given to `write_sets` carries this information. -/
structure Rep (d : Dict) (r : DS2411) : Prop where
  type : d.get? "type" = some (.int 2411)
  num : HasInts d "node_nums" (r.nodes.map (·.num))
  defCs : HasInts d "def_cs" (r.nodes.map (·.defCs))
  dispCs : HasInts d "disp_cs" (r.nodes.map (·.dispCs))
  color : HasInts d "color" (r.nodes.map (·.color))
  x : HasFloats d "x" (r.nodes.map (·.x))
  y : HasFloats d "y" (r.nodes.map (·.y))
  z : HasFloats d "z" (r.nodes.map (·.z))

/-- The integers leave a blank in their columns, no colour is `-1`, the coordinates are finite. -/
structure NodeOk (n : Node) : Prop where
  num : Fits 9 n.num
  defCs : Fits 9 n.defCs
  dispCs : Fits 9 n.dispCs
  color : Fits 9 n.color
  color1 : n.color ≠ -1
  x : n.x.finite = true
  y : n.y.finite = true
  z : n.z.finite = true

/-- Every node fits. -/
def Ok (r : DS2411) : Prop := ∀ n ∈ r.nodes, NodeOk n

/-- The dictionary returned by `read_sets`: integers as floats, coordinates unchanged. -/
def readBack (r : DS2411) : Dict :=
  [("type", .int 2411), ("node_nums", .arrF (r.nodes.map fun n => F64.ofInt n.num)),
   ("def_cs", .arrF (r.nodes.map fun n => F64.ofInt n.defCs)),
   ("disp_cs", .arrF (r.nodes.map fun n => F64.ofInt n.dispCs)),
   ("color", .arrF (r.nodes.map fun n => F64.ofInt n.color)),
   ("x", .arrF (r.nodes.map (·.x))), ("y", .arrF (r.nodes.map (·.y))), ("z", .arrF (r.nodes.map (·.z)))]

end DS2411
end Verif
