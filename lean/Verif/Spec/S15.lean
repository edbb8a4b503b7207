import Verif.Spec.S2411
import Verif.Lemmas.Num
/-
What a data-set 15 means: nodes with single precision coordinates.
-/
namespace Verif

/-- A finite float whose `%13.5e` field leaves at least one blank (true unless it is negative with a
three digit exponent). -/
structure Narrow (x : F64) : Prop where
  finite : x.finite = true
  narrow : (fmtE 5 x).length < 13

/-- The information in a data-set 15. -/
structure DS15 where
  nodes : List Node

namespace DS15

/-- The dictionary given to `write_sets` carries this information. The integers may be held as integers or
as floats with that value. -/
structure Rep (d : Dict) (r : DS15) : Prop where
  type : d.get? "type" = some (.int 15)
  num : HasFloats d "node_nums" (r.nodes.map fun n => F64.ofInt n.num)
  defCs : HasFloatsOr d "def_cs" (.arrI (List.replicate r.nodes.length 0)) (r.nodes.map fun n => F64.ofInt n.defCs)
  dispCs : HasFloatsOr d "disp_cs" (.arrI (List.replicate r.nodes.length 0)) (r.nodes.map fun n => F64.ofInt n.dispCs)
  color : HasFloatsOr d "color" (.arrI (List.replicate r.nodes.length 0)) (r.nodes.map fun n => F64.ofInt n.color)
  x : HasFloats d "x" (r.nodes.map (·.x))
  y : HasFloats d "y" (r.nodes.map (·.y))
  z : HasFloats d "z" (r.nodes.map (·.z))

/-- The integers and coordinates leave a blank in their columns. -/
structure NodeOk (n : Node) : Prop where
  num : Fits 9 n.num
  defCs : Fits 9 n.defCs
  dispCs : Fits 9 n.dispCs
  color : Fits 9 n.color
  x : Narrow n.x
  y : Narrow n.y
  z : Narrow n.z

/-- Every node fits. -/
def Ok (r : DS15) : Prop := ∀ n ∈ r.nodes, NodeOk n

/-- A python list of floats. -/
def floats (l : List F64) : Val := .list (l.map .float)

/-- The dictionary returned by `read_sets`: integers as floats, coordinates to six digits. -/
def readBack (r : DS15) : Dict :=
  [("type", .int 15), ("node_nums", floats (r.nodes.map fun n => F64.ofInt n.num)),
   ("def_cs", floats (r.nodes.map fun n => F64.ofInt n.defCs)),
   ("disp_cs", floats (r.nodes.map fun n => F64.ofInt n.dispCs)),
   ("color", floats (r.nodes.map fun n => F64.ofInt n.color)),
   ("x", floats (r.nodes.map fun n => n.x.quant 5)), ("y", floats (r.nodes.map fun n => n.y.quant 5)),
   ("z", floats (r.nodes.map fun n => n.z.quant 5))]

end DS15
end Verif
