import Verif.Spec.Basic
/-
What a data-set 82 means: a trace line through nodes.
-/
namespace Verif

/-- The information in a data-set 82. -/
structure DS82 where
  trace : Int
  color : Int
  id : Text
  nodes : List Int

namespace DS82

/-- Number of maximal runs of equal neighbours; this is what the writer takes for the number of nodes. -/
def runs : List Int → Nat
  | a :: b :: r => (if a = b then 0 else 1) + runs (b :: r)
  | _ => 1

/-- The dictionary given to `write_sets` carries this information; the nodes are an array of integers or of
floats with these values. -/
structure Rep (d : Dict) (r : DS82) : Prop where
  type : d.get? "type" = some (.int 82)
  trace : HasInt d "trace_num" r.trace
  color : HasIntOr d "color" 0 r.color
  id : HasStrOr d "id" "NONE" r.id
  nodes : d.get? "nodes" = some (.arrI r.nodes) ∨ d.get? "nodes" = some (.arrF (r.nodes.map F64.ofInt))

/-- What fits the format. -/
structure Ok (r : DS82) : Prop where
  trace : Fits 10 r.trace
  color : Fits 10 r.color
  color1 : r.color ≠ -1
  runs : Fits 10 (runs r.nodes)
  id : LineText 80 r.id
  nodes : ∀ n ∈ r.nodes, Fits 9 n ∧ n ≠ -1

/-- The nodes that are stored: when the number of runs is a multiple of 8 the writer stops after that many nodes. -/
def stored (r : DS82) : List Int := if runs r.nodes % 8 = 0 then r.nodes.take (runs r.nodes) else r.nodes

/-- The dictionary returned by `read_sets`. -/
def readBack (r : DS82) : Dict :=
  [("type", .int 82), ("trace_num", .int r.trace), ("n_nodes", .int (runs r.nodes)), ("color", .int r.color),
   ("id", .str (strip r.id)), ("nodes", .arrF (r.stored.map F64.ofInt))]

end DS82
end Verif
