import Verif.Spec.S18
/-
What a data-set 2420 means: coordinate systems given by 4x3 matrices.
-/
namespace Verif

/-- One coordinate system: the rows of its matrix are `a`, `b`, `c` (axes) and `o` (origin). -/
structure CMat where
  label : Int
  type : Int
  color : Int
  name : Text
  a : Pt
  b : Pt
  c : Pt
  o : Pt

/-- The matrix. -/
def CMat.mat (m : CMat) : Val := .mat [m.a.row, m.b.row, m.c.row, m.o.row]

/-- The information in a data-set 2420. -/
structure DS2420 where
  uid : Int
  name : Text
  systems : List CMat

namespace DS2420

/-- The dictionary given to `write_sets` carries this information. -/
structure Rep (d : Dict) (r : DS2420) : Prop where
  set : d.get? "type" = some (.int 2420)
  uid : HasIntOr d "Part_UID" 1 r.uid
  name : HasStrOr d "Part_Name" "None" r.name
  label : HasInts d "CS_sys_labels" (r.systems.map (·.label))
  type : HasIntsOr d "CS_types" (.list [.int 0]) (r.systems.map (·.type))
  color : HasIntsOr d "CS_colors" (.list [.int 8]) (r.systems.map (·.color))
  names : HasStrs d "CS_names" (r.systems.map (·.name))
  mats : d.get? "CS_matrices" = some (.list (r.systems.map (·.mat)))

/-- What fits: see the fields. -/
structure SysOk (m : CMat) : Prop where
  label : Fits 9 m.label
  type : Fits 9 m.type
  color : Fits 9 m.color
  color1 : m.color ≠ -1
  name : OneLine m.name
  nameD : ¬ HasDelim m.name
  a : m.a.Finite
  b : m.b.Finite
  c : m.c.Finite
  o : m.o.Finite

/-- What fits. -/
structure Ok (r : DS2420) : Prop where
  uid : Fits 10 r.uid
  uid1 : r.uid ≠ -1
  name : OneLine r.name
  nameD : ¬ HasDelim (padRight 80 r.name)
  systems : ∀ m ∈ r.systems, SysOk m

/-- The dictionary returned by `read_sets`: the matrices are exactly those written. -/
def readBack (r : DS2420) : Dict :=
  [("type", .int 2420), ("Part_UID", .int r.uid), ("Part_Name", .str (rstrip r.name)),
   ("CS_sys_labels", .list (r.systems.map fun m => .int m.label)),
   ("CS_types", .list (r.systems.map fun m => .int m.type)),
   ("CS_colors", .list (r.systems.map fun m => .int m.color)),
   ("CS_names", .list (r.systems.map fun m => .str (rstrip m.name))),
   ("CS_matrices", .list (r.systems.map (·.mat)))]

end DS2420
end Verif
