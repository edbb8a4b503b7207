import Verif.Spec.Basic
import Verif.Lemmas.Num
/-
What a data-set 18 means: coordinate systems.
-/
namespace Verif

/-- A point. -/
structure Pt where
  x : F64
  y : F64
  z : F64

/-- The coordinates of a point. -/
def Pt.row (p : Pt) : List F64 := [p.x, p.y, p.z]
/-- All coordinates finite. -/
structure Pt.Finite (p : Pt) : Prop where
  x : p.x.finite = true
  y : p.y.finite = true
  z : p.z.finite = true
/-- The point as printed with `p+1` significant digits. -/
def Pt.quant (n : Nat) (p : Pt) : Pt := ⟨p.x.quant n, p.y.quant n, p.z.quant n⟩

/-- One coordinate system. -/
structure CSys where
  num : Int
  type : Int
  ref : Int
  color : Int
  method : Int
  name : Text
  o : Pt
  x : Pt
  xz : Pt

/-- The information in a data-set 18. -/
structure DS18 where
  systems : List CSys

namespace DS18

/-- The dictionary given to `write_sets` carries this information. -/
structure Rep (d : Dict) (r : DS18) : Prop where
  set : d.get? "type" = some (.int 18)
  num : HasInts d "cs_num" (r.systems.map (·.num))
  type : HasIntsOr d "cs_type" (.arrI (List.replicate r.systems.length 0)) (r.systems.map (·.type))
  ref : HasInts d "ref_cs_num" (r.systems.map (·.ref))
  color : HasIntsOr d "color" (.arrI (List.replicate r.systems.length 0)) (r.systems.map (·.color))
  method : HasIntsOr d "method" (.arrI (List.replicate r.systems.length 1)) (r.systems.map (·.method))
  name : HasStrsOr d "cs_name" (.list (List.replicate r.systems.length (.str []))) (r.systems.map (·.name))
  o : HasRows d "ref_o" (r.systems.map (·.o.row))
  x : HasRows d "x_point" (r.systems.map (·.x.row))
  xz : HasRows d "xz_point" (r.systems.map (·.xz.row))

/-- The integers leave a blank in their columns, the name is one line, and neither the line of the name nor
the line ending in the method is a delimiter. -/
structure SysOk (c : CSys) : Prop where
  num : Fits 9 c.num
  type : Fits 9 c.type
  ref : Fits 9 c.ref
  color : Fits 9 c.color
  method : Fits 9 c.method
  method1 : c.method ≠ -1
  name : OneLine c.name
  nameD : ¬ HasDelim (padRight 40 c.name)
  o : c.o.Finite
  x : c.x.Finite
  xz : c.xz.Finite

/-- Every system fits. -/
def Ok (r : DS18) : Prop := ∀ c ∈ r.systems, SysOk c

/-- The dictionary returned by `read_sets`. -/
def readBack (r : DS18) : Dict :=
  [("type", .int 18), ("cs_num", .arrF (r.systems.map fun c => F64.ofInt c.num)),
   ("cs_type", .arrF (r.systems.map fun c => F64.ofInt c.type)),
   ("ref_cs_num", .arrF (r.systems.map fun c => F64.ofInt c.ref)),
   ("color", .arrF (r.systems.map fun c => F64.ofInt c.color)),
   ("method", .arrF (r.systems.map fun c => F64.ofInt c.method)),
   ("cs_name", .list (r.systems.map fun c => .str (strip c.name))),
   ("ref_o", .mat (r.systems.map fun c => (c.o.quant 5).row)),
   ("x_point", .mat (r.systems.map fun c => (c.x.quant 5).row)),
   ("xz_point", .mat (r.systems.map fun c => (c.xz.quant 5).row))]

end DS18
end Verif
