import Verif.Spec.Basic
import Verif.Lemmas.Num
/-
What a data-set 164 means: units.
-/
namespace Verif

/-- The information in a data-set 164. -/
structure DS164 where
  code : Int
  descr : Text
  tempMode : Int
  length : F64
  force : F64
  temp : F64
  offset : F64

namespace DS164

/-- The dictionary given to `write_sets` carries this information; the description and the temperature
mode are optional. -/
structure Rep (d : Dict) (r : DS164) : Prop where
  type : d.get? "type" = some (.int 164)
  code : HasInt d "units_code" r.code
  descr : HasStrOr d "units_description" "User unit system" r.descr
  tempMode : HasIntOr d "temp_mode" 1 r.tempMode
  length : HasFloat d "length" r.length
  force : HasFloat d "force" r.force
  temp : HasFloat d "temp" r.temp
  offset : HasFloat d "temp_offset" r.offset

/-- It fits the fields of the format. -/
structure Ok (r : DS164) : Prop where
  code : Fits 10 r.code
  descr : FieldText 20 r.descr
  tempMode : Fits 10 r.tempMode
  noDelim : r.tempMode ≠ -1
  length : r.length.finite = true
  force : r.force.finite = true
  temp : r.temp.finite = true
  offset : r.offset.finite = true

/-- The dictionary returned by `read_sets`. -/
def readBack (r : DS164) : Dict :=
  [("type", .int 164), ("units_code", .int r.code), ("units_description", .str (strip r.descr)),
   ("temp_mode", .int r.tempMode), ("length", .float r.length), ("force", .float r.force),
   ("temp", .float r.temp), ("temp_offset", .float r.offset)]

end DS164
end Verif
