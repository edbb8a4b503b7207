import Verif.Spec.Basic
/-
What a data-set 2400 means: model header.
-/
namespace Verif

/-- The information in a data-set 2400. -/
structure DS2400 where
  uid : Int
  entityType : Int
  subtype : Int
  version : Int
  name : Text
  part : Text
  mask : List Int
  date : Text
  time : Text
  idmVersion : Int
  idmItem : Int
  parent : Int
  switches : Int

namespace DS2400

/-- The dictionary given to `write_sets` carries this information; every key is optional. -/
structure Rep (d : Dict) (r : DS2400) : Prop where
  type : d.get? "type" = some (.int 2400)
  uid : HasIntOr d "model_uid" 0 r.uid
  entityType : HasIntOr d "entity_type" 0 r.entityType
  subtype : HasIntOr d "entity_subtype" 0 r.subtype
  version : HasIntOr d "version_number" 0 r.version
  name : HasStrOr d "entity_name" "" r.name
  part : HasStrOr d "part_number" "" r.part
  mask : HasIntsOr d "status_mask" (.list (List.replicate 32 (.int 0))) r.mask
  date : HasStrOr d "date" "" r.date
  time : HasStrOr d "time" "" r.time
  idmVersion : HasIntOr d "idm_version_id" 0 r.idmVersion
  idmItem : HasIntOr d "idm_item_id" 0 r.idmItem
  parent : HasIntOr d "primary_parent_uid" 0 r.parent
  switches : HasIntOr d "optimization_switches" 0 r.switches

/-- It fits the fields of the format; the integers that end a line are not `-1`. -/
structure Ok (r : DS2400) : Prop where
  uid : Fits 12 r.uid
  entityType : Fits 6 r.entityType
  subtype : Fits 6 r.subtype
  version : Fits 12 r.version
  version1 : r.version ≠ -1
  name : LineText 80 r.name
  part : LineText 80 r.part
  mask32 : r.mask.length = 32
  mask : ∀ n ∈ r.mask, Fits 2 n
  date : FieldText 10 r.date
  time : FieldText 10 r.time
  idmVersion : Fits 12 r.idmVersion
  idmItem : Fits 12 r.idmItem
  parent : Fits 12 r.parent
  parent1 : r.parent ≠ -1
  switches : Fits 12 r.switches
  switches1 : r.switches ≠ -1

/-- The dictionary returned by `read_sets`. -/
def readBack (r : DS2400) : Dict :=
  [("type", .int 2400), ("model_uid", .int r.uid), ("entity_type", .int r.entityType),
   ("entity_subtype", .int r.subtype), ("version_number", .int r.version), ("entity_name", .str (strip r.name)),
   ("part_number", .str (strip r.part)), ("status_mask", .list (r.mask.map .int)), ("date", .str (strip r.date)),
   ("time", .str (strip r.time)), ("idm_version_id", .int r.idmVersion), ("idm_item_id", .int r.idmItem),
   ("primary_parent_uid", .int r.parent), ("optimization_switches", .int r.switches)]

end DS2400
end Verif
