import Verif.Spec.Basic
/-
What the group data-sets 2429 and 2467 mean.
-/
namespace Verif

/-- Head of a group: its number, the six active set numbers and its name. -/
structure Grp where
  num : Int
  constraint : Int
  restraint : Int
  load : Int
  dof : Int
  temperature : Int
  contact : Int
  name : Text

/-- What fits. -/
structure Grp.Ok (g : Grp) : Prop where
  num : Fits 10 g.num
  constraint : Fits 10 g.constraint
  restraint : Fits 10 g.restraint
  load : Fits 10 g.load
  dof : Fits 10 g.dof
  temperature : Fits 10 g.temperature
  contact : Fits 10 g.contact
  name : LineText 40 g.name

/-- The head of a group as read back, with the number of entities. -/
def Grp.dict (g : Grp) (n : Nat) : Dict :=
  [("group_number", .int g.num), ("active_constraint_set_no_for_group", .int g.constraint),
   ("active_restraint_set_no_for_group", .int g.restraint), ("active_load_set_no_for_group", .int g.load),
   ("active_dof_set_no_for_group", .int g.dof), ("active_temperature_set_no_for_group", .int g.temperature),
   ("active_contact_set_no_for_group", .int g.contact), ("number_of_entities_in_group", .int n),
   ("group_name", .str (strip g.name))]

/-- An entity of a permanent group. -/
structure Ent where
  code : Int
  tag : Int

/-- The information in a data-set 2429 as the writer takes it: one group. -/
structure DS2429 where
  grp : Grp
  ents : List Ent

namespace DS2429

/-- The dictionary given to `write_sets` carries this information. -/
structure Rep (d : Dict) (r : DS2429) : Prop where
  type : d.get? "type" = some (.int 2429)
  num : HasInt d "group_number" r.grp.num
  constraint : HasIntOr d "active_constraint_set_no_for_group" 0 r.grp.constraint
  restraint : HasIntOr d "active_restraint_set_no_for_group" 0 r.grp.restraint
  load : HasIntOr d "active_load_set_no_for_group" 0 r.grp.load
  dof : HasIntOr d "active_dof_set_no_for_group" 0 r.grp.dof
  temperature : HasIntOr d "active_temperature_set_no_for_group" 0 r.grp.temperature
  contact : HasIntOr d "active_contact_set_no_for_group" 0 r.grp.contact
  name : HasStr d "group_name" r.grp.name
  code : HasInts d "entity_type_code" (r.ents.map (·.code))
  tag : HasInts d "entity_tag" (r.ents.map (·.tag))

/-- The entities that are stored: the full lines of four are right, the last incomplete line is taken from the entities 0,
4 and 8. -/
def stored (r : DS2429) : List Ent :=
  r.ents.take (4 * (r.ents.length / 4)) ++ (List.range (r.ents.length % 4)).filterMap fun i => r.ents[4 * i]?

/-- What can be written and read.  `count`: with 2, 3 or 7 entities the last line would need an entity that does not exist,
and a group without entities is not read back. -/
structure Ok (r : DS2429) : Prop where
  grp : r.grp.Ok
  fits : Fits 10 r.ents.length
  count : r.ents.length ≠ 0 ∧ r.ents.length ≠ 2 ∧ r.ents.length ≠ 3 ∧ r.ents.length ≠ 7
  code : ∀ e ∈ r.ents, Fits 9 e.code
  tag : ∀ e ∈ r.ents, Fits 9 e.tag
  tag1 : ∀ e ∈ r.ents, e.tag ≠ -1

/-- The dictionary returned by `read_sets`. -/
def readBack (r : DS2429) : Dict :=
  [("type", .int 2429), ("groups", .list [.dict (r.grp.dict r.ents.length ++
    [((.s "entity_type_code" : Key), Val.arrI (r.stored.map (·.code))), (.s "entity_tag", .arrI (r.stored.map (·.tag)))])])]

end DS2429
end Verif
