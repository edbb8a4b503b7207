import Verif.Spec.S2429
import Verif.Spec.S2412
/-
What a data-set 2467 means: groups of entities.
-/
namespace Verif

/-- An entity of a group. -/
structure Ent4 where
  code : Int
  tag : Int
  leaf : Int
  comp : Int

/-- A group with its entities. -/
structure Group4 where
  grp : Grp
  ents : List Ent4

/-- The dictionary of a group carries this information. -/
structure IsGroup (v : Val) (g : Group4) : Prop where
  ex : ∃ d : Dict, v = .dict d ∧ HasInt d "group_number" g.grp.num ∧
    HasInt d "active_constraint_set_no_for_group" g.grp.constraint ∧
    HasInt d "active_restraint_set_no_for_group" g.grp.restraint ∧ HasInt d "active_load_set_no_for_group" g.grp.load ∧
    HasInt d "active_dof_set_no_for_group" g.grp.dof ∧
    HasInt d "active_temperature_set_no_for_group" g.grp.temperature ∧
    HasInt d "active_contact_set_no_for_group" g.grp.contact ∧ HasStr d "group_name" g.grp.name ∧
    HasInts d "entity_type_code" (g.ents.map (·.code)) ∧ HasInts d "entity_tag" (g.ents.map (·.tag)) ∧
    HasInts d "entity_node_leaf_id" (g.ents.map (·.leaf)) ∧ HasInts d "entity_component_id" (g.ents.map (·.comp))

/-- What fits. -/
structure Group4.Ok (g : Group4) : Prop where
  grp : g.grp.Ok
  fits : Fits 10 g.ents.length
  code : ∀ e ∈ g.ents, Fits 9 e.code
  tag : ∀ e ∈ g.ents, Fits 9 e.tag
  leaf : ∀ e ∈ g.ents, Fits 9 e.leaf
  comp : ∀ e ∈ g.ents, Fits 9 e.comp
  comp1 : ∀ e ∈ g.ents, e.comp ≠ -1

/-- The dictionary of a group returned by `read_sets`. -/
def Group4.dict (g : Group4) : Dict :=
  g.grp.dict g.ents.length ++
    [((.s "entity_type_code" : Key), Val.arrI (g.ents.map (·.code))), (.s "entity_tag", .arrI (g.ents.map (·.tag))),
     (.s "entity_node_leaf_id", .arrI (g.ents.map (·.leaf))), (.s "entity_component_id", .arrI (g.ents.map (·.comp)))]

/-- The information in a data-set 2467. -/
structure DS2467 where
  groups : List Group4

namespace DS2467

/-- The dictionary given to `write_sets` carries this information. -/
structure Rep (d : Dict) (r : DS2467) : Prop where
  type : d.get? "type" = some (.int 2467)
  groups : ∃ v, d.get? "groups" = some v ∧ IsSeq IsGroup v r.groups

/-- What fits. -/
def Ok (r : DS2467) : Prop := ∀ g ∈ r.groups, g.Ok

/-- The dictionary returned by `read_sets`: the groups, and a number of keys that are always empty lists. -/
def readBack (r : DS2467) : Dict :=
  [("type", .int 2467), ("groups", .list (r.groups.map (.dict ·.dict))), ("group_ids", .list []),
    ("active_constraint_set_no_for_group", .list []), ("active_restraint_set_no_for_group", .list []),
    ("active_load_set_no_for_group", .list []), ("active_dof_set_no_for_group", .list []),
    ("active_temperature_set_no_for_group", .list []), ("active_contact_set_no_for_group", .list []),
    ("num_of_entities_in_group", .list []), ("group_name", .list []), ("entity_type_code", .list []),
    ("entity_tag", .list []), ("entity_node_leaf_id", .list []), ("entity_component_id", .list [])]

end DS2467
end Verif
