import Verif.Spec.Records
import Verif.Spec.Tokens
import Verif.Spec.S2412
/-
Groups as any program may have written them.
-/
namespace Verif

/-- The lines of a group: a line with eight numbers in columns of ten, the name, and lines with entities of `per` numbers each. -/
structure GroupLines where
  head : Text
  name : Text
  rows : List Text
  entities : List (List Int)

/-- All lines. -/
def GroupLines.lines (g : GroupLines) : List Text := g.head :: g.name :: g.rows

/-- There are eight integers in the first line, the last of them the number of entities; the entities have `per` numbers; the rows
hold their numbers, however they are distributed over them, and there are as many rows as `each` entities per row need. -/
structure GroupLines.Good (g : GroupLines) (per each : Nat) : Prop where
  ints : ∀ i < 8, IntAt g.head (10 * i) 10
  count : intAt g.head 70 10 = g.entities.length
  shape : ∀ e ∈ g.entities, e.length = per
  rows : g.rows.length = (g.entities.length + (each - 1)) / each
  words : ∃ rs, Each IntLine g.rows rs ∧ rs.flatten = g.entities.flatten
  small : ∀ e ∈ g.entities, ∀ n ∈ e, -(2 ^ 63) ≤ n ∧ n < 2 ^ 63

/-- Field `i` of the entities. -/
def GroupLines.field (g : GroupLines) (i : Nat) : Val := .arrI (g.entities.filterMap fun e => e[i]?)

/-- What the first two lines say. -/
def GroupLines.titles (g : GroupLines) : Dict :=
  [("group_number", .int (intAt g.head 0 10)), ("active_constraint_set_no_for_group", .int (intAt g.head 10 10)),
   ("active_restraint_set_no_for_group", .int (intAt g.head 20 10)), ("active_load_set_no_for_group", .int (intAt g.head 30 10)),
   ("active_dof_set_no_for_group", .int (intAt g.head 40 10)), ("active_temperature_set_no_for_group", .int (intAt g.head 50 10)),
   ("active_contact_set_no_for_group", .int (intAt g.head 60 10)), ("number_of_entities_in_group", .int (intAt g.head 70 10)),
   ("group_name", .str (column g.name 0 40))]

/-- A group of data-set 2429. -/
def GroupLines.dict2429 (g : GroupLines) : Dict := g.titles ++ ([("entity_type_code", g.field 0), ("entity_tag", g.field 1)] : Dict)

/-- A group of data-set 2467. -/
def GroupLines.dict2467 (g : GroupLines) : Dict :=
  g.titles ++ ([("entity_type_code", g.field 0), ("entity_tag", g.field 1), ("entity_node_leaf_id", g.field 2),
    ("entity_component_id", g.field 3)] : Dict)

/-- The groups of data-set 2429. -/
def groupsDict2429 (gs : List GroupLines) : Dict := [("type", .int 2429), ("groups", .list (gs.map fun g => .dict g.dict2429))]

/-- The groups of data-set 2467; the other entries are always empty. -/
def groupsDict2467 (gs : List GroupLines) : Dict :=
  [("type", .int 2467), ("groups", .list (gs.map fun g => .dict g.dict2467)), ("group_ids", .list []),
   ("active_constraint_set_no_for_group", .list []), ("active_restraint_set_no_for_group", .list []),
   ("active_load_set_no_for_group", .list []), ("active_dof_set_no_for_group", .list []),
   ("active_temperature_set_no_for_group", .list []), ("active_contact_set_no_for_group", .list []),
   ("num_of_entities_in_group", .list []), ("group_name", .list []), ("entity_type_code", .list []),
   ("entity_tag", .list []), ("entity_node_leaf_id", .list []), ("entity_component_id", .list [])]

end Verif
