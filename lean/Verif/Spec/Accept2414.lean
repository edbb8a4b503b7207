import Verif.Spec.AcceptMore
/-
Which dictionaries can be written as results (2414) (C68).
-/
namespace Verif

/-- The value is the number `n`. -/
def isNum (n : Int) : Val → Bool
  | .int m => m == n
  | .bool b => (if b then 1 else 0) == n
  | .float x => x == F64.ofInt n
  | _ => false

/-- The entry is the number `n`. -/
def entryIs (d : Dict) (k : String) (n : Int) : Bool :=
  match d.get? (.s k) with
  | none => false
  | some v => isNum n v

/-- Item `i` of the list has the property. -/
def itemP (P : Val → Bool) (d : Dict) (i : Nat) (k : String) : Bool :=
  match d.get? (.s k) with
  | none => false
  | some v => match v.idx i with
    | .ok x => P x
    | .error _ => false

/-- A real or complex number that fits into doubles. -/
def numberOk : Val → Bool
  | .float _ | .bool _ | .cplx _ _ => true
  | .int n => (F64.ofInt n).finite
  | _ => false
/-- A real or complex number. -/
def numberKnown : Val → Bool
  | .float _ | .bool _ | .cplx _ _ | .int _ => true
  | _ => false
/-- A row of numbers. -/
def floatsOk (v : Val) : Bool :=
  match v.items with
  | .ok l => l.all floatOk
  | .error _ => false
/-- A row for which the model says what Python does. -/
def floatsKnown (v : Val) : Prop := (∀ l, v ≠ .dict l) ∧ ∀ l, v.items = .ok l → ∀ x ∈ l, scalarKnown x = true
/-- Rows of numbers. -/
def rowsOk (v : Val) : Bool :=
  match v.items with
  | .ok l => l.all floatsOk
  | .error _ => false
/-- Rows for which the model says what Python does. -/
def rowsKnown (v : Val) : Prop := (∀ l, v ≠ .dict l) ∧ ∀ l, v.items = .ok l → ∀ x ∈ l, floatsKnown x

/-- The number of rows of an array. -/
def rowCount : Val → Option Nat
  | .arrI l => some l.length
  | .arrF l => some l.length
  | .arrC l => some l.length
  | .mat l => some l.length
  | _ => none

/-- The entry is an array, and `P` holds for all its places. -/
def forRows (d : Dict) (k : String) (P : Nat → Bool) : Bool :=
  match d.get? (.s k) with
  | none => false
  | some v => match rowCount v with
    | none => false
    | some n => (List.range n).all P

/-- Entries of all results. -/
def headResults : List (String × EntryKind × Bool) := [("analysis_dataset_label", .int, false), ("analysis_dataset_name", .text, false),
  ("dataset_location", .int, false), ("id1", .text, false), ("id2", .text, false), ("id3", .text, false), ("id4", .text, false), ("id5", .text, false),
  ("model_type", .int, false), ("analysis_type", .int, false), ("data_characteristic", .int, false), ("result_type", .int, false),
  ("data_type", .int, false), ("number_of_data_values_for_the_data_component", .int, false)]
/-- Entries of frequency responses. -/
def headFreq : List (String × EntryKind × Bool) := [("design_set_id", .int, false), ("iteration_number", .int, false), ("solution_set_id", .int, false),
  ("boundary_condition", .int, false), ("load_set", .int, false), ("mode_number", .int, false), ("time_step_number", .int, false),
  ("frequency_number", .int, false), ("creation_option", .int, false), ("number_retained", .int, false), ("time", .float, false),
  ("frequency", .float, false), ("eigenvalue", .float, false), ("modal_mass", .float, false), ("viscous_damping", .float, false),
  ("hysteretic_damping", .float, false), ("real_part_eigenvalue", .float, false), ("imaginary_part_eigenvalue", .float, false),
  ("real_part_of_modal_A_or_modal_mass", .float, false), ("imaginary_part_of_modal_A_or_modal_mass", .float, false),
  ("real_part_of_modal_B_or_modal_mass", .float, false), ("imaginary_part_of_modal_B_or_modal_mass", .float, false)]
/-- Entries of other results. -/
def headPlain : List (String × EntryKind × Bool) := [("record10_field1", .int, true), ("record10_field2", .int, true), ("record10_field3", .int, true),
  ("record10_field4", .int, true), ("record10_field5", .int, true), ("record10_field6", .int, true), ("record10_field7", .int, true),
  ("record10_field8", .int, true), ("record11_field1", .int, true), ("record11_field2", .int, true), ("record11_field3", .int, true),
  ("record11_field4", .int, true), ("record11_field5", .int, true), ("record11_field6", .int, true), ("record11_field7", .int, true),
  ("record11_field8", .int, true), ("record12_field1", .float, true), ("record12_field2", .float, true), ("record12_field3", .float, true),
  ("record12_field4", .float, true), ("record12_field5", .float, true), ("record12_field6", .float, true), ("record13_field1", .float, true),
  ("record13_field2", .float, true), ("record13_field3", .float, true), ("record13_field4", .float, true), ("record13_field5", .float, true),
  ("record13_field6", .float, true)]
/-- The components that are written at a node. -/
def components (d : Dict) : List String :=
  if entryIs d "number_of_data_values_for_the_data_component" 3 then ["x", "y", "z"]
  else if entryIs d "number_of_data_values_for_the_data_component" 2 then ["x", "y"]
  else if entryIs d "number_of_data_values_for_the_data_component" 1 then ["x"]
  else []

/-- A frequency response can be written. -/
def freqOk (d : Dict) : Bool :=
  headFreq.all (entryOk d) &&
  forRows d "node_nums" fun i => itemOk d i ("node_nums", .intCall, false) && (components d).all (itemP numberOk d i)

/-- The values can be written at the places where they are. -/
def locOk (d : Dict) : Bool :=
  if entryIs d "dataset_location" 1 then forRows d "node_nums" fun i => itemOk d i ("node_nums", .int, false) && itemP floatsOk d i "data_at_node"
  else if entryIs d "dataset_location" 2 then
    forRows d "element_nums" fun i => itemOk d i ("element_nums", .int, false) && itemP floatsOk d i "data_at_element"
  else if entryIs d "dataset_location" 3 then
    forRows d "element_nums" fun i => itemOk d i ("element_nums", .int, false) && (itemOk d i ("IEXP", .int, false) &&
      (itemOk d i ("number_of_nodes", .int, false) && (itemOk d i ("number_of_values_per_node", .int, false) &&
        itemP rowsOk d i "data_at_nodes_on_element")))
  else true

/-- The other results can be written. -/
def plainOk (d : Dict) : Bool := headPlain.all (entryOk d) && locOk d

/-- The dictionary can be written as results. -/
def canWrite2414 (d : Dict) : Bool :=
  headResults.all (entryOk d) && if entryIs d "analysis_type" 5 then freqOk d else plainOk d

/-- The model says what Python does with it. -/
structure Known2414 (d : Dict) : Prop where
  entries : ∀ f ∈ headResults ++ headFreq ++ headPlain, ∀ v, d.get? (.s f.1) = some v → f.2.1.known v = true
  ints : ∀ k ∈ ["node_nums", "element_nums", "IEXP", "number_of_nodes", "number_of_values_per_node"], ∀ v i x, d.get? (.s k) = some v →
    v.idx i = .ok x → scalarKnown x = true
  numbers : ∀ k ∈ ["x", "y", "z"], ∀ v i x, d.get? (.s k) = some v → v.idx i = .ok x → numberKnown x = true
  rows : ∀ k ∈ ["data_at_node", "data_at_element"], ∀ v i x, d.get? (.s k) = some v → v.idx i = .ok x → floatsKnown x
  tables : ∀ v i x, d.get? "data_at_nodes_on_element" = some v → v.idx i = .ok x → rowsKnown x

end Verif
