import Verif.Spec.Accept
/-
Which dictionaries can be written as data-sets 82, 2412, 2420 and 2467 (C68).
-/
namespace Verif

/-- Neighbours that differ, in a list of numbers: what is not a number differs from everything, also from itself, and the difference of
an infinity and itself is not a number. -/
def stepsF : List F64 → Nat
  | a :: b :: r => (if (F64.sub b a).mag = 0 then 0 else 1) + stepsF (b :: r)
  | _ => 0

/-- The nodes of a trace line that are written: if the number of runs is a multiple of eight, only that many. -/
def writtenNodes (l : List F64) : List F64 := if (stepsF l + 1) % 8 = 0 then l.take (stepsF l + 1) else l

/-- The single entries of a trace line. -/
def fields82 : List (String × EntryKind × Bool) := [("trace_num", .int, false), ("color", .int, true), ("id", .text, true)]

/-- The dictionary can be written as a trace line. -/
def canWrite82 (d : Dict) : Bool :=
  fields82.all (entryOk d) &&
  match d.get? "nodes" with
  | some (.arrI _) => true
  | some (.arrF l) => (writtenNodes l).all F64.finite
  | _ => false

/-- The model says what Python does with it. -/
def known82 (d : Dict) : Prop :=
  (∀ f ∈ fields82, ∀ v, d.get? (.s f.1) = some v → f.2.1.known v = true) ∧
  ∀ v, d.get? "nodes" = some v → (∀ l, v ≠ .arrC l) ∧ ∀ l, v ≠ .mat l

/-- A matrix whose first four rows have three numbers each. -/
def matrixOk : Val → Bool
  | .mat (a :: b :: c :: e :: _) => a.length == 3 && b.length == 3 && c.length == 3 && e.length == 3
  | _ => false

/-- The list has `n` items; if it may be missing, its default has one. -/
def lengthOk (d : Dict) (n : Nat) (f : String × Bool) : Bool :=
  match d.get? (.s f.1) with
  | none => f.2 && n == 1
  | some v => match v.len with
    | .ok m => m == n
    | .error _ => false

/-- The single entries of coordinate systems. -/
def fields2420 : List (String × EntryKind × Bool) := [("Part_UID", .int, true), ("Part_Name", .text, true)]
/-- The lists of coordinate systems. -/
def cols2420 : List (String × EntryKind × Bool) :=
  [("CS_sys_labels", .int, false), ("CS_types", .int, true), ("CS_colors", .int, true), ("CS_names", .text, false)]
/-- The lists that must be as long as the first. -/
def same2420 : List (String × Bool) := [("CS_types", true), ("CS_colors", true), ("CS_names", false), ("CS_matrices", false)]

/-- The matrix of coordinate system `i`. -/
def matrixAt (d : Dict) (i : Nat) : Bool :=
  match d.get? "CS_matrices" with
  | none => false
  | some v => match v.idx i with
    | .ok x => matrixOk x
    | .error _ => false

/-- The dictionary can be written as coordinate systems. -/
def canWrite2420 (d : Dict) : Bool :=
  fields2420.all (entryOk d) &&
  match d.get? "CS_sys_labels" with
  | none => false
  | some v => match v.len with
    | .error _ => false
    | .ok n => same2420.all (lengthOk d n) && (List.range n).all fun i => cols2420.all (itemOk d i) && matrixAt d i

/-- The model says what Python does with it. -/
def known2420 (d : Dict) : Prop :=
  (∀ f ∈ fields2420, ∀ v, d.get? (.s f.1) = some v → f.2.1.known v = true) ∧
  ∀ f ∈ cols2420, ∀ v i x, d.get? (.s f.1) = some v → v.idx i = .ok x → f.2.1.known x = true

/-- The single entries of a group (2467); none may be missing. -/
def fieldsGroup : List (String × EntryKind × Bool) := [("group_number", .int, false), ("active_constraint_set_no_for_group", .int, false),
  ("active_restraint_set_no_for_group", .int, false), ("active_load_set_no_for_group", .int, false), ("active_dof_set_no_for_group", .int, false),
  ("active_temperature_set_no_for_group", .int, false), ("active_contact_set_no_for_group", .int, false), ("group_name", .text, false)]
/-- Its lists. -/
def colsGroup : List (String × EntryKind × Bool) := [("entity_type_code", .int, false), ("entity_tag", .int, false),
  ("entity_node_leaf_id", .int, false), ("entity_component_id", .int, false)]

/-- The value is a dictionary that can be written as a group. -/
def groupOk : Val → Bool
  | .dict g => fieldsGroup.all (entryOk g) &&
    match Dict.get? g "entity_type_code" with
    | none => false
    | some v => match v.len with
      | .error _ => false
      | .ok n => (List.range n).all fun i => colsGroup.all (itemOk g i)
  | _ => false

/-- The model says what Python does with the group. -/
def knownGroup (v : Val) : Prop := ∀ g, v = .dict g →
  (∀ f ∈ fieldsGroup, ∀ v, Dict.get? g (.s f.1) = some v → f.2.1.known v = true) ∧
  ∀ f ∈ colsGroup, ∀ v i x, Dict.get? g (.s f.1) = some v → v.idx i = .ok x → f.2.1.known x = true

/-- The dictionary can be written as groups. -/
def canWrite2467 (d : Dict) : Bool :=
  match d.get? "groups" with
  | none => false
  | some v => match v.items with
    | .ok l => l.all groupOk
    | .error _ => false

/-- The model says what Python does with it. -/
def known2467 (d : Dict) : Prop :=
  ∀ v, d.get? "groups" = some v → (∀ l, v ≠ .dict l) ∧ ∀ l, v.items = .ok l → ∀ g ∈ l, knownGroup g

/-- The first record of an element. -/
def fieldsElem : List (String × EntryKind × Bool) := [("element_nums", .int, false), ("fe_descriptor", .int, false), ("phys_table", .int, false),
  ("mat_table", .int, false), ("color", .int, false), ("num_nodes", .int, false)]
/-- The record of a rod. -/
def fieldsRod : List (String × EntryKind × Bool) :=
  [("beam_orientation", .int, false), ("beam_foreend_cross", .int, false), ("beam_aftend_cross", .int, false)]

/-- The number eleven, as an integer or as a double. -/
def isEleven : Val → Bool
  | .int n => n == 11
  | .float x => x == F64.ofInt 11
  | _ => false

/-- The element is a rod. -/
def isRodElem (e : Dict) : Bool :=
  match e.get? "fe_descriptor" with
  | some v => isEleven v
  | none => false

/-- The value is a dictionary that can be written as an element. -/
def elemOk : Val → Bool
  | .dict e => fieldsElem.all (entryOk e) && (!isRodElem e || fieldsRod.all (entryOk e)) && entryOk e ("nodes_nums", .ints, false)
  | _ => false

/-- The model says what Python does with the element. -/
def knownElem (v : Val) : Prop := ∀ e, v = .dict e →
  ∀ f ∈ fieldsElem ++ fieldsRod ++ [("nodes_nums", .ints, false)], ∀ v, Dict.get? e (.s f.1) = some v → f.2.1.known v = true

/-- The dictionary can be written as elements: everything under a number must be a list of elements. -/
def canWrite2412 (d : Dict) : Bool :=
  d.all fun kv => match kv.1 with
    | .s _ => true
    | .i _ => match kv.2.items with
      | .ok l => l.all elemOk
      | .error _ => false

/-- The model says what Python does with it. -/
def known2412 (d : Dict) : Prop :=
  ∀ kv ∈ d, ∀ n, kv.1 = .i n → (∀ l, kv.2 ≠ .dict l) ∧ ∀ l, kv.2.items = .ok l → ∀ e ∈ l, knownElem e

end Verif
