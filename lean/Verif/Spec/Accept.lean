import Verif.Py.Val
/-
Which dictionaries can be written (C68), for the data-sets whose records do not depend on the values: 15, 18, 151, 164, 1858, 2400,
2411 and 2429.  The tables are read off the format strings of the writers.
-/
namespace Verif

/-- How an entry is written: as an integer (`%i`), as an integer after `int(...)`, as a floating point number, as a text, as a list of
integers, or as three floating point numbers. -/
inductive EntryKind where
  | int | intCall | float | text | ints | three
deriving DecidableEq

/-- An integer, a truth value, or a finite number. -/
def intOk : Val → Bool
  | .int _ | .bool _ => true
  | .float x => x.finite
  | _ => false

/-- A number, if it is an integer one that fits into a double. -/
def floatOk : Val → Bool
  | .float _ | .bool _ => true
  | .int n => (F64.ofInt n).finite
  | _ => false

/-- The values that can be written in this way. -/
def EntryKind.accepts : EntryKind → Val → Bool
  | .int, v => intOk v
  | .intCall, .str s => (parseInt s).isSome
  | .intCall, v => intOk v
  | .float, v => floatOk v
  | .text, .str _ | .text, .int _ | .text, .bool _ | .text, .none => true
  | .text, _ => false
  | .ints, v => match v.items with
    | .ok l => l.all intOk
    | .error _ => false
  | .three, v => (List.range 3).all fun j => match v.idx j with
    | .ok y => floatOk y
    | .error _ => false

/-- Neither complex nor an array. -/
def scalarKnown : Val → Bool
  | .cplx _ _ | .arrI _ | .arrF _ | .arrC _ | .mat _ => false
  | _ => true

/-- The values for which the model says what Python does: a text field with a number that is not an integer, and complex numbers and
arrays in place of a number, are left out. -/
def EntryKind.known : EntryKind → Val → Bool
  | .int, v | .intCall, v | .float, v => scalarKnown v
  | .text, .str _ | .text, .int _ | .text, .bool _ | .text, .none => true
  | .text, _ => false
  | .ints, v => match v with
    | .dict _ => false
    | v => match v.items with
      | .ok l => l.all scalarKnown
      | .error _ => true
  | .three, v => (List.range 3).all fun j => match v.idx j with
    | .ok y => scalarKnown y
    | .error _ => true

/-- The single entries of a type: name, kind, and whether it may be missing. -/
def fieldsOf (t : Int) : List (String × EntryKind × Bool) :=
  if t = 151 then [("model_name", .text, false), ("description", .text, false), ("db_app", .text, false), ("date_db_created", .text, true),
    ("time_db_created", .text, true), ("version_db1", .text, true), ("version_db2", .text, true), ("file_type", .text, true),
    ("date_db_saved", .text, true), ("time_db_saved", .text, true), ("program", .text, false), ("date_file_written", .text, true),
    ("time_file_written", .text, true)]
  else if t = 164 then [("units_code", .int, false), ("units_description", .text, true), ("temp_mode", .int, true), ("length", .float, false),
    ("force", .float, false), ("temp", .float, false), ("temp_offset", .float, false)]
  else if t = 1858 then [("record_num", .int, false), ("octave_format", .int, false), ("measurement_run", .int, false),
    ("weighting_type", .int, false), ("window_type", .int, false), ("amplitude_units", .int, false), ("normalization_method", .int, false),
    ("abscissa_data_type_qualifier", .int, false), ("ordinate_numerator_data_type_qualifier", .int, false),
    ("ordinate_denominator_data_type_qualifier", .int, false), ("z_axis_data_type_qualifier", .int, false), ("sampling_type", .int, false),
    ("z_rpm_value", .float, false), ("z_time_value", .float, false), ("z_order_value", .float, false), ("num_of_samples", .float, false),
    ("user_value_1", .float, false), ("user_value_2", .float, false), ("user_value_3", .float, false), ("user_value_4", .float, false),
    ("exponential_window_damping_factor", .float, false), ("response_direction", .text, false), ("reference_direction", .text, false)]
  else if t = 2400 then [("model_uid", .int, true), ("entity_type", .int, true), ("entity_subtype", .int, true), ("version_number", .int, true),
    ("entity_name", .text, true), ("part_number", .text, true), ("status_mask", .ints, true), ("date", .text, true), ("time", .text, true),
    ("idm_version_id", .int, true), ("idm_item_id", .int, true), ("primary_parent_uid", .int, true), ("optimization_switches", .int, true)]
  else if t = 2429 then [("group_number", .int, false), ("active_constraint_set_no_for_group", .int, true),
    ("active_restraint_set_no_for_group", .int, true), ("active_load_set_no_for_group", .int, true),
    ("active_dof_set_no_for_group", .int, true), ("active_temperature_set_no_for_group", .int, true),
    ("active_contact_set_no_for_group", .int, true), ("group_name", .text, false)]
  else []

/-- The lists of a type: the entry whose length counts, the places that are written, and the lists with their kinds and whether they may
be missing. -/
def columnsOf (t : Int) : Option (String × (Nat → List Nat) × List (String × EntryKind × Bool)) :=
  if t = 15 then some ("node_nums", List.range, [("node_nums", .float, false), ("def_cs", .float, true), ("disp_cs", .float, true),
    ("color", .float, true), ("x", .float, false), ("y", .float, false), ("z", .float, false)])
  else if t = 18 then some ("cs_num", List.range, [("cs_num", .intCall, false), ("cs_type", .intCall, true), ("ref_cs_num", .intCall, false),
    ("color", .intCall, true), ("method", .intCall, true), ("cs_name", .text, true), ("ref_o", .three, false), ("x_point", .three, false),
    ("xz_point", .three, false)])
  else if t = 2411 then some ("node_nums", List.range, [("node_nums", .intCall, false), ("def_cs", .int, false), ("disp_cs", .int, false),
    ("color", .int, false), ("x", .float, false), ("y", .float, false), ("z", .float, false)])
  else if t = 2429 then some ("entity_type_code", fun n => List.range (4 * (n / 4)) ++ (List.range (n % 4)).map (· * 4),
    [("entity_type_code", .int, false), ("entity_tag", .int, false)])
  else none

/-- An entry is acceptable: missing if it may be, or with a value that can be written. -/
def entryOk (d : Dict) (f : String × EntryKind × Bool) : Bool :=
  match d.get? (.s f.1) with
  | none => f.2.2
  | some v => f.2.1.accepts v

/-- The same for place `i` of a list. -/
def itemOk (d : Dict) (i : Nat) (f : String × EntryKind × Bool) : Bool :=
  match d.get? (.s f.1) with
  | none => f.2.2
  | some v => match v.idx i with
    | .ok x => f.2.1.accepts x
    | .error _ => false

/-- The dictionary can be written as a data-set of type `t`. -/
def canWrite (t : Int) (d : Dict) : Bool :=
  (fieldsOf t).all (entryOk d) &&
  match columnsOf t with
  | none => true
  | some (count, places, cols) => match d.get? (.s count) with
    | none => false
    | some v => match v.len with
      | .error _ => false
      | .ok n => (places n).all fun i => cols.all (itemOk d i)

/-- The model says what Python does with the dictionary. -/
def knownFor (t : Int) (d : Dict) : Prop :=
  (∀ f ∈ fieldsOf t, ∀ v, d.get? (.s f.1) = some v → f.2.1.known v = true) ∧
  ∀ count places cols, columnsOf t = some (count, places, cols) → (∀ v, d.get? (.s count) = some v → ∀ l, v ≠ .dict l) ∧
    ∀ f ∈ cols, ∀ v i x, d.get? (.s f.1) = some v → v.idx i = .ok x → f.2.1.known x = true

end Verif
