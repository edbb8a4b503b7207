import Verif.Spec.Accept55
/-
Which dictionaries can be written as a function (58) (C68).
-/
namespace Verif

/-- Entries of the header. -/
def headFunction : List (String × EntryKind × Bool) := [("id1", .text, true), ("id2", .text, true), ("id3", .text, true), ("id4", .text, true), ("id5", .text, true),
  ("func_type", .int, false), ("func_id", .int, true), ("ver_num", .int, true), ("load_case_id", .int, true), ("rsp_ent_name", .text, true), ("rsp_node", .int, false),
  ("rsp_dir", .int, false), ("ref_ent_name", .text, true), ("ref_node", .int, false), ("ref_dir", .int, false), ("z_axis_value", .float, true)]
/-- Entries of the lines of units.  One of them may not be missing. -/
def headUnits : List (String × EntryKind × Bool) := [("abscissa_spec_data_type", .int, true), ("abscissa_len_unit_exp", .int, true),
  ("abscissa_force_unit_exp", .int, true), ("abscissa_temp_unit_exp", .int, true), ("abscissa_axis_lab", .text, true), ("abscissa_axis_units_lab", .text, true),
  ("ordinate_spec_data_type", .int, true), ("ordinate_len_unit_exp", .int, true), ("ordinate_force_unit_exp", .int, true),
  ("ordinate_temp_unit_exp", .int, true), ("ordinate_axis_lab", .text, true), ("ordinate_axis_units_lab", .text, true),
  ("orddenom_spec_data_type", .int, false), ("orddenom_len_unit_exp", .int, true), ("orddenom_force_unit_exp", .int, true),
  ("orddenom_temp_unit_exp", .int, true), ("orddenom_axis_lab", .text, true), ("orddenom_axis_units_lab", .text, true),
  ("z_axis_spec_data_type", .int, true), ("z_axis_len_unit_exp", .int, true), ("z_axis_force_unit_exp", .int, true),
  ("z_axis_temp_unit_exp", .int, true), ("z_axis_axis_lab", .text, true), ("z_axis_axis_units_lab", .text, true)]

/-- Zero, of either sign. -/
def zeroNum : Val → Bool
  | .int m => m == 0
  | .bool b => !b
  | .float x => x.mag == 0
  | _ => false

/-- A function type that can be written. -/
def functionType (d : Dict) : Bool :=
  match d.get? "func_type" with
  | none => false
  | some v => zeroNum v || [1, 2, 3, 4, 6, 9].any fun n => isNum n v

/-- The precision is known: it is given, or the call says double. -/
def precisionOk (fd : Bool) (d : Dict) : Bool := fd || [2, 4, 5, 6].any (entryIs d "ord_data_type")

/-- The abscissa is evenly spaced: the entry is neither missing nor zero nor empty. -/
def evenly (d : Dict) : Bool :=
  match d.get? "abscissa_spacing" with
  | none => false
  | some v => match v with
    | .none => false
    | .str s => s != []
    | .list l => !l.isEmpty
    | .dict g => !g.isEmpty
    | v => !zeroNum v

/-- The number of ordinates. -/
def ordinates (d : Dict) : Option Nat :=
  match d.get? "data" with
  | some (.arrF ys) => some ys.length
  | some (.arrC ys) => some ys.length
  | _ => none

/-- At least two abscissas, and as many as ordinates unless they are evenly spaced. -/
def lengthsOk (d : Dict) : Bool :=
  match ordinates d, d.get? "x" with
  | some n, some (.arrF xs) => decide (2 ≤ xs.length) && (evenly d || xs.length == n)
  | _, _ => false

/-- The dictionary can be written as a function; `fd` says whether the call asks for double precision. -/
def canWrite58 (fd : Bool) (d : Dict) : Bool :=
  functionType d && ((headFunction ++ headUnits).all (entryOk d) && (precisionOk fd d && lengthsOk d))

/-- The model says what Python does with it: ordinate and abscissa are arrays of floating point numbers. -/
structure Known58 (d : Dict) : Prop where
  entries : ∀ f ∈ headFunction ++ headUnits, ∀ v, d.get? (.s f.1) = some v → f.2.1.known v = true
  flags : ∀ k ∈ ["ord_data_type", "abscissa_spacing", "binary"], ∀ v, d.get? (.s k) = some v → scalarKnown v = true
  ordinate : ∀ v, d.get? "data" = some v → (∃ l, v = .arrF l) ∨ ∃ l, v = .arrC l
  abscissa : ∀ v, d.get? "x" = some v → ∃ l, v = .arrF l

end Verif
