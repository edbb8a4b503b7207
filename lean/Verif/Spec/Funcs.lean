import Verif.Spec.Records
import Verif.Spec.Foreign
/-
The header of a function at nodal degrees of freedom (58) as any program may have written it.
-/
namespace Verif

/-- The first thirteen lines of a data-set 58, with their line ends: delimiter, type, and records 1 to 11. -/
structure FuncLines where
  l0 : Text
  type : Text
  id1 : Text
  id2 : Text
  id3 : Text
  id4 : Text
  id5 : Text
  dof : Text
  form : Text
  abscissa : Text
  ordinate : Text
  denominator : Text
  zAxis : Text

namespace FuncLines

/-- The lines. -/
def lines (h : FuncLines) : List Text :=
  [h.l0, h.type, h.id1, h.id2, h.id3, h.id4, h.id5, h.dof, h.form, h.abscissa, h.ordinate, h.denominator, h.zAxis]

/-- The values are binary: there is a `b` behind the type. -/
def binary (h : FuncLines) : Bool := h.type[6]? = some 'b' ∨ h.type[6]? = some 'B'

/-- There are four integers in a record of units. -/
def Units (l : Text) : Prop := IntAt l 0 10 ∧ IntAt l 10 5 ∧ IntAt l 15 5 ∧ IntAt l 20 5

instance (l : Text) : Decidable (Units l) := by unfold Units; infer_instance

/-- The numbers that are required are there. -/
def Good (h : FuncLines) : Prop :=
  (h.binary = true → IntAt h.type 7 6 ∧ IntAt h.type 13 6 ∧ IntAt h.type 19 12 ∧ IntAt h.type 31 12) ∧
  IntAt h.dof 0 5 ∧
  (IntAt h.form 0 10 ∧ IntAt h.form 10 10 ∧ IntAt h.form 20 10 ∧ FloatAt h.form 30 13 ∧ FloatAt h.form 43 13 ∧ FloatAt h.form 56 13) ∧
  Units h.abscissa ∧ Units h.ordinate ∧ Units h.denominator ∧ Units h.zAxis

instance (h : FuncLines) : Decidable h.Good := by unfold Good; infer_instance

/-- What a record of units says. -/
def units (spec len force temp lab units : Key) (l : Text) : Dict :=
  [(spec, .int (intAt l 0 10)), (len, .int (intAt l 10 5)), (force, .int (intAt l 15 5)), (temp, .int (intAt l 20 5)),
   (lab, .str (column l 25 21)), (units, .str (column l 46 21))]

/-- What the second line says. -/
def first (h : FuncLines) : Dict :=
  if h.binary then [("type", .int 58), ("binary", .int 1), ("byte_ordering", .int (intAt h.type 7 6)), ("fp_format", .int (intAt h.type 13 6)),
    ("n_ascii_lines", .int (intAt h.type 19 12)), ("n_bytes", .int (intAt h.type 31 12))]
  else [("type", .int 58), ("binary", .int 0)]

/-- What records 1 to 7 say. -/
def second (h : FuncLines) : Dict :=
  [("id1", .str (column h.id1 0 80)), ("id2", .str (column h.id2 0 80)), ("id3", .str (column h.id3 0 80)), ("id4", .str (column h.id4 0 80)),
   ("id5", .str (column h.id5 0 80)), ("func_type", .int (intAt h.dof 0 5)), ("func_id", .int (intAt h.dof 5 10)),
   ("ver_num", .int (intAt h.dof 15 5)), ("load_case_id", .int (intAt h.dof 20 10)), ("rsp_ent_name", .str (column h.dof 30 11)),
   ("rsp_node", .int (intAt h.dof 41 10)), ("rsp_dir", .int (intAt h.dof 51 4)), ("ref_ent_name", .str (column h.dof 55 11)),
   ("ref_node", .int (intAt h.dof 66 10)), ("ref_dir", .int (intAt h.dof 76 4)), ("ord_data_type", .int (intAt h.form 0 10)),
   ("num_pts", .int (intAt h.form 10 10)), ("abscissa_spacing", .int (intAt h.form 20 10)), ("abscissa_min", .float (floatAt h.form 30 13)),
   ("abscissa_inc", .float (floatAt h.form 43 13)), ("z_axis_value", .float (floatAt h.form 56 13))]

/-- What records 8 to 11 say. -/
def third (h : FuncLines) : Dict :=
  units "abscissa_spec_data_type" "abscissa_len_unit_exp" "abscissa_force_unit_exp" "abscissa_temp_unit_exp" "abscissa_axis_lab"
    "abscissa_axis_units_lab" h.abscissa ++
  units "ordinate_spec_data_type" "ordinate_len_unit_exp" "ordinate_force_unit_exp" "ordinate_temp_unit_exp" "ordinate_axis_lab"
    "ordinate_axis_units_lab" h.ordinate ++
  units "orddenom_spec_data_type" "orddenom_len_unit_exp" "orddenom_force_unit_exp" "orddenom_temp_unit_exp" "orddenom_axis_lab"
    "orddenom_axis_units_lab" h.denominator ++
  units "z_axis_spec_data_type" "z_axis_len_unit_exp" "z_axis_force_unit_exp" "z_axis_temp_unit_exp" "z_axis_axis_lab"
    "z_axis_axis_units_lab" h.zAxis

/-- What the header says. -/
def dict (h : FuncLines) : Dict := h.first ++ (h.second ++ h.third)

/-- The header says that the values have this form. -/
def Form (h : FuncLines) (f : Form58) : Prop := intAt h.form 0 10 = f.code ∧ intAt h.form 20 10 = f.spacing

end FuncLines
end Verif
