import Verif.Py.Val
/-
Records with columns.
-/
namespace Verif

/-- The text in `w` columns from column `a` (counted from 0) of a line, without the blanks around it; lines shorter than 80 are
taken to be filled up with blanks. -/
def column (l : Text) (a w : Nat) : Text := strip (((l ++ List.replicate (80 - l.length) ' ').drop a).take w)

/-- The integer in these columns, 0 if there is none. -/
def intAt (l : Text) (a w : Nat) : Int := (parseInt (column l a w)).getD 0

/-- The number in these columns, 0 if there is none. -/
def floatAt (l : Text) (a w : Nat) : F64 := (parseFloat (column l a w)).getD F64.zero

/-- There is an integer in these columns. -/
def IntAt (l : Text) (a w : Nat) : Prop := parseInt (column l a w) ≠ none

/-- There is a number in these columns. -/
def FloatAt (l : Text) (a w : Nat) : Prop := parseFloat (column l a w) ≠ none

instance (l : Text) (a w : Nat) : Decidable (IntAt l a w) := by unfold IntAt; infer_instance
instance (l : Text) (a w : Nat) : Decidable (FloatAt l a w) := by unfold FloatAt; infer_instance

/-- A word that is a number when its exponent letter D is replaced by E. -/
def smallNumber (t : Text) : Option F64 := parseFloat ((lower t).map fun c => if c = 'd' then 'e' else c)

/-- What lines 3 to 9 of a model header (151) say. -/
def header151 (l2 l3 l4 l5 l6 l7 l8 : Text) : Dict :=
  [("type", .int 151), ("model_name", .str (column l2 0 80)), ("description", .str (column l3 0 80)),
   ("db_app", .str (column l4 0 80)), ("date_db_created", .str (column l5 0 10)), ("time_db_created", .str (column l5 10 10)),
   ("version_db1", .int (intAt l5 20 10)), ("version_db2", .int (intAt l5 30 10)), ("file_type", .int (intAt l5 40 10)),
   ("date_db_saved", .str (column l6 0 10)), ("time_db_saved", .str (column l6 10 10)), ("program", .str (column l7 0 80)),
   ("date_file_written", .str (column l8 0 10)), ("time_file_written", .str (column l8 10 10))]

/-- What the third line of the units (164) and four numbers say. -/
def units164 (l : Text) (length force temp offset : F64) : Dict :=
  [("type", .int 164), ("units_code", .int (intAt l 0 10)), ("units_description", .str (column l 10 20)),
   ("temp_mode", .int (intAt l 30 10)), ("length", .float length), ("force", .float force), ("temp", .float temp),
   ("temp_offset", .float offset)]

/-- What the lines 3, 4, 5, 6 and 8 of the qualifiers (1858) say. -/
def qualifiers1858 (l2 l3 l4 l5 l7 : Text) : Dict :=
  [("type", .int 1858), ("record_num", .int (intAt l2 0 12)), ("octave_format", .int (intAt l2 12 12)),
   ("measurement_run", .int (intAt l2 24 12)), ("weighting_type", .int (intAt l3 0 6)), ("window_type", .int (intAt l3 6 6)),
   ("amplitude_units", .int (intAt l3 12 6)), ("normalization_method", .int (intAt l3 18 6)),
   ("abscissa_data_type_qualifier", .int (intAt l3 24 6)), ("ordinate_numerator_data_type_qualifier", .int (intAt l3 30 6)),
   ("ordinate_denominator_data_type_qualifier", .int (intAt l3 36 6)), ("z_axis_data_type_qualifier", .int (intAt l3 42 6)),
   ("sampling_type", .int (intAt l3 48 6)), ("z_rpm_value", .float (floatAt l4 0 15)), ("z_time_value", .float (floatAt l4 15 15)),
   ("z_order_value", .float (floatAt l4 30 15)), ("num_of_samples", .float (floatAt l4 45 15)),
   ("user_value_1", .float (floatAt l5 0 15)), ("user_value_2", .float (floatAt l5 15 15)),
   ("user_value_3", .float (floatAt l5 30 15)), ("user_value_4", .float (floatAt l5 45 15)),
   ("exponential_window_damping_factor", .float (floatAt l5 60 15)), ("response_direction", .str (column l7 0 4)),
   ("reference_direction", .str (column l7 6 4))]

/-- What lines 3 to 8 of a model (2400) say. -/
def model2400 (l2 l3 l4 : Text) (mask : List Int) (l6 l7 : Text) : Dict :=
  [("type", .int 2400), ("model_uid", .int (intAt l2 0 12)), ("entity_type", .int (intAt l2 12 6)),
   ("entity_subtype", .int (intAt l2 18 6)), ("version_number", .int (intAt l2 24 12)), ("entity_name", .str (column l3 0 80)),
   ("part_number", .str (column l4 0 80)), ("status_mask", .list (mask.map .int)), ("date", .str (column l6 0 10)),
   ("time", .str (column l6 10 10)), ("idm_version_id", .int (intAt l6 20 12)), ("idm_item_id", .int (intAt l6 32 12)),
   ("primary_parent_uid", .int (intAt l6 44 12)), ("optimization_switches", .int (intAt l7 0 12))]

end Verif
