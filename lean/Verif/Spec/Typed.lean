import Verif.Py.Val
/-
The entries of the dictionaries read.
-/
namespace Verif

/-- The names of the entries, in order. -/
def Dict.names (d : Dict) : List Key := d.map Prod.fst

/-- The entries of the dictionaries read, by type, as the code puts them together (`/repo/pyuff/datasets/`); for the types whose
entries depend on what is read, an empty list. -/
def entriesOf (t : Int) : List Key :=
  if t = 15 then
    ["type", "node_nums", "def_cs", "disp_cs", "color", "x", "y", "z"]
  else if t = 18 then
    ["type", "cs_num", "cs_type", "ref_cs_num", "color", "method", "cs_name", "ref_o", "x_point", "xz_point"]
  else if t = 82 then
    ["type", "trace_num", "n_nodes", "color", "id", "nodes"]
  else if t = 151 then
    ["type", "model_name", "description", "db_app", "date_db_created", "time_db_created", "version_db1", "version_db2",
     "file_type", "date_db_saved", "time_db_saved", "program", "date_file_written", "time_file_written"]
  else if t = 164 then
    ["type", "units_code", "units_description", "temp_mode", "length", "force", "temp", "temp_offset"]
  else if t = 1858 then
    ["type", "record_num", "octave_format", "measurement_run", "weighting_type", "window_type", "amplitude_units",
     "normalization_method", "abscissa_data_type_qualifier", "ordinate_numerator_data_type_qualifier",
     "ordinate_denominator_data_type_qualifier", "z_axis_data_type_qualifier", "sampling_type", "z_rpm_value",
     "z_time_value", "z_order_value", "num_of_samples", "user_value_1", "user_value_2", "user_value_3", "user_value_4",
     "exponential_window_damping_factor", "response_direction", "reference_direction"]
  else if t = 2400 then
    ["type", "model_uid", "entity_type", "entity_subtype", "version_number", "entity_name", "part_number",
     "status_mask", "date", "time", "idm_version_id", "idm_item_id", "primary_parent_uid", "optimization_switches"]
  else if t = 2411 then
    ["type", "node_nums", "def_cs", "disp_cs", "color", "x", "y", "z"]
  else if t = 2420 then
    ["type", "Part_UID", "Part_Name", "CS_sys_labels", "CS_types", "CS_colors", "CS_names", "CS_matrices"]
  else if t = 2429 then
    ["type", "groups"]
  else if t = 2467 then
    ["type", "groups", "group_ids", "active_constraint_set_no_for_group", "active_restraint_set_no_for_group",
     "active_load_set_no_for_group", "active_dof_set_no_for_group", "active_temperature_set_no_for_group",
     "active_contact_set_no_for_group", "num_of_entities_in_group", "group_name", "entity_type_code", "entity_tag",
     "entity_node_leaf_id", "entity_component_id"]
  else []

/-- The entries of data at nodes (data-set 55) before those that depend on the analysis. -/
def entries55 : List Key :=
  ["type", "id1", "id2", "id3", "id4", "id5", "model_type", "analysis_type", "data_ch", "spec_data_type", "data_type",
   "n_data_per_node"]

/-- ... those that depend on the analysis: normal modes, complex eigenvalues, frequency response, others ... -/
def middle55 : List (List Key) :=
  [["load_case", "mode_n", "freq", "modal_m", "modal_damp_vis", "modal_damp_his"],
   ["load_case", "mode_n", "modal_a", "modal_b", "eig"],
   ["load_case", "freq_step_n", "freq"],
   []]

/-- ... and the data, three or six components. -/
def data55 : List (List Key) :=
  [["node_nums", "r1", "r2", "r3"], ["node_nums", "r1", "r2", "r3", "r4", "r5", "r6"]]

/-- The entries of a function at a nodal degree of freedom (data-set 58), but for the abscissa and the data. -/
def entries58 (binary : Bool) : List Key :=
  (["type", "binary"] ++ ((if binary then ["byte_ordering", "fp_format", "n_ascii_lines", "n_bytes"] else []) ++
  ["id1", "id2", "id3", "id4", "id5", "func_type", "func_id", "ver_num", "load_case_id", "rsp_ent_name", "rsp_node", "rsp_dir",
   "ref_ent_name", "ref_node", "ref_dir", "ord_data_type", "num_pts", "abscissa_spacing", "abscissa_min", "abscissa_inc",
   "z_axis_value", "abscissa_spec_data_type", "abscissa_len_unit_exp", "abscissa_force_unit_exp", "abscissa_temp_unit_exp",
   "abscissa_axis_lab", "abscissa_axis_units_lab", "ordinate_spec_data_type", "ordinate_len_unit_exp",
   "ordinate_force_unit_exp", "ordinate_temp_unit_exp", "ordinate_axis_lab", "ordinate_axis_units_lab",
   "orddenom_spec_data_type", "orddenom_len_unit_exp", "orddenom_force_unit_exp", "orddenom_temp_unit_exp",
   "orddenom_axis_lab", "orddenom_axis_units_lab", "z_axis_spec_data_type", "z_axis_len_unit_exp", "z_axis_force_unit_exp",
   "z_axis_temp_unit_exp", "z_axis_axis_lab", "z_axis_axis_units_lab"])).map Key.s

/-- The entries of results (data-set 2414) common to all analyses. -/
def entries2414 : List Key :=
  ["type", "analysis_dataset_label", "analysis_dataset_name", "dataset_location", "id1", "id2", "id3", "id4", "id5",
   "model_type", "analysis_type", "data_characteristic", "result_type", "data_type",
   "number_of_data_values_for_the_data_component"]

/-- ... those of a frequency response and of the other analyses ... -/
def freq2414 : List Key :=
  ["design_set_id", "iteration_number", "solution_set_id", "boundary_condition", "load_set", "mode_number",
   "time_step_number", "frequency_number", "creation_option", "number_retained", "time", "frequency", "eigenvalue",
   "modal_mass", "viscous_damping", "hysteretic_damping", "real_part_eigenvalue", "imaginary_part_eigenvalue",
   "real_part_of_modal_A_or_modal_mass", "imaginary_part_of_modal_A_or_modal_mass", "real_part_of_modal_B_or_modal_mass",
   "imaginary_part_of_modal_B_or_modal_mass"]
def plain2414 : List Key :=
  ["record10_field1", "record10_field2", "record10_field3", "record10_field4", "record10_field5", "record10_field6",
   "record10_field7", "record10_field8", "record11_field1", "record11_field2", "record11_field3", "record11_field4",
   "record11_field5", "record11_field6", "record11_field7", "record11_field8", "record12_field1", "record12_field2",
   "record12_field3", "record12_field4", "record12_field5", "record12_field6", "record13_field1", "record13_field2",
   "record13_field3", "record13_field4", "record13_field5", "record13_field6"]

/-- ... and the data of each. -/
def freqData2414 : List (List Key) :=
  [[], ["node_nums", "x"], ["node_nums", "x", "y"], ["node_nums", "x", "y", "z"]]
def plainData2414 : List (List Key) :=
  [[], ["node_nums", "data_at_node"], ["element_nums", "NDVAL", "data_at_element"],
   ["element_nums", "IEXP", "number_of_nodes", "number_of_values_per_node", "data_at_nodes_on_element"]]

/-- The entries of elements (data-set 2412): a list for each finite element descriptor met, then the triangles and the
quadrilaterals again in the older arrangement. -/
def entries2412 (fes : List Int) : List Key :=
  (.s "type" :: fes.map Key.i) ++ ((if 41 ∈ fes then [.s "triangle"] else []) ++ (if 44 ∈ fes then [.s "quad"] else []))

/-- The entries of a dictionary of type `t` read, `header` telling whether only the header was asked for. -/
def Entries (t : Int) (header : Bool) (names : List Key) : Prop :=
  if t = 55 then ∃ m ∈ middle55, ∃ l ∈ data55, names = entries55 ++ (m ++ l)
  else if t = 58 then
    (∃ binary : Bool, names = entries58 binary ++ [.s "x", .s "data"]) ∨ (header = false ∧ names = entries58 true)
  else if t = 2412 then ∃ fes : List Int, fes.Nodup ∧ names = entries2412 fes
  else if t = 2414 then (∃ l ∈ freqData2414, names = entries2414 ++ (freq2414 ++ l)) ∨
    (∃ l ∈ plainData2414, names = entries2414 ++ (plain2414 ++ l))
  else if t ∈ [15, 18, 82, 151, 164, 1858, 2400, 2411, 2420, 2429, 2467] then names = entriesOf t
  else names = [.s "type"]

end Verif
