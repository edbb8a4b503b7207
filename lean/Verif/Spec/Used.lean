import Verif.Py.Val
/-
What is meant by the entries a writer uses (C67).  The lists are taken from the format strings of the writers, not from the model.
-/
namespace Verif

/-- The entries, besides `type` and `data`, that writing a data-set of type `t` uses. -/
def usedKeys (t : Int) : List String :=
  if t = 15 then ["node_nums", "def_cs", "disp_cs", "color", "x", "y", "z"]
  else if t = 18 then ["cs_num", "cs_type", "ref_cs_num", "color", "method", "cs_name", "ref_o", "x_point", "xz_point"]
  else if t = 55 then ["id1", "id2", "id3", "id4", "id5", "model_type", "analysis_type", "data_ch", "spec_data_type", "load_case",
    "mode_n", "freq_step_n", "freq", "eig", "modal_m", "modal_damp_vis", "modal_damp_his", "modal_a", "modal_b", "node_nums",
    "r1", "r2", "r3", "r4", "r5", "r6"]
  else if t = 58 then ["func_type", "ord_data_type", "n_bytes", "abscissa_spacing", "x", "binary", "id1", "id2", "id3", "id4", "id5",
    "func_id", "ver_num", "load_case_id", "rsp_ent_name", "rsp_node", "rsp_dir", "ref_ent_name", "ref_node", "ref_dir", "z_axis_value",
    "abscissa_spec_data_type", "abscissa_len_unit_exp", "abscissa_force_unit_exp", "abscissa_temp_unit_exp", "abscissa_axis_lab",
    "abscissa_axis_units_lab", "ordinate_spec_data_type", "ordinate_len_unit_exp", "ordinate_force_unit_exp",
    "ordinate_temp_unit_exp", "ordinate_axis_lab", "ordinate_axis_units_lab", "orddenom_spec_data_type", "orddenom_len_unit_exp",
    "orddenom_force_unit_exp", "orddenom_temp_unit_exp", "orddenom_axis_lab", "orddenom_axis_units_lab", "z_axis_spec_data_type",
    "z_axis_len_unit_exp", "z_axis_force_unit_exp", "z_axis_temp_unit_exp", "z_axis_axis_lab", "z_axis_axis_units_lab"]
  else if t = 82 then ["id", "color", "nodes", "trace_num"]
  else if t = 151 then ["model_name", "description", "db_app", "date_db_created", "time_db_created", "version_db1", "version_db2",
    "file_type", "date_db_saved", "time_db_saved", "program", "date_file_written", "time_file_written"]
  else if t = 164 then ["units_code", "units_description", "temp_mode", "length", "force", "temp", "temp_offset"]
  else if t = 1858 then ["record_num", "octave_format", "measurement_run", "weighting_type", "window_type", "amplitude_units",
    "normalization_method", "abscissa_data_type_qualifier", "ordinate_numerator_data_type_qualifier",
    "ordinate_denominator_data_type_qualifier", "z_axis_data_type_qualifier", "sampling_type", "z_rpm_value", "z_time_value",
    "z_order_value", "num_of_samples", "user_value_1", "user_value_2", "user_value_3", "user_value_4",
    "exponential_window_damping_factor", "response_direction", "reference_direction"]
  else if t = 2400 then ["model_uid", "entity_type", "entity_subtype", "version_number", "entity_name", "part_number", "status_mask",
    "date", "time", "idm_version_id", "idm_item_id", "primary_parent_uid", "optimization_switches"]
  else if t = 2411 then ["node_nums", "def_cs", "disp_cs", "color", "x", "y", "z"]
  else if t = 2414 then ["analysis_dataset_label", "analysis_dataset_name", "dataset_location", "id1", "id2", "id3", "id4", "id5",
    "model_type", "analysis_type", "data_characteristic", "result_type", "data_type", "number_of_data_values_for_the_data_component",
    "design_set_id", "iteration_number", "solution_set_id", "boundary_condition", "load_set", "mode_number", "time_step_number",
    "frequency_number", "creation_option", "number_retained", "time", "frequency", "eigenvalue", "modal_mass", "viscous_damping",
    "hysteretic_damping", "real_part_eigenvalue", "imaginary_part_eigenvalue", "real_part_of_modal_A_or_modal_mass",
    "imaginary_part_of_modal_A_or_modal_mass", "real_part_of_modal_B_or_modal_mass", "imaginary_part_of_modal_B_or_modal_mass",
    "node_nums", "x", "y", "z", "element_nums", "data_at_node", "data_at_element", "data_at_nodes_on_element", "IEXP",
    "number_of_nodes", "number_of_values_per_node",
    "record10_field1", "record10_field2", "record10_field3", "record10_field4", "record10_field5", "record10_field6",
    "record10_field7", "record10_field8",
    "record11_field1", "record11_field2", "record11_field3", "record11_field4", "record11_field5", "record11_field6",
    "record11_field7", "record11_field8",
    "record12_field1", "record12_field2", "record12_field3", "record12_field4", "record12_field5", "record12_field6",
    "record13_field1", "record13_field2", "record13_field3", "record13_field4", "record13_field5", "record13_field6"]
  else if t = 2420 then ["Part_UID", "Part_Name", "CS_sys_labels", "CS_types", "CS_colors", "CS_names", "CS_matrices"]
  else if t = 2429 then ["group_number", "active_constraint_set_no_for_group", "active_restraint_set_no_for_group",
    "active_load_set_no_for_group", "active_dof_set_no_for_group", "active_temperature_set_no_for_group",
    "active_contact_set_no_for_group", "group_name", "entity_type_code", "entity_tag"]
  else if t = 2467 then ["groups"]
  else []

/-- The entries of a dictionary whose keys are integers, in order. -/
def intEntries : Dict → List (Int × Val)
  | [] => []
  | (.i n, v) :: r => (n, v) :: intEntries r
  | (.s _, _) :: r => intEntries r

/-- The dictionaries have the same type, the same `data`, and the same value (or none) for each entry used by that type; for elements
the lists of elements are used, in the order in which the dictionary has them. -/
def SameUsed (d d' : Dict) : Prop :=
  ∃ t : Int, d.get? "type" = some (.int t) ∧ d'.get? "type" = some (.int t) ∧ d.get? "data" = d'.get? "data" ∧
    (∀ k ∈ usedKeys t, d.get? (.s k) = d'.get? (.s k)) ∧ (t = 2412 → intEntries d = intEntries d')

end Verif
