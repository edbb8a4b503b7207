import Verif.Spec.DataSet
/-
The entries that are written as numbers, and the values that are not numbers.
-/
namespace Verif

/-- Values that `'%i'` and `'%e'` refuse: texts, `None`, lists and dictionaries. -/
def notNumber : Val → Bool
  | .str _ | .none | .list _ | .dict _ => true
  | _ => false

/-- Entries written as numbers whatever the others are. -/
def numberKeys : Int → List String
  | 55 => ["model_type", "analysis_type", "data_ch", "spec_data_type", "load_case"]
  | 58 => ["func_type", "func_id", "ver_num", "load_case_id", "rsp_node", "rsp_dir", "ref_node", "ref_dir", "z_axis_value",
      "abscissa_spec_data_type", "abscissa_len_unit_exp", "abscissa_force_unit_exp", "abscissa_temp_unit_exp",
      "ordinate_spec_data_type", "ordinate_len_unit_exp", "ordinate_force_unit_exp", "ordinate_temp_unit_exp",
      "orddenom_spec_data_type", "orddenom_len_unit_exp", "orddenom_force_unit_exp", "orddenom_temp_unit_exp",
      "z_axis_spec_data_type", "z_axis_len_unit_exp", "z_axis_force_unit_exp", "z_axis_temp_unit_exp"]
  | 82 => ["trace_num", "color"]
  | 164 => ["units_code", "temp_mode", "length", "force", "temp", "temp_offset"]
  | 1858 => ["record_num", "octave_format", "measurement_run", "weighting_type", "window_type", "amplitude_units",
      "normalization_method", "abscissa_data_type_qualifier", "ordinate_numerator_data_type_qualifier",
      "ordinate_denominator_data_type_qualifier", "z_axis_data_type_qualifier", "sampling_type", "z_rpm_value", "z_time_value",
      "z_order_value", "num_of_samples", "user_value_1", "user_value_2", "user_value_3", "user_value_4",
      "exponential_window_damping_factor"]
  | 2400 => ["model_uid", "entity_type", "entity_subtype", "version_number", "idm_version_id", "idm_item_id",
      "primary_parent_uid", "optimization_switches"]
  | 2414 => ["analysis_dataset_label", "dataset_location", "model_type", "analysis_type", "data_characteristic", "result_type",
      "data_type", "number_of_data_values_for_the_data_component"]
  | 2420 => ["Part_UID"]
  | 2429 => ["group_number", "active_constraint_set_no_for_group", "active_restraint_set_no_for_group",
      "active_load_set_no_for_group", "active_dof_set_no_for_group", "active_temperature_set_no_for_group",
      "active_contact_set_no_for_group"]
  | _ => []

/-- Entries written as numbers for an analysis type. -/
def numberAnalysis : Int → Int → List String
  | 55, 2 => ["mode_n", "freq", "modal_m", "modal_damp_vis", "modal_damp_his"]
  | 55, 3 => ["mode_n", "eig"]
  | 55, 5 => ["freq_step_n", "freq"]
  | 55, 7 => ["mode_n", "eig"]
  | 2414, 5 => ["design_set_id", "iteration_number", "solution_set_id", "boundary_condition", "load_set", "mode_number",
      "time_step_number", "frequency_number", "creation_option", "number_retained", "time", "frequency", "eigenvalue", "modal_mass",
      "viscous_damping", "hysteretic_damping", "real_part_eigenvalue", "imaginary_part_eigenvalue",
      "real_part_of_modal_A_or_modal_mass", "imaginary_part_of_modal_A_or_modal_mass", "real_part_of_modal_B_or_modal_mass",
      "imaginary_part_of_modal_B_or_modal_mass"]
  | _, _ => []

/-- The number of values in a sequence. -/
def seqLength : Val → Option Nat
  | .list l => some l.length
  | .arrI l => some l.length
  | .arrF l => some l.length
  | .arrC l => some l.length
  | .mat l => some l.length
  | _ => none

/-- Entries with one value for each item: the entry with the items, and the others. -/
def itemKeys : Int → Option (String × List String)
  | 15 => some ("node_nums", ["def_cs", "disp_cs", "color", "x", "y", "z"])
  | 18 => some ("cs_num", ["cs_type", "ref_cs_num", "color", "method", "cs_name", "ref_o", "x_point", "xz_point"])
  | 55 => some ("node_nums", ["r1", "r2", "r3"])
  | 2411 => some ("node_nums", ["def_cs", "disp_cs", "color", "x", "y", "z"])
  | 2420 => some ("CS_sys_labels", ["CS_types", "CS_colors", "CS_names", "CS_matrices"])
  | _ => none

/-- Those whose values are written as numbers without conversion. -/
def numberItems : Int → Option (String × List String)
  | 15 => some ("node_nums", ["def_cs", "disp_cs", "color", "x", "y", "z"])
  | 55 => some ("node_nums", ["r1", "r2", "r3"])
  | 2411 => some ("node_nums", ["def_cs", "disp_cs", "color", "x", "y", "z"])
  | _ => none

/-- Entries whose values beyond the number of items are ignored. -/
def extraKeys : Int → Option (String × List String)
  | 15 => some ("node_nums", ["def_cs", "disp_cs", "color", "x", "y", "z"])
  | 18 => some ("cs_num", ["cs_type", "ref_cs_num", "color", "method", "cs_name", "ref_o", "x_point", "xz_point"])
  | 55 => some ("node_nums", ["r2", "r3"])
  | 2411 => some ("node_nums", ["def_cs", "disp_cs", "color", "x", "y", "z"])
  | _ => none

end Verif
