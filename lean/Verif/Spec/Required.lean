import Verif.Spec.DataSet
/-
The entries a dictionary must have to be written: those for which the writers have no default.
-/
namespace Verif

/-- Entries that are needed whatever the others are.  For data-set 58 the type of the ordinate is needed unless `force_double`
sets it. -/
def requiredKeys (forceDouble : Bool) : Int → List String
  | 15 => ["node_nums"]
  | 18 => ["cs_num"]
  | 55 => ["analysis_type", "r1", "data_ch", "spec_data_type", "load_case", "node_nums"]
  | 58 => ["func_type", "data", "x", "rsp_node", "rsp_dir", "ref_node", "ref_dir", "orddenom_spec_data_type"] ++
      (if forceDouble then [] else ["ord_data_type"])
  | 82 => ["nodes", "trace_num"]
  | 151 => ["model_name", "description", "db_app", "program"]
  | 164 => ["units_code", "length", "force", "temp", "temp_offset"]
  | 1858 => ["record_num", "octave_format", "measurement_run", "weighting_type", "window_type", "amplitude_units",
      "normalization_method", "abscissa_data_type_qualifier", "ordinate_numerator_data_type_qualifier",
      "ordinate_denominator_data_type_qualifier", "z_axis_data_type_qualifier", "sampling_type", "z_rpm_value", "z_time_value",
      "z_order_value", "num_of_samples", "user_value_1", "user_value_2", "user_value_3", "user_value_4",
      "exponential_window_damping_factor", "response_direction", "reference_direction"]
  | 2411 => ["node_nums"]
  | 2414 => ["analysis_dataset_label", "analysis_dataset_name", "dataset_location", "id1", "id2", "id3", "id4", "id5", "model_type",
      "analysis_type", "data_characteristic", "result_type", "data_type", "number_of_data_values_for_the_data_component"]
  | 2420 => ["CS_sys_labels", "CS_names", "CS_matrices"]
  | 2429 => ["entity_type_code", "group_number", "group_name"]
  | 2467 => ["groups"]
  | _ => []

/-- A sequence without items. -/
def emptyVal : Val → Bool
  | .list [] | .arrI [] | .arrF [] | .arrC [] | .mat [] | .str [] | .dict [] => true
  | _ => false

/-- Entries that are needed when there is at least one item: the entry with the items, and the entries needed for each. -/
def requiredItems : Int → Option (String × List String)
  | 15 => some ("node_nums", ["x", "y", "z"])
  | 18 => some ("cs_num", ["ref_cs_num", "ref_o", "x_point", "xz_point"])
  | 55 => some ("node_nums", ["r2", "r3"])
  | 2411 => some ("node_nums", ["def_cs", "disp_cs", "color", "x", "y", "z"])
  | 2429 => some ("entity_type_code", ["entity_tag"])
  | _ => none

/-- Entries that are needed for an analysis type. -/
def requiredAnalysis : Int → Int → List String
  | 55, 2 => ["mode_n", "freq"]
  | 55, 3 => ["mode_n", "eig"]
  | 55, 5 => ["freq_step_n", "freq"]
  | 55, 7 => ["mode_n", "eig"]
  | 2414, 5 => ["design_set_id", "iteration_number", "solution_set_id", "boundary_condition", "load_set", "mode_number",
      "time_step_number", "frequency_number", "creation_option", "number_retained", "time", "frequency", "eigenvalue", "modal_mass",
      "viscous_damping", "hysteretic_damping", "real_part_eigenvalue", "imaginary_part_eigenvalue",
      "real_part_of_modal_A_or_modal_mass", "imaginary_part_of_modal_A_or_modal_mass", "real_part_of_modal_B_or_modal_mass",
      "imaginary_part_of_modal_B_or_modal_mass", "node_nums"]
  | _, _ => []

end Verif
