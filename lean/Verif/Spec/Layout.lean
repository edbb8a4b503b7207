import Verif.Spec.Used
/-
Which entries of data at nodes (55) and results (2414) belong to the layout that the dictionary asks for.
-/
namespace Verif

/-- The entries of data at nodes (55) that belong to the analysis type `a`. -/
def modeKeys (a : Int) : List String :=
  if a = 2 then ["mode_n", "freq", "modal_m", "modal_damp_vis", "modal_damp_his"]
  else if a = 3 ∨ a = 7 then ["mode_n", "eig", "modal_a", "modal_b"]
  else if a = 5 then ["freq_step_n", "freq"]
  else []

/-- The entries of data at nodes (55) that belong to all analysis types. -/
def nodeKeys : List String := ["id1", "id2", "id3", "id4", "id5", "model_type", "analysis_type", "data_ch", "spec_data_type", "load_case",
  "node_nums", "r1", "r2", "r3", "r4", "r5", "r6"]

/-- The entries of results (2414) that belong to all layouts. -/
def resultKeys : List String := ["analysis_dataset_label", "analysis_dataset_name", "dataset_location", "id1", "id2", "id3", "id4", "id5",
  "model_type", "analysis_type", "data_characteristic", "result_type", "data_type", "number_of_data_values_for_the_data_component"]

/-- The entries of results (2414) that belong to frequency responses. -/
def responseKeys : List String := ["design_set_id", "iteration_number", "solution_set_id", "boundary_condition", "load_set", "mode_number",
  "time_step_number", "frequency_number", "creation_option", "number_retained", "time", "frequency", "eigenvalue", "modal_mass",
  "viscous_damping", "hysteretic_damping", "real_part_eigenvalue", "imaginary_part_eigenvalue", "real_part_of_modal_A_or_modal_mass",
  "imaginary_part_of_modal_A_or_modal_mass", "real_part_of_modal_B_or_modal_mass", "imaginary_part_of_modal_B_or_modal_mass",
  "node_nums", "x", "y", "z"]

/-- The entries of results (2414) for the records 10 to 13 of other analysis types. -/
def recordKeys : List String := ["record10_field1", "record10_field2", "record10_field3", "record10_field4", "record10_field5",
  "record10_field6", "record10_field7", "record10_field8",
  "record11_field1", "record11_field2", "record11_field3", "record11_field4", "record11_field5", "record11_field6",
  "record11_field7", "record11_field8",
  "record12_field1", "record12_field2", "record12_field3", "record12_field4", "record12_field5", "record12_field6",
  "record13_field1", "record13_field2", "record13_field3", "record13_field4", "record13_field5", "record13_field6"]

/-- The entries of results (2414) at the location `l`. -/
def placeKeys (l : Int) : List String :=
  if l = 1 then ["node_nums", "data_at_node"]
  else if l = 2 then ["element_nums", "data_at_element"]
  else if l = 3 then ["element_nums", "IEXP", "number_of_nodes", "number_of_values_per_node", "data_at_nodes_on_element"]
  else []

/-- The entries of results (2414) of the analysis type `a` at the location `l`. -/
def layoutKeys (a l : Int) : List String := resultKeys ++ if a = 5 then responseKeys else recordKeys ++ placeKeys l

/-- The components of a frequency response (2414) with `n` values per node. -/
def axisKeys (n : Int) : List String := if n = 3 then ["x", "y", "z"] else if n = 2 then ["x", "y"] else if n = 1 then ["x"] else []

/-- The entries of a frequency response (2414) with `n` values per node. -/
def responseOnly (n : Int) : List String := resultKeys ++ (responseKeys.filter fun k => k ∉ ["x", "y", "z"]) ++ axisKeys n

end Verif
