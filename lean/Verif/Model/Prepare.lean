import Verif.Model.Tools
/-
The `prepare_*` functions of `/repo/pyuff/datasets/`, and `convert_dataset_2412_to_82` of `/repo/pyuff/tools.py`.

Arguments are values of `Val`: `Val.int`, `Val.float`, `Val.str` stand for the python types `int`, `float`, `str`; numpy scalars are not
distinguished from them.  A parameter that is not given has its default `None`.
-/
namespace Verif

/-- The `dtype` of a numpy array, as far as the checks distinguish them (`/repo/pyuff/datasets/dataset_15.py:125-138`). -/
inductive DT where
  | bool | int | float | cplx | str | obj
deriving DecidableEq, Repr

/-- The type numpy chooses for items of two types (`np.array` of a list, `/repo/pyuff/datasets/dataset_15.py:125`). -/
def DT.join : DT → DT → DT
  | .obj, _ | _, .obj => .obj
  | .str, _ | _, .str => .str
  | .cplx, _ | _, .cplx => .cplx
  | .float, _ | _, .float => .float
  | .int, _ | _, .int => .int
  | .bool, .bool => .bool

mutual
/-- `np.array(v)`: type and shape (`/repo/pyuff/datasets/dataset_15.py:125`).  Items of different shapes raise `ValueError`.
Simplification: an integer that does not fit 64 bits is not modelled. -/
def npArray : Val → Res (DT × List Nat)
  | .none => .ok (.obj, [])
  | .dict _ => .ok (.obj, [])
  | .bool _ => .ok (.bool, [])
  | .int n => if -(2 ^ 63) ≤ n ∧ n < 2 ^ 63 then .ok (.int, []) else .error .unmodelled
  | .float _ => .ok (.float, [])
  | .cplx _ _ => .ok (.cplx, [])
  | .str _ => .ok (.str, [])
  | .arrI l => .ok (.int, [l.length])
  | .arrF l => .ok (.float, [l.length])
  | .arrC l => .ok (.cplx, [l.length])
  | .mat l => .ok (.float, [l.length, (l.headD []).length])
  | .list l =>
    match npItems l with
    | .error e => .error e
    | .ok none => .ok (.float, [0])
    | .ok (some (t, s)) => .ok (t, l.length :: s)
/-- The common type and shape of the items of a list (`/repo/pyuff/datasets/dataset_15.py:125`). -/
def npItems : List Val → Res (Option (DT × List Nat))
  | [] => .ok none
  | v :: r =>
    match npArray v, npItems r with
    | .error e, _ => .error e
    | _, .error e => .error e
    | .ok a, .ok none => .ok (some a)
    | .ok (t, s), .ok (some (t', s')) => if s = s' then .ok (some (t.join t', s)) else .error .value
end

/-- The truth of `array != None`, for an array of `n` items: one item gives `True`, several raise `ValueError`
(`/repo/pyuff/datasets/dataset_15.py:125`).  For no item the outcome depends on the version of numpy: not modelled. -/
def neNoneArr (n : Nat) : Res Bool :=
  if n = 0 then .error .unmodelled else if n = 1 then .ok true else .error .value

/-- The truth of `v != None` (`/repo/pyuff/datasets/dataset_15.py:123`). -/
def neNone : Val → Res Bool
  | .none => .ok false
  | .arrI l => neNoneArr l.length
  | .arrF l => neNoneArr l.length
  | .arrC l => neNoneArr l.length
  | .mat l => neNoneArr (l.map List.length).sum
  | _ => .ok true

/-- The python types tested with `type(v) != T` (`/repo/pyuff/datasets/dataset_55.py:653,687,695`). -/
inductive PTy where
  | str | int | float
deriving DecidableEq, Repr

/-- `type(v) == T` (`/repo/pyuff/datasets/dataset_55.py:653`). -/
def PTy.is : PTy → Val → Bool
  | .str, .str _ => true
  | .int, .int _ => true
  | .float, .float _ => true
  | _, _ => false

/-- `v == n` for a number `n` (`/repo/pyuff/datasets/dataset_55.py:663`); arrays are excluded by the caller. -/
def eqInt : Val → Int → Bool
  | .int m, n => m = n
  | .bool b, n => (if b then 1 else 0) = n
  | .float x, n => x.finite && decide (x.toInt = some n) && (decide (x = F64.ofInt n) || decide (n = 0 ∧ x.mag = 0))
  | .cplx x y, n => x.finite && decide (x.toInt = some n) && (decide (x = F64.ofInt n) || decide (n = 0 ∧ x.mag = 0))
      && decide (y.mag = 0)
  | _, _ => false

/-- `v` is a numpy array. -/
def isArr : Val → Bool
  | .arrI _ | .arrF _ | .arrC _ | .mat _ => true
  | _ => false

/-- The checks on one argument. -/
inductive Check where
  /-- `np.array(v).dtype != T and v != None`, for several `T` joined by `and`; with `is not None` when `is` is set
  (`/repo/pyuff/datasets/dataset_15.py:125`, `/repo/pyuff/datasets/dataset_1858.py:309`). -/
  | dtype (ts : List DT) (is : Bool)
  /-- `type(v) != T and v != None` (`/repo/pyuff/datasets/dataset_55.py:653`). -/
  | exact (t : PTy) (is : Bool)
  /-- `v not in (n, ..., None)` (`/repo/pyuff/datasets/dataset_55.py:663`). -/
  | oneOf (ns : List Int)
  /-- `v not in np.arange(a, b) and v != None` (`/repo/pyuff/datasets/dataset_55.py:669`). -/
  | arange (a b : Int)
  /-- `type(v) not in (list, tuple, np.ndarray) and v != None` (`/repo/pyuff/datasets/dataset_15.py:123`). -/
  | seq
  /-- `v != None and (not hasattr(v, '__len__') or len(v) != 32)` (`/repo/pyuff/datasets/dataset_2400.py:173`). -/
  | mask32
  /-- `if type(v) in (np.ndarray, list, tuple): for i in v: if i not in (0, 1, 2)`
  (`/repo/pyuff/datasets/dataset_2420.py:167-170`). -/
  | csTypes
  /-- `type(v) not in (np.ndarray, list, str) and v != None` (`/repo/pyuff/datasets/dataset_2420.py:175`). -/
  | names
  /-- The items of an array or list must be strings (`/repo/pyuff/datasets/dataset_2420.py:177-184`).  The arrays of `Val` have no
  strings. -/
  | nameItems

/-- `raise e` unless the first operand of `and` is false or `v` is `None`
(`/repo/pyuff/datasets/dataset_15.py:125-126`). -/
def rejectUnless (good : Bool) (is : Bool) (e : Err) (v : Val) : Res Unit :=
  if good then .ok ()
  else if is then (if v = .none then .ok () else .error e)
  else match neNone v with
    | .error e' => .error e'
    | .ok true => .error e
    | .ok false => .ok ()

/-- Run one check.  Simplification: `in` on an array argument is not modelled, nor is `in np.arange(..)` on a list. -/
def Check.run (c : Check) (e : Err) (v : Val) : Res Unit :=
  match c with
  | .dtype ts is => match npArray v with
    | .error e' => .error e'
    | .ok (t, _) => rejectUnless (t ∈ ts) is e v
  | .exact t is => rejectUnless (t.is v) is e v
  | .oneOf ns =>
    if isArr v then .error .unmodelled
    else if v = .none ∨ ns.any (eqInt v) then .ok () else .error e
  | .arange a b =>
    if isArr v then .error .unmodelled
    else match v with
    | .list _ => .error .unmodelled
    | v => rejectUnless ((List.range (b - a).toNat).any fun i => eqInt v (a + i)) false e v
  | .seq => rejectUnless (isArr v || (match v with | .list _ => true | _ => false)) false e v
  | .mask32 => match neNone v with
    | .error e' => .error e'
    | .ok false => .ok ()
    | .ok true => match v.len with
      | .ok 32 => .ok ()
      | _ => .error e
  | .csTypes =>
    if isArr v || (match v with | .list _ => true | _ => false) then
      match v.items with
      | .error e' => .error e'
      | .ok l =>
        if l.any isArr then .error .unmodelled
        else if l.all fun i => [0, 1, 2].any (eqInt i) then .ok () else .error e
    else .ok ()
  | .names => rejectUnless (isArr v || (match v with | .list _ | .str _ => true | _ => false)) false e v
  | .nameItems =>
    if isArr v || (match v with | .list _ => true | _ => false) then
      match v.items with
      | .error e' => .error e'
      | .ok l => if l.all fun i => PTy.str.is i then .ok () else .error e
    else .ok ()

/-- A `prepare_*` function: its number, the checks in order with the exception each raises, and the keys of the dictionary, each the name of
the parameter it holds. -/
structure Prep where
  num : Nat
  checks : List (String × Check × Err)
  keys : List String

/-- The checks in order; the first that fails raises. -/
def runChecks (a : String → Val) : List (String × Check × Err) → Res Unit
  | [] => .ok ()
  | (k, c, e) :: r => match c.run e (a k) with
    | .error e' => .error e'
    | .ok () => runChecks a r

/-- The common body: checks, `dataset={'type': n, ...}`, `check_dict_for_none` unless `return_full_dict`
(`/repo/pyuff/datasets/dataset_15.py:123-155`); `a` gives the value of every parameter. -/
def Prep.run (p : Prep) (a : String → Val) (full : Bool) : Res Dict :=
  match runChecks a p.checks with
  | .error e => .error e
  | .ok () =>
    let d : Dict := ("type", .int p.num) :: p.keys.map fun k => (.s k, a k)
    .ok (if full then d else checkDictForNone d)

/-- `prepare_15` (`/repo/pyuff/datasets/dataset_15.py:80-156`). -/
def prepFn15 : Prep where
  num := 15
  checks := [
    ("node_nums", .seq, .type), ("node_nums", .dtype [.int] false, .type),
    ("def_cs", .dtype [.int] false, .type), ("disp_cs", .dtype [.int] false, .type),
    ("color", .dtype [.int] false, .type), ("x", .dtype [.float] false, .type),
    ("y", .dtype [.float] false, .type), ("z", .dtype [.float] false, .type)]
  keys := [
    "node_nums", "def_cs", "disp_cs", "color", "x", "y", "z"]

/-- `prepare_18` (`/repo/pyuff/datasets/dataset_18.py:118-183`). -/
def prepFn18 : Prep where
  num := 18
  checks := []
  keys := [
    "cs_num", "cs_type", "ref_cs_num", "color", "method", "cs_name", "ref_o", "x_point", "xz_point"]

/-- `prepare_55` (`/repo/pyuff/datasets/dataset_55.py:541-748`). -/
def prepFn55 : Prep where
  num := 55
  checks := [
    ("id1", .exact .str false, .type), ("id2", .exact .str false, .type), ("id3", .exact .str false, .type),
    ("id4", .exact .str false, .type), ("id5", .exact .str false, .type),
    ("model_type", .oneOf [0, 1, 2, 3], .value), ("analysis_type", .oneOf [2, 3, 5, 7], .value),
    ("data_ch", .oneOf [0, 1, 2, 3, 4, 5], .value), ("spec_data_type", .arange 0 19, .value),
    ("data_type", .oneOf [2, 5], .value), ("n_data_per_node", .dtype [.int] false, .type),
    ("r1", .dtype [.int, .float, .cplx] false, .type), ("r2", .dtype [.int, .float, .cplx] false, .type),
    ("r3", .dtype [.int, .float, .cplx] false, .type), ("r4", .dtype [.int, .float, .cplx] false, .type),
    ("r5", .dtype [.int, .float, .cplx] false, .type), ("r6", .dtype [.int, .float, .cplx] false, .type),
    ("load_case", .exact .int false, .type), ("mode_n", .exact .int false, .type),
    ("mode_n", .dtype [.int] false, .type), ("freq", .dtype [.float] false, .type),
    ("modal_damp_vis", .exact .float false, .type), ("modal_damp_his", .exact .float false, .type),
    ("eig", .dtype [.int, .float, .cplx] false, .type), ("modal_a", .dtype [.int, .float, .cplx] false, .type),
    ("modal_b", .dtype [.int, .float, .cplx] false, .type), ("freq_step_n", .exact .int false, .type),
    ("node_nums", .dtype [.int] false, .type)]
  keys := [
    "id1", "id2", "id3", "id4", "id5", "model_type", "analysis_type", "data_ch", "spec_data_type", "data_type",
    "n_data_per_node", "r1", "r2", "r3", "r4", "r5", "r6", "load_case", "mode_n", "freq", "modal_m",
    "modal_damp_vis", "modal_damp_his", "eig", "modal_a", "modal_b", "freq_step_n", "node_nums"]

/-- `prepare_58` (`/repo/pyuff/datasets/dataset_58.py:1154-1503`). -/
def prepFn58 : Prep where
  num := 58
  checks := [
    ("binary", .oneOf [0, 1], .value), ("id1", .exact .str false, .type), ("id2", .exact .str false, .type),
    ("id3", .exact .str false, .type), ("id4", .exact .str false, .type), ("id5", .exact .str false, .type),
    ("func_type", .arange 0 28, .value), ("ver_num", .dtype [.int] false, .type),
    ("load_case_id", .dtype [.int] false, .type), ("rsp_ent_name", .exact .str false, .type),
    ("rsp_node", .dtype [.int] false, .type), ("rsp_dir", .arange (-6) 7, .value),
    ("ref_ent_name", .exact .str false, .type), ("ref_node", .dtype [.int] false, .type),
    ("ref_dir", .arange (-6) 7, .value), ("ord_data_type", .oneOf [2, 4, 5, 6], .value),
    ("num_pts", .dtype [.int] false, .type), ("abscissa_spacing", .oneOf [0, 1], .value),
    ("abscissa_min", .dtype [.float] false, .type), ("abscissa_inc", .dtype [.float] false, .type),
    ("z_axis_value", .dtype [.float] false, .type), ("abscissa_spec_data_type", .arange 0 21, .value),
    ("abscissa_len_unit_exp", .dtype [.int] false, .type),
    ("abscissa_force_unit_exp", .dtype [.int] false, .type),
    ("abscissa_temp_unit_exp", .dtype [.int] false, .type),
    ("abscissa_axis_units_lab", .exact .str false, .type), ("ordinate_spec_data_type", .arange 0 21, .value),
    ("ordinate_len_unit_exp", .dtype [.int] false, .type),
    ("ordinate_force_unit_exp", .dtype [.int] false, .type),
    ("ordinate_temp_unit_exp", .dtype [.int] false, .type),
    ("ordinate_axis_units_lab", .exact .str false, .type), ("orddenom_spec_data_type", .arange 0 21, .value),
    ("orddenom_len_unit_exp", .dtype [.int] false, .type),
    ("orddenom_force_unit_exp", .dtype [.int] false, .type),
    ("orddenom_temp_unit_exp", .dtype [.int] false, .type),
    ("orddenom_axis_units_lab", .exact .str false, .type), ("z_axis_spec_data_type", .arange 0 21, .value),
    ("z_axis_len_unit_exp", .dtype [.int] false, .type), ("z_axis_force_unit_exp", .dtype [.int] false, .type),
    ("z_axis_temp_unit_exp", .dtype [.int] false, .type), ("z_axis_axis_units_lab", .exact .str false, .type),
    ("data", .dtype [.float, .cplx] false, .type)]
  keys := [
    "binary", "id1", "id2", "id3", "id4", "id5", "func_type", "ver_num", "load_case_id", "rsp_ent_name",
    "rsp_node", "rsp_dir", "ref_ent_name", "ref_node", "ref_dir", "ord_data_type", "num_pts",
    "abscissa_spacing", "abscissa_min", "abscissa_inc", "z_axis_value", "abscissa_spec_data_type",
    "abscissa_len_unit_exp", "abscissa_force_unit_exp", "abscissa_temp_unit_exp", "abscissa_axis_units_lab",
    "ordinate_spec_data_type", "ordinate_len_unit_exp", "ordinate_force_unit_exp", "ordinate_temp_unit_exp",
    "ordinate_axis_units_lab", "orddenom_spec_data_type", "orddenom_len_unit_exp", "orddenom_force_unit_exp",
    "orddenom_temp_unit_exp", "orddenom_axis_units_lab", "z_axis_spec_data_type", "z_axis_len_unit_exp",
    "z_axis_force_unit_exp", "z_axis_temp_unit_exp", "z_axis_axis_units_lab", "data", "x", "spec_data_type",
    "byte_ordering", "fp_format", "n_ascii_lines", "n_bytes"]

/-- `prepare_82` (`/repo/pyuff/datasets/dataset_82.py:95-161`). -/
def prepFn82 : Prep where
  num := 82
  checks := [
    ("trace_num", .dtype [.int] false, .type), ("n_nodes", .dtype [.int] false, .type),
    ("color", .dtype [.int] false, .type), ("id", .exact .str false, .type),
    ("nodes", .dtype [.int] false, .type)]
  keys := [
    "trace_num", "n_nodes", "color", "id", "nodes"]

/-- `prepare_151` (`/repo/pyuff/datasets/dataset_151.py:100-212`). -/
def prepFn151 : Prep where
  num := 151
  checks := [
    ("model_name", .exact .str false, .type), ("description", .exact .str false, .type),
    ("db_app", .exact .str false, .type), ("date_db_created", .exact .str false, .type),
    ("time_db_created", .exact .str false, .type), ("version_db1", .dtype [.int] false, .type),
    ("version_db2", .dtype [.int] false, .type), ("file_type", .oneOf [0, 1, 2], .value),
    ("date_db_saved", .exact .str false, .type), ("time_db_saved", .exact .str false, .type),
    ("program", .exact .str false, .type), ("date_db_written", .exact .str false, .type),
    ("time_db_written", .exact .str false, .type)]
  keys := [
    "model_name", "description", "db_app", "date_db_created", "time_db_created", "version_db1", "version_db2",
    "file_type", "date_db_saved", "time_db_saved", "program", "date_db_written", "time_db_written"]

/-- `prepare_164` (`/repo/pyuff/datasets/dataset_164.py:86-169`). -/
def prepFn164 : Prep where
  num := 164
  checks := [
    ("units_code", .arange 0 10, .value), ("units_description", .exact .str false, .type),
    ("temp_mode", .oneOf [1, 2], .value), ("length", .exact .float false, .type),
    ("force", .exact .float false, .type), ("temp", .exact .float false, .type),
    ("temp_offset", .exact .float false, .type)]
  keys := [
    "units_code", "units_description", "temp_mode", "length", "force", "temp", "temp_offset"]

/-- `prepare_1858` (`/repo/pyuff/datasets/dataset_1858.py:254-389`). -/
def prepFn1858 : Prep where
  num := 1858
  checks := [
    ("record_num", .dtype [.int] true, .type), ("octave_format", .dtype [.int] true, .type),
    ("measurement_run", .dtype [.int] true, .type), ("weighting_type", .dtype [.int] true, .type),
    ("window_type", .dtype [.int] true, .type), ("amplitude_units", .dtype [.int] true, .type),
    ("normalization_method", .dtype [.int] true, .type),
    ("abscissa_data_type_qualifier", .dtype [.int] true, .type),
    ("ordinate_numerator_data_type_qualifier", .dtype [.int] true, .type),
    ("ordinate_denominator_data_type_qualifier", .dtype [.int] true, .type),
    ("z_axis_data_type_qualifier", .dtype [.int] true, .type), ("sampling_type", .dtype [.int] true, .type),
    ("z_rpm_value", .dtype [.float] true, .type), ("z_time_value", .dtype [.float] true, .type),
    ("z_order_value", .dtype [.float] true, .type), ("num_of_samples", .dtype [.float] true, .type),
    ("user_value_1", .dtype [.float] true, .type), ("user_value_2", .dtype [.float] true, .type),
    ("user_value_3", .dtype [.float] true, .type), ("user_value_4", .dtype [.float] true, .type),
    ("exponential_window_damping_factor", .dtype [.float] true, .type),
    ("response_direction", .exact .str true, .type), ("reference_direction", .exact .str true, .type)]
  keys := [
    "record_num", "octave_format", "measurement_run", "weighting_type", "window_type", "amplitude_units",
    "normalization_method", "abscissa_data_type_qualifier", "ordinate_numerator_data_type_qualifier",
    "ordinate_denominator_data_type_qualifier", "z_axis_data_type_qualifier", "sampling_type", "z_rpm_value",
    "z_time_value", "z_order_value", "num_of_samples", "user_value_1", "user_value_2", "user_value_3",
    "user_value_4", "exponential_window_damping_factor", "response_direction", "reference_direction"]

/-- `prepare_2400` (`/repo/pyuff/datasets/dataset_2400.py:101-209`). -/
def prepFn2400 : Prep where
  num := 2400
  checks := [
    ("model_uid", .dtype [.int] false, .type), ("entity_type", .dtype [.int] false, .type),
    ("entity_subtype", .dtype [.int] false, .type), ("version_number", .dtype [.int] false, .type),
    ("entity_name", .exact .str false, .type), ("part_number", .exact .str false, .type),
    ("status_mask", .mask32, .value), ("date", .exact .str false, .type), ("time", .exact .str false, .type),
    ("idm_version_id", .dtype [.int] false, .type), ("idm_item_id", .dtype [.int] false, .type),
    ("primary_parent_uid", .dtype [.int] false, .type), ("optimization_switches", .dtype [.int] false, .type)]
  keys := [
    "model_uid", "entity_type", "entity_subtype", "version_number", "entity_name", "part_number",
    "status_mask", "date", "time", "idm_version_id", "idm_item_id", "primary_parent_uid",
    "optimization_switches"]

/-- `prepare_2411` (`/repo/pyuff/datasets/dataset_2411.py:73-144`). -/
def prepFn2411 : Prep where
  num := 2411
  checks := [
    ("node_nums", .dtype [.int] false, .type), ("def_cs", .dtype [.int] false, .type),
    ("disp_cs", .dtype [.int] false, .type), ("color", .dtype [.int] false, .type),
    ("x", .dtype [.float] false, .type), ("y", .dtype [.float] false, .type),
    ("z", .dtype [.float] false, .type)]
  keys := [
    "node_nums", "def_cs", "disp_cs", "color", "x", "y", "z"]

/-- `prepare_2412` (`/repo/pyuff/datasets/dataset_2412.py:136-223`). -/
def prepFn2412 : Prep where
  num := 2412
  checks := [
    ("element_nums", .dtype [.int] false, .type), ("fe_descriptor", .dtype [.int] false, .type),
    ("phys_table", .dtype [.int] false, .type), ("mat_table", .dtype [.int] false, .type),
    ("color", .dtype [.int] false, .type), ("num_nodes", .dtype [.int] false, .type),
    ("nodes_nums", .dtype [.int] false, .type), ("beam_orientation", .dtype [.int] false, .type),
    ("beam_foreend_cross", .dtype [.int] false, .type), ("beam_aftend_cross", .dtype [.int] false, .type)]
  keys := [
    "element_nums", "fe_descriptor", "phys_table", "mat_table", "color", "num_nodes", "beam_orientation",
    "beam_foreend_cross", "beam_aftend_cross", "nodes_nums"]

/-- `prepare_2414` (`/repo/pyuff/datasets/dataset_2414.py:854-1142`). -/
def prepFn2414 : Prep where
  num := 2414
  checks := [
    ("analysis_dataset_label", .dtype [.int] false, .type),
    ("analysis_dataset_name", .exact .str false, .type), ("dataset_location", .oneOf [1, 2, 3, 5], .value),
    ("id1", .exact .str false, .type), ("id2", .exact .str false, .type), ("id3", .exact .str false, .type),
    ("id4", .exact .str false, .type), ("id5", .exact .str false, .type),
    ("model_type", .oneOf [0, 1, 2, 3], .value), ("analysis_type", .oneOf [0, 1, 2, 3, 4, 5, 6, 7, 9], .value),
    ("data_characteristic", .oneOf [0, 1, 2, 3, 4, 6], .value), ("result_type", .exact .int false, .type),
    ("data_type", .oneOf [1, 2, 4, 5, 6], .value),
    ("number_of_data_values_for_the_data_component", .dtype [.int] false, .type),
    ("design_set_id", .dtype [.int] false, .type), ("iteration_number", .dtype [.int] false, .type),
    ("solution_set_id", .dtype [.int] false, .type), ("boundary_condition", .dtype [.int] false, .type),
    ("load_set", .dtype [.int] false, .type), ("mode_number", .dtype [.int] false, .type),
    ("time_step_number", .dtype [.int] false, .type), ("frequency_number", .dtype [.int] false, .type),
    ("creation_option", .dtype [.int] false, .type), ("number_retained", .dtype [.int] false, .type),
    ("time", .dtype [.float] false, .type), ("frequency", .dtype [.float] false, .type),
    ("eigenvalue", .dtype [.float] false, .type), ("modal_mass", .dtype [.float] false, .type),
    ("viscous_damping", .dtype [.float] false, .type), ("hysteretic_damping", .dtype [.float] false, .type),
    ("real_part_eigenvalue", .dtype [.float] false, .type),
    ("imaginary_part_eigenvalue", .dtype [.float] false, .type),
    ("real_part_of_modal_A_or_modal_mass", .dtype [.float] false, .type),
    ("imaginary_part_of_modal_A_or_modal_mass", .dtype [.float] false, .type),
    ("real_part_of_modal_B_or_modal_mass", .dtype [.float] false, .type),
    ("imaginary_part_of_modal_B_or_modal_mass", .dtype [.float] false, .type),
    ("node_nums", .dtype [.int] false, .type), ("d", .dtype [.float] false, .type),
    ("x", .dtype [.float, .cplx] false, .type), ("y", .dtype [.float, .cplx] false, .type),
    ("z", .dtype [.float, .cplx] false, .type)]
  keys := [
    "analysis_dataset_label", "analysis_dataset_name", "dataset_location", "id1", "id2", "id3", "id4", "id5",
    "model_type", "analysis_type", "data_characteristic", "result_type", "data_type",
    "number_of_data_values_for_the_data_component", "design_set_id", "iteration_number", "solution_set_id",
    "boundary_condition", "load_set", "mode_number", "time_step_number", "frequency_number", "creation_option",
    "number_retained", "time", "frequency", "eigenvalue", "modal_mass", "viscous_damping",
    "hysteretic_damping", "real_part_eigenvalue", "imaginary_part_eigenvalue",
    "real_part_of_modal_A_or_modal_mass", "imaginary_part_of_modal_A_or_modal_mass",
    "real_part_of_modal_B_or_modal_mass", "imaginary_part_of_modal_B_or_modal_mass", "d", "node_nums", "x",
    "y", "z"]

/-- `prepare_2420` (`/repo/pyuff/datasets/dataset_2420.py:113-204`). -/
def prepFn2420 : Prep where
  num := 2420
  checks := [
    ("Part_UID", .dtype [.int] false, .type), ("Part_Name", .exact .str false, .type),
    ("CS_sys_labels", .dtype [.int] false, .type), ("CS_types", .csTypes, .value),
    ("CS_types", .dtype [.int] false, .value), ("CS_colors", .dtype [.int] false, .type),
    ("CS_names", .names, .type), ("CS_names", .nameItems, .type), ("CS_matrices", .dtype [.float] false, .type)]
  keys := [
    "Part_UID", "Part_Name", "CS_sys_labels", "CS_types", "CS_colors", "CS_names", "CS_matrices"]

/-- `type(v) != int` raising `TypeError` (`/repo/pyuff/datasets/dataset_2429.py:215`). -/
def needInt (v : Val) : Res Int :=
  match v with
  | .int n => .ok n
  | _ => .error .type

/-- `type(v) != str` raising `TypeError` (`/repo/pyuff/datasets/dataset_2429.py:217`). -/
def needStr (v : Val) : Res Text :=
  match v with
  | .str s => .ok s
  | _ => .error .type

/-- `np.array(v).dtype != int` raising `TypeError` (`/repo/pyuff/datasets/dataset_2429.py:219`). -/
def needInts (v : Val) : Res Unit :=
  match npArray v with
  | .error e => .error e
  | .ok (t, _) => if t = .int then .ok () else .error .type

/-- `if n < 0: raise ValueError` (`/repo/pyuff/datasets/dataset_2429.py:236`). -/
def needNonneg (n : Int) : Res Unit := if n < 0 then .error .value else .ok ()

/-- `if s == '': raise ValueError` (`/repo/pyuff/datasets/dataset_2429.py:238`). -/
def needNonempty (s : Text) : Res Unit := if s = [] then .error .value else .ok ()

/-- `prepare_group` of data-set 2429, exported as `pyuff.prepare_group` (`/repo/pyuff/datasets/dataset_2429.py:183-269`).  The temperature and contact keys
hold `active_dof_set_no_for_group` (lines 262-263). -/
def prepareGroup2429 (number name codes tags constraint restraint load dof temperature contact : Val) (full : Bool) : Res Dict := do
  let n ← needInt number
  let nm ← needStr name
  needInts codes
  needInts tags
  let c1 ← needInt constraint
  let c2 ← needInt restraint
  let c3 ← needInt load
  let c4 ← needInt dof
  let c5 ← needInt temperature
  let c6 ← needInt contact
  needNonneg n
  needNonempty nm
  needNonneg c1
  needNonneg c2
  needNonneg c3
  needNonneg c4
  needNonneg c5
  needNonneg c6
  let d : Dict := [("group_number", number), ("group_name", name), ("entity_type_code", codes), ("entity_tag", tags),
    ("active_constraint_set_no_for_group", constraint), ("active_restraint_set_no_for_group", restraint),
    ("active_load_set_no_for_group", load), ("active_dof_set_no_for_group", dof),
    ("active_temperature_set_no_for_group", dof), ("active_contact_set_no_for_group", dof)]
  .ok (if full then d else checkDictForNone d)

/-- `prepare_group` of data-set 2467 (`/repo/pyuff/datasets/dataset_2467.py:154-250`). -/
def prepareGroup2467 (number name codes tags leafs comps constraint restraint load dof temperature contact : Val) (full : Bool) :
    Res Dict := do
  let n ← needInt number
  let nm ← needStr name
  needInts codes
  needInts tags
  needInts leafs
  needInts comps
  let c1 ← needInt constraint
  let c2 ← needInt restraint
  let c3 ← needInt load
  let c4 ← needInt dof
  let c5 ← needInt temperature
  let c6 ← needInt contact
  needNonneg n
  needNonempty nm
  needNonneg c1
  needNonneg c2
  needNonneg c3
  needNonneg c4
  needNonneg c5
  needNonneg c6
  let d : Dict := [("group_number", number), ("group_name", name), ("entity_type_code", codes), ("entity_tag", tags),
    ("entity_node_leaf_id", leafs), ("entity_component_id", comps),
    ("active_constraint_set_no_for_group", constraint), ("active_restraint_set_no_for_group", restraint),
    ("active_load_set_no_for_group", load), ("active_dof_set_no_for_group", dof),
    ("active_temperature_set_no_for_group", dof), ("active_contact_set_no_for_group", dof)]
  .ok (if full then d else checkDictForNone d)

/-- The ten items of a group read by `prepare_2429` and `prepare_2467` (`/repo/pyuff/datasets/dataset_2429.py:300-310`,
`/repo/pyuff/datasets/dataset_2467.py:281-291`), given to `f` in that order. -/
def groupArgs (item : Val) (f : Val → Val → Val → Val → Val → Val → Val → Val → Val → Val → Res Dict) : Res Unit := do
  let a1 ← item.getK "group_number"
  let a2 ← item.getK "group_name"
  let a3 ← item.getK "entity_type_code"
  let a4 ← item.getK "entity_tag"
  let a5 ← item.getK "active_constraint_set_no_for_group"
  let a6 ← item.getK "active_restraint_set_no_for_group"
  let a7 ← item.getK "active_load_set_no_for_group"
  let a8 ← item.getK "active_dof_set_no_for_group"
  let a9 ← item.getK "active_temperature_set_no_for_group"
  let a10 ← item.getK "active_contact_set_no_for_group"
  let _ ← f a1 a2 a3 a4 a5 a6 a7 a8 a9 a10
  .ok ()

/-- `prepare_2429` (`/repo/pyuff/datasets/dataset_2429.py:272-320`).  `groups` is a list, so nothing is `None`. -/
def prepare2429 (groups : Val) (full : Bool) : Res Dict :=
  match groups with
  | .list l => do
    let _ ← mapRes (fun g => groupArgs g fun a1 a2 a3 a4 a5 a6 a7 a8 a9 a10 =>
      prepareGroup2429 a1 a2 a3 a4 a5 a6 a7 a8 a9 a10 false) l
    let d : Dict := [("type", .int 2429), ("groups", groups)]
    .ok (if full then d else checkDictForNone d)
  | _ => .error .type

/-- `prepare_2467` (`/repo/pyuff/datasets/dataset_2467.py:252-300`): the ten items are passed by position to the function with twelve parameters, so
they land two places too early. -/
def prepare2467 (groups : Val) (full : Bool) : Res Dict :=
  match groups with
  | .list l => do
    let _ ← mapRes (fun g => groupArgs g fun a1 a2 a3 a4 a5 a6 a7 a8 a9 a10 =>
      prepareGroup2467 a1 a2 a3 a4 a5 a6 a7 a8 a9 a10 (.int 0) (.int 0) false) l
    let d : Dict := [("type", .int 2467), ("groups", groups)]
    .ok (if full then d else checkDictForNone d)
  | _ => .error .type

/-- `nodes_nums[j][m]` (`/repo/pyuff/tools.py:138`); only integers that fit 64 bits are modelled. -/
def quadNode (row : Val) (m : Nat) : Res Int :=
  match row.idx m with
  | .error e => .error e
  | .ok (.int n) => if -(2 ^ 63) ≤ n ∧ n < 2 ^ 63 then .ok n else .error .unmodelled
  | .ok _ => .error .unmodelled

/-- The twelve `append`s for one element (`/repo/pyuff/tools.py:138-149`). -/
def quadLoop (row : Val) : Res (List Int) := do
  let a ← quadNode row 0
  let b ← quadNode row 1
  let b' ← quadNode row 1
  let c ← quadNode row 2
  let c' ← quadNode row 2
  let d ← quadNode row 3
  let d' ← quadNode row 3
  let a' ← quadNode row 0
  .ok [a, b, 0, b', c, 0, c', d, 0, d', a', 0]

/-- The loop of `convert_dataset_2412_to_82` (`/repo/pyuff/tools.py:130-161`).  `nodes` is the list shared by the rounds; `frozen` tells that it has
become a numpy array, which has no method `append` (line 150); `i` is the index of the data-set. -/
def convertLoop : Nat → List Int → Bool → List Dict → Res (List Dict)
  | _, _, _, [] => .ok []
  | i, nodes, frozen, d :: ds => do
    let t ← d.get "type"
    if eqInt t 2412 ∧ d.has "quad" then
      let rows ← ((← (← d.get "quad").getK "nodes_nums").items)
      if frozen ∧ rows ≠ [] then .error .attr
      else
        let new ← mapRes quadLoop rows
        let nodes := nodes ++ new.flatten
        -- an empty array has dtype float and the truth of `array != None` is not modelled
        let r ← prepFn82.run (fun k => if k = "trace_num" then .int i else if k = "n_nodes" then .int nodes.length
          else if k = "nodes" then (if nodes = [] then .arrF [] else .arrI nodes)
          else if k = "color" then .int 0 else if k = "id" then .str [] else .none) true
        let rest ← convertLoop (i + 1) nodes true ds
        .ok (r :: rest)
    else convertLoop (i + 1) nodes frozen ds

/-- `convert_dataset_2412_to_82(datasets)` (`/repo/pyuff/tools.py:130-161`). -/
def convert2412to82 (ds : List Dict) : Res (List Dict) := convertLoop 0 [] false ds

end Verif
