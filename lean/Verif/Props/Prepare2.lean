import Verif.Props.Prepare
/-
The functions that prepare dictionaries: what they refuse (part of property C14).
-/
namespace Verif

/-- What an argument has to be. -/
inductive Kind where
  /-- An integer, or a sequence of integers. -/
  | int
  /-- A real number, or a sequence of them. -/
  | float
  /-- A number, real or complex, or a sequence of them. -/
  | num
  /-- A string. -/
  | str
  /-- One of these numbers. -/
  | choice (ns : List Int)
  /-- An integer from `a` on, less than `b`. -/
  | range (a b : Int)

/-- The parameters whose type or range is checked, and what their arguments have to be: the checks at the head of the functions in
`/repo/pyuff/datasets/`, read as a description of the parameters. -/
def typed : List (Prep × List (String × Kind)) := [
  (prepFn15, [
    ("node_nums", .int), ("def_cs", .int), ("disp_cs", .int), ("color", .int), ("x", .float), ("y", .float), ("z", .float)]),
  (prepFn55, [
    ("id1", .str), ("id2", .str), ("id3", .str), ("id4", .str), ("id5", .str), ("model_type", .choice [0, 1, 2, 3]),
    ("analysis_type", .choice [2, 3, 5, 7]), ("data_ch", .choice [0, 1, 2, 3, 4, 5]), ("spec_data_type", .range 0 19),
    ("data_type", .choice [2, 5]), ("n_data_per_node", .int), ("r1", .num), ("r2", .num), ("r3", .num), ("r4", .num),
    ("r5", .num), ("r6", .num), ("load_case", .int), ("mode_n", .int), ("freq", .float), ("modal_damp_vis", .float),
    ("modal_damp_his", .float), ("eig", .num), ("modal_a", .num), ("modal_b", .num), ("freq_step_n", .int),
    ("node_nums", .int)]),
  (prepFn58, [
    ("binary", .choice [0, 1]), ("id1", .str), ("id2", .str), ("id3", .str), ("id4", .str), ("id5", .str),
    ("func_type", .range 0 28), ("ver_num", .int), ("load_case_id", .int), ("rsp_ent_name", .str), ("rsp_node", .int),
    ("rsp_dir", .range (-6) 7), ("ref_ent_name", .str), ("ref_node", .int), ("ref_dir", .range (-6) 7),
    ("ord_data_type", .choice [2, 4, 5, 6]), ("num_pts", .int), ("abscissa_spacing", .choice [0, 1]),
    ("abscissa_min", .float), ("abscissa_inc", .float), ("z_axis_value", .float), ("abscissa_spec_data_type", .range 0 21),
    ("abscissa_len_unit_exp", .int), ("abscissa_force_unit_exp", .int), ("abscissa_temp_unit_exp", .int),
    ("abscissa_axis_units_lab", .str), ("ordinate_spec_data_type", .range 0 21), ("ordinate_len_unit_exp", .int),
    ("ordinate_force_unit_exp", .int), ("ordinate_temp_unit_exp", .int), ("ordinate_axis_units_lab", .str),
    ("orddenom_spec_data_type", .range 0 21), ("orddenom_len_unit_exp", .int), ("orddenom_force_unit_exp", .int),
    ("orddenom_temp_unit_exp", .int), ("orddenom_axis_units_lab", .str), ("z_axis_spec_data_type", .range 0 21),
    ("z_axis_len_unit_exp", .int), ("z_axis_force_unit_exp", .int), ("z_axis_temp_unit_exp", .int),
    ("z_axis_axis_units_lab", .str), ("data", .num)]),
  (prepFn82, [
    ("trace_num", .int), ("n_nodes", .int), ("color", .int), ("id", .str), ("nodes", .int)]),
  (prepFn151, [
    ("model_name", .str), ("description", .str), ("db_app", .str), ("date_db_created", .str), ("time_db_created", .str),
    ("version_db1", .int), ("version_db2", .int), ("file_type", .choice [0, 1, 2]), ("date_db_saved", .str),
    ("time_db_saved", .str), ("program", .str), ("date_db_written", .str), ("time_db_written", .str)]),
  (prepFn164, [
    ("units_code", .range 0 10), ("units_description", .str), ("temp_mode", .choice [1, 2]), ("length", .float),
    ("force", .float), ("temp", .float), ("temp_offset", .float)]),
  (prepFn1858, [
    ("record_num", .int), ("octave_format", .int), ("measurement_run", .int), ("weighting_type", .int),
    ("window_type", .int), ("amplitude_units", .int), ("normalization_method", .int),
    ("abscissa_data_type_qualifier", .int), ("ordinate_numerator_data_type_qualifier", .int),
    ("ordinate_denominator_data_type_qualifier", .int), ("z_axis_data_type_qualifier", .int), ("sampling_type", .int),
    ("z_rpm_value", .float), ("z_time_value", .float), ("z_order_value", .float), ("num_of_samples", .float),
    ("user_value_1", .float), ("user_value_2", .float), ("user_value_3", .float), ("user_value_4", .float),
    ("exponential_window_damping_factor", .float), ("response_direction", .str), ("reference_direction", .str)]),
  (prepFn2400, [
    ("model_uid", .int), ("entity_type", .int), ("entity_subtype", .int), ("version_number", .int), ("entity_name", .str),
    ("part_number", .str), ("date", .str), ("time", .str), ("idm_version_id", .int), ("idm_item_id", .int),
    ("primary_parent_uid", .int), ("optimization_switches", .int)]),
  (prepFn2411, [
    ("node_nums", .int), ("def_cs", .int), ("disp_cs", .int), ("color", .int), ("x", .float), ("y", .float), ("z", .float)]),
  (prepFn2412, [
    ("element_nums", .int), ("fe_descriptor", .int), ("phys_table", .int), ("mat_table", .int), ("color", .int),
    ("num_nodes", .int), ("nodes_nums", .int), ("beam_orientation", .int), ("beam_foreend_cross", .int),
    ("beam_aftend_cross", .int)]),
  (prepFn2414, [
    ("analysis_dataset_label", .int), ("analysis_dataset_name", .str), ("dataset_location", .choice [1, 2, 3, 5]),
    ("id1", .str), ("id2", .str), ("id3", .str), ("id4", .str), ("id5", .str), ("model_type", .choice [0, 1, 2, 3]),
    ("analysis_type", .choice [0, 1, 2, 3, 4, 5, 6, 7, 9]), ("data_characteristic", .choice [0, 1, 2, 3, 4, 6]),
    ("result_type", .int), ("data_type", .choice [1, 2, 4, 5, 6]), ("number_of_data_values_for_the_data_component", .int),
    ("design_set_id", .int), ("iteration_number", .int), ("solution_set_id", .int), ("boundary_condition", .int),
    ("load_set", .int), ("mode_number", .int), ("time_step_number", .int), ("frequency_number", .int),
    ("creation_option", .int), ("number_retained", .int), ("time", .float), ("frequency", .float), ("eigenvalue", .float),
    ("modal_mass", .float), ("viscous_damping", .float), ("hysteretic_damping", .float), ("real_part_eigenvalue", .float),
    ("imaginary_part_eigenvalue", .float), ("real_part_of_modal_A_or_modal_mass", .float),
    ("imaginary_part_of_modal_A_or_modal_mass", .float), ("real_part_of_modal_B_or_modal_mass", .float),
    ("imaginary_part_of_modal_B_or_modal_mass", .float), ("node_nums", .int), ("d", .float), ("x", .num), ("y", .num),
    ("z", .num)]),
  (prepFn2420, [
    ("Part_UID", .int), ("Part_Name", .str), ("CS_sys_labels", .int), ("CS_types", .int), ("CS_colors", .int),
    ("CS_matrices", .float)])]

/-- Arguments of a wrong type, or out of range. -/
inductive Wrong : Kind → Val → Prop
  | intStr {s} : Wrong .int (.str s)
  | intFloat {x} : Wrong .int (.float x)
  | intBool {b} : Wrong .int (.bool b)
  | intCplx {x y} : Wrong .int (.cplx x y)
  | intFloats {l} : l ≠ [] → Wrong .int (.arrF l)
  | intList {l : List F64} : l ≠ [] → Wrong .int (.list (l.map .float))
  | floatStr {s} : Wrong .float (.str s)
  | floatInt {n : Int} : -(2 ^ 63) ≤ n → n < 2 ^ 63 → Wrong .float (.int n)
  | floatBool {b} : Wrong .float (.bool b)
  | floatCplx {x y} : Wrong .float (.cplx x y)
  | floatInts {l} : l ≠ [] → Wrong .float (.arrI l)
  | floatList {l : List Int} : l ≠ [] → (∀ n ∈ l, -(2 ^ 63) ≤ n ∧ n < 2 ^ 63) → Wrong .float (.list (l.map .int))
  | numStr {s} : Wrong .num (.str s)
  | numBool {b} : Wrong .num (.bool b)
  | strInt {n} : Wrong .str (.int n)
  | strFloat {x} : Wrong .str (.float x)
  | strBool {b} : Wrong .str (.bool b)
  | strList {l} : Wrong .str (.list l)
  | choiceInt {n ns} : n ∉ ns → Wrong (.choice ns) (.int n)
  | choiceStr {s ns} : Wrong (.choice ns) (.str s)
  | rangeInt {n a b : Int} : n < a ∨ b ≤ n → Wrong (.range a b) (.int n)
  | rangeStr {s a b} : Wrong (.range a b) (.str s)

/-- The check looks for arguments of this kind. -/
def covers : Check → Kind → Bool
  | .dtype ts _, .int => ts == [.int]
  | .exact .int _, .int => true
  | .dtype ts _, .float => ts == [.float]
  | .exact .float _, .float => true
  | .dtype ts _, .num => ts == [.int, .float, .cplx] || ts == [.float, .cplx]
  | .exact .str _, .str => true
  | .oneOf ns, .choice ms => ns == ms
  | .arange a b, .range c d => a == c && b == d
  | _, _ => false

theorem reject_error {is : Bool} {e : Err} {v : Val} (hv : v ≠ .none) (hr : neNone v ≠ .ok false) :
    ∃ x, rejectUnless false is e v = .error x := by
  unfold rejectUnless
  simp only [Bool.false_eq_true, if_false, if_neg hv]
  cases is with
  | true => exact ⟨e, rfl⟩
  | false =>
    simp only [Bool.false_eq_true, if_false]
    rcases h : neNone v with x | b
    · exact ⟨x, rfl⟩
    · cases b with
      | true => exact ⟨e, rfl⟩
      | false => exact absurd h hr

theorem npItems_someFloats {l : List F64} (h : l ≠ []) : npItems (l.map .float) = .ok (some (.float, [])) := by
  induction l with
  | nil => exact absurd rfl h
  | cons x l ih =>
    cases l with
    | nil => simp [npItems, npArray]
    | cons y l =>
      have := ih (by simp)
      rw [List.map_cons, npItems, this]
      simp [npArray, DT.join]

theorem npItems_someInts {l : List Int} (h : l ≠ []) (hr : ∀ n ∈ l, -(2 ^ 63) ≤ n ∧ n < 2 ^ 63) :
    npItems (l.map .int) = .ok (some (.int, [])) := by
  induction l with
  | nil => exact absurd rfl h
  | cons x l ih =>
    have hx := hr x (by simp)
    cases l with
    | nil => simp only [List.map_cons, List.map_nil, npItems, npArray, if_pos hx]
    | cons y l =>
      have := ih (by simp) (fun n hn => hr n (List.mem_cons_of_mem _ hn))
      rw [List.map_cons, npItems, this]
      simp only [npArray, if_pos hx, if_true, DT.join]

/-- The type of a wrong argument. -/
theorem wrong_dtype {k : Kind} {v : Val} (hw : Wrong k v) (ts : List DT)
    (hk : (k = .int ∧ ts = [.int]) ∨ (k = .float ∧ ts = [.float]) ∨
      (k = .num ∧ (ts = [.int, .float, .cplx] ∨ ts = [.float, .cplx]))) :
    ∃ t s, npArray v = .ok (t, s) ∧ decide (t ∈ ts) = false := by
  rcases hk with ⟨rfl, rfl⟩ | ⟨rfl, rfl⟩ | ⟨rfl, rfl | rfl⟩ <;> cases hw
  case inl.intList l h => exact ⟨.float, _, by rw [npArray, npItems_someFloats h], rfl⟩
  case inr.inl.floatInt n h1 h2 => exact ⟨.int, _, by rw [npArray, if_pos ⟨h1, h2⟩], rfl⟩
  case inr.inl.floatList l h h' => exact ⟨.int, _, by rw [npArray, npItems_someInts h h'], rfl⟩
  all_goals exact ⟨_, _, by rw [npArray], rfl⟩

theorem covers_refuses {c : Check} {k : Kind} (hc : covers c k = true) {v : Val} (hw : Wrong k v) (e : Err) :
    ∃ x, c.run e v = .error x := by
  have hv : v ≠ .none := by cases hw <;> simp
  have hr : neNone v ≠ .ok false := by
    cases hw <;> simp only [neNone, ne_eq] <;> try (intro h; cases h; done)
    all_goals
      unfold neNoneArr
      intro h
      split at h
      · cases h
      · split at h <;> cases h
  have hd : ∀ ts is, ((k = .int ∧ ts = [.int]) ∨ (k = .float ∧ ts = [.float]) ∨
      (k = .num ∧ (ts = [.int, .float, .cplx] ∨ ts = [.float, .cplx]))) → ∃ x, (Check.dtype ts is).run e v = .error x := by
    intro ts is hk
    obtain ⟨t, s, h1, h2⟩ := wrong_dtype hw ts hk
    rw [Check.run, h1]
    simp only [h2]
    exact reject_error hv hr
  cases k with
  | int =>
    cases c with
    | dtype ts is => exact hd ts is (by simpa [covers] using hc)
    | exact t is =>
      cases t <;> simp only [covers, Bool.false_eq_true] at hc
      have : PTy.is .int v = false := by cases hw <;> rfl
      rw [Check.run, this]
      exact reject_error hv hr
    | _ => simp [covers] at hc
  | float =>
    cases c with
    | dtype ts is => exact hd ts is (by simpa [covers] using hc)
    | exact t is =>
      cases t <;> simp only [covers, Bool.false_eq_true] at hc
      have : PTy.is .float v = false := by cases hw <;> rfl
      rw [Check.run, this]
      exact reject_error hv hr
    | _ => simp [covers] at hc
  | num =>
    cases c with
    | dtype ts is => exact hd ts is (by simpa [covers] using hc)
    | _ => simp [covers] at hc
  | str =>
    cases c with
    | exact t is =>
      cases t <;> simp only [covers, Bool.false_eq_true] at hc
      have : PTy.is .str v = false := by cases hw <;> rfl
      rw [Check.run, this]
      exact reject_error hv hr
    | _ => simp [covers] at hc
  | choice ms =>
    cases c with
    | oneOf ns =>
      have hn : ns = ms := by simpa [covers] using hc
      subst hn
      cases hw with
      | choiceInt h => exact ⟨e, by simp [Check.run, isArr, eqInt]; exact h⟩
      | choiceStr => exact ⟨e, by simp [Check.run, isArr, eqInt]⟩
    | _ => simp [covers] at hc
  | range a b =>
    cases c with
    | arange a' b' =>
      have hn : a' = a ∧ b' = b := by simpa [covers] using hc
      obtain ⟨rfl, rfl⟩ := hn
      have : ((List.range (b' - a').toNat).any fun i => eqInt v (a' + i)) = false := by
        cases hw with
        | rangeInt h =>
          rw [List.any_eq_false]
          intro i hi
          have := List.mem_range.1 hi
          simp only [eqInt, decide_eq_true_eq]
          omega
        | rangeStr => simp [eqInt]
      have h2 : (Check.arange a' b').run e v =
          rejectUnless ((List.range (b' - a').toNat).any fun i => eqInt v (a' + i)) false e v := by
        cases hw <;> simp [Check.run, isArr]
      rw [h2, this]
      exact reject_error hv hr
    | _ => simp [covers] at hc

theorem typed_covered : ∀ x ∈ typed, ∀ y ∈ x.2, ∃ c ∈ x.1.checks, c.1 = y.1 ∧ covers c.2.1 y.2 = true := by decide +kernel

theorem runChecks_error {a : String → Val} {l : List (String × Check × Err)} {c : String × Check × Err} (hc : c ∈ l)
    (h : ∃ x, c.2.1.run c.2.2 (a c.1) = .error x) : ∃ x, runChecks a l = .error x := by
  induction l with
  | nil => cases hc
  | cons b l ih =>
    obtain ⟨k, ch, e⟩ := b
    rw [runChecks]
    rcases List.mem_cons.1 hc with rfl | hc
    · obtain ⟨x, hx⟩ := h
      simp only at hx
      rw [hx]
      exact ⟨x, rfl⟩
    · cases ch.run e (a k) with
      | error x => exact ⟨x, rfl⟩
      | ok _ => exact ih hc

/-- A `prepare_*` function raises when an argument it checks has a wrong type or is out of range, whatever the other arguments
are. -/
theorem C14_prepare_refuses (p : Prep) (ks : List (String × Kind)) (hp : (p, ks) ∈ typed) (k : String) (kind : Kind)
    (hk : (k, kind) ∈ ks) (a : String → Val) (hw : Wrong kind (a k)) (full : Bool) : ∃ e, p.run a full = .error e := by
  obtain ⟨c, hc, h1, h2⟩ := typed_covered _ hp _ hk
  obtain ⟨x, hx⟩ := runChecks_error (a := a) hc (covers_refuses h2 (by rw [h1]; exact hw) _)
  unfold Prep.run
  rw [hx]
  exact ⟨x, rfl⟩

/-- A real number where node numbers are expected, and a node number where coordinates are. -/
example : (∃ ks, (prepFn15, ks) ∈ typed ∧ ("node_nums", Kind.int) ∈ ks ∧ ("x", Kind.float) ∈ ks) ∧
    Wrong .int (.float fA) ∧ Wrong .float (.arrI [1, 2]) ∧ Wrong (.choice [2, 4, 5, 6]) (.int 3) :=
  ⟨⟨_, List.mem_cons_self .., by simp, by simp⟩, .intFloat, .floatInts (by simp), .choiceInt (by decide)⟩

end Verif
