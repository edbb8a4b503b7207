import Verif.Model.Prepare
import Verif.Props.RoundTrip
/-
The functions that prepare dictionaries: part of property C14, and C38, C39.
-/
namespace Verif

/-! ### C14: what `prepare_*` returns -/

/-- The functions with their data-set numbers and the parameters their documentation lists. -/
def prepared : List (Prep × Nat × List String) := [
  (prepFn15, 15, [
    "node_nums", "def_cs", "disp_cs", "color", "x", "y", "z"]),
  (prepFn18, 18, [
    "cs_num", "cs_type", "ref_cs_num", "color", "method", "cs_name", "ref_o", "x_point", "xz_point"]),
  (prepFn55, 55, [
    "id1", "id2", "id3", "id4", "id5", "model_type", "analysis_type", "data_ch", "spec_data_type", "data_type",
    "n_data_per_node", "r1", "r2", "r3", "r4", "r5", "r6", "load_case", "mode_n", "freq", "modal_m",
    "modal_damp_vis", "modal_damp_his", "eig", "modal_a", "modal_b", "freq_step_n", "node_nums"]),
  (prepFn58, 58, [
    "binary", "id1", "id2", "id3", "id4", "id5", "func_type", "ver_num", "load_case_id", "rsp_ent_name",
    "rsp_node", "rsp_dir", "ref_ent_name", "ref_node", "ref_dir", "ord_data_type", "num_pts",
    "abscissa_spacing", "abscissa_min", "abscissa_inc", "z_axis_value", "abscissa_spec_data_type",
    "abscissa_len_unit_exp", "abscissa_force_unit_exp", "abscissa_temp_unit_exp", "abscissa_axis_units_lab",
    "ordinate_spec_data_type", "ordinate_len_unit_exp", "ordinate_force_unit_exp", "ordinate_temp_unit_exp",
    "ordinate_axis_units_lab", "orddenom_spec_data_type", "orddenom_len_unit_exp", "orddenom_force_unit_exp",
    "orddenom_temp_unit_exp", "orddenom_axis_units_lab", "z_axis_spec_data_type", "z_axis_len_unit_exp",
    "z_axis_force_unit_exp", "z_axis_temp_unit_exp", "z_axis_axis_units_lab", "data", "x", "spec_data_type",
    "byte_ordering", "fp_format", "n_ascii_lines", "n_bytes"]),
  (prepFn82, 82, [
    "trace_num", "n_nodes", "color", "id", "nodes"]),
  (prepFn151, 151, [
    "model_name", "description", "db_app", "date_db_created", "time_db_created", "version_db1", "version_db2",
    "file_type", "date_db_saved", "time_db_saved", "program", "date_db_written", "time_db_written"]),
  (prepFn164, 164, [
    "units_code", "units_description", "temp_mode", "length", "force", "temp", "temp_offset"]),
  (prepFn1858, 1858, [
    "record_num", "octave_format", "measurement_run", "weighting_type", "window_type", "amplitude_units",
    "normalization_method", "abscissa_data_type_qualifier", "ordinate_numerator_data_type_qualifier",
    "ordinate_denominator_data_type_qualifier", "z_axis_data_type_qualifier", "sampling_type", "z_rpm_value",
    "z_time_value", "z_order_value", "num_of_samples", "user_value_1", "user_value_2", "user_value_3",
    "user_value_4", "exponential_window_damping_factor", "response_direction", "reference_direction"]),
  (prepFn2400, 2400, [
    "model_uid", "entity_type", "entity_subtype", "version_number", "entity_name", "part_number",
    "status_mask", "date", "time", "idm_version_id", "idm_item_id", "primary_parent_uid",
    "optimization_switches"]),
  (prepFn2411, 2411, [
    "node_nums", "def_cs", "disp_cs", "color", "x", "y", "z"]),
  (prepFn2412, 2412, [
    "element_nums", "fe_descriptor", "phys_table", "mat_table", "color", "num_nodes", "nodes_nums",
    "beam_orientation", "beam_foreend_cross", "beam_aftend_cross"]),
  (prepFn2414, 2414, [
    "analysis_dataset_label", "analysis_dataset_name", "dataset_location", "id1", "id2", "id3", "id4", "id5",
    "model_type", "analysis_type", "data_characteristic", "result_type", "data_type",
    "number_of_data_values_for_the_data_component", "design_set_id", "iteration_number", "solution_set_id",
    "boundary_condition", "load_set", "mode_number", "time_step_number", "frequency_number", "creation_option",
    "number_retained", "time", "frequency", "eigenvalue", "modal_mass", "viscous_damping",
    "hysteretic_damping", "real_part_eigenvalue", "imaginary_part_eigenvalue",
    "real_part_of_modal_A_or_modal_mass", "imaginary_part_of_modal_A_or_modal_mass",
    "real_part_of_modal_B_or_modal_mass", "imaginary_part_of_modal_B_or_modal_mass", "node_nums", "d", "x",
    "y", "z"]),
  (prepFn2420, 2420, [
    "Part_UID", "Part_Name", "CS_sys_labels", "CS_types", "CS_colors", "CS_names", "CS_matrices"])]

theorem prepared_keys : ∀ x ∈ prepared, x.1.num = x.2.1 ∧ x.1.keys.Nodup ∧ x.2.2.Nodup ∧ "type" ∉ x.2.2 ∧
    (∀ k ∈ x.1.keys, k ∈ x.2.2) ∧ (∀ k ∈ x.2.2, k ∈ x.1.keys) := by decide +kernel

/-- The dictionary holds the type and every documented parameter that is given, under its own name, and nothing else. -/
theorem C14_prepare (p : Prep) (n : Nat) (doc : List String) (hp : (p, n, doc) ∈ prepared) (a : String → Val) (d : Dict)
    (h : p.run a false = .ok d) :
    (d.map Prod.fst).Nodup ∧ ∀ k v, (k, v) ∈ d ↔
      (k = .s "type" ∧ v = .int n) ∨ ∃ s ∈ doc, k = .s s ∧ v = a s ∧ v ≠ .none := by
  obtain ⟨h1, h2, -, h4, h5, h6⟩ := prepared_keys _ hp
  simp only at h1 h2 h4 h5 h6
  unfold Prep.run at h
  split at h
  · cases h
  simp only [Bool.false_eq_true, if_false, Except.ok.injEq] at h
  subst h
  constructor
  · have : (((("type" : String) : Key), Val.int p.num) :: p.keys.map fun k => ((.s k : Key), a k)).map Prod.fst =
        ("type" :: p.keys).map Key.s := by simp
    refine List.Nodup.sublist (List.Sublist.map _ (List.filter_sublist)) ?_
    rw [this]
    exact List.pairwise_map.2 ((List.nodup_cons.2 ⟨fun hm => h4 (h5 _ hm), h2⟩ : ("type" :: p.keys).Nodup).imp
      fun hne h => hne (by injection h))
  · intro k v
    simp only [checkDictForNone, List.mem_filter, List.mem_cons, List.mem_map, Prod.mk.injEq, decide_eq_true_eq, ← h1]
    constructor
    · rintro ⟨⟨rfl, rfl⟩ | ⟨s, hs, rfl, rfl⟩, hv⟩
      · exact .inl ⟨rfl, rfl⟩
      · exact .inr ⟨s, h5 s hs, rfl, rfl, hv⟩
    · rintro (⟨rfl, rfl⟩ | ⟨s, hs, rfl, rfl, hv⟩)
      · exact ⟨.inl ⟨rfl, rfl⟩, by simp⟩
      · exact ⟨.inr ⟨s, h6 s hs, rfl, rfl⟩, hv⟩

/-- With `return_full_dict` every documented parameter is there, `None` when not given. -/
theorem C14_prepare_full (p : Prep) (n : Nat) (doc : List String) (hp : (p, n, doc) ∈ prepared) (a : String → Val) (d : Dict)
    (h : p.run a true = .ok d) :
    (d.map Prod.fst).Nodup ∧ ∀ k v, (k, v) ∈ d ↔ (k = .s "type" ∧ v = .int n) ∨ ∃ s ∈ doc, k = .s s ∧ v = a s := by
  obtain ⟨h1, h2, -, h4, h5, h6⟩ := prepared_keys _ hp
  simp only at h1 h2 h4 h5 h6
  unfold Prep.run at h
  split at h
  · cases h
  simp only [if_true, Except.ok.injEq] at h
  subst h
  constructor
  · have : (((("type" : String) : Key), Val.int p.num) :: p.keys.map fun k => ((.s k : Key), a k)).map Prod.fst =
        ("type" :: p.keys).map Key.s := by simp
    rw [this]
    exact List.pairwise_map.2 ((List.nodup_cons.2 ⟨fun hm => h4 (h5 _ hm), h2⟩ : ("type" :: p.keys).Nodup).imp
      fun hne h => hne (by injection h))
  · intro k v
    simp only [List.mem_cons, List.mem_map, Prod.mk.injEq, ← h1]
    constructor
    · rintro (⟨rfl, rfl⟩ | ⟨s, hs, rfl, rfl⟩)
      · exact .inl ⟨rfl, rfl⟩
      · exact .inr ⟨s, h5 s hs, rfl, rfl⟩
    · rintro (⟨rfl, rfl⟩ | ⟨s, hs, rfl, rfl⟩)
      · exact .inl ⟨rfl, rfl⟩
      · exact .inr ⟨s, h6 s hs, rfl, rfl⟩

/-! What is accepted. -/

/-- Arguments every check lets pass. -/
inductive Plain : Check → Val → Prop
  | none c : Plain c .none
  | int {n : Int} {is} : -(2 ^ 63) ≤ n → n < 2 ^ 63 → Plain (.dtype [.int] is) (.int n)
  | ints {l : List Int} {is} : Plain (.dtype [.int] is) (.arrI l)
  | intl {l : List Int} {is} : l ≠ [] → (∀ n ∈ l, -(2 ^ 63) ≤ n ∧ n < 2 ^ 63) → Plain (.dtype [.int] is) (.list (l.map .int))
  | float {x ts is} : DT.float ∈ ts → Plain (.dtype ts is) (.float x)
  | floats {l ts is} : DT.float ∈ ts → Plain (.dtype ts is) (.arrF l)
  | floatl {l : List F64} {ts is} : DT.float ∈ ts → Plain (.dtype ts is) (.list (l.map .float))
  | mat {l ts is} : DT.float ∈ ts → Plain (.dtype ts is) (.mat l)
  | cplx {x y ts is} : DT.cplx ∈ ts → Plain (.dtype ts is) (.cplx x y)
  | cplxs {l ts is} : DT.cplx ∈ ts → Plain (.dtype ts is) (.arrC l)
  | str {s is} : Plain (.exact .str is) (.str s)
  | int' {n is} : Plain (.exact .int is) (.int n)
  | float' {x is} : Plain (.exact .float is) (.float x)
  | choice {n ns} : n ∈ ns → Plain (.oneOf ns) (.int n)
  | range {n a b : Int} : a ≤ n → n < b → Plain (.arange a b) (.int n)
  | seqA {l} : Plain .seq (.arrI l)
  | seqL {l} : Plain .seq (.list l)
  | mask {l : List Val} : l.length = 32 → Plain .mask32 (.list l)
  | cs {l : List Int} : (∀ n ∈ l, n = 0 ∨ n = 1 ∨ n = 2) → Plain .csTypes (.list (l.map .int))
  | csA {l : List Int} : (∀ n ∈ l, n = 0 ∨ n = 1 ∨ n = 2) → Plain .csTypes (.arrI l)
  | csS {n : Int} : Plain .csTypes (.int n)
  | namesL {l} : Plain .names (.list l)
  | namesS {s} : Plain .names (.str s)
  | itemsL {l : List Text} : Plain .nameItems (.list (l.map .str))
  | itemsS {s} : Plain .nameItems (.str s)

theorem npItems_ints (l : List Int) (h : ∀ n ∈ l, -(2 ^ 63) ≤ n ∧ n < 2 ^ 63) :
    npItems (l.map .int) = .ok (if l = [] then none else some (.int, [])) := by
  induction l with
  | nil => simp [npItems]
  | cons a l ih =>
    rw [List.map_cons, npItems, ih (fun n hn => h n (List.mem_cons_of_mem _ hn)), npArray, if_pos (h a (List.mem_cons_self ..))]
    by_cases hl : l = []
    · simp [hl]
    · simp [hl, DT.join]

theorem npItems_floats (l : List F64) : npItems (l.map .float) = .ok (if l = [] then none else some (.float, [])) := by
  induction l with
  | nil => simp [npItems]
  | cons a l ih =>
    rw [List.map_cons, npItems, ih, npArray]
    by_cases hl : l = []
    · simp [hl]
    · simp [hl, DT.join]

theorem plain_run {c : Check} {v : Val} (h : Plain c v) (e : Err) : c.run e v = .ok () := by
  cases h with
  | none c =>
    cases c with
    | dtype ts is => cases is <;> simp [Check.run, npArray, rejectUnless, neNone]
    | exact t is => cases is <;> simp [Check.run, rejectUnless, neNone]
    | oneOf ns => simp [Check.run, isArr]
    | arange a b => simp [Check.run, isArr, rejectUnless, neNone]
    | seq => simp [Check.run, rejectUnless, neNone]
    | mask32 => simp [Check.run, neNone]
    | csTypes => simp [Check.run, isArr]
    | names => simp [Check.run, rejectUnless, neNone]
    | nameItems => simp [Check.run, isArr]
  | int h1 h2 => simp only [Check.run, npArray, if_pos (And.intro h1 h2)]; simp [rejectUnless]
  | ints => simp [Check.run, npArray, rejectUnless]
  | intl h1 h2 => simp [Check.run, npArray, npItems_ints _ h2, h1, rejectUnless]
  | float h => simp [Check.run, npArray, rejectUnless, h]
  | floats h => simp [Check.run, npArray, rejectUnless, h]
  | @floatl l _ _ h =>
    by_cases hl : l = []
    · simp [Check.run, npArray, rejectUnless, h, hl, npItems]
    · simp [Check.run, npArray, npItems_floats, rejectUnless, h, hl]
  | mat h => simp [Check.run, npArray, rejectUnless, h]
  | cplx h => simp [Check.run, npArray, rejectUnless, h]
  | cplxs h => simp [Check.run, npArray, rejectUnless, h]
  | str => simp [Check.run, rejectUnless, PTy.is]
  | int' => simp [Check.run, rejectUnless, PTy.is]
  | float' => simp [Check.run, rejectUnless, PTy.is]
  | @choice n ns h =>
    have : ns.any (eqInt (.int n)) = true := List.any_eq_true.2 ⟨n, h, by simp [eqInt]⟩
    simp [Check.run, isArr, this]
  | @range n a b h1 h2 =>
    have : ((List.range (b - a).toNat).any fun i => eqInt (.int n) (a + i)) = true :=
      List.any_eq_true.2 ⟨(n - a).toNat, List.mem_range.2 (by omega), by simp [eqInt]; omega⟩
    simp [Check.run, isArr, this, rejectUnless]
  | seqA => simp [Check.run, rejectUnless, isArr]
  | seqL => simp [Check.run, rejectUnless]
  | mask h => simp [Check.run, neNone, Val.len, h]
  | cs h =>
    simp only [Check.run, Val.items]
    rw [if_pos (by simp)]
    simp [isArr, eqInt]
    intro n hn h0 h1
    have := h n hn
    omega
  | csA h =>
    simp only [Check.run, Val.items]
    rw [if_pos (by simp [isArr])]
    simp [isArr, eqInt]
    intro n hn h0 h1
    have := h n hn
    omega
  | csS => simp [Check.run, isArr]
  | namesL => simp [Check.run, rejectUnless]
  | namesS => simp [Check.run, rejectUnless]
  | itemsL => simp [Check.run, Val.items, PTy.is]
  | itemsS => simp [Check.run, isArr]

/-- Arguments of the types the checks ask for, and missing arguments, are accepted. -/
theorem C14_prepare_accepts (p : Prep) (a : String → Val) (full : Bool) (h : ∀ x ∈ p.checks, Plain x.2.1 (a x.1)) :
    ∃ d, p.run a full = .ok d := by
  have : runChecks a p.checks = .ok () := by
    generalize p.checks = l at h
    induction l with
    | nil => rfl
    | cons x l ih =>
      obtain ⟨k, c, e⟩ := x
      rw [runChecks, plain_run (h _ (List.mem_cons_self ..))]
      exact ih fun y hy => h y (List.mem_cons_of_mem _ hy)
  unfold Prep.run
  rw [this]
  exact ⟨_, rfl⟩

/-- No argument at all gives the type alone. -/
theorem C14_prepare_none (p : Prep) (n : Nat) (doc : List String) (hp : (p, n, doc) ∈ prepared) :
    p.run (fun _ => .none) false = .ok [("type", .int n)] := by
  have : ∀ x ∈ prepared, x.1.run (fun _ => .none) false = .ok [("type", .int x.2.1)] := by decide +kernel
  exact this _ hp

/-- The keyword arguments taken from a dictionary. -/
def argsOf (d : Dict) (k : String) : Val := (d.get? (.s k)).getD .none

/-- A dictionary of data-set 15 goes through `prepare_15`; nothing is lost. -/
example : prepFn15.run (argsOf [("type", .int 15), ("node_nums", .arrI [1, 2]), ("x", .arrF [fA, fB]), ("y", .arrF [fA, fA]),
    ("z", .arrF [fB, fA])]) false = .ok [("type", .int 15), ("node_nums", .arrI [1, 2]), ("x", .arrF [fA, fB]), ("y", .arrF [fA, fA]),
    ("z", .arrF [fB, fA])] := by decide +kernel
/-- An argument of the wrong type is refused. -/
example : prepFn15.run (argsOf [("x", .list [.int 1])]) false = .error .type := by decide +kernel

/-- `prepare_151` stores the date and time of writing under keys the writer does not look at: whatever is given, the file gets the date and
time of the call. -/
theorem C24_negation_prepare (a : String → Val) (d : Dict) (h : prepFn151.run a false = .ok d) (ds ts : Text) (r : DS151)
    (hr : r.Rep ds ts d) : r.dateWritten = ds ∧ r.timeWritten = ts := by
  have hk := (C14_prepare prepFn151 151 _ (List.mem_of_getElem? (i := 5) rfl) a d h).2
  have none_of : ∀ k : String, k ≠ "type" → k ∉ (prepared[5]?.map (·.2.2)).getD [] → d.get? (.s k) = none := by
    intro k h1 h2
    cases hg : d.get? (.s k) with
    | none => rfl
    | some v =>
      have hm : ((.s k : Key), v) ∈ d := by
        clear hk h hr
        induction d with
        | nil => cases hg
        | cons x d ih =>
          obtain ⟨k', v'⟩ := x
          unfold Dict.get? at hg
          split at hg
          · next he => simp only [Option.some.injEq] at hg; subst hg he; exact List.mem_cons_self ..
          · exact List.mem_cons_of_mem _ (ih hg)
      rcases (hk _ _).1 hm with ⟨he, -⟩ | ⟨s, hs, he, -⟩
      · injection he with he; exact absurd he h1
      · injection he with he; subst he; exact absurd hs h2
  have h1 := hr.dateWritten
  have h2 := hr.timeWritten
  unfold Dict.getOr at h1 h2
  rw [none_of _ (by decide) (by decide)] at h1 h2
  simp only [IsStr, Option.getD_none, Val.toStr, Except.ok.injEq] at h1 h2
  exact ⟨h1.symm, h2.symm⟩

/-! ### C38: trace lines from quads -/

/-- A data-set that `convert_dataset_2412_to_82` skips: another type, or no quads. -/
structure Skipped (d : Dict) : Prop where
  skip : ∃ t : Int, d.get? "type" = some (.int t) ∧ (t ≠ 2412 ∨ d.get? "quad" = none)

/-- A row of four nodes. -/
def IsQuad (v : Val) (q : Int × Int × Int × Int) : Prop :=
  ∃ xs, v.items = .ok xs ∧ xs.take 4 = [.int q.1, .int q.2.1, .int q.2.2.1, .int q.2.2.2] ∧
    ∀ n ∈ [q.1, q.2.1, q.2.2.1, q.2.2.2], -(2 ^ 63) ≤ n ∧ n < 2 ^ 63

/-- A data-set 2412 with these quads, as returned by `read_sets`. -/
structure HasQuads (d : Dict) (qs : List (Int × Int × Int × Int)) : Prop where
  type : d.get? "type" = some (.int 2412)
  quad : ∃ q, d.get? "quad" = some (.dict q) ∧ ∃ v, Dict.get? q "nodes_nums" = some v ∧ IsSeq IsQuad v qs

/-- The closed loop around a quad, each edge followed by a zero. -/
def loop (q : Int × Int × Int × Int) : List Int :=
  [q.1, q.2.1, 0, q.2.1, q.2.2.1, 0, q.2.2.1, q.2.2.2, 0, q.2.2.2, q.1, 0]

theorem convert_skip (ds : List Dict) (h : ∀ d ∈ ds, Skipped d) (i : Nat) (nodes : List Int) (fr : Bool) (rest : List Dict) :
    convertLoop i nodes fr (ds ++ rest) = convertLoop (i + ds.length) nodes fr rest := by
  induction ds generalizing i with
  | nil => simp
  | cons d ds ih =>
    obtain ⟨t, ht, hs⟩ := (h d (List.mem_cons_self ..)).skip
    rw [List.cons_append, convertLoop]
    have hg : d.get (.s "type") = .ok (.int t) := by unfold Dict.get; rw [ht]
    have hc : ¬ (eqInt (.int t) 2412 = true ∧ d.has "quad" = true) := by
      rintro ⟨h1, h2⟩
      simp only [eqInt, decide_eq_true_eq] at h1
      rcases hs with hs | hs
      · exact hs h1
      · unfold Dict.has at h2; rw [hs] at h2; cases h2
    rw [hg, ok_bind, if_neg hc, ih (fun x hx => h x (List.mem_cons_of_mem _ hx)), List.length_cons]
    congr 1
    omega

theorem quadLoop_ok {v : Val} {q : Int × Int × Int × Int} (h : IsQuad v q) : quadLoop v = .ok (loop q) := by
  obtain ⟨xs, hx, ht, hb⟩ := h
  have hidx : ∀ (m : Nat) (n : Int), m < 4 → (xs.take 4)[m]? = some (.int n) → (-(2 ^ 63) ≤ n ∧ n < 2 ^ 63) →
      quadNode v m = .ok n := by
    intro m n hm he hn
    rw [List.getElem?_take_of_lt hm] at he
    have : v.idx m = .ok (.int n) := by
      cases v <;> simp only [Val.idx, hx, he, orIndex] <;> simp [Val.items] at hx
    unfold quadNode
    rw [this]
    simp only [if_pos hn]
  have h0 := hidx 0 q.1 (by omega) (by rw [ht]; rfl) (hb _ (by simp))
  have h1 := hidx 1 q.2.1 (by omega) (by rw [ht]; rfl) (hb _ (by simp))
  have h2 := hidx 2 q.2.2.1 (by omega) (by rw [ht]; rfl) (hb _ (by simp))
  have h3 := hidx 3 q.2.2.2 (by omega) (by rw [ht]; rfl) (hb _ (by simp))
  unfold quadLoop
  rw [h0, h1, h2, h3]
  rfl

theorem quads_ok (xs : List Val) (qs : List (Int × Int × Int × Int)) (hl : xs.length = qs.length)
    (h : ∀ i, (h1 : i < xs.length) → (h2 : i < qs.length) → IsQuad xs[i] qs[i]) : mapRes quadLoop xs = .ok (qs.map loop) := by
  induction xs generalizing qs with
  | nil =>
    cases qs with
    | nil => rfl
    | cons => simp at hl
  | cons x xs ih =>
    cases qs with
    | nil => simp at hl
    | cons q qs =>
      have e := quadLoop_ok (h 0 (by simp) (by simp))
      simp only [List.getElem_cons_zero] at e
      unfold mapRes
      rw [e, ih qs (by simpa using hl) (fun i h1 h2 => by
        have := h (i + 1) (by simp; omega) (by simp; omega)
        simpa using this)]
      rfl

theorem flatten_map_loop (qs : List (Int × Int × Int × Int)) : (qs.map loop).flatten = qs.flatMap loop := rfl

theorem length_loops (qs : List (Int × Int × Int × Int)) : (qs.flatMap loop).length = 12 * qs.length := by
  induction qs with
  | nil => rfl
  | cons q qs ih => rw [List.flatMap_cons, List.length_append, ih, List.length_cons]; simp [loop]; omega

/-- The trace line of a data-set with quads. -/
def traceLine (i : Nat) (qs : List (Int × Int × Int × Int)) : Dict :=
  [("type", .int 82), ("trace_num", .int i), ("n_nodes", .int (12 * qs.length)), ("color", .int 0), ("id", .str []),
   ("nodes", .arrI (qs.flatMap loop))]

theorem items_of {d : Dict} {qs : List (Int × Int × Int × Int)} (h : HasQuads d qs) :
    ∃ q v xs, d.get (.s "quad") = .ok q ∧ q.getK "nodes_nums" = .ok v ∧ v.items = .ok xs ∧ xs.length = qs.length ∧
      mapRes quadLoop xs = .ok (qs.map loop) := by
  obtain ⟨q, hq, v, hv, xs, hx, hl, hi⟩ := h.quad
  refine ⟨.dict q, v, xs, ?_, ?_, hx, hl, quads_ok xs qs hl hi⟩
  · unfold Dict.get; rw [hq]
  · simp only [Val.getK]; unfold Dict.get; rw [hv]

theorem convert_head {d : Dict} {qs : List (Int × Int × Int × Int)} (h : HasQuads d qs) (i : Nat) (nodes : List Int) (fr : Bool)
    (rest : List Dict) : ∃ xs : List Val, xs.length = qs.length ∧ mapRes quadLoop xs = .ok (qs.map loop) ∧
      convertLoop i nodes fr (d :: rest) = (if fr = true ∧ xs ≠ [] then .error .attr else (do
        let new ← mapRes quadLoop xs
        let nodes := nodes ++ new.flatten
        let r ← prepFn82.run (fun k => if k = "trace_num" then .int i else if k = "n_nodes" then .int nodes.length
          else if k = "nodes" then (if nodes = [] then .arrF [] else .arrI nodes)
          else if k = "color" then .int 0 else if k = "id" then .str [] else .none) true
        let rest ← convertLoop (i + 1) nodes true rest
        .ok (r :: rest))) := by
  obtain ⟨q, v, xs, h1, h2, h3, h4, h5⟩ := items_of h
  refine ⟨xs, h4, h5, ?_⟩
  have ht : d.get (.s "type") = .ok (.int 2412) := by unfold Dict.get; rw [h.type]
  have hq : d.has "quad" = true := by
    obtain ⟨q, hq, -⟩ := h.quad
    unfold Dict.has; rw [hq]; rfl
  rw [convertLoop, ht, ok_bind, if_pos ⟨by simp [eqInt], hq⟩, h1, ok_bind, h2, ok_bind, h3, ok_bind]

theorem small_nat {i : Nat} (hi : i < 2 ^ 63) : -(2 ^ 63) ≤ (i : Int) ∧ (i : Int) < 2 ^ 63 := by
  have : (i : Int) < ((2 ^ 63 : Nat) : Int) := Int.ofNat_lt.2 hi
  rw [Int.natCast_pow] at this
  refine ⟨?_, this⟩
  have h0 : (0 : Int) ≤ 2 ^ 63 := by decide
  omega

theorem checks82 (a : String → Val) (i : Nat) (l : List Int) (hi : i < 2 ^ 63) (hl : l.length < 2 ^ 63) (e1 : a "trace_num" = .int i)
    (e2 : a "n_nodes" = .int l.length) (e3 : a "color" = .int 0) (e4 : a "id" = .str []) (e5 : a "nodes" = .arrI l) :
    runChecks a prepFn82.checks = .ok () := by
  unfold prepFn82
  simp only [runChecks, e1, e2, e3, e4, e5]
  have b1 := small_nat hi
  have b2 := small_nat hl
  rw [plain_run (.int b1.1 b1.2), plain_run (.int b2.1 b2.2), plain_run (.int (by decide) (by decide)), plain_run .str,
    plain_run .ints]

theorem run82 (a : String → Val) (i : Nat) (l : List Int) (hi : i < 2 ^ 63) (hl : l.length < 2 ^ 63) (e1 : a "trace_num" = .int i)
    (e2 : a "n_nodes" = .int l.length) (e3 : a "color" = .int 0) (e4 : a "id" = .str []) (e5 : a "nodes" = .arrI l) :
    prepFn82.run a true = .ok [("type", .int 82), ("trace_num", .int i), ("n_nodes", .int l.length), ("color", .int 0), ("id", .str []),
      ("nodes", .arrI l)] := by
  unfold Prep.run
  rw [checks82 a i l hi hl e1 e2 e3 e4 e5]
  simp only [prepFn82, List.map_cons, List.map_nil, e1, e2, e3, e4, e5, if_true]
  rfl

theorem convert_first {d : Dict} {qs : List (Int × Int × Int × Int)} (h : HasQuads d qs) (hq : qs ≠ []) (i : Nat) (hi : i < 2 ^ 63)
    (hn : 12 * qs.length < 2 ^ 63) (rest : List Dict) :
    convertLoop i [] false (d :: rest) = (convertLoop (i + 1) (qs.flatMap loop) true rest).bind fun r =>
      .ok (traceLine i qs :: r) := by
  obtain ⟨xs, -, hm, he⟩ := convert_head h i [] false rest
  have hl := length_loops qs
  rw [he, if_neg (fun h => Bool.false_ne_true h.1), hm, ok_bind]
  simp only [List.nil_append, flatten_map_loop]
  have hne : qs.flatMap loop ≠ [] := by
    intro h0
    rw [h0, List.length_nil] at hl
    have : qs.length = 0 := by omega
    exact hq (List.length_eq_zero_iff.1 this)
  unfold traceLine
  have hc : (12 * qs.length : Int) = ((qs.flatMap loop).length : Int) := by rw [hl]; push_cast; rfl
  rw [hc]
  rw [run82 _ i (qs.flatMap loop) hi (by rw [hl]; exact hn) rfl rfl rfl rfl (if_neg hne), ok_bind]
  rfl

/-- One data-set with quads among others: one trace line, numbered by the position of the data-set, which draws every quad as a closed loop, in order.
(More than one data-set with quads: see `C38_negation`.) -/
theorem C38_convert_partial (pre post : List Dict) (d : Dict) (qs : List (Int × Int × Int × Int)) (h1 : ∀ x ∈ pre, Skipped x)
    (h2 : ∀ x ∈ post, Skipped x) (h : HasQuads d qs) (hq : qs ≠ []) (hb : pre.length < 2 ^ 63 ∧ 12 * qs.length < 2 ^ 63) :
    convert2412to82 (pre ++ d :: post) = .ok [[("type", .int 82), ("trace_num", .int pre.length), ("n_nodes", .int (12 * qs.length)),
      ("color", .int 0), ("id", .str []), ("nodes", .arrI (qs.flatMap loop))]] := by
  unfold convert2412to82
  rw [convert_skip pre h1, Nat.zero_add, convert_first h hq _ hb.1 hb.2]
  have := convert_skip post h2 (pre.length + 1) (qs.flatMap loop) true []
  rw [List.append_nil] at this
  rw [this]
  rfl

/-- No data-set with quads: no trace line. -/
theorem C38_convert_none (ds : List Dict) (h : ∀ x ∈ ds, Skipped x) : convert2412to82 ds = .ok [] := by
  have := convert_skip ds h 0 [] false []
  rw [List.append_nil] at this
  unfold convert2412to82
  rw [this]
  rfl

/-- With two data-sets with quads the call raises, whatever else the list holds. -/
theorem C38_negation (pre mid post : List Dict) (d d' : Dict) (qs qs' : List (Int × Int × Int × Int)) (h1 : ∀ x ∈ pre, Skipped x)
    (h2 : ∀ x ∈ mid, Skipped x) (h : HasQuads d qs) (h' : HasQuads d' qs') (hq : qs ≠ []) (hq' : qs' ≠ [])
    (hb : pre.length < 2 ^ 63 ∧ 12 * qs.length < 2 ^ 63) :
    convert2412to82 (pre ++ d :: (mid ++ d' :: post)) = .error .attr := by
  unfold convert2412to82
  rw [convert_skip pre h1, Nat.zero_add, convert_first h hq _ hb.1 hb.2, convert_skip mid h2]
  obtain ⟨xs, hx, -, he⟩ := convert_head h' (pre.length + 1 + mid.length) (qs.flatMap loop) true post
  rw [he, if_pos ⟨rfl, fun h0 => by
    rw [h0] at hx
    exact hq' (List.length_eq_zero_iff.1 hx.symm)⟩]
  rfl

/-- The dictionary read from a file with the quads 1 2 3 4 and 2 5 6 3. -/
def exQuads : Dict := [("type", .int 2412), ("quad", .dict [("nodes_nums", .list [.list [.int 1, .int 2, .int 3, .int 4],
  .list [.int 2, .int 5, .int 6, .int 3]])])]

theorem exQuads_ok : HasQuads exQuads [(1, 2, 3, 4), (2, 5, 6, 3)] := by
  refine ⟨rfl, _, rfl, _, rfl, _, rfl, rfl, fun i h1 h2 => ?_⟩
  match i, h1 with
  | 0, _ => exact ⟨_, rfl, rfl, by decide +revert⟩
  | 1, _ => exact ⟨_, rfl, rfl, by decide +revert⟩

example : convert2412to82 [[("type", .int 151)], exQuads] = .ok [[("type", .int 82), ("trace_num", .int 1), ("n_nodes", .int 24),
    ("color", .int 0), ("id", .str []), ("nodes", .arrI [1, 2, 0, 2, 3, 0, 3, 4, 0, 4, 1, 0, 2, 5, 0, 5, 6, 0, 6, 3, 0, 3, 2, 0])]] :=
  C38_convert_partial [[("type", .int 151)]] [] exQuads _ (by
    intro x hx
    obtain rfl := List.mem_singleton.1 hx
    exact ⟨151, rfl, .inl (by decide)⟩) (by simp) exQuads_ok (by simp) (by decide)
example : convert2412to82 [exQuads, exQuads] = .error .attr :=
  C38_negation [] [] [] exQuads exQuads _ _ (by simp) (by simp) exQuads_ok exQuads_ok (by simp) (by simp) (by decide)

/-! ### C39: `prepare_group` -/

/-- For a group number and set numbers that are not negative, a name that is not empty and integer entities, the result holds the arguments - but the
temperature and the contact number are those of the degrees of freedom. -/
theorem C39_group (number constraint restraint load dof temperature contact : Int) (name : Text) (codes tags : Val) (full : Bool)
    (h : ∀ n ∈ [number, constraint, restraint, load, dof, temperature, contact], 0 ≤ n) (hn : name ≠ [])
    (hc : ∃ s, npArray codes = .ok (.int, s)) (ht : ∃ s, npArray tags = .ok (.int, s)) :
    prepareGroup2429 (.int number) (.str name) codes tags (.int constraint) (.int restraint) (.int load) (.int dof)
      (.int temperature) (.int contact) full =
    .ok [("group_number", .int number), ("group_name", .str name), ("entity_type_code", codes), ("entity_tag", tags),
      ("active_constraint_set_no_for_group", .int constraint), ("active_restraint_set_no_for_group", .int restraint),
      ("active_load_set_no_for_group", .int load), ("active_dof_set_no_for_group", .int dof),
      ("active_temperature_set_no_for_group", .int dof), ("active_contact_set_no_for_group", .int dof)] := by
  obtain ⟨_, hc⟩ := hc
  obtain ⟨_, ht⟩ := ht
  have hcn : codes ≠ .none := by rintro rfl; simp [npArray] at hc
  have htn : tags ≠ .none := by rintro rfl; simp [npArray] at ht
  have hp : ∀ n ∈ [number, constraint, restraint, load, dof, temperature, contact], needNonneg n = .ok () := by
    intro n hn
    unfold needNonneg
    rw [if_neg (by have := h n hn; omega)]
  have hci : needInts codes = .ok () := by unfold needInts; rw [hc]; rfl
  have hti : needInts tags = .ok () := by unfold needInts; rw [ht]; rfl
  unfold prepareGroup2429
  simp only [needInt, needStr, needNonempty, ok_bind, hci, hti, if_neg hn, hp number (by simp), hp constraint (by simp), hp restraint (by simp),
    hp load (by simp), hp dof (by simp), hp temperature (by simp), hp contact (by simp)]
  cases full <;> simp [checkDictForNone, hcn, htn]

/-- Each number is under its own key when the temperature and the contact number equal that of the degrees of freedom - as with the defaults.
(Other numbers are lost: `C39_negation`.) -/
theorem C39_group_partial (number constraint restraint load dof : Int) (name : Text) (codes tags : Val) (full : Bool)
    (h : ∀ n ∈ [number, constraint, restraint, load, dof], 0 ≤ n) (hn : name ≠ [])
    (hc : ∃ s, npArray codes = .ok (.int, s)) (ht : ∃ s, npArray tags = .ok (.int, s)) :
    ∃ d, prepareGroup2429 (.int number) (.str name) codes tags (.int constraint) (.int restraint) (.int load) (.int dof)
        (.int dof) (.int dof) full = .ok d ∧
      d.get? "group_number" = some (.int number) ∧ d.get? "group_name" = some (.str name) ∧
      d.get? "entity_type_code" = some codes ∧ d.get? "entity_tag" = some tags ∧
      d.get? "active_constraint_set_no_for_group" = some (.int constraint) ∧
      d.get? "active_restraint_set_no_for_group" = some (.int restraint) ∧
      d.get? "active_load_set_no_for_group" = some (.int load) ∧ d.get? "active_dof_set_no_for_group" = some (.int dof) ∧
      d.get? "active_temperature_set_no_for_group" = some (.int dof) ∧
      d.get? "active_contact_set_no_for_group" = some (.int dof) := by
  refine ⟨_, C39_group number constraint restraint load dof dof dof name codes tags full ?_ hn hc ht, ?_⟩
  · simpa using h
  · exact ⟨rfl, rfl, rfl, rfl, rfl, rfl, rfl, rfl, rfl, rfl⟩

/-- Another temperature or contact number is accepted and lost. -/
theorem C39_negation (number constraint restraint load dof temperature contact : Int) (name : Text) (codes tags : Val) (full : Bool)
    (h : ∀ n ∈ [number, constraint, restraint, load, dof, temperature, contact], 0 ≤ n) (hn : name ≠ [])
    (hc : ∃ s, npArray codes = .ok (.int, s)) (ht : ∃ s, npArray tags = .ok (.int, s)) :
    ∃ d, prepareGroup2429 (.int number) (.str name) codes tags (.int constraint) (.int restraint) (.int load) (.int dof)
        (.int temperature) (.int contact) full = .ok d ∧
      (temperature ≠ dof → d.get? "active_temperature_set_no_for_group" ≠ some (.int temperature)) ∧
      (contact ≠ dof → d.get? "active_contact_set_no_for_group" ≠ some (.int contact)) := by
  refine ⟨_, C39_group number constraint restraint load dof temperature contact name codes tags full h hn hc ht, ?_, ?_⟩
  · intro hne h'
    have : some (Val.int dof) = some (.int temperature) := h'
    simp only [Option.some.injEq, Val.int.injEq] at this
    exact hne this.symm
  · intro hne h'
    have : some (Val.int dof) = some (.int contact) := h'
    simp only [Option.some.injEq, Val.int.injEq] at this
    exact hne this.symm

/-- The same for the groups of data-set 2467. -/
theorem C39_group_2467 (number constraint restraint load dof temperature contact : Int) (name : Text) (codes tags leafs comps : Val)
    (full : Bool) (h : ∀ n ∈ [number, constraint, restraint, load, dof, temperature, contact], 0 ≤ n) (hn : name ≠ [])
    (hc : ∀ v ∈ [codes, tags, leafs, comps], ∃ s, npArray v = .ok (.int, s)) :
    prepareGroup2467 (.int number) (.str name) codes tags leafs comps (.int constraint) (.int restraint) (.int load) (.int dof)
      (.int temperature) (.int contact) full =
    .ok [("group_number", .int number), ("group_name", .str name), ("entity_type_code", codes), ("entity_tag", tags),
      ("entity_node_leaf_id", leafs), ("entity_component_id", comps),
      ("active_constraint_set_no_for_group", .int constraint), ("active_restraint_set_no_for_group", .int restraint),
      ("active_load_set_no_for_group", .int load), ("active_dof_set_no_for_group", .int dof),
      ("active_temperature_set_no_for_group", .int dof), ("active_contact_set_no_for_group", .int dof)] := by
  have hcn : ∀ v ∈ [codes, tags, leafs, comps], v ≠ .none := by
    intro v hv
    obtain ⟨_, h⟩ := hc v hv
    rintro rfl
    simp [npArray] at h
  have hp : ∀ n ∈ [number, constraint, restraint, load, dof, temperature, contact], needNonneg n = .ok () := by
    intro n hn
    unfold needNonneg
    rw [if_neg (by have := h n hn; omega)]
  have hci : ∀ v ∈ [codes, tags, leafs, comps], needInts v = .ok () := by
    intro v hv
    obtain ⟨_, h⟩ := hc v hv
    unfold needInts; rw [h]; rfl
  unfold prepareGroup2467
  simp only [needInt, needStr, needNonempty, ok_bind, hci codes (by simp), hci tags (by simp), hci leafs (by simp), hci comps (by simp), if_neg hn,
    hp number (by simp), hp constraint (by simp), hp restraint (by simp),
    hp load (by simp), hp dof (by simp), hp temperature (by simp), hp contact (by simp)]
  cases full <;>
    simp [checkDictForNone, hcn codes (by simp), hcn tags (by simp), hcn leafs (by simp), hcn comps (by simp)]

example : (prepareGroup2429 (.int 1) (.str "g".toList) (.arrI [7, 7]) (.list [.int 1, .int 2]) (.int 0) (.int 0) (.int 0) (.int 3)
    (.int 4) (.int 5) false).toOption.bind (fun d => Dict.get? d "active_temperature_set_no_for_group") = some (.int 3) := by
  decide +kernel

theorem of_bind {α β} {x : Res α} {f : α → Res β} {b : β} (h : (x >>= f) = .ok b) : ∃ a, x = .ok a ∧ f a = .ok b := by
  cases x with
  | error e => cases h
  | ok a => exact ⟨a, rfl, h⟩

theorem of_needInt {v : Val} {n : Int} (h : needInt v = .ok n) : v = .int n := by
  unfold needInt at h
  split at h
  · injection h with h; rw [h]
  · cases h

theorem of_needNonneg {n : Int} (h : needNonneg n = .ok ()) : 0 ≤ n := by
  unfold needNonneg at h
  split at h
  · cases h
  · omega

theorem of_needInts {v : Val} (h : needInts v = .ok ()) : ∃ s, npArray v = .ok (.int, s) := by
  unfold needInts at h
  split at h
  · cases h
  · next t s hs =>
    split at h
    · next ht => exact ⟨s, by rw [hs, ht]⟩
    · cases h

/-- Anything else is refused: negative or other than integer numbers, an empty name, entities that are not integers. -/
theorem C39_refused (number name codes tags constraint restraint load dof temperature contact : Val) (full : Bool) (d : Dict)
    (h : prepareGroup2429 number name codes tags constraint restraint load dof temperature contact full = .ok d) :
    (∀ v ∈ [number, constraint, restraint, load, dof, temperature, contact], ∃ n : Int, 0 ≤ n ∧ v = .int n) ∧
    (∃ s, s ≠ [] ∧ name = .str s) ∧ (∃ s, npArray codes = .ok (.int, s)) ∧ (∃ s, npArray tags = .ok (.int, s)) := by
  unfold prepareGroup2429 at h
  obtain ⟨n, h1, h⟩ := of_bind h
  obtain ⟨nm, h2, h⟩ := of_bind h
  obtain ⟨_, h3, h⟩ := of_bind h
  obtain ⟨_, h4, h⟩ := of_bind h
  obtain ⟨c1, k1, h⟩ := of_bind h
  obtain ⟨c2, k2, h⟩ := of_bind h
  obtain ⟨c3, k3, h⟩ := of_bind h
  obtain ⟨c4, k4, h⟩ := of_bind h
  obtain ⟨c5, k5, h⟩ := of_bind h
  obtain ⟨c6, k6, h⟩ := of_bind h
  obtain ⟨_, m0, h⟩ := of_bind h
  obtain ⟨_, hnm, h⟩ := of_bind h
  obtain ⟨_, m1, h⟩ := of_bind h
  obtain ⟨_, m2, h⟩ := of_bind h
  obtain ⟨_, m3, h⟩ := of_bind h
  obtain ⟨_, m4, h⟩ := of_bind h
  obtain ⟨_, m5, h⟩ := of_bind h
  obtain ⟨_, m6, -⟩ := of_bind h
  refine ⟨?_, ?_, of_needInts h3, of_needInts h4⟩
  · simp only [List.forall_mem_cons, List.not_mem_nil, false_imp_iff, implies_true, and_true]
    exact ⟨⟨n, of_needNonneg m0, of_needInt h1⟩, ⟨c1, of_needNonneg m1, of_needInt k1⟩, ⟨c2, of_needNonneg m2, of_needInt k2⟩,
      ⟨c3, of_needNonneg m3, of_needInt k3⟩, ⟨c4, of_needNonneg m4, of_needInt k4⟩, ⟨c5, of_needNonneg m5, of_needInt k5⟩,
      ⟨c6, of_needNonneg m6, of_needInt k6⟩⟩
  · unfold needStr at h2
    split at h2
    · injection h2 with h2
      refine ⟨_, fun h0 => ?_, rfl⟩
      unfold needNonempty at hnm
      rw [if_pos (h2 ▸ h0)] at hnm
      cases hnm
    · cases h2

/-- What `prepare_2429` returns cannot be written: the writer wants the keys of one group at the top. -/
theorem C39_negation_write (e : Env) (fd : Bool) (groups : Val) (d : Dict) (full : Bool) (h : prepare2429 groups full = .ok d) :
    ∃ x, (writeBody e fd d).res = .error x := by
  unfold prepare2429 at h
  split at h
  · next l =>
    obtain ⟨_, -, h⟩ := of_bind h
    have hd : d = [((.s "type" : Key), Val.int 2429), (.s "groups", .list l)] := by
      cases full <;> simpa [checkDictForNone, eq_comm] using h
    rw [hd]
    exact ⟨.writing 2429, rfl⟩
  · cases h

end Verif
