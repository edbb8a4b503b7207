import Verif.Lemmas.Many
/-
Dictionaries for data-sets of every type, and concrete data-sets: the theorems about writing and reading are not vacuous.
-/
namespace Verif

/-! Tests that a text is free of delimiters. -/

theorem suffix_iff_drop {α} (s l : List α) : s <:+ l ↔ ∃ k, k < l.length + 1 ∧ s = l.drop k := by
  constructor
  · rintro ⟨p, rfl⟩
    exact ⟨p.length, by simp; omega, by simp⟩
  · rintro ⟨k, _, rfl⟩
    exact List.drop_suffix k l

theorem hasDelim_iff (l : Text) : HasDelim l ↔
    ∃ k, k < l.length + 1 ∧ (l.drop k = delim ∨ delim ++ List.replicate 74 ' ' <+: l.drop k) := by
  unfold HasDelim
  constructor
  · rintro ⟨s, hs, h⟩
    obtain ⟨k, hk, rfl⟩ := (suffix_iff_drop s l).1 hs
    exact ⟨k, hk, h⟩
  · rintro ⟨k, hk, h⟩
    exact ⟨l.drop k, (suffix_iff_drop _ l).2 ⟨k, hk, rfl⟩, h⟩

instance (l : Text) : Decidable (HasDelim l) := decidable_of_iff _ (hasDelim_iff l).symm
instance (w : Nat) (t : Text) : Decidable (LineText w t) :=
  decidable_of_iff (OneLine t ∧ t.length ≤ w ∧ ¬ HasDelim (padRight w t))
    ⟨fun h => ⟨h.1, h.2.1, h.2.2⟩, fun h => ⟨h.1, h.2, h.3⟩⟩
instance (w : Nat) (t : Text) : Decidable (FieldText w t) :=
  decidable_of_iff (OneLine t ∧ t.length ≤ w) ⟨fun h => ⟨h.1, h.2⟩, fun h => ⟨h.1, h.2⟩⟩

/-! Sequences. -/

theorem isSeq_map {α β} {P : Val → α → Prop} (l : List β) (f : β → Val) (g : β → α) (v : Val)
    (hv : v.items = .ok (l.map f)) (h : ∀ b ∈ l, P (f b) (g b)) : IsSeq P v (l.map g) := by
  refine ⟨_, hv, by simp, fun i h1 h2 => ?_⟩
  simp only [List.getElem_map]
  exact h _ (List.getElem_mem _)

theorem isSeq_arrF (l : List F64) : IsSeq IsFloat (.arrF l) l := by
  have := isSeq_map (P := IsFloat) l .float id (.arrF l) rfl (fun _ _ => rfl)
  rwa [List.map_id] at this
theorem isSeq_arrF' (l : List F64) : IsSeq (fun v x => v = .float x) (.arrF l) l := by
  have := isSeq_map (P := fun v x => v = .float x) l .float id (.arrF l) rfl (fun _ _ => rfl)
  rwa [List.map_id] at this
theorem isSeq_arrI (l : List Int) : IsSeq IsInt (.arrI l) l := by
  have := isSeq_map (P := IsInt) l .int id (.arrI l) rfl (fun _ _ => rfl)
  rwa [List.map_id] at this
theorem isSeq_strs (l : List Text) : IsSeq IsStr (.list (l.map .str)) l := by
  have := isSeq_map (P := IsStr) l .str id (.list (l.map .str)) rfl (fun _ _ => rfl)
  rwa [List.map_id] at this
theorem isSeq_arrC (l : List Cplx) : IsSeq IsCplx (.arrC l) l := by
  have := isSeq_map (P := IsCplx) l (fun z => .cplx z.1 z.2) id (.arrC l) rfl (fun _ _ => rfl)
  rwa [List.map_id] at this
theorem isSeq_rows (l : List (List F64)) : IsSeq (IsSeq IsFloat) (.mat l) l := by
  have := isSeq_map (P := IsSeq IsFloat) l .arrF id (.mat l) rfl (fun x _ => isSeq_arrF x)
  rwa [List.map_id] at this

/-! Numbers used in the examples. -/

/-- `1.5` -/
def fA : F64 := ⟨false, 0x3FF8000000000000, by decide⟩
/-- `-0.1` -/
def fB : F64 := ⟨true, 0x3FB999999999999A, by decide⟩
/-- `1.0` -/
def fC : F64 := F64.one

theorem cleanD_none {d : Dict} (h : d.get? "data" = none) : CleanD d d := .inl ⟨h, rfl⟩

/-! ### 15 -/

/-- The dictionary documented for data-set 15 (`/repo/pyuff/datasets/dataset_15.py:80-155`). -/
def DS15.dict (r : DS15) : Dict :=
  [("type", .int 15), ("node_nums", .arrF (r.nodes.map fun n => F64.ofInt n.num)),
   ("def_cs", .arrF (r.nodes.map fun n => F64.ofInt n.defCs)),
   ("disp_cs", .arrF (r.nodes.map fun n => F64.ofInt n.dispCs)), ("color", .arrF (r.nodes.map fun n => F64.ofInt n.color)),
   ("x", .arrF (r.nodes.map (·.x))), ("y", .arrF (r.nodes.map (·.y))), ("z", .arrF (r.nodes.map (·.z)))]

theorem DS15.given (e : Env) (fd : Bool) (r : DS15) (ok : r.Ok) : Given e fd r.dict (.s15 r) :=
  ⟨_, cleanD_none rfl, ⟨rfl, ⟨_, rfl, isSeq_arrF _⟩, isSeq_arrF _, isSeq_arrF _, isSeq_arrF _, ⟨_, rfl, isSeq_arrF _⟩,
    ⟨_, rfl, isSeq_arrF _⟩, ⟨_, rfl, isSeq_arrF _⟩⟩, ok⟩

/-- Two nodes. -/
def ex15 : DS15 := ⟨[⟨1, 0, 0, 8, fA, fB, F64.zero⟩, ⟨-1, 2, 3, 11, fB, fA, fC⟩]⟩
theorem ex15_ok : ex15.Ok := by
  intro n hn
  simp only [ex15, List.mem_cons, List.not_mem_nil, or_false] at hn
  rcases hn with rfl | rfl <;>
    exact ⟨by decide, by decide, by decide, by decide, ⟨by decide +kernel, by decide +kernel⟩,
      ⟨by decide +kernel, by decide +kernel⟩, ⟨by decide +kernel, by decide +kernel⟩⟩

/-! ### 18 -/

/-- The dictionary documented for data-set 18 (`/repo/pyuff/datasets/dataset_18.py:118-182`). -/
def DS18.dict (r : DS18) : Dict :=
  [("type", .int 18), ("cs_num", .arrI (r.systems.map (·.num))), ("cs_type", .arrI (r.systems.map (·.type))),
   ("ref_cs_num", .arrI (r.systems.map (·.ref))), ("color", .arrI (r.systems.map (·.color))),
   ("method", .arrI (r.systems.map (·.method))), ("cs_name", .list ((r.systems.map (·.name)).map .str)),
   ("ref_o", .mat (r.systems.map (·.o.row))), ("x_point", .mat (r.systems.map (·.x.row))),
   ("xz_point", .mat (r.systems.map (·.xz.row)))]

theorem DS18.given (e : Env) (fd : Bool) (r : DS18) (ok : r.Ok) : Given e fd r.dict (.s18 r) :=
  ⟨_, cleanD_none rfl, ⟨rfl, ⟨_, rfl, isSeq_arrI _⟩, isSeq_arrI _, ⟨_, rfl, isSeq_arrI _⟩, isSeq_arrI _, isSeq_arrI _,
    isSeq_strs _, ⟨_, rfl, isSeq_rows _⟩, ⟨_, rfl, isSeq_rows _⟩, ⟨_, rfl, isSeq_rows _⟩⟩, ok⟩

/-- A point. -/
def exPt : Pt := ⟨fA, fB, fC⟩
theorem exPt_finite : exPt.Finite := ⟨by decide +kernel, by decide +kernel, by decide +kernel⟩

/-- Two coordinate systems. -/
def ex18 : DS18 := ⟨[⟨1, 0, 0, 8, 1, "base".toList, exPt, exPt, exPt⟩, ⟨2, 1, 1, -1, 1, "left  wing ".toList, exPt, exPt, exPt⟩]⟩
theorem ex18_ok : ex18.Ok := by
  intro c hc
  simp only [ex18, List.mem_cons, List.not_mem_nil, or_false] at hc
  rcases hc with rfl | rfl <;>
    exact ⟨by decide, by decide, by decide, by decide, by decide, by decide, by decide +kernel, by decide +kernel,
      exPt_finite, exPt_finite, exPt_finite⟩

/-! ### 82 -/

/-- The dictionary documented for data-set 82 (`/repo/pyuff/datasets/dataset_82.py:95-159`). -/
def DS82.dict (r : DS82) : Dict :=
  [("type", .int 82), ("trace_num", .int r.trace), ("color", .int r.color), ("id", .str r.id), ("nodes", .arrI r.nodes)]

theorem DS82.given (e : Env) (fd : Bool) (r : DS82) (ok : r.Ok) : Given e fd r.dict (.s82 r) :=
  ⟨_, cleanD_none rfl, ⟨rfl, ⟨_, rfl, rfl⟩, rfl, rfl, .inl rfl⟩, ok⟩

/-- A trace line of nine nodes. -/
def ex82 : DS82 := ⟨1, 30, "trace".toList, [1, 2, 3, 0, 10, 13, 14, 0, 5]⟩
theorem ex82_ok : ex82.Ok where
  trace := by decide
  color := by decide
  color1 := by decide
  runs := by decide
  id := by decide +kernel
  nodes := by decide

/-! ### 151 -/

/-- The dictionary documented for data-set 151 (`/repo/pyuff/datasets/dataset_151.py:140-231`), with the keys the writer
uses. -/
def DS151.dict (r : DS151) : Dict :=
  [("type", .int 151), ("model_name", .str r.model), ("description", .str r.descr), ("db_app", .str r.dbApp),
   ("date_db_created", .str r.dateCreated), ("time_db_created", .str r.timeCreated), ("version_db1", .str r.version1),
   ("version_db2", .str r.version2), ("file_type", .str r.fileType), ("date_db_saved", .str r.dateSaved),
   ("time_db_saved", .str r.timeSaved), ("program", .str r.program), ("date_file_written", .str r.dateWritten),
   ("time_file_written", .str r.timeWritten)]

theorem DS151.given (e : Env) (fd : Bool) (r : DS151) (ok : r.Ok) : Given e fd r.dict (.s151 r) :=
  ⟨_, cleanD_none rfl, ⟨rfl, ⟨_, rfl, rfl⟩, ⟨_, rfl, rfl⟩, ⟨_, rfl, rfl⟩, rfl, rfl, rfl, rfl, rfl, rfl, rfl, ⟨_, rfl, rfl⟩,
    rfl, rfl⟩, ok⟩

/-- A file header. -/
def ex151 : DS151 :=
  ⟨"BEAM -1".toList, "Test of a beam".toList, "pyuff".toList, "01-Jan-26".toList, "10:00:00".toList, "1".toList, "2".toList,
   "0".toList, "02-Jan-26".toList, "11:00:00".toList, "OpenModal".toList, "03-Jan-26".toList, "12:00:00".toList⟩
theorem ex151_ok : ex151.Ok := by
  constructor <;> decide +kernel

/-! ### 164 -/

/-- The dictionary documented for data-set 164 (`/repo/pyuff/datasets/dataset_164.py:93-158`). -/
def DS164.dict (r : DS164) : Dict :=
  [("type", .int 164), ("units_code", .int r.code), ("units_description", .str r.descr), ("temp_mode", .int r.tempMode),
   ("length", .float r.length), ("force", .float r.force), ("temp", .float r.temp), ("temp_offset", .float r.offset)]

theorem DS164.given (e : Env) (fd : Bool) (r : DS164) (ok : r.Ok) : Given e fd r.dict (.s164 r) :=
  ⟨_, cleanD_none rfl, ⟨rfl, ⟨_, rfl, rfl⟩, rfl, rfl, ⟨_, rfl, rfl⟩, ⟨_, rfl, rfl⟩, ⟨_, rfl, rfl⟩, ⟨_, rfl, rfl⟩⟩, ok⟩

/-- SI units. -/
def ex164 : DS164 := ⟨1, "SI units".toList, 2, fC, fC, fB, fA⟩
theorem ex164_ok : ex164.Ok := by
  constructor <;> decide +kernel

/-! ### 1858 -/

/-- The dictionary documented for data-set 1858 (`/repo/pyuff/datasets/dataset_1858.py:140-300`). -/
def DS1858.dict (r : DS1858) : Dict :=
  ([("type", .int 1858), ("record_num", .int r.recordNum), ("octave_format", .int r.octave),
    ("measurement_run", .int r.run), ("weighting_type", .int r.weighting), ("window_type", .int r.window),
    ("amplitude_units", .int r.ampUnits), ("normalization_method", .int r.normMethod),
    ("abscissa_data_type_qualifier", .int r.absQual), ("ordinate_numerator_data_type_qualifier", .int r.numQual),
    ("ordinate_denominator_data_type_qualifier", .int r.denQual), ("z_axis_data_type_qualifier", .int r.zQual)] : Dict) ++
  ([("sampling_type", .int r.sampling), ("z_rpm_value", .float r.rpm), ("z_time_value", .float r.ztime),
    ("z_order_value", .float r.order), ("num_of_samples", .float r.samples), ("user_value_1", .float r.user1),
    ("user_value_2", .float r.user2), ("user_value_3", .float r.user3), ("user_value_4", .float r.user4),
    ("exponential_window_damping_factor", .float r.damping), ("response_direction", .str r.response),
    ("reference_direction", .str r.reference)] : Dict)

theorem DS1858.given (e : Env) (fd : Bool) (r : DS1858) (ok : r.Ok) : Given e fd r.dict (.s1858 r) := by
  refine ⟨_, cleanD_none rfl, ?_, ok⟩
  constructor <;> first | rfl | exact ⟨_, rfl, rfl⟩

/-- Qualifiers. -/
def ex1858 : DS1858 :=
  ⟨1, 2, 3, 4, 5, 6, 7, 8, 9, -10, 11, 12, fA, fB, fC, fA, fB, fC, F64.zero, fA, fB, "X+".toList, "-Y".toList⟩
theorem ex1858_ok : ex1858.Ok := ⟨by constructor <;> decide +kernel, by decide +kernel, by decide +kernel⟩

/-! ### 2400 -/

/-- The dictionary documented for data-set 2400 (`/repo/pyuff/datasets/dataset_2400.py:109-200`). -/
def DS2400.dict (r : DS2400) : Dict :=
  [("type", .int 2400), ("model_uid", .int r.uid), ("entity_type", .int r.entityType), ("entity_subtype", .int r.subtype),
   ("version_number", .int r.version), ("entity_name", .str r.name), ("part_number", .str r.part),
   ("status_mask", .arrI r.mask), ("date", .str r.date), ("time", .str r.time), ("idm_version_id", .int r.idmVersion),
   ("idm_item_id", .int r.idmItem), ("primary_parent_uid", .int r.parent), ("optimization_switches", .int r.switches)]

theorem DS2400.given (e : Env) (fd : Bool) (r : DS2400) (ok : r.Ok) : Given e fd r.dict (.s2400 r) := by
  refine ⟨_, cleanD_none rfl, ?_, ok⟩
  constructor <;> first | rfl | exact ⟨_, rfl, rfl⟩ | exact isSeq_arrI _

/-- A model header. -/
def ex2400 : DS2400 :=
  ⟨123456789012, 7, -5, 3, "Wing".toList, "P-17".toList, List.replicate 16 0 ++ List.replicate 16 1, "01-Jan-26".toList,
   "10:00".toList, -1, -1, 5, 0⟩
theorem ex2400_ok : ex2400.Ok := by
  constructor <;> decide +kernel

/-! ### 2411 -/

/-- The dictionary documented for data-set 2411 (`/repo/pyuff/datasets/dataset_2411.py:90-170`). -/
def DS2411.dict (r : DS2411) : Dict :=
  [("type", .int 2411), ("node_nums", .arrI (r.nodes.map (·.num))), ("def_cs", .arrI (r.nodes.map (·.defCs))),
   ("disp_cs", .arrI (r.nodes.map (·.dispCs))), ("color", .arrI (r.nodes.map (·.color))), ("x", .arrF (r.nodes.map (·.x))),
   ("y", .arrF (r.nodes.map (·.y))), ("z", .arrF (r.nodes.map (·.z)))]

theorem DS2411.given (e : Env) (fd : Bool) (r : DS2411) (ok : r.Ok) : Given e fd r.dict (.s2411 r) :=
  ⟨_, cleanD_none rfl, ⟨rfl, ⟨_, rfl, isSeq_arrI _⟩, ⟨_, rfl, isSeq_arrI _⟩, ⟨_, rfl, isSeq_arrI _⟩, ⟨_, rfl, isSeq_arrI _⟩,
    ⟨_, rfl, isSeq_arrF _⟩, ⟨_, rfl, isSeq_arrF _⟩, ⟨_, rfl, isSeq_arrF _⟩⟩, ok⟩

/-- Two nodes. -/
def ex2411 : DS2411 := ⟨[⟨1, 0, 0, 8, fA, fB, F64.zero⟩, ⟨-1, 2, 3, 11, fB, fA, fC⟩]⟩
theorem ex2411_ok : ex2411.Ok := by
  intro n hn
  simp only [ex2411, List.mem_cons, List.not_mem_nil, or_false] at hn
  rcases hn with rfl | rfl <;> constructor <;> decide +kernel

/-! ### 2420 -/

/-- The dictionary documented for data-set 2420 (`/repo/pyuff/datasets/dataset_2420.py:113-202`). -/
def DS2420.dict (r : DS2420) : Dict :=
  [("type", .int 2420), ("Part_UID", .int r.uid), ("Part_Name", .str r.name),
   ("CS_sys_labels", .arrI (r.systems.map (·.label))), ("CS_types", .arrI (r.systems.map (·.type))),
   ("CS_colors", .arrI (r.systems.map (·.color))), ("CS_names", .list ((r.systems.map (·.name)).map .str)),
   ("CS_matrices", .list (r.systems.map (·.mat)))]

theorem DS2420.given (e : Env) (fd : Bool) (r : DS2420) (ok : r.Ok) : Given e fd r.dict (.s2420 r) :=
  ⟨_, cleanD_none rfl, ⟨rfl, rfl, rfl, ⟨_, rfl, isSeq_arrI _⟩, isSeq_arrI _, isSeq_arrI _, ⟨_, rfl, isSeq_strs _⟩, rfl⟩, ok⟩

/-- Two coordinate systems. -/
def ex2420 : DS2420 := ⟨1, "Part".toList, [⟨1, 0, 8, "CS 1".toList, exPt, exPt, exPt, exPt⟩,
  ⟨2, 1, 8, "".toList, exPt, exPt, exPt, exPt⟩]⟩
theorem ex2420_ok : ex2420.Ok where
  uid := by decide
  uid1 := by decide
  name := by decide
  nameD := by decide +kernel
  systems := by
    intro n hn
    simp only [ex2420, List.mem_cons, List.not_mem_nil, or_false] at hn
    rcases hn with rfl | rfl <;>
      exact ⟨by decide, by decide, by decide, by decide, by decide, by decide +kernel, exPt_finite, exPt_finite,
        exPt_finite, exPt_finite⟩

/-! ### 2412 -/

/-- The dictionary of an element. -/
theorem Elem.isElem (e : Elem) : IsElem (.dict e.dict) e := by
  have hn : IsSeq IsInt (.list (e.nodes.map .int)) e.nodes := by
    have := isSeq_map (P := IsInt) e.nodes .int id (.list (e.nodes.map .int)) rfl (fun _ _ => rfl)
    rwa [List.map_id] at this
  refine ⟨e.dict, rfl, ?_⟩
  unfold Elem.dict
  by_cases h : e.fe ∈ [(11 : Int), 21, 22, 23, 24]
  · simp only [h, if_true]
    exact ⟨⟨_, rfl, rfl⟩, rfl, ⟨_, rfl, rfl⟩, ⟨_, rfl, rfl⟩, ⟨_, rfl, rfl⟩, ⟨_, rfl, rfl⟩, ⟨_, rfl, hn⟩,
      fun _ => ⟨⟨_, rfl, rfl⟩, ⟨_, rfl, rfl⟩, ⟨_, rfl, rfl⟩⟩⟩
  · simp only [h, if_false]
    exact ⟨⟨_, rfl, rfl⟩, rfl, ⟨_, rfl, rfl⟩, ⟨_, rfl, rfl⟩, ⟨_, rfl, rfl⟩, ⟨_, rfl, rfl⟩, ⟨_, rfl, hn⟩,
      fun h' => absurd (by simp [h']) h⟩

/-- The groups of elements under the integer keys `i`, `i + 1`, ... -/
def DS2412.entries : Nat → List (List Elem) → Dict
  | _, [] => []
  | i, g :: r => (.i i, .list (g.map fun e => .dict e.dict)) :: entries (i + 1) r

/-- A dictionary for data-set 2412, of the shape returned by the reader
(`/repo/pyuff/datasets/dataset_2412.py:68-133`). -/
def DS2412.dict (r : DS2412) : Dict := ("type", .int 2412) :: DS2412.entries 1 r.groups

theorem DS2412.get?_entries (i : Nat) (g : List (List Elem)) (k : String) : Dict.get? (DS2412.entries i g) (.s k) = none := by
  induction g generalizing i with
  | nil => rfl
  | cons a g ih => simp [entries, Dict.get?, ih]

theorem DS2412.intEntries_entries (i : Nat) (g : List (List Elem)) :
    Each (IsSeq IsElem) (DS2412.intEntries (DS2412.entries i g)) g := by
  induction g generalizing i with
  | nil => exact .nil
  | cons a g ih =>
    simp only [entries, intEntries, List.filterMap_cons]
    refine .cons ?_ (ih (i + 1))
    have := isSeq_map (P := IsElem) a (fun e => .dict e.dict) id (.list (a.map fun e => .dict e.dict)) rfl
      (fun e _ => e.isElem)
    rwa [List.map_id] at this

theorem DS2412.given (e : Env) (fd : Bool) (r : DS2412) (ok : r.Ok) : Given e fd r.dict (.s2412 r) := by
  refine ⟨r.dict, cleanD_none ?_, ⟨rfl, ?_⟩, ok⟩
  · unfold DS2412.dict
    rw [Dict.get?, if_neg (by decide)]
    exact DS2412.get?_entries 1 r.groups "data"
  · exact DS2412.intEntries_entries 1 r.groups

/-- A rod, a triangle and two quads. -/
def ex2412 : DS2412 := ⟨[[⟨1, 11, 1, 1, 5, 2, (0, 1, 1), [1, 2]⟩, ⟨2, 41, 1, 1, 5, 3, (0, 0, 0), [1, 2, 3]⟩],
  [⟨3, 44, 1, 1, 5, 4, (0, 0, 0), [1, 2, 3, 4]⟩, ⟨4, 44, 1, 1, 5, 4, (0, 0, 0), [3, 4, 5, 6]⟩]]⟩
theorem ex2412_ok : ex2412.Ok := by
  intro n hn
  simp only [DS2412.elems, ex2412, List.flatten_cons, List.flatten_nil, List.append_nil, List.cons_append,
    List.nil_append, List.mem_cons, List.not_mem_nil, or_false] at hn
  rcases hn with rfl | rfl | rfl | rfl <;> exact ⟨by constructor <;> decide +kernel, by decide⟩

/-! ### 2429 -/

/-- The entries of the head of a group. -/
def Grp.entries (g : Grp) : Dict :=
  [("group_number", .int g.num), ("active_constraint_set_no_for_group", .int g.constraint),
   ("active_restraint_set_no_for_group", .int g.restraint), ("active_load_set_no_for_group", .int g.load),
   ("active_dof_set_no_for_group", .int g.dof), ("active_temperature_set_no_for_group", .int g.temperature),
   ("active_contact_set_no_for_group", .int g.contact), ("group_name", .str g.name)]

/-- A dictionary as the writer of data-set 2429 takes it (`/repo/pyuff/datasets/dataset_2429.py:71-119`). -/
def DS2429.dict (r : DS2429) : Dict :=
  ([("type", .int 2429), ("entity_type_code", .arrI (r.ents.map (·.code))), ("entity_tag", .arrI (r.ents.map (·.tag)))]
    : Dict) ++ r.grp.entries

theorem DS2429.given (e : Env) (fd : Bool) (r : DS2429) (ok : r.Ok) : Given e fd r.dict (.s2429 r) :=
  ⟨_, cleanD_none rfl, ⟨rfl, ⟨_, rfl, rfl⟩, rfl, rfl, rfl, rfl, rfl, rfl, ⟨_, rfl, rfl⟩, ⟨_, rfl, isSeq_arrI _⟩,
    ⟨_, rfl, isSeq_arrI _⟩⟩, ok⟩

/-- A group head. -/
def exGrp : Grp := ⟨1, 2, 3, 4, 5, 6, 7, "GROUP A".toList⟩
theorem exGrp_ok : exGrp.Ok := by constructor <;> decide +kernel

/-- A group of four entities. -/
def ex2429 : DS2429 := ⟨exGrp, [⟨7, 1⟩, ⟨7, 2⟩, ⟨8, 3⟩, ⟨8, 4⟩]⟩
theorem ex2429_ok : ex2429.Ok := ⟨exGrp_ok, by decide, by decide, by decide, by decide, by decide⟩

/-! ### 2467 -/

/-- The dictionary of a group (`/repo/pyuff/datasets/dataset_2467.py:154-250`). -/
def Group4.dict' (g : Group4) : Dict :=
  g.grp.entries ++ ([("entity_type_code", .arrI (g.ents.map (·.code))), ("entity_tag", .arrI (g.ents.map (·.tag))),
    ("entity_node_leaf_id", .arrI (g.ents.map (·.leaf))), ("entity_component_id", .arrI (g.ents.map (·.comp)))] : Dict)

theorem Group4.isGroup (g : Group4) : IsGroup (.dict g.dict') g :=
  ⟨g.dict', rfl, ⟨_, rfl, rfl⟩, ⟨_, rfl, rfl⟩, ⟨_, rfl, rfl⟩, ⟨_, rfl, rfl⟩, ⟨_, rfl, rfl⟩, ⟨_, rfl, rfl⟩, ⟨_, rfl, rfl⟩,
    ⟨_, rfl, rfl⟩, ⟨_, rfl, isSeq_arrI _⟩, ⟨_, rfl, isSeq_arrI _⟩, ⟨_, rfl, isSeq_arrI _⟩, ⟨_, rfl, isSeq_arrI _⟩⟩

/-- The dictionary documented for data-set 2467 (`/repo/pyuff/datasets/dataset_2467.py:252-300`). -/
def DS2467.dict (r : DS2467) : Dict :=
  [("type", .int 2467), ("groups", .list (r.groups.map fun g => .dict g.dict'))]

theorem DS2467.given (e : Env) (fd : Bool) (r : DS2467) (ok : r.Ok) : Given e fd r.dict (.s2467 r) := by
  refine ⟨_, cleanD_none rfl, ⟨rfl, _, rfl, ?_⟩, ok⟩
  have := isSeq_map (P := IsGroup) r.groups (fun g => .dict g.dict') id (.list (r.groups.map fun g => .dict g.dict')) rfl
    (fun g _ => g.isGroup)
  rwa [List.map_id] at this

/-- Two groups, of three entities and of none. -/
def ex2467 : DS2467 := ⟨[⟨exGrp, [⟨7, 1, 0, 0⟩, ⟨7, 2, 0, 0⟩, ⟨8, -1, 0, 4⟩]⟩, ⟨exGrp, []⟩]⟩
theorem ex2467_ok : ex2467.Ok := by
  intro g hg
  simp only [ex2467, List.mem_cons, List.not_mem_nil, or_false] at hg
  rcases hg with rfl | rfl <;> exact ⟨exGrp_ok, by decide, by decide, by decide, by decide, by decide, by decide⟩

/-! ### 55 -/

/-- The entries of the analysis type. -/
def Head55.dict : Head55 → Dict
  | .normal load mode freq m vis his => [("load_case", .int load), ("mode_n", .int mode), ("freq", .float freq),
     ("modal_m", .float m), ("modal_damp_vis", .float vis), ("modal_damp_his", .float his)]
  | .cmplx _ load mode eig a b => [("load_case", .int load), ("mode_n", .int mode), ("eig", .cplx eig.1 eig.2),
     ("modal_a", .cplx a.1 a.2), ("modal_b", .cplx b.1 b.2)]
  | .frf load step freq => [("load_case", .int load), ("freq_step_n", .int step), ("freq", .float freq)]

/-- The entries of the data. -/
def Data55.dict : Data55 → Dict
  | .real3 l => [("node_nums", .arrI (l.map (·.num))), ("r1", .arrF (l.map (·.x))), ("r2", .arrF (l.map (·.y))),
     ("r3", .arrF (l.map (·.z)))]
  | .real6 l => [("node_nums", .arrI (l.map (·.num))), ("r1", .arrF (l.map (·.x))), ("r2", .arrF (l.map (·.y))),
     ("r3", .arrF (l.map (·.z))), ("r4", .arrF (l.map (·.xx))), ("r5", .arrF (l.map (·.yy))),
     ("r6", .arrF (l.map (·.zz)))]
  | .cplx3 l => [("node_nums", .arrI (l.map (·.num))), ("r1", .arrC (l.map (·.x))), ("r2", .arrC (l.map (·.y))),
     ("r3", .arrC (l.map (·.z)))]

/-- The dictionary documented for data-set 55 (`/repo/pyuff/datasets/dataset_55.py:541-745`). -/
def DS55.dict (r : DS55) : Dict :=
  ([("type", .int 55), ("id1", .str r.id1), ("id2", .str r.id2), ("id3", .str r.id3), ("id4", .str r.id4),
    ("id5", .str r.id5), ("model_type", .int r.model), ("analysis_type", .int (DS55.anType r.head)),
    ("data_ch", .int r.ch), ("spec_data_type", .int r.spec)] : Dict) ++ (r.head.dict ++ r.data.dict)

theorem DS55.given (e : Env) (fd : Bool) (r : DS55) (ok : r.Ok) : Given e fd r.dict (.s55 r) := by
  obtain ⟨i1, i2, i3, i4, i5, model, ch, spec, head, data⟩ := r
  refine ⟨_, cleanD_none ?_, ⟨⟨rfl, rfl, rfl, rfl, rfl, rfl, rfl, rfl, ⟨_, rfl, rfl⟩, ⟨_, rfl, rfl⟩, ?_, ?_⟩, ?_⟩, ok⟩
  · rcases head with _ | _ | _ <;> rcases data with _ | _ | _ <;> rfl
  · rcases head with _ | _ | _
    · exact ⟨⟨_, rfl, rfl⟩, ⟨_, rfl, rfl⟩, ⟨_, rfl, rfl⟩, rfl, rfl, rfl⟩
    · exact ⟨⟨_, rfl, rfl⟩, ⟨_, rfl, rfl⟩, ⟨_, rfl, rfl⟩, rfl, rfl⟩
    · exact ⟨⟨_, rfl, rfl⟩, ⟨_, rfl, rfl⟩, ⟨_, rfl, rfl⟩⟩
  · have hr : ∀ {o : Option Val} {l : List F64}, o = some (.arrF l) → o ≠ some (.arrC []) := by
      rintro _ l rfl h; cases h
    rcases head with _ | _ | _ <;> rcases data with l | l | l
    all_goals first
      | exact ⟨⟨_, rfl, isSeq_arrI _⟩, ⟨_, rfl, isSeq_arrF _⟩, ⟨_, rfl, isSeq_arrF _⟩, ⟨_, rfl, isSeq_arrF _⟩,
          hr (l := l.map (·.x)) rfl, fun h => Bool.false_ne_true h.1⟩
      | exact ⟨⟨_, rfl, isSeq_arrI _⟩, ⟨_, rfl, isSeq_arrF _⟩, ⟨_, rfl, isSeq_arrF _⟩, ⟨_, rfl, isSeq_arrF _⟩,
          ⟨_, rfl, isSeq_arrF _⟩, ⟨_, rfl, isSeq_arrF _⟩, ⟨_, rfl, isSeq_arrF _⟩, hr (l := l.map (·.x)) rfl⟩
      | exact ⟨⟨_, rfl, isSeq_arrI _⟩, ⟨_, rfl, isSeq_arrC _⟩, ⟨_, rfl, isSeq_arrC _⟩, ⟨_, rfl, isSeq_arrC _⟩,
          by rintro rfl; rfl⟩
  · intro l hl
    obtain rfl : data = .cplx3 l := hl
    rcases head with _ | _ | _ <;> exact fun h => Bool.false_ne_true h.1

/-- A normal mode with rotations. -/
def ex55r : DS55 :=
  ⟨"mode 1".toList, "".toList, "NONE".toList, "x".toList, "y  -1 z".toList, 1, 3, 8,
   .normal 1 2 fA fC fB F64.zero, .real6 [⟨1, fA, fB, fC, fA, fB, fC⟩, ⟨-2, fB, fB, fC, fA, fB, F64.zero⟩]⟩
/-- A complex mode. -/
def ex55c : DS55 :=
  ⟨"mode 1".toList, "".toList, "NONE".toList, "x".toList, "y".toList, 1, 2, 8,
   .cmplx false 1 2 (fA, fB) (fC, fB) (fB, F64.zero), .cplx3 [⟨1, (fA, fB), (fC, fA), (fB, fC)⟩]⟩
theorem ex55r_ok : ex55r.Ok where
  id1 := by decide +kernel
  id2 := by decide +kernel
  id3 := by decide +kernel
  id4 := by decide +kernel
  id5 := by decide +kernel
  model := by decide
  ch := by decide
  spec := by decide
  head := ⟨by decide, by decide, by decide, by decide +kernel, by decide +kernel, by decide +kernel, by decide +kernel⟩
  data := by
    intro n hn
    simp only [List.mem_cons, List.not_mem_nil, or_false] at hn
    rcases hn with rfl | rfl <;>
      exact ⟨by decide, by decide, by decide +kernel, by decide +kernel, by decide +kernel, by decide +kernel,
        by decide +kernel, by decide +kernel⟩
theorem ex55c_ok : ex55c.Ok where
  id1 := by decide +kernel
  id2 := by decide +kernel
  id3 := by decide +kernel
  id4 := by decide +kernel
  id5 := by decide +kernel
  model := by decide
  ch := by decide
  spec := by decide
  head := ⟨by decide, by decide, by decide, ⟨by decide +kernel, by decide +kernel⟩, ⟨by decide +kernel, by decide +kernel⟩,
    ⟨by decide +kernel, by decide +kernel⟩⟩
  data := by
    intro n hn
    simp only [List.mem_cons, List.not_mem_nil, or_false] at hn
    subst hn
    exact ⟨by decide, by decide, ⟨by decide +kernel, by decide +kernel⟩, ⟨by decide +kernel, by decide +kernel⟩,
      ⟨by decide +kernel, by decide +kernel⟩⟩

/-! ### 58 -/

/-- The ordinate as an array. -/
def Ord58.val : Ord58 → Val
  | .real l => .arrF l
  | .cplx l => .arrC l

/-- The flag `binary`. -/
def Store58.flag : Store58 → Int
  | .ascii _ => 0
  | .binary _ => 1

/-- The entries of an axis. -/
def Axis58.dict (spec len force temp lab units : Key) (a : Axis58) : Dict :=
  [(spec, .int a.spec), (len, .int a.len), (force, .int a.force), (temp, .int a.temp), (lab, .str a.lab),
   (units, .str a.units)]

/-- The dictionary documented for data-set 58 (`/repo/pyuff/datasets/dataset_58.py:1154-1501`). -/
def DS58.dict (r : DS58) : Dict :=
  ([("type", .int 58), ("binary", .int r.store.flag), ("id1", .str r.id1), ("id2", .str r.id2), ("id3", .str r.id3),
    ("id4", .str r.id4), ("id5", .str r.id5), ("func_type", .int r.func), ("func_id", .int r.funcId),
    ("ver_num", .int r.ver), ("load_case_id", .int r.load), ("rsp_ent_name", .str r.rspName)] : Dict) ++
  (([("rsp_node", .int r.rspNode), ("rsp_dir", .int r.rspDir), ("ref_ent_name", .str r.refName),
    ("ref_node", .int r.refNode), ("ref_dir", .int r.refDir), ("ord_data_type", .int r.ordType),
    ("abscissa_spacing", .int (if r.even then 1 else 0)), ("z_axis_value", .float r.zValue), ("x", .arrF r.abscissaVals),
    ("data", r.ord.val)] : Dict) ++
  (r.abscissa.dict "abscissa_spec_data_type" "abscissa_len_unit_exp" "abscissa_force_unit_exp"
    "abscissa_temp_unit_exp" "abscissa_axis_lab" "abscissa_axis_units_lab" ++
  (r.ordinate.dict "ordinate_spec_data_type" "ordinate_len_unit_exp" "ordinate_force_unit_exp"
    "ordinate_temp_unit_exp" "ordinate_axis_lab" "ordinate_axis_units_lab" ++
  (r.orddenom.dict "orddenom_spec_data_type" "orddenom_len_unit_exp" "orddenom_force_unit_exp"
    "orddenom_temp_unit_exp" "orddenom_axis_lab" "orddenom_axis_units_lab" ++
   r.zAxis.dict "z_axis_spec_data_type" "z_axis_len_unit_exp" "z_axis_force_unit_exp"
    "z_axis_temp_unit_exp" "z_axis_axis_lab" "z_axis_axis_units_lab"))))

theorem cleanF_self {x : F64} (h : x.finite = true) : CleanF x x := .inl ⟨h, rfl⟩

theorem oneByOne_refl {α} {P : α → α → Prop} {l : List α} (h : ∀ x ∈ l, P x x) : OneByOne P l l := by
  refine ⟨rfl, fun i x y hx hy => ?_⟩
  rw [hx] at hy; cases hy
  exact h x (List.mem_of_getElem? hx)

theorem Dict.set_self {d : Dict} {k : Key} {v : Val} (h : d.get? k = some v) : d.set k v = d := by
  induction d with
  | nil => cases h
  | cons p d ih =>
    obtain ⟨k', v'⟩ := p
    unfold Dict.get? at h
    unfold Dict.set
    split
    next hk => rw [if_pos hk] at h; cases h; rw [hk]
    next hk => rw [if_neg hk] at h; rw [ih h]

theorem Ord58.clean {o : Ord58} (h : DS58.OrdOk o) : CleanV o.val o.val := by
  cases o with
  | real l => exact .arrF (oneByOne_refl fun x hx => cleanF_self (h x hx))
  | cplx l => exact .arrC (oneByOne_refl fun x hx => ⟨cleanF_self (h x hx).1, cleanF_self (h x hx).2⟩)

theorem DS58.given (e : Env) (fd : Bool) (r : DS58) (ok : r.Ok) (hd : fd = true → r.store ≠ .ascii false)
    (hl : ∀ le, r.store = .binary le → le = e.little) : Given e fd r.dict (.s58 r) := by
  have hdata : r.dict.get? "data" = some r.ord.val := rfl
  refine ⟨r.dict, .inr ⟨_, _, hdata, Ord58.clean ok.ord, (Dict.set_self hdata).symm⟩, ?_, ok⟩
  refine ⟨⟨rfl, rfl, rfl, rfl, rfl, rfl, rfl, rfl, rfl, rfl, rfl, ⟨_, rfl, rfl⟩, ⟨_, rfl, rfl⟩, rfl, ⟨_, rfl, rfl⟩,
    ⟨_, rfl, rfl⟩, rfl, ⟨rfl, rfl, rfl, rfl, rfl, rfl⟩, ⟨rfl, rfl, rfl, rfl, rfl, rfl⟩, rfl,
    ⟨rfl, rfl, rfl, rfl, rfl, rfl⟩, ⟨rfl, rfl, rfl, rfl, rfl, rfl⟩, ⟨_, rfl, .inl rfl⟩, ⟨_, rfl, isSeq_arrF' _⟩, ?_⟩, ?_⟩
  · unfold DS58.OrdRep
    cases h : r.ord <;> simp [hdata, h, Ord58.val]
  · have hb : r.dict.get? "binary" = some (.int r.store.flag) := rfl
    have ho : r.dict.get? "ord_data_type" = some (.int r.ordType) := rfl
    unfold DS58.StoreRep
    cases h : r.store with
    | ascii double =>
      refine ⟨⟨_, rfl, .inl ?_⟩, ?_⟩
      · unfold Dict.getOr
        rw [hb, h]; rfl
      · cases fd with
        | false => exact ho
        | true =>
          have := hd rfl
          rw [h] at this
          cases double <;> simp_all
    | binary le =>
      refine ⟨⟨_, hb, .inl ?_⟩, hl le h, fun _ => ho⟩
      rw [h]; rfl

/-- An axis. -/
def exAxis : Axis58 := ⟨18, 0, -1, 0, "Frequency".toList, "Hz".toList⟩
theorem exAxis_ok : DS58.AxisOk exAxis := by
  constructor <;> decide +kernel

/-- A frequency response of three points. -/
def ex58 (even : Bool) (ord : Ord58) (store : Store58) : DS58 :=
  ⟨"FRF".toList, "".toList, "NONE".toList, "a -1 b".toList, "e".toList, 4, 0, 1, -1, "beam".toList, 1, 3, "NONE".toList, 2,
    -3, fB, exAxis, exAxis, exAxis, exAxis, F64.zero, fC, [fA], even, ord, store⟩
/-- Real data. -/
def exReal : Ord58 := .real [fA, fB, fC]
/-- Complex data. -/
def exCplx : Ord58 := .cplx [(fA, fB), (fC, fC), (fB, fA)]

theorem ex58_fit (even : Bool) (ord : Ord58) (store : Store58) (hord : ord = exReal ∨ ord = exCplx) :
    (ex58 even ord store).Fit := by
  constructor
  all_goals try (dsimp only [ex58]; decide +kernel)
  all_goals try exact exAxis_ok
  · rcases hord with rfl | rfl <;> exact (by decide : 0 < 3)
  · rcases hord with rfl | rfl <;> exact (by decide : 3 < 10 ^ 10)
  · intro x hx
    simp only [DS58.abscissaVals, ex58, List.mem_cons, List.not_mem_nil, or_false] at hx
    rcases hx with rfl | rfl | rfl <;> decide +kernel
  · rcases hord with rfl | rfl <;> intro _ <;> rfl
  · rcases hord with rfl | rfl
    · intro y hy
      simp only [List.mem_cons, List.not_mem_nil, or_false] at hy
      rcases hy with rfl | rfl | rfl <;> decide +kernel
    · intro y hy
      simp only [List.mem_cons, List.not_mem_nil, or_false] at hy
      rcases hy with rfl | rfl | rfl <;> exact ⟨by decide +kernel, by decide +kernel⟩

theorem ex58_ok (even : Bool) (ord : Ord58) (store : Store58) (hord : ord = exReal ∨ ord = exCplx) :
    (ex58 even ord store).Ok := by
  refine ⟨ex58_fit even ord store hord, ?_⟩
  rcases store with _ | le
  · trivial
  · show ¬ _
    rcases hord with rfl | rfl <;> cases even <;> cases le <;> decide +kernel

/-! ### 2414 -/

/-- The header entries of a frequency response. -/
def FreqHead.dict (h : FreqHead) : Dict :=
  [("design_set_id", .int h.ids.a1), ("iteration_number", .int h.ids.a2), ("solution_set_id", .int h.ids.a3),
   ("boundary_condition", .int h.ids.a4), ("load_set", .int h.ids.a5), ("mode_number", .int h.ids.a6),
   ("time_step_number", .int h.ids.a7), ("frequency_number", .int h.ids.a8), ("creation_option", .int h.creation),
   ("number_retained", .int h.retained), ("time", .float h.rec12.x1), ("frequency", .float h.rec12.x2),
   ("eigenvalue", .float h.rec12.x3), ("modal_mass", .float h.rec12.x4), ("viscous_damping", .float h.rec12.x5),
   ("hysteretic_damping", .float h.rec12.x6), ("real_part_eigenvalue", .float h.rec13.x1),
   ("imaginary_part_eigenvalue", .float h.rec13.x2), ("real_part_of_modal_A_or_modal_mass", .float h.rec13.x3),
   ("imaginary_part_of_modal_A_or_modal_mass", .float h.rec13.x4),
   ("real_part_of_modal_B_or_modal_mass", .float h.rec13.x5),
   ("imaginary_part_of_modal_B_or_modal_mass", .float h.rec13.x6)]

/-- The data entries of a frequency response. -/
def FreqData.dict : FreqData → Dict
  | .one l => [("node_nums", .arrI (l.map (·.num))), ("x", .arrC (l.map (·.x)))]
  | .two l => [("node_nums", .arrI (l.map (·.num))), ("x", .arrC (l.map (·.x))), ("y", .arrC (l.map (·.y)))]
  | .three l => [("node_nums", .arrI (l.map (·.num))), ("x", .arrC (l.map (·.x))), ("y", .arrC (l.map (·.y))),
     ("z", .arrC (l.map (·.z)))]

/-- The header entries of the other analysis types. -/
def PlainHead.dict (h : PlainHead) : Dict :=
  [("record10_field1", .int h.rec10.a1), ("record10_field2", .int h.rec10.a2), ("record10_field3", .int h.rec10.a3),
   ("record10_field4", .int h.rec10.a4), ("record10_field5", .int h.rec10.a5), ("record10_field6", .int h.rec10.a6),
   ("record10_field7", .int h.rec10.a7), ("record10_field8", .int h.rec10.a8), ("record11_field1", .int h.rec11.a1),
   ("record11_field2", .int h.rec11.a2), ("record11_field3", .int h.rec11.a3), ("record11_field4", .int h.rec11.a4),
   ("record11_field5", .int h.rec11.a5), ("record11_field6", .int h.rec11.a6), ("record11_field7", .int h.rec11.a7),
   ("record11_field8", .int h.rec11.a8), ("record12_field1", .float h.rec12.x1),
   ("record12_field2", .float h.rec12.x2), ("record12_field3", .float h.rec12.x3),
   ("record12_field4", .float h.rec12.x4), ("record12_field5", .float h.rec12.x5),
   ("record12_field6", .float h.rec12.x6), ("record13_field1", .float h.rec13.x1),
   ("record13_field2", .float h.rec13.x2), ("record13_field3", .float h.rec13.x3),
   ("record13_field4", .float h.rec13.x4), ("record13_field5", .float h.rec13.x5),
   ("record13_field6", .float h.rec13.x6)]

/-- The data entries of the other analysis types. -/
def PlainData.dict : PlainData → Dict
  | .atNodes l => [("node_nums", .arrI (l.map (·.num))), ("data_at_node", .list (l.map fun n => .arrF n.vals))]
  | .onElems l => [("element_nums", .arrI (l.map (·.num))), ("data_at_element", .list (l.map fun n => .arrF n.vals))]
  | .atElemNodes l => [("element_nums", .arrI (l.map (·.num))), ("IEXP", .arrI (l.map (·.iexp))),
     ("number_of_nodes", .arrI (l.map (·.nodes))), ("number_of_values_per_node", .arrI (l.map (·.nvals))),
     ("data_at_nodes_on_element", .list (l.map fun e => .list (e.rows.map .arrF)))]
  | .other _ => []

/-- What depends on the analysis type. -/
def Body2414.dict : Body2414 → Dict
  | .freq _ h d => h.dict ++ d.dict
  | .plain _ _ h d => h.dict ++ d.dict

/-- The dictionary documented for data-set 2414 (`/repo/pyuff/datasets/dataset_2414.py:14-541`). -/
def DS2414.dict (r : DS2414) : Dict :=
  ([("type", .int 2414), ("analysis_dataset_label", .int r.label), ("analysis_dataset_name", .str r.name),
    ("dataset_location", .int (DS2414.loc r.body)), ("id1", .str r.id1), ("id2", .str r.id2), ("id3", .str r.id3),
    ("id4", .str r.id4), ("id5", .str r.id5), ("model_type", .int r.model),
    ("analysis_type", .int (DS2414.analysis r.body)), ("data_characteristic", .int r.ch), ("result_type", .int r.result),
    ("data_type", .int r.dtype), ("number_of_data_values_for_the_data_component", .int (DS2414.comps r.body))] : Dict) ++
  r.body.dict

theorem isSeq_arrFs (l : List (List F64)) : IsSeq (IsSeq IsFloat) (.list (l.map .arrF)) l := by
  have := isSeq_map (P := IsSeq IsFloat) l Val.arrF id (.list (l.map .arrF)) rfl fun x _ => isSeq_arrF x
  rwa [List.map_id] at this

theorem DS2414.given (e : Env) (fd : Bool) (r : DS2414) (ok : r.Ok) : Given e fd r.dict (.s2414 r) := by
  obtain ⟨label, name, i1, i2, i3, i4, i5, model, ch, result, dtype, body⟩ := r
  have a : ∀ l : List Int, DS2414.IsArray (.arrI l) ∧ IsSeq IsInt (.arrI l) l := fun l => ⟨.inl ⟨l, rfl⟩, isSeq_arrI l⟩
  have vs : ∀ l : List Vals, IsSeq (IsSeq IsFloat) (.list (l.map fun n => .arrF n.vals)) (l.map (·.vals)) :=
    fun l => isSeq_map l _ _ _ rfl fun n _ => isSeq_arrF n.vals
  refine ⟨_, cleanD_none ?_, ⟨rfl, ⟨_, rfl, rfl⟩, ⟨_, rfl, rfl⟩, rfl, ⟨_, rfl, rfl⟩, ⟨_, rfl, rfl⟩, ⟨_, rfl, rfl⟩,
    ⟨_, rfl, rfl⟩, ⟨_, rfl, rfl⟩, ⟨_, rfl, rfl⟩, rfl, ⟨_, rfl, rfl⟩, ⟨_, rfl, rfl⟩, ⟨_, rfl, rfl⟩, rfl, ?_⟩, ok⟩
  · rcases body with ⟨_, _, _ | _ | _⟩ | ⟨_, _, _, _ | _ | _ | _⟩ <;> rfl
  · rcases body with ⟨_, h, d⟩ | ⟨_, _, h, d⟩
    · refine ⟨⟨⟨_, rfl, rfl⟩, ⟨_, rfl, rfl⟩, ⟨_, rfl, rfl⟩, ⟨_, rfl, rfl⟩, ⟨_, rfl, rfl⟩, ⟨_, rfl, rfl⟩, ⟨_, rfl, rfl⟩, ⟨_, rfl, rfl⟩, ⟨_, rfl, rfl⟩, ⟨_, rfl, rfl⟩, ⟨_, rfl, rfl⟩, ⟨_, rfl, rfl⟩, ⟨_, rfl, rfl⟩, ⟨_, rfl, rfl⟩, ⟨_, rfl, rfl⟩, ⟨_, rfl, rfl⟩, ⟨_, rfl, rfl⟩, ⟨_, rfl, rfl⟩, ⟨_, rfl, rfl⟩, ⟨_, rfl, rfl⟩, ⟨_, rfl, rfl⟩, ⟨_, rfl, rfl⟩⟩, ?_⟩
      rcases d with l | l | l
      · exact ⟨⟨_, rfl, a _⟩, ⟨_, rfl, isSeq_arrC _⟩⟩
      · exact ⟨⟨_, rfl, a _⟩, ⟨_, rfl, isSeq_arrC _⟩, ⟨_, rfl, isSeq_arrC _⟩⟩
      · exact ⟨⟨_, rfl, a _⟩, ⟨_, rfl, isSeq_arrC _⟩, ⟨_, rfl, isSeq_arrC _⟩, ⟨_, rfl, isSeq_arrC _⟩⟩
    · refine ⟨⟨rfl, rfl, rfl, rfl, rfl, rfl, rfl, rfl, rfl, rfl, rfl, rfl, rfl, rfl, rfl, rfl, rfl, rfl, rfl, rfl, rfl, rfl, rfl, rfl, rfl, rfl, rfl, rfl⟩, ?_⟩
      rcases d with l | l | l | l
      · exact ⟨⟨_, rfl, a _⟩, ⟨_, rfl, vs l⟩⟩
      · exact ⟨⟨_, rfl, a _⟩, ⟨_, rfl, vs l⟩⟩
      · exact ⟨⟨_, rfl, a _⟩, ⟨_, rfl, isSeq_arrI _⟩, ⟨_, rfl, isSeq_arrI _⟩, ⟨_, rfl, isSeq_arrI _⟩, _, rfl,
          isSeq_map l _ _ _ rfl fun e _ => isSeq_arrFs e.rows⟩
      · trivial

/-- Eight integers. -/
def exEight : Eight := ⟨1, 0, -3, 4, 5, 6, 7, 9999999999⟩
theorem exEight_ok : exEight.Ok := ⟨by decide, by decide, by decide, by decide, by decide, by decide, by decide, by decide, by decide⟩
/-- Six numbers that are not negative. -/
def exSix : Six := ⟨fA, F64.zero, fC, fA, fC, F64.zero⟩
theorem eleven_A : Eleven fA := ⟨by decide, by decide +kernel⟩
theorem eleven_C : Eleven fC := ⟨by decide, by decide +kernel⟩
theorem eleven_0 : Eleven F64.zero := ⟨by decide, by decide +kernel⟩
theorem exSix_ok : exSix.Ok := ⟨eleven_A, eleven_0, eleven_C, eleven_A, eleven_C, eleven_0⟩
theorem apart_A : Apart fA := ⟨by decide, by decide +kernel⟩
theorem apart_B : Apart fB := ⟨by decide, by decide +kernel⟩

/-- A header. -/
def ex2414 (body : Body2414) : DS2414 :=
  ⟨3, "response".toList, "a".toList, "".toList, "NONE".toList, "x".toList, "y  -1 z".toList, 1, 3, 8, 5, body⟩
theorem ex2414_ok (body : Body2414) (h : DS2414.BodyOk body) (l : Fits 10 (DS2414.loc body))
    (l1 : DS2414.loc body ≠ -1) (a : Fits 10 (DS2414.analysis body)) (c : Fits 10 (DS2414.comps body))
    (c1 : DS2414.comps body ≠ -1) : (ex2414 body).Ok where
  label := show Fits 10 3 by decide
  label1 := show (3 : Int) ≠ -1 by decide
  name := show LineText 80 "response".toList by decide +kernel
  loc := l
  loc1 := l1
  id1 := show LineText 80 "a".toList by decide +kernel
  id2 := show LineText 80 "".toList by decide +kernel
  id3 := show LineText 80 "NONE".toList by decide +kernel
  id4 := show LineText 80 "x".toList by decide +kernel
  id5 := show LineText 80 "y  -1 z".toList by decide +kernel
  model := show Fits 10 1 by decide
  analysis := a
  ch := show Fits 10 3 by decide
  result := show Fits 10 8 by decide
  dtype := show Fits 10 5 by decide
  comps := c
  comps1 := c1
  body := h

/-- Three complex values at two nodes. -/
def exFreq : Body2414 := .freq 1 ⟨exEight, 0, 1, exSix, exSix⟩ (.three [⟨1, (fA, fB), (fB, fA), (fA, fA)⟩, ⟨20, (fB, fB), (fA, fB), (fB, fA)⟩])
theorem exFreq_ok : (ex2414 exFreq).Ok := by
  refine ex2414_ok _ ⟨exEight_ok, by decide, by decide, by decide, exSix_ok, exSix_ok, ?_⟩ (by decide) (by decide)
    (by decide) (by decide) (by decide)
  intro n hn
  simp only [List.mem_cons, List.not_mem_nil, or_false] at hn
  rcases hn with rfl | rfl <;> refine ⟨by decide, by decide, ⟨?_, ?_⟩⟩ <;> intro x hx <;>
    simp only [DS2414.parts, List.flatMap_cons, List.flatMap_nil, List.append_nil, List.cons_append, List.nil_append,
      List.mem_cons, List.not_mem_nil, or_false, List.tail_cons] at hx <;>
    rcases hx with rfl | rfl | rfl | rfl | rfl | rfl <;> first | with_reducible exact apart_A | with_reducible exact apart_B | decide

/-- The header of the other analysis types. -/
def exPlain (d : PlainData) : Body2414 := .plain 1 6 ⟨exEight, exEight, exSix, exSix⟩ d
theorem exPlain_ok (d : PlainData) (h : DS2414.PlainDataOk d) (l : Fits 10 (DS2414.loc (exPlain d)))
    (l1 : DS2414.loc (exPlain d) ≠ -1) : (ex2414 (exPlain d)).Ok :=
  ex2414_ok _ ⟨(by decide : (1 : Int) ≠ 5), exEight_ok, exEight_ok, exSix_ok, exSix_ok, h⟩ l l1
    (show Fits 10 1 by decide) (show Fits 10 6 by decide) (show (6 : Int) ≠ -1 by decide)

theorem spaced_AB : Spaced [fA, fB] := by
  constructor <;> intro x hx <;> simp only [List.tail_cons, List.mem_cons, List.not_mem_nil, or_false] at hx
  · rcases hx with rfl | rfl <;> decide
  · subst hx; exact apart_B
theorem spaced_nil : Spaced [] := ⟨by simp, by simp⟩

/-- Values at two nodes. -/
def exNodes : PlainData := .atNodes [⟨7, [fA, fB]⟩, ⟨-12, []⟩]
theorem exNodes_ok : (ex2414 (exPlain exNodes)).Ok := by
  refine exPlain_ok _ ⟨by simp, fun n hn => ?_⟩ (by decide) (by decide)
  simp only [List.mem_cons, List.not_mem_nil, or_false] at hn
  rcases hn with rfl | rfl
  · exact ⟨by decide, by decide, spaced_AB⟩
  · exact ⟨by decide, by decide, spaced_nil⟩

/-- Values on two elements. -/
def exElems : PlainData := .onElems [⟨7, [fA, fB]⟩, ⟨9999999999, []⟩]
theorem exElems_ok : (ex2414 (exPlain exElems)).Ok := by
  refine exPlain_ok _ ⟨by simp, fun n hn => ?_⟩ (by decide) (by decide)
  simp only [List.mem_cons, List.not_mem_nil, or_false] at hn
  rcases hn with rfl | rfl
  · exact ⟨by decide, by decide, spaced_AB⟩
  · exact ⟨by decide, by decide, spaced_nil⟩

/-- Values at the nodes of an element, and one set of values for all nodes of another one. -/
def exElemNodes : PlainData := .atElemNodes [⟨7, 1, 3, 2, [[fA, fB], [fA, fB], [fA, fB]]⟩, ⟨8, 2, 4, 2, [[fA, fB]]⟩]
theorem exElemNodes_ok : (ex2414 (exPlain exElemNodes)).Ok := by
  refine exPlain_ok _ (fun n hn => ?_) (by decide) (by decide)
  simp only [List.mem_cons, List.not_mem_nil, or_false] at hn
  rcases hn with rfl | rfl
  · exact ⟨by decide, by decide, by decide, by decide, by decide, by decide, by simp [spaced_AB]⟩
  · exact ⟨by decide, by decide, by decide, by decide, by decide, by decide, by simp [spaced_AB]⟩

end Verif
