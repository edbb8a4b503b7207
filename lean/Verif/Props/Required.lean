import Verif.Lemmas.Required2
import Verif.Props.Optional
import Verif.Py.Lit
/-
C48: what a dictionary must have to be written.
-/
namespace Verif
open W (Fails fails_none)

theorem lack_clean {k c : Key} {v : Val} {d d' : Dict} (hc : c ≠ "data") (h : Lack k c v d) (hd : cleanData d = .ok d') :
    Lack k c v d' := by
  unfold cleanData at hd
  split at hd
  · cases hd; exact h
  · rename_i x hx
    have hk : ("data" : Key) ≠ k := by
      rintro rfl
      rw [h.1] at hx; cases hx
    cases hn : nanToNumV x with
    | error e => rw [hn] at hd; cases hd
    | ok y =>
      rw [hn] at hd
      have : d.set "data" y = d' := by injection hd
      subst this
      exact ⟨by rw [Dict.get?_set_ne _ _ _ _ hk]; exact h.1, by rw [Dict.get?_set_ne _ _ _ _ hc.symm]; exact h.2⟩

theorem body_fails {e : Env} {fd : Bool} {d : Dict} {k c : Key} {v : Val} {t : Int} (hc : c ≠ "data")
    (ht : d.get? "type" = some (.int t)) (h : Lack k c v d) (hw : Fails (Lack k c v) (writeDispatch e fd (.int t))) :
    ∃ x, (writeBody e fd d).res = .error x := by
  unfold writeBody
  rw [ht]
  simp only
  cases hd : cleanData d with
  | error x => exact ⟨x, rfl⟩
  | ok d' =>
    simp only
    cases hr : (writeDispatch e fd (.int t) d').res with
    | error x => exact ⟨x, rfl⟩
    | ok a => exact (hw d' (lack_clean hc h hd) a hr).elim

theorem writeSet_fails {w : World} {e : Env} {fd over : Bool} {d : Dict} (h : ∃ x, (writeBody e fd d).res = .error x) :
    ∃ x, (w.writeSet e fd over d).2.2 = .error x := by
  obtain ⟨x, hx⟩ := h
  refine ⟨x, ?_⟩
  unfold World.writeSet
  simp only [hx]

theorem addAll_fails {fd : Bool} {d : Dict} (h : ∀ e, ∃ x, (writeBody e fd d).res = .error x) :
    ∀ (ds : List Dict) (w : World) (e : Env), d ∈ ds → ∃ x, (w.addAll e fd ds).2.2 = .error x
  | [], _, _, hd => by cases hd
  | b :: ds, w, e, hd => by
    rcases hw : w.writeSet e fd false b with ⟨w', d1, r⟩
    unfold World.addAll
    rw [hw]
    cases r with
    | error x => exact ⟨x, rfl⟩
    | ok u =>
      rcases List.mem_cons.1 hd with rfl | hd
      · obtain ⟨x, hx⟩ := writeSet_fails (w := w) (over := false) (h e)
        rw [hw] at hx; cases hx
      · exact addAll_fails h ds w' e.next hd

theorem writeSets_fails {fd : Bool} {d : Dict} (h : ∀ e, ∃ x, (writeBody e fd d).res = .error x)
    (ds : List Dict) (w : World) (e : Env) (mode : Text) (hd : d ∈ ds) : ∃ x, (w.writeSets e mode fd ds).2.2 = .error x := by
  unfold World.writeSets
  cases ds with
  | nil => cases hd
  | cons b ds =>
    simp only
    by_cases hm : lower mode = "overwrite".toList
    · rw [if_pos hm]
      rcases hw : w.writeSet e fd true b with ⟨w', d1, r⟩
      cases r with
      | error x => exact ⟨x, rfl⟩
      | ok u =>
        rcases List.mem_cons.1 hd with rfl | hd
        · obtain ⟨x, hx⟩ := writeSet_fails (w := w) (over := true) (h e)
          rw [hw] at hx; cases hx
        · exact addAll_fails h ds w' e.next hd
    · rw [if_neg hm]
      by_cases ha : lower mode = "add".toList
      · rw [if_pos ha]; exact addAll_fails h (b :: ds) w e hd
      · rw [if_neg ha]; exact ⟨_, rfl⟩

theorem keys_dispatch {e : Env} {fd : Bool} {t : Int} : ∀ k ∈ requiredKeys fd t,
    Fails (Lack (.s k) "type" (.int t)) (writeDispatch e fd (.int t)) := by
  intro k hk
  unfold requiredKeys at hk
  split at hk
  · rw [disp15]; exact fails_none (lack15 k hk)
  · rw [disp18]; exact fails_none (lack18 k hk)
  · rw [disp55]; exact fails_none (lack55 k hk)
  · rw [disp58]
    rcases List.mem_append.1 hk with hk | hk
    · exact lack58 _ _ k (List.mem_append_left _ hk)
    · cases fd with
      | true => cases hk
      | false =>
        simp only [Bool.false_eq_true, if_false, List.mem_singleton] at hk
        subst hk
        exact lack58ord _
  · rw [disp82]; exact fails_none (lack82 k hk)
  · rw [disp151]; exact fails_none (lack151 _ _ k hk)
  · rw [disp164]; exact fails_none (lack164 k hk)
  · rw [disp1858]; exact fails_none (lack1858 k hk)
  · rw [disp2411]; exact fails_none (lack2411 k hk)
  · rw [disp2414]; exact fails_none (lack2414 k hk)
  · rw [disp2420]; exact fails_none (lack2420 k hk)
  · rw [disp2429]; exact fails_none (lack2429 k hk)
  · rw [disp2467]; exact fails_none (lack2467 k hk)
  · cases hk

/-- C48: a call fails when one of the dictionaries lacks an entry for which the writer has no default, whatever the other
entries, the file and the mode. -/
theorem C48_missing (w : World) (e : Env) (mode : Text) (fd : Bool) (ds : List Dict) (d : Dict) (t : Int) (k : String)
    (hd : d ∈ ds) (ht : d.get? "type" = some (.int t)) (hk : k ∈ requiredKeys fd t) (hl : d.get? (.s k) = none) :
    ∃ x, (w.writeSets e mode fd ds).2.2 = .error x :=
  writeSets_fails (fun _ => body_fails (by decide) ht ⟨hl, ht⟩ (keys_dispatch k hk)) ds w e mode hd

/-- C48: the same for the entries needed for each item, when there is at least one item. -/
theorem C48_items (w : World) (e : Env) (mode : Text) (fd : Bool) (ds : List Dict) (d : Dict) (t : Int) (c k : String)
    (ks : List String) (v : Val) (hd : d ∈ ds) (ht : d.get? "type" = some (.int t)) (hi : requiredItems t = some (c, ks))
    (hc : d.get? (.s c) = some v) (hv : emptyVal v = false) (hk : k ∈ ks) (hl : d.get? (.s k) = none) :
    ∃ x, (w.writeSets e mode fd ds).2.2 = .error x := by
  unfold requiredItems at hi
  split at hi
  all_goals try (cases hi; done)
  all_goals
    simp only [Option.some.injEq, Prod.mk.injEq] at hi
    obtain ⟨rfl, rfl⟩ := hi
    refine writeSets_fails (fun e' => body_fails (c := .s _) (by decide) ht ⟨hl, hc⟩ ?_) ds w e mode hd
  · rw [disp15]; exact fails_none (items15 hv k hk)
  · rw [disp18]; exact fails_none (items18 hv k hk)
  · rw [disp55]; exact fails_none (items55 hv k hk)
  · rw [disp2411]; exact fails_none (items2411 hv k hk)
  · rw [disp2429]
    simp only [List.mem_singleton] at hk
    subst hk
    exact fails_none (items2429 hv)

/-- C48: the same for the entries needed for an analysis type. -/
theorem C48_when (w : World) (e : Env) (mode : Text) (fd : Bool) (ds : List Dict) (d : Dict) (t a : Int) (k : String)
    (hd : d ∈ ds) (ht : d.get? "type" = some (.int t)) (ha : d.get? "analysis_type" = some (.int a))
    (hk : k ∈ requiredAnalysis t a) (hl : d.get? (.s k) = none) :
    ∃ x, (w.writeSets e mode fd ds).2.2 = .error x := by
  refine writeSets_fails (fun e' => body_fails (c := "analysis_type") (by decide) ht ⟨hl, ha⟩ ?_) ds w e mode hd
  by_cases h55 : t = 55
  · subst h55
    rw [disp55]; exact fails_none (analysis55 k hk)
  · by_cases h5 : t = 2414 ∧ a = 5
    · obtain ⟨rfl, rfl⟩ := h5
      rw [disp2414]; exact fails_none (analysis2414 k hk)
    · unfold requiredAnalysis at hk
      split at hk
      all_goals first
        | exact absurd rfl h55
        | exact absurd ⟨rfl, rfl⟩ h5
        | cases hk

/-! The writers refuse what they do not support before they write anything. -/

theorem bind_key {β : Type} {k : Key} {v : Val} {d : Dict} (h : d.get? k = some v) (f : Val → W β) : (W.key k >>= f) d = f v d := by
  have hk : W.key k d = ⟨[], d, .ok v⟩ := by
    show (⟨[], d, d.get k⟩ : WRes Val) = _
    unfold Dict.get; rw [h]
  show W.bind (W.key k) f d = _
  unfold W.bind
  rw [hk]
  rfl

theorem bind_lift_ok {α β : Type} {r : Res α} {a : α} (h : r = .ok a) (f : α → W β) (d : Dict) : (W.lift r >>= f) d = f a d := by
  subst h
  rfl

theorem bind_raise {β : Type} (x : Err) (f : Unit → W β) (d : Dict) : ((W.raise x : W Unit) >>= f) d = ⟨[], d, .error x⟩ := rfl

theorem func_refused {f : Int} (hf : f ∉ ([0, 1, 2, 3, 4, 6, 9] : List Int)) : funcOk (.int f) = .ok false := by
  simp only [List.mem_cons, List.not_mem_nil, or_false, not_or] at hf
  simp [funcOk, Val.isArr, Val.isZero, Val.numEq, hf]

theorem write58_refused {little fd : Bool} {d : Dict} {f : Int} (hf : f ∉ ([0, 1, 2, 3, 4, 6, 9] : List Int))
    (h : d.get? "func_type" = some (.int f)) : write58 little fd d = ⟨[], d, .error (.writing 58)⟩ := by
  unfold write58 W.guarded
  rw [bind_key h, bind_lift_ok (func_refused hf)]
  simp only [W.when, if_true]
  rw [bind_raise]

theorem an_refused {a : Int} (ha : a ∉ ([2, 3, 5, 7] : List Int)) : an55 (.int a) = .ok none := by
  simp only [List.mem_cons, List.not_mem_nil, or_false, not_or] at ha
  simp [an55, Val.numEq, ha]

theorem bind_opt {β : Type} (fs : List (Key × Val)) (f : Unit → W β) (d : Dict) : (W.opt fs >>= f) d = f () (optFields d fs) := rfl

theorem write55_refused {d : Dict} {a : Int} (ha : a ∉ ([2, 3, 5, 7] : List Int))
    (h : d.get? "analysis_type" = some (.int a)) : write55 d = ⟨[], optFields d opt55, .error (.writing 55)⟩ := by
  have h' : (optFields d opt55).get? "analysis_type" = some (.int a) := by rw [get?_optFields, h]; rfl
  unfold write55 W.guarded
  rw [bind_opt, bind_key h', bind_lift_ok (an_refused ha)]
  unfold prep55
  simp only
  rw [bind_raise]

/-- The file after a call whose first dictionary is refused before anything is written. -/
theorem refused_file {w : World} {e : Env} {mode : Text} {fd : Bool} {d : Dict} {ds : List Dict} {x : Err}
    (ho : (writeBody e fd d).out = []) (hx : (writeBody e fd d).res = .error x)
    (hm : lower mode = "add".toList ∨ lower mode = "overwrite".toList) :
    w.writeSets e mode fd (d :: ds) =
      (⟨some (if lower mode = "add".toList then w.file.getD [] else []), w.obj⟩, (writeBody e fd d).dict :: ds, .error x) := by
  have hs : ∀ over, w.writeSet e fd over d =
      (⟨some (if over then [] else w.file.getD []), w.obj⟩, (writeBody e fd d).dict, .error x) := by
    intro over
    unfold World.writeSet fileAfter
    simp only [hx, ho]
    congr 2
    cases over <;> simp [encode]
  unfold World.writeSets
  rcases hm with hm | hm
  · simp only [hm]
    rw [if_neg (by decide), if_pos trivial, if_pos trivial]
    unfold World.addAll
    rw [hs]
    rfl
  · simp only [hm]
    rw [if_pos trivial, if_neg (by decide), hs]
    rfl

theorem body_clean {e : Env} {fd : Bool} {d : Dict} {t : Int} {c : Key} {v : Val} (hc : c ≠ "data")
    (ht : d.get? "type" = some (.int t)) (h : d.get? c = some v)
    (hw : ∀ d', d'.get? c = some v → (writeDispatch e fd (.int t) d').out = [] ∧ ∃ x, (writeDispatch e fd (.int t) d').res = .error x) :
    (writeBody e fd d).out = [] ∧ ∃ x, (writeBody e fd d).res = .error x := by
  unfold writeBody
  rw [ht]
  simp only
  cases hd : cleanData d with
  | error x => exact ⟨rfl, x, rfl⟩
  | ok d' =>
    refine hw d' ?_
    unfold cleanData at hd
    split at hd
    · cases hd; exact h
    · rename_i y hy
      cases hn : nanToNumV y with
      | error e => rw [hn] at hd; cases hd
      | ok z =>
        rw [hn] at hd
        have : d.set "data" z = d' := by injection hd
        subst this
        rw [Dict.get?_set_ne _ _ _ _ hc.symm]; exact h

/-- C48: a data-set 58 of another function type than 0, 1, 2, 3, 4, 6 and 9 is refused before anything is written: in mode
'add' the file keeps its content, and what the object knows about it does not change; in mode 'overwrite' the content is lost. -/
theorem C48_func (w : World) (e : Env) (mode : Text) (fd : Bool) (d : Dict) (ds : List Dict) (f : Int)
    (ht : d.get? "type" = some (.int 58)) (hf : d.get? "func_type" = some (.int f)) (hn : f ∉ ([0, 1, 2, 3, 4, 6, 9] : List Int))
    (hm : lower mode = "add".toList ∨ lower mode = "overwrite".toList) :
    ∃ x d', w.writeSets e mode fd (d :: ds) =
      (⟨some (if lower mode = "add".toList then w.file.getD [] else []), w.obj⟩, d' :: ds, .error x) := by
  obtain ⟨ho, x, hx⟩ := body_clean (e := e) (fd := fd) (by decide) ht hf fun d' h => by
    rw [disp58, write58_refused hn h]
    exact ⟨rfl, _, rfl⟩
  exact ⟨x, _, refused_file ho hx hm⟩

/-- C48: so is a data-set 55 of another analysis type than 2, 3, 5 and 7. -/
theorem C48_analysis (w : World) (e : Env) (mode : Text) (fd : Bool) (d : Dict) (ds : List Dict) (a : Int)
    (ht : d.get? "type" = some (.int 55)) (ha : d.get? "analysis_type" = some (.int a)) (hn : a ∉ ([2, 3, 5, 7] : List Int))
    (hm : lower mode = "add".toList ∨ lower mode = "overwrite".toList) :
    ∃ x d', w.writeSets e mode fd (d :: ds) =
      (⟨some (if lower mode = "add".toList then w.file.getD [] else []), w.obj⟩, d' :: ds, .error x) := by
  obtain ⟨ho, x, hx⟩ := body_clean (e := e) (fd := fd) (by decide) ht ha fun d' h => by
    rw [disp55]
    unfold W.none
    rw [write55_refused hn h]
    exact ⟨rfl, _, rfl⟩
  exact ⟨x, _, refused_file ho hx hm⟩

/-! The lists are complete: nothing else is needed. -/

/-- The entries needed by a type and an analysis type when there is at least one item. -/
def neededKeys (t a : Int) : List String :=
  requiredKeys false t ++ ((requiredItems t).elim [] (·.2) ++ requiredAnalysis t a)

/-- Only what is needed. -/
def min15_0 : Dict :=
  [((.s "type" : Key), Val.int 15), ("node_nums", .arrI [1]), ("x", .arrF [fA]), ("y", .arrF [fA]), ("z", .arrF [fA])]
/-- Only what is needed. -/
def min18_0 : Dict :=
  [((.s "type" : Key), Val.int 18), ("cs_num", .arrI [1]), ("ref_cs_num", .arrI [1]), ("ref_o", .mat [[fA, fB, fA]]),
   ("x_point", .mat [[fA, fB, fA]]), ("xz_point", .mat [[fA, fB, fA]])]
/-- Only what is needed. -/
def min55_2 : Dict :=
  [((.s "type" : Key), Val.int 55), ("analysis_type", .int 2), ("r1", .arrF [fA]), ("data_ch", .int 0),
   ("spec_data_type", .int 0), ("load_case", .int 0), ("node_nums", .arrI [1]), ("r2", .arrF [fA]),
   ("r3", .arrF [fA]), ("mode_n", .int 0), ("freq", .float fA)]
/-- Only what is needed. -/
def min55_3 : Dict :=
  [((.s "type" : Key), Val.int 55), ("analysis_type", .int 3), ("r1", .arrF [fA]), ("data_ch", .int 0),
   ("spec_data_type", .int 0), ("load_case", .int 0), ("node_nums", .arrI [1]), ("r2", .arrF [fA]),
   ("r3", .arrF [fA]), ("mode_n", .int 0), ("eig", .cplx fA fB)]
/-- Only what is needed. -/
def min55_5 : Dict :=
  [((.s "type" : Key), Val.int 55), ("analysis_type", .int 5), ("r1", .arrF [fA]), ("data_ch", .int 0),
   ("spec_data_type", .int 0), ("load_case", .int 0), ("node_nums", .arrI [1]), ("r2", .arrF [fA]),
   ("r3", .arrF [fA]), ("freq_step_n", .int 0), ("freq", .float fA)]
/-- Only what is needed. -/
def min55_7 : Dict :=
  [((.s "type" : Key), Val.int 55), ("analysis_type", .int 7), ("r1", .arrF [fA]), ("data_ch", .int 0),
   ("spec_data_type", .int 0), ("load_case", .int 0), ("node_nums", .arrI [1]), ("r2", .arrF [fA]),
   ("r3", .arrF [fA]), ("mode_n", .int 0), ("eig", .cplx fA fB)]
/-- Only what is needed. -/
def min58_0 : Dict :=
  [((.s "type" : Key), Val.int 58), ("func_type", .int 1), ("data", .arrF [fA, fB]), ("x", .arrF [fA, fB]),
   ("rsp_node", .int 0), ("rsp_dir", .int 0), ("ref_node", .int 0), ("ref_dir", .int 0),
   ("orddenom_spec_data_type", .int 0), ("ord_data_type", .int 4)]
/-- Only what is needed. -/
def min82_0 : Dict :=
  [((.s "type" : Key), Val.int 82), ("nodes", .arrF [fA]), ("trace_num", .int 0)]
/-- Only what is needed. -/
def min151_0 : Dict :=
  [((.s "type" : Key), Val.int 151), ("model_name", .str ['a']), ("description", .str ['a']), ("db_app", .str ['a']),
   ("program", .str ['a'])]
/-- Only what is needed. -/
def min164_0 : Dict :=
  [((.s "type" : Key), Val.int 164), ("units_code", .int 0), ("length", .float fA), ("force", .float fA),
   ("temp", .float fA), ("temp_offset", .float fA)]
/-- Only what is needed. -/
def min1858_0 : Dict :=
  [((.s "type" : Key), Val.int 1858), ("record_num", .int 0), ("octave_format", .int 0), ("measurement_run", .int 0),
   ("weighting_type", .int 0), ("window_type", .int 0), ("amplitude_units", .int 0),
   ("normalization_method", .int 0), ("abscissa_data_type_qualifier", .int 0),
   ("ordinate_numerator_data_type_qualifier", .int 0), ("ordinate_denominator_data_type_qualifier", .int 0),
   ("z_axis_data_type_qualifier", .int 0), ("sampling_type", .int 0), ("z_rpm_value", .int 0),
   ("z_time_value", .int 0), ("z_order_value", .int 0), ("num_of_samples", .int 0), ("user_value_1", .int 0),
   ("user_value_2", .int 0), ("user_value_3", .int 0), ("user_value_4", .int 0),
   ("exponential_window_damping_factor", .int 0), ("response_direction", .str ['a']),
   ("reference_direction", .str ['a'])]
/-- Only what is needed. -/
def min2400_0 : Dict :=
  [((.s "type" : Key), Val.int 2400)]
/-- Only what is needed. -/
def min2411_0 : Dict :=
  [((.s "type" : Key), Val.int 2411), ("node_nums", .arrI [1]), ("def_cs", .arrI [1]), ("disp_cs", .arrI [1]),
   ("color", .arrI [1]), ("x", .arrF [fA]), ("y", .arrF [fA]), ("z", .arrF [fA])]
/-- Only what is needed. -/
def min2412_0 : Dict :=
  [((.s "type" : Key), Val.int 2412)]
/-- Only what is needed. -/
def min2414_0 : Dict :=
  [((.s "type" : Key), Val.int 2414), ("analysis_dataset_label", .int 0), ("analysis_dataset_name", .str ['a']),
   ("dataset_location", .int 5), ("id1", .str ['a']), ("id2", .str ['a']), ("id3", .str ['a']), ("id4", .str ['a']),
   ("id5", .str ['a']), ("model_type", .int 0), ("analysis_type", .int 0), ("data_characteristic", .int 0),
   ("result_type", .int 0), ("data_type", .int 0), ("number_of_data_values_for_the_data_component", .int 0)]
/-- Only what is needed. -/
def min2414_5 : Dict :=
  ([((.s "type" : Key), Val.int 2414), ("analysis_dataset_label", .int 0), ("analysis_dataset_name", .str ['a']),
    ("dataset_location", .int 5), ("id1", .str ['a']), ("id2", .str ['a']), ("id3", .str ['a']),
    ("id4", .str ['a']), ("id5", .str ['a']), ("model_type", .int 0), ("analysis_type", .int 5),
    ("data_characteristic", .int 0)] : Dict) ++
  ([((.s "result_type" : Key), Val.int 0), ("data_type", .int 0),
    ("number_of_data_values_for_the_data_component", .int 0), ("design_set_id", .int 0),
    ("iteration_number", .int 0), ("solution_set_id", .int 0), ("boundary_condition", .int 0), ("load_set", .int 0),
    ("mode_number", .int 0), ("time_step_number", .int 0), ("frequency_number", .int 0),
    ("creation_option", .int 0)] : Dict) ++
  ([((.s "number_retained" : Key), Val.int 0), ("time", .float fA), ("frequency", .float fA),
    ("eigenvalue", .int 0), ("modal_mass", .int 0), ("viscous_damping", .int 0), ("hysteretic_damping", .int 0),
    ("real_part_eigenvalue", .int 0), ("imaginary_part_eigenvalue", .int 0),
    ("real_part_of_modal_A_or_modal_mass", .int 0), ("imaginary_part_of_modal_A_or_modal_mass", .int 0),
    ("real_part_of_modal_B_or_modal_mass", .int 0)] : Dict) ++
  ([((.s "imaginary_part_of_modal_B_or_modal_mass" : Key), Val.int 0), ("node_nums", .arrI [1])] : Dict)
/-- Only what is needed. -/
def min2420_0 : Dict :=
  [((.s "type" : Key), Val.int 2420), ("CS_sys_labels", .list [.int 1]), ("CS_names", .list [.str ['a']]),
   ("CS_matrices", .list [.mat [[fA, fB, fA], [fA, fB, fA], [fA, fB, fA], [fA, fB, fA]]])]
/-- Only what is needed. -/
def min2429_0 : Dict :=
  [((.s "type" : Key), Val.int 2429), ("entity_type_code", .arrI [1]), ("group_number", .int 0),
   ("group_name", .str ['a']), ("entity_tag", .arrI [1])]
/-- Only what is needed. -/
def min2467_0 : Dict :=
  [((.s "type" : Key), Val.int 2467), ("groups", .list [])]

/-- C48: for each type (and analysis type) there is a dictionary with the needed entries and no others, and it is written. -/
theorem C48_enough : ∀ p ∈ ([(15, 0), (18, 0), (55, 2), (55, 3), (55, 5), (55, 7), (58, 0), (82, 0), (151, 0), (164, 0), (1858, 0), (2400, 0), (2411, 0), (2412, 0), (2414, 0), (2414, 5), (2420, 0), (2429, 0), (2467, 0)] :
    List (Int × Int)), ∃ d : Dict, d.map (·.1) = ("type" :: neededKeys p.1 p.2).map Key.s ∧ d.get? "type" = some (.int p.1) ∧
      ((World.new none).writeSets exEnv "add".toList false [d]).2.2 = .ok () := by
  simp only [List.forall_mem_cons, List.not_mem_nil, false_implies, implies_true, and_true]
  exact ⟨⟨min15_0, by decide +kernel, by decide +kernel, by decide +kernel⟩,
    ⟨min18_0, by decide +kernel, by decide +kernel, by decide +kernel⟩,
    ⟨min55_2, by decide +kernel, by decide +kernel, by decide +kernel⟩,
    ⟨min55_3, by decide +kernel, by decide +kernel, by decide +kernel⟩,
    ⟨min55_5, by decide +kernel, by decide +kernel, by decide +kernel⟩,
    ⟨min55_7, by decide +kernel, by decide +kernel, by decide +kernel⟩,
    ⟨min58_0, by decide +kernel, by decide +kernel, by decide +kernel⟩,
    ⟨min82_0, by decide +kernel, by decide +kernel, by decide +kernel⟩,
    ⟨min151_0, by decide +kernel, by decide +kernel, by decide +kernel⟩,
    ⟨min164_0, by decide +kernel, by decide +kernel, by decide +kernel⟩,
    ⟨min1858_0, by decide +kernel, by decide +kernel, by decide +kernel⟩,
    ⟨min2400_0, by decide +kernel, by decide +kernel, by decide +kernel⟩,
    ⟨min2411_0, by decide +kernel, by decide +kernel, by decide +kernel⟩,
    ⟨min2412_0, by decide +kernel, by decide +kernel, by decide +kernel⟩,
    ⟨min2414_0, by decide +kernel, by decide +kernel, by decide +kernel⟩,
    ⟨min2414_5, by decide +kernel, by decide +kernel, by decide +kernel⟩,
    ⟨min2420_0, by decide +kernel, by decide +kernel, by decide +kernel⟩,
    ⟨min2429_0, by decide +kernel, by decide +kernel, by decide +kernel⟩,
    ⟨min2467_0, by decide +kernel, by decide +kernel, by decide +kernel⟩⟩

/-- The theorems above are about these dictionaries with one entry left out. -/
example : ∃ x, ((World.new none).writeSets exEnv "add".toList true [min55_2, min164_0.filter fun p => p.1 ≠ "temp"]).2.2 = .error x :=
  C48_missing _ _ _ _ _ (min164_0.filter fun p => p.1 ≠ "temp") 164 "temp" (by simp) (by decide +kernel) (by decide) (by decide +kernel)
example : ∃ x, ((World.new none).writeSets exEnv "add".toList true [min2411_0.filter fun p => p.1 ≠ "z"]).2.2 = .error x :=
  C48_items _ _ _ _ _ (min2411_0.filter fun p => p.1 ≠ "z") 2411 "node_nums" "z" _ (.arrI [1]) (by simp) (by decide +kernel) rfl
    (by decide +kernel) rfl (by decide) (by decide +kernel)
example : ∃ x, ((World.new none).writeSets exEnv "add".toList true [min55_3.filter fun p => p.1 ≠ "eig"]).2.2 = .error x :=
  C48_when _ _ _ _ _ (min55_3.filter fun p => p.1 ≠ "eig") 55 3 "eig" (by simp) (by decide +kernel) (by decide +kernel) (by decide)
    (by decide +kernel)

/-- Without items the entries of the items are not needed. -/
example : ((World.new none).writeSets exEnv "add".toList true [[((.s "type" : Key), Val.int 2411), ("node_nums", .list [])]]).2.2 =
    .ok () := by decide +kernel

/-- A file with a data-set 58 of function type 5. -/
def exFunc5 : Bytes := encode (
  chars!"    -1\n" ++
  chars!"    58                                                                          \n" ++
  chars!"NONE\n" ++
  chars!"NONE\n" ++
  chars!"NONE\n" ++
  chars!"NONE\n" ++
  chars!"NONE\n" ++
  chars!"    5         0    0         0       NONE         1   1       NONE         1   1\n" ++
  chars!"         4         2         0  0.00000e+00  0.00000e+00  0.00000e+00\n" ++
  chars!"         0    0    0    0 NONE                 NONE                \n" ++
  chars!"         0    0    0    0 NONE                 NONE                \n" ++
  chars!"         0    0    0    0 NONE                 NONE                \n" ++
  chars!"         0    0    0    0 NONE                 NONE                \n" ++
  chars!"  1.50000e+00   1.50000000000e+00  1.50000e+00  -1.00000000000e-01\n" ++
  chars!"    -1\n")

/-- The property that whatever was read can be saved is false: a data-set 58 of function type 5 is read, and the dictionary
so obtained is refused. -/
theorem C48_negation_saved : ∃ (file : Bytes) (d : Dict) (x : Err),
    ((World.new (some file)).readSets .all false).2 = .ok (.single d) ∧ d.get? "func_type" = some (.int 5) ∧
    ((World.new none).writeSets exEnv "add".toList true [d]).2.2 = .error x := by
  refine ⟨exFunc5, match ((World.new (some exFunc5)).readSets .all false).2 with
    | .ok (.single d) => d
    | _ => [], .writing 58, by decide +kernel, by decide +kernel, by decide +kernel⟩

end Verif
