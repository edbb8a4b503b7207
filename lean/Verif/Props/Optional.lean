import Verif.Lemmas.Optional
import Verif.Props.Reading
/-
Property C14, writing: defaults are filled in for missing keys only.
-/
namespace Verif

/-- A table of defaults as dictionary entries. -/
def entries (fs : List (String × Val)) : Dict := fs.map fun p => (.s p.1, p.2)

/-- The text `NONE`. -/
def vNone : Val := .str "NONE".toList

/-- The fields of data-set 55 that are always optional. -/
def base55 : List (String × Val) :=
  [("units_description", .str [' ']), ("id1", vNone), ("id2", vNone), ("id3", vNone), ("id4", vNone), ("id5", vNone),
   ("model_type", .int 1)]

/-- The optional integers of data-set 58. -/
def zero58 : List String :=
  ["func_id", "ver_num", "binary", "load_case_id", "abscissa_len_unit_exp", "abscissa_force_unit_exp",
   "abscissa_temp_unit_exp", "ordinate_len_unit_exp", "ordinate_force_unit_exp", "ordinate_temp_unit_exp",
   "orddenom_len_unit_exp", "orddenom_force_unit_exp", "orddenom_temp_unit_exp", "z_axis_len_unit_exp",
   "z_axis_force_unit_exp", "z_axis_temp_unit_exp", "z_axis_value", "spec_data_type", "abscissa_spec_data_type",
   "ordinate_spec_data_type", "z_axis_spec_data_type", "version_num", "abscissa_spacing"]
/-- The optional texts of data-set 58. -/
def none58 : List String :=
  ["id1", "id2", "id3", "id4", "id5", "rsp_ent_name", "ref_ent_name", "abscissa_axis_lab", "abscissa_axis_units_lab",
   "ordinate_axis_lab", "ordinate_axis_units_lab", "orddenom_axis_lab", "orddenom_axis_units_lab", "z_axis_axis_lab",
   "z_axis_axis_units_lab"]

/-- The optional keys of a data-set of type `n` and their defaults, at the date and time `now`; the keys of `ch` are the
ones a writer replaces or converts. -/
inductive Defaults (now : Text × Text) (d : Dict) : Int → List (String × Val) → List String → Prop
  | s15 {v m} : d.get? "node_nums" = some v → v.len = .ok m → Defaults now d 15
      [("def_cs", .arrI (List.replicate m 0)), ("disp_cs", .arrI (List.replicate m 0)),
       ("color", .arrI (List.replicate m 0))] []
  | s18 {v m} : d.get? "cs_num" = some v → v.len = .ok m → Defaults now d 18
      [("cs_type", .arrI (List.replicate m 0)), ("color", .arrI (List.replicate m 0)),
       ("method", .arrI (List.replicate m 1)), ("cs_name", .list (List.replicate m (.str [])))] []
  | s55n {a} : d.get? "analysis_type" = some a → a.numEq 2 = true → Defaults now d 55
      (base55 ++ [("modal_m", .int 0), ("modal_damp_vis", .int 0), ("modal_damp_his", .int 0)]) []
  | s55c {a} : d.get? "analysis_type" = some a → a.numEq 3 = true ∨ a.numEq 7 = true → Defaults now d 55
      (base55 ++ [("modal_a", .cplx F64.zero F64.zero), ("modal_b", .cplx F64.zero F64.zero)]) ["modal_a", "modal_b"]
  | s55f {a} : d.get? "analysis_type" = some a → a.numEq 5 = true → Defaults now d 55 base55 []
  | s58 : Defaults now d 58 (("units_description", .str []) :: (none58.map (·, vNone) ++ zero58.map (·, .int 0)))
      ["ord_data_type", "n_bytes", "abscissa_min"]
  | s82 : Defaults now d 82 [("id", vNone), ("color", .int 0)] []
  | s151 : Defaults now d 151 [("version_db1", .str ['0']), ("version_db2", .str ['0']), ("file_type", .str ['0']),
      ("date_db_created", .str now.1), ("time_db_created", .str now.2), ("date_db_saved", .str now.1),
      ("time_db_saved", .str now.2), ("date_file_written", .str now.1), ("time_file_written", .str now.2)] []
  | s164 : Defaults now d 164 [("units_description", .str "User unit system".toList), ("temp_mode", .int 1)] []
  | s1858 : Defaults now d 1858 [] []
  | s2400 : Defaults now d 2400 [("model_uid", .int 0), ("entity_type", .int 0), ("entity_subtype", .int 0),
      ("version_number", .int 0), ("entity_name", .str []), ("part_number", .str []),
      ("status_mask", .list (List.replicate 32 (.int 0))), ("date", .str []), ("time", .str []),
      ("idm_version_id", .int 0), ("idm_item_id", .int 0), ("primary_parent_uid", .int 0),
      ("optimization_switches", .int 0)] []
  | s2411 : Defaults now d 2411 [] []
  | s2412 : Defaults now d 2412 [] []
  | s2414 : Defaults now d 2414
      (["record10_field1", "record10_field2", "record10_field3", "record10_field4", "record10_field5",
        "record10_field6", "record10_field7", "record10_field8", "record11_field1", "record11_field2",
        "record11_field3", "record11_field4", "record11_field5", "record11_field6", "record11_field7",
        "record11_field8", "record12_field1", "record12_field2", "record12_field3", "record12_field4",
        "record12_field5", "record12_field6", "record13_field1", "record13_field2", "record13_field3",
        "record13_field4", "record13_field5", "record13_field6"].map (·, .int 0)) []
  | s2420 : Defaults now d 2420 [("Part_UID", .int 1), ("Part_Name", .str "None".toList), ("CS_types", .list [.int 0]),
      ("CS_colors", .list [.int 8])] []
  | group {n} : n = 2429 ∨ n = 2467 → Defaults now d n
      (["active_constraint_set_no_for_group", "active_restraint_set_no_for_group", "active_load_set_no_for_group",
        "active_dof_set_no_for_group", "active_temperature_set_no_for_group",
        "active_contact_set_no_for_group"].map (·, .int 0)) []
  | other {n} : n ∉ supported → Defaults now d n [] []

theorem Defaults.congr {now : Text × Text} {d d' : Dict} {n : Int} {fs : List (String × Val)} {ch : List String}
    (h : Defaults now d n fs ch) (hd : ∀ k : Key, k ≠ .s "data" → d'.get? k = d.get? k) : Defaults now d' n fs ch := by
  cases h with
  | s15 h1 h2 => exact .s15 ((hd _ (by decide)).trans h1) h2
  | s18 h1 h2 => exact .s18 ((hd _ (by decide)).trans h1) h2
  | s55n h1 h2 => exact .s55n ((hd _ (by decide)).trans h1) h2
  | s55c h1 h2 => exact .s55c ((hd _ (by decide)).trans h1) h2
  | s55f h1 h2 => exact .s55f ((hd _ (by decide)).trans h1) h2
  | s58 => exact .s58
  | s82 => exact .s82
  | s151 => exact .s151
  | s164 => exact .s164
  | s1858 => exact .s1858
  | s2400 => exact .s2400
  | s2411 => exact .s2411
  | s2412 => exact .s2412
  | s2414 => exact .s2414
  | s2420 => exact .s2420
  | group h => exact .group h
  | other h => exact .other h

/-- The dictionary after the write: what was given, and the defaults for what was missing. -/
structure Completed (d : Dict) (fs : List (String × Val)) (ch : List String) (d' : Dict) : Prop where
  all : ∀ k : Key, (∀ s ∈ ch, k ≠ .s s) → d'.get? k = (d.get? k).or ((entries fs).get? k)

theorem Completed.opt {d d' : Dict} {fs : List (Key × Val)} {gs : List (String × Val)} {ch : List String}
    (h : d' = optFields d fs) (hg : ∀ k, Dict.get? fs k = (entries gs).get? k) : Completed d gs ch d' := by
  refine ⟨fun k _ => ?_⟩
  rw [h, get?_optFields, hg]

theorem Dict.get?_append (a b : Dict) (k : Key) : Dict.get? (a ++ b) k = (Dict.get? a k).or (Dict.get? b k) := by
  induction a with
  | nil => rfl
  | cons p a ih =>
    obtain ⟨k', v'⟩ := p
    show (if k' = k then some v' else Dict.get? (a ++ b) k) = (if k' = k then some v' else Dict.get? a k).or (Dict.get? b k)
    split
    · rfl
    · exact ih

theorem mem_of_get? {d : Dict} {k : Key} {v : Val} (h : d.get? k = some v) : (k, v) ∈ d := by
  induction d with
  | nil => cases h
  | cons p d ih =>
    obtain ⟨k', v'⟩ := p
    unfold Dict.get? at h
    split at h
    next e => cases h; rw [e]; exact List.mem_cons_self
    next => exact List.mem_cons_of_mem _ (ih h)

/-- Two tables with the same entries, perhaps in another order. -/
theorem same_table {a b : Dict} (h1 : ∀ p ∈ a, b.get? p.1 = some p.2) (h2 : ∀ p ∈ b, a.get? p.1 ≠ none) (k : Key) :
    a.get? k = b.get? k := by
  cases ha : a.get? k with
  | some v => exact (h1 _ (mem_of_get? ha)).symm
  | none =>
    cases hb : b.get? k with
    | none => rfl
    | some v => exact absurd ha (h2 _ (mem_of_get? hb))

theorem cleanData_get {d d' : Dict} (h : cleanData d = .ok d') (k : Key) (hk : k ≠ .s "data") : d'.get? k = d.get? k := by
  unfold cleanData at h
  split at h
  · cases h; rfl
  · rename_i v _
    cases hv : nanToNumV v with
    | error e => rw [hv] at h; cases h
    | ok v' => rw [hv] at h; cases h; exact Dict.get?_set_ne _ _ _ _ (fun h => hk h.symm)

theorem cleanData_none {d d' : Dict} (h : cleanData d = .ok d') (hk : d.get? "data" = none) : d' = d := by
  unfold cleanData at h
  rw [hk] at h
  cases h; rfl

/-- The writers chosen. -/
theorem disp15 (e fd) : writeDispatch e fd (.int 15) = W.none write15 := rfl
theorem disp18 (e fd) : writeDispatch e fd (.int 18) = W.none write18 := rfl
theorem disp55 (e fd) : writeDispatch e fd (.int 55) = W.none write55 := rfl
theorem disp58 (e fd) : writeDispatch e fd (.int 58) = write58 e.little fd := rfl
theorem disp82 (e fd) : writeDispatch e fd (.int 82) = W.none write82 := rfl
theorem disp151 (e fd) : writeDispatch e fd (.int 151) = W.none (write151 (e.clock 0).1 (e.clock 0).2) := rfl
theorem disp164 (e fd) : writeDispatch e fd (.int 164) = W.none write164 := rfl
theorem disp1858 (e fd) : writeDispatch e fd (.int 1858) = W.none write1858 := rfl
theorem disp2400 (e fd) : writeDispatch e fd (.int 2400) = W.none write2400 := rfl
theorem disp2411 (e fd) : writeDispatch e fd (.int 2411) = W.none write2411 := rfl
theorem disp2412 (e fd) : writeDispatch e fd (.int 2412) = W.none write2412 := rfl
theorem disp2414 (e fd) : writeDispatch e fd (.int 2414) = W.none write2414 := rfl
theorem disp2420 (e fd) : writeDispatch e fd (.int 2420) = W.none write2420 := rfl
theorem disp2429 (e fd) : writeDispatch e fd (.int 2429) = W.none write2429 := rfl
theorem disp2467 (e fd) : writeDispatch e fd (.int 2467) = W.none write2467 := rfl

theorem none_dict {m : W Unit} {d d' : Dict} (h : (m d).dict = d') : (W.none m d : WRes (Option Bytes)).dict = d' := h

theorem none_ok {m : W Unit} {d : Dict} {x : Option Bytes} (h : (W.none m d : WRes (Option Bytes)).res = .ok x) :
    (m d).res = .ok () := by
  unfold W.none at h
  cases hm : (m d).res with
  | error e => simp [hm] at h; cases h
  | ok u => rfl

theorem table58 (k : Key) : Dict.get? opt58 k =
    (entries (("units_description", .str []) :: (none58.map (·, vNone) ++ zero58.map (·, .int 0)))).get? k := by
  refine same_table ?_ ?_ k
  · decide +kernel
  · decide +kernel

theorem completed58 {e : Env} {fd : Bool} {d : Dict} {x : Option Bytes} (h : (write58 e.little fd d).res = .ok x) :
    Completed d (("units_description", .str []) :: (none58.map (·, vNone) ++ zero58.map (·, .int 0)))
      ["ord_data_type", "n_bytes", "abscissa_min"] (write58 e.little fd d).dict := by
  refine ⟨fun k hk => ?_⟩
  rw [(dict58 h).others k (hk _ (by simp)) (hk _ (by simp)) (hk _ (by simp)), ← table58]
  rfl

theorem numEq_ne {v : Val} {m n : Int} (h : v.numEq m = true) (hne : m ≠ n) (hf : F64.ofInt m ≠ F64.ofInt n) :
    v.numEq n = false := by
  cases v <;> simp only [Val.numEq, decide_eq_true_eq, Bool.false_eq_true] at h ⊢
  · rw [decide_eq_false_iff_not]; rw [h]; exact hne
  · rw [decide_eq_false_iff_not]; rw [h]; exact hne
  · rw [decide_eq_false_iff_not]; rw [h]; exact hf
  · rw [decide_eq_false_iff_not]; rw [h.1]; exact fun h => hf h.1

theorem an55_of {v : Val} {an : Option An55}
    (h : (if v.numEq 2 then .ok (some .normal) else if v.numEq 3 || v.numEq 7 then .ok (some .cmplx)
      else if v.numEq 5 then .ok (some .frf) else .ok none : Res (Option An55)) = .ok an) (hv : an ≠ none) :
    an55 v = .ok an := by
  cases v
  case arrI | arrF | arrC | mat => exact absurd (Except.ok.inj h).symm hv
  all_goals exact h

theorem base55_opt : entries base55 = opt55 := rfl

theorem completed55n {d : Dict} {a : Val} (h1 : d.get? "analysis_type" = some a) (h2 : a.numEq 2 = true) :
    (write55 d).dict = optFields (optFields d opt55) opt55n := by
  have ha : an55 a = .ok (some .normal) := an55_of (by rw [if_pos h2]) (by simp)
  rw [dict55 h1 ha ⟨(), by rw [prep55_normal]⟩, prep55_normal]

theorem completed55f {d : Dict} {a : Val} (h1 : d.get? "analysis_type" = some a) (h2 : a.numEq 5 = true) :
    (write55 d).dict = optFields d opt55 := by
  have ha : an55 a = .ok (some .frf) := an55_of (by
    rw [numEq_ne h2 (by decide) (by decide +kernel), numEq_ne (n := 3) h2 (by decide) (by decide +kernel),
      numEq_ne (n := 7) h2 (by decide) (by decide +kernel), h2]; rfl) (by simp)
  rw [dict55 h1 ha ⟨(), by rw [prep55_frf]⟩, prep55_frf]

theorem an55_cmplx {a : Val} (h2 : a.numEq 3 = true ∨ a.numEq 7 = true) : an55 a = .ok (some .cmplx) := by
  refine an55_of ?_ (by simp)
  rcases h2 with h2 | h2
  · rw [numEq_ne h2 (by decide) (by decide +kernel), h2]; rfl
  · rw [numEq_ne h2 (by decide) (by decide +kernel), h2, Bool.or_true]; rfl

theorem changed55 {d : Dict} {a : Val} {u : Unit} (h1 : d.get? "analysis_type" = some a)
    (h2 : a.numEq 3 = true ∨ a.numEq 7 = true) (h : (write55 d).res = .ok u) :
    Changed55 (optFields d opt55) (write55 d).dict := by
  obtain ⟨v, an, u', hv, ha, hp⟩ := prep55_ok h
  rw [h1] at hv; cases hv
  rw [an55_cmplx h2] at ha; cases ha
  rw [dict55 h1 (an55_cmplx h2) ⟨u', hp⟩]
  exact prep55_cmplx hp

/-- What the writer of a supported type leaves. -/
theorem dispatch_completed {e : Env} {fd : Bool} {d : Dict} {n : Int} {fs : List (String × Val)} {ch : List String}
    {x : Option Bytes} (hD : Defaults (e.clock 0) d n fs ch) (h : (writeDispatch e fd (.int n) d).res = .ok x) :
    Completed d fs ch (writeDispatch e fd (.int n) d).dict := by
  cases hD with
  | s15 h1 h2 => rw [disp15]; exact .opt (none_dict (dict15 h1 h2)) fun k => rfl
  | s18 h1 h2 => rw [disp18]; exact .opt (none_dict (dict18 h1 h2)) fun k => rfl
  | s55n h1 h2 =>
    rw [disp55]
    exact .opt (none_dict ((completed55n h1 h2).trans (optFields_append _ _ _).symm)) fun k => rfl
  | s55c h1 h2 =>
    rw [disp55] at h ⊢
    refine ⟨fun k hk => ?_⟩
    rw [none_dict rfl, (changed55 h1 h2 (none_ok h)).others k (hk _ (by simp)) (hk _ (by simp))]
    unfold Dict.filled
    rw [get?_optFields, Option.or_assoc]
    congr 1
    have : ∀ k, Dict.get? (opt55 ++ opt55c) k = (entries (base55 ++ [("modal_a", .cplx F64.zero F64.zero),
        ("modal_b", .cplx F64.zero F64.zero)])).get? k := by
      intro k
      refine same_table ?_ ?_ k
      · decide +kernel
      · decide +kernel
    rw [← this, Dict.get?_append]
  | s55f h1 h2 => rw [disp55]; exact .opt (none_dict (completed55f h1 h2)) fun k => rfl
  | s58 => rw [disp58] at h ⊢; exact completed58 h
  | s82 => rw [disp82]; exact .opt (none_dict (dict82 d)) fun k => rfl
  | s151 => rw [disp151]; exact .opt (none_dict (dict151 _ _ d)) fun k => rfl
  | s164 => rw [disp164]; exact .opt (none_dict (dict164 d)) fun k => rfl
  | s1858 => rw [disp1858]; exact .opt (none_dict (dict1858 d)) fun k => rfl
  | s2400 => rw [disp2400]; exact .opt (none_dict (dict2400 d)) fun k => rfl
  | s2411 => rw [disp2411]; exact .opt (none_dict (dict2411 d)) fun k => rfl
  | s2412 => rw [disp2412]; exact .opt (fs := []) (none_dict (dict2412 d)) fun k => rfl
  | s2414 => rw [disp2414]; exact .opt (none_dict (dict2414 d)) fun k => rfl
  | s2420 => rw [disp2420]; exact .opt (none_dict (dict2420 d)) fun k => rfl
  | group hn =>
    rcases hn with rfl | rfl
    · rw [disp2429]; exact .opt (none_dict (dict2429 d)) fun k => rfl
    · rw [disp2467]; exact .opt (none_dict (dict2467 d)) fun k => rfl
  | other hn => rw [dispatch_unsupported e fd _ hn]; exact .opt (fs := []) rfl fun k => rfl

/-! ### C14 -/

/-- After a write that succeeds, a key that was given keeps its value, an optional key that was missing has its documented
default, and there is no other new key.  This holds for every key except "data", which is cleaned (property C36), and the few
keys that the writers of types 55 and 58 change (`C14_write_55`, `C14_write_58`). -/
theorem C14_write {e : Env} {fd : Bool} {d : Dict} {n : Int} {fs : List (String × Val)} {ch : List String}
    {x : Option Bytes} (ht : d.get? "type" = some (.int n)) (hD : Defaults (e.clock 0) d n fs ch)
    (h : (writeBody e fd d).res = .ok x) : Completed d fs ("data" :: ch) (writeBody e fd d).dict := by
  unfold writeBody at h ⊢
  rw [ht] at h ⊢
  cases hc : cleanData d with
  | error e => simp only [hc] at h; cases h
  | ok d' =>
    simp only [hc] at h ⊢
    have hk := cleanData_get hc
    have := dispatch_completed (hD.congr hk) h
    refine ⟨fun k h1 => ?_⟩
    rw [this.all k (fun s hs => h1 s (List.mem_cons_of_mem _ hs)), hk k (h1 _ List.mem_cons_self)]

/-- Every write that succeeds has such a table. -/
theorem C14_table {e : Env} {fd : Bool} {d : Dict} {n : Int} {x : Option Bytes} (ht : d.get? "type" = some (.int n))
    (h : (writeBody e fd d).res = .ok x) : ∃ fs ch, Defaults (e.clock 0) d n fs ch := by
  by_cases hn : n ∉ supported
  · exact ⟨_, _, .other hn⟩
  have hn : n ∈ supported := not_not.1 hn
  unfold writeBody at h
  rw [ht] at h
  cases hc : cleanData d with
  | error e => simp only [hc] at h; cases h
  | ok d' =>
    simp only [hc] at h
    have hk := cleanData_get hc
    simp only [supported, List.mem_cons, List.not_mem_nil, or_false] at hn
    rcases hn with rfl | rfl | rfl | rfl | rfl | rfl | rfl | rfl | rfl | rfl | rfl | rfl | rfl | rfl | rfl
    · rw [disp15] at h
      obtain ⟨v, m, h1, h2⟩ := len15_ok (none_ok h)
      exact ⟨_, _, .s15 ((hk _ (by decide)).symm.trans h1) h2⟩
    · rw [disp18] at h
      obtain ⟨v, m, h1, h2⟩ := len18_ok (none_ok h)
      exact ⟨_, _, .s18 ((hk _ (by decide)).symm.trans h1) h2⟩
    · rw [disp55] at h
      obtain ⟨v, an, u', h1, h2, h3⟩ := prep55_ok (none_ok h)
      have h1 := (hk _ (by decide)).symm.trans h1
      by_cases c2 : v.numEq 2 = true
      · exact ⟨_, _, .s55n h1 c2⟩
      by_cases c3 : v.numEq 3 = true ∨ v.numEq 7 = true
      · exact ⟨_, _, .s55c h1 c3⟩
      by_cases c5 : v.numEq 5 = true
      · exact ⟨_, _, .s55f h1 c5⟩
      exfalso
      have ha : an = none := by
        have c3' : (v.numEq 3 || v.numEq 7) = false := by
          rw [not_or] at c3
          rw [Bool.eq_false_iff.2 c3.1, Bool.eq_false_iff.2 c3.2]; rfl
        rw [Bool.not_eq_true] at c2 c5
        unfold an55 at h2
        split at h2
        iterate 4 cases h2
        rw [c2, c3', c5] at h2
        exact (Except.ok.inj h2).symm
      rw [ha] at h3
      cases h3
    · exact ⟨_, _, .s58⟩
    · exact ⟨_, _, .s82⟩
    · exact ⟨_, _, .s151⟩
    · exact ⟨_, _, .s164⟩
    · exact ⟨_, _, .s1858⟩
    · exact ⟨_, _, .s2400⟩
    · exact ⟨_, _, .s2411⟩
    · exact ⟨_, _, .s2412⟩
    · exact ⟨_, _, .s2414⟩
    · exact ⟨_, _, .s2420⟩
    · exact ⟨_, _, .group (.inl rfl)⟩
    · exact ⟨_, _, .group (.inr rfl)⟩

theorem Defaults.noData {now : Text × Text} {d : Dict} {n : Int} {fs : List (String × Val)} {ch : List String}
    (h : Defaults now d n fs ch) : (entries fs).get? "data" = none ∧ "data" ∉ ch := by
  cases h
  case group h => rcases h with rfl | rfl <;> exact ⟨rfl, by decide⟩
  all_goals exact ⟨rfl, by decide⟩

/-- "data" is not added when it is missing, and is cleaned (property C36) when it is given. -/
theorem C14_write_data {e : Env} {fd : Bool} {d : Dict} {n : Int} {x : Option Bytes} (ht : d.get? "type" = some (.int n))
    (h : (writeBody e fd d).res = .ok x) :
    (d.get? "data" = none → (writeBody e fd d).dict.get? "data" = none) ∧
    (∀ v v', d.get? "data" = some v → CleanV v v' → (writeBody e fd d).dict.get? "data" = some v') := by
  obtain ⟨fs, ch, hD⟩ := C14_table ht h
  unfold writeBody at h ⊢
  rw [ht] at h ⊢
  cases hc : cleanData d with
  | error e => simp only [hc] at h; cases h
  | ok d' =>
    simp only [hc] at h ⊢
    have := dispatch_completed (hD.congr (cleanData_get hc)) h
    rw [this.all _ (by rintro s hs hh; cases hh; exact hD.noData.2 hs), hD.noData.1, Option.or_none]
    refine ⟨fun hn => ?_, fun v v' hv hcv => ?_⟩
    · rw [cleanData_none hc hn]; exact hn
    · unfold cleanData at hc
      rw [hv] at hc
      simp only [cleanV_eq hcv] at hc
      cases hc
      exact Dict.get?_set_self _ _ _

/-- Data-set 58: "abscissa_min" becomes the first value of "x"; "ord_data_type" is replaced when double precision is forced
(the default), and stays otherwise; "n_bytes" is recomputed if it is there. -/
theorem C14_write_58 {e : Env} {fd : Bool} {d : Dict} {b : Option Bytes} (ht : d.get? "type" = some (.int 58))
    (h : (writeBody e fd d).res = .ok b) :
    let d' := (writeBody e fd d).dict
    (∀ l x, d.get? "x" = some (.arrF (x :: l)) → d'.get? "abscissa_min" = some (.float x)) ∧
    (fd = false → d'.get? "ord_data_type" = d.get? "ord_data_type") ∧
    (∀ l, fd = true → d.get? "data" = some (.arrF l) → d'.get? "ord_data_type" = some (.int 4)) ∧
    (∀ l, fd = true → d.get? "data" = some (.arrC l) → d'.get? "ord_data_type" = some (.int 6)) ∧
    (d.get? "n_bytes" = none → d'.get? "n_bytes" = none) ∧
    (∀ l, d.get? "n_bytes" ≠ none → fd = true → d.get? "data" = some (.arrF l) →
      d'.get? "n_bytes" = some (.int (8 * l.length))) ∧
    (∀ l, d.get? "n_bytes" ≠ none → fd = true → d.get? "data" = some (.arrC l) →
      d'.get? "n_bytes" = some (.int (8 * l.length))) := by
  unfold writeBody at h ⊢
  rw [ht] at h ⊢
  cases hc : cleanData d with
  | error e => simp only [hc] at h; cases h
  | ok d' =>
    simp only [hc] at h ⊢
    rw [disp58] at h ⊢
    have hk := cleanData_get hc
    have hd := dict58 h
    have hf : ∀ l, d.get? "data" = some (.arrF l) → d'.get? "data" = some (.arrF (l.map F64.nanToNum)) := by
      intro l hl
      unfold cleanData at hc
      rw [hl] at hc
      cases hc
      exact Dict.get?_set_self _ _ _
    have hfc : ∀ l, d.get? "data" = some (.arrC l) → ∃ l' : List (F64 × F64), l'.length = l.length ∧ d'.get? "data" = some (.arrC l') := by
      intro l hl
      unfold cleanData at hc
      rw [hl] at hc
      cases hc
      exact ⟨_, by simp, Dict.get?_set_self _ _ _⟩
    have h4 : ∀ l, fd = true → d.get? "data" = some (.arrF l) →
        (write58 e.little fd d').dict.get? "ord_data_type" = some (.int 4) := fun l h1 h2 => hd.order _ false (hf l h2) rfl h1
    have h6 : ∀ l, fd = true → d.get? "data" = some (.arrC l) →
        (write58 e.little fd d').dict.get? "ord_data_type" = some (.int 6) := fun l h1 h2 => by
      obtain ⟨l', -, hl⟩ := hfc l h2
      exact hd.order _ true hl rfl h1
    refine ⟨fun l x hx => hd.start _ _ ((hk _ (by decide)).trans hx) rfl, fun h1 => ?_, h4, h6, fun h1 => ?_, ?_, ?_⟩
    · rw [hd.orderKept h1, hk _ (by decide)]
    · exact hd.bytesAbsent ((hk _ (by decide)).trans h1)
    · intro l h1 h2 h3
      obtain ⟨k, e1, e2⟩ := hd.bytes _ l.length _ (some true) (by rw [hk _ (by decide)]; exact h1) (hf l h3)
        (by show Except.ok _ = _; rw [List.length_map]) (h4 l h2 h3) rfl
      rw [e2]; cases e1
      rw [Nat.cast_mul, mul_comm]; rfl
    · intro l h1 h2 h3
      obtain ⟨l', hl, hg⟩ := hfc l h3
      obtain ⟨k, e1, e2⟩ := hd.bytes _ l.length _ (some true) (by rw [hk _ (by decide)]; exact h1) hg
        (by show Except.ok _ = _; rw [hl]) (h6 l h2 h3) rfl
      rw [e2]; cases e1
      rw [Nat.cast_mul, mul_comm]; rfl

/-- Data-set 55, complex modes: "modal_a" and "modal_b" are 0 when missing, stay when they are complex, and become complex
when they are floats. -/
theorem C14_write_55 {e : Env} {fd : Bool} {d : Dict} {a : Val} {b : Option Bytes} (ht : d.get? "type" = some (.int 55))
    (ha : d.get? "analysis_type" = some a) (hn : a.numEq 3 = true ∨ a.numEq 7 = true)
    (h : (writeBody e fd d).res = .ok b) (k : String) (hk : k = "modal_a" ∨ k = "modal_b") :
    let d' := (writeBody e fd d).dict
    (d.get? (.s k) = none → d'.get? (.s k) = some (.cplx F64.zero F64.zero)) ∧
    (∀ x y, d.get? (.s k) = some (.cplx x y) → d'.get? (.s k) = some (.cplx x y)) ∧
    (∀ x : F64, x.finite = true → x.mag ≠ 0 → d.get? (.s k) = some (.float x) →
      d'.get? (.s k) = some (.cplx x F64.zero)) := by
  unfold writeBody at h ⊢
  rw [ht] at h ⊢
  cases hc : cleanData d with
  | error e => simp only [hc] at h; cases h
  | ok d0 =>
    simp only [hc] at h ⊢
    rw [disp55] at h ⊢
    have hkd : (Key.s k) ≠ .s "data" := by rcases hk with rfl | rfl <;> decide
    have hq := cleanData_get hc
    have hch := changed55 ((hq _ (by decide)).trans ha) hn (none_ok h)
    have hk' : (Key.s k) = .s "modal_a" ∨ (Key.s k) = .s "modal_b" := by
      rcases hk with rfl | rfl
      · exact .inl rfl
      · exact .inr rfl
    obtain ⟨v, hv, hm⟩ := hch.modal _ hk'
    have hfill : (optFields d0 opt55).filled opt55c (.s k) = (d.get? (.s k)).or (some (.cplx F64.zero F64.zero)) := by
      unfold Dict.filled
      rw [get?_optFields, hq _ hkd, Option.or_assoc]
      congr 1
      rcases hk with rfl | rfl <;> rfl
    rw [hfill] at hv
    rw [none_dict rfl]
    refine ⟨fun h0 => ?_, fun x y h0 => ?_, fun x hx hz h0 => ?_⟩
    · rw [h0] at hv; cases hv
      rcases hm with ⟨-, hm⟩ | ⟨v', hm, -, -⟩
      · exact hm
      · cases hm
    · rw [h0] at hv; cases hv
      rcases hm with ⟨-, hm⟩ | ⟨v', hm, -, -⟩
      · exact hm
      · cases hm
    · rw [h0] at hv; cases hv
      rcases hm with ⟨hm, -⟩ | ⟨v', -, hp, hm⟩
      · cases hm
      · rw [hm]; cases hp
        unfold addZeroJ
        have h1 : x.add F64.zero = x := by
          have := F64.add_sz x false hx
          rw [if_neg hz] at this
          exact this
        have h2 : F64.zero.add F64.zero = F64.zero := by decide +kernel
        simp only [h1, h2]

/-! Whatever the outcome. -/

/-- The keys a write may change although they are given. -/
def mayChange : List String := ["data", "modal_a", "modal_b", "ord_data_type", "n_bytes", "abscissa_min"]

/-- The keys a write may add. -/
def mayAdd : List String :=
  ["def_cs", "disp_cs", "color", "cs_type", "method", "cs_name", "units_description", "model_type", "modal_m",
   "modal_damp_vis", "modal_damp_his", "modal_a", "modal_b", "id", "version_db1", "version_db2", "file_type",
   "date_db_created", "time_db_created", "date_db_saved", "time_db_saved", "date_file_written", "time_file_written",
   "temp_mode", "model_uid", "entity_type", "entity_subtype", "version_number", "entity_name", "part_number",
   "status_mask", "date", "time", "idm_version_id", "idm_item_id", "primary_parent_uid", "optimization_switches",
   "Part_UID", "Part_Name", "CS_types", "CS_colors", "active_constraint_set_no_for_group",
   "active_restraint_set_no_for_group", "active_load_set_no_for_group", "active_dof_set_no_for_group",
   "active_temperature_set_no_for_group", "active_contact_set_no_for_group", "ord_data_type", "abscissa_min",
   "record10_field1", "record10_field2", "record10_field3", "record10_field4", "record10_field5",
   "record10_field6", "record10_field7", "record10_field8", "record11_field1", "record11_field2",
   "record11_field3", "record11_field4", "record11_field5", "record11_field6", "record11_field7",
   "record11_field8", "record12_field1", "record12_field2", "record12_field3", "record12_field4",
   "record12_field5", "record12_field6", "record13_field1", "record13_field2", "record13_field3",
   "record13_field4", "record13_field5", "record13_field6"] ++ (none58 ++ zero58)

/-- The same as keys. -/
def mayChangeK : List Key := mayChange.map .s
/-- The same as keys; "n_bytes" is never added, see `C14_write_58`. -/
def mayAddK : List Key := .s "n_bytes" :: mayAdd.map .s

theorem grown_opt {d : Dict} (fs : List (Key × Val)) (h : ∀ p ∈ fs, p.1 ∈ mayAddK) :
    Grown mayChangeK mayAddK d (optFields d fs) :=
  (keeps_opt (over := mayChangeK) fs h).run d

theorem grown_writers (e : Env) (fd : Bool) (n : Int) (d : Dict) :
    Grown mayChangeK mayAddK d (writeDispatch e fd (.int n) d).dict := by
  by_cases hn : n ∉ supported
  · rw [dispatch_unsupported e fd _ hn]; exact (pre_grown _ _).refl d
  have hn : n ∈ supported := not_not.1 hn
  have pg := pre_grown mayChangeK mayAddK
  simp only [supported, List.mem_cons, List.not_mem_nil, or_false] at hn
  rcases hn with rfl | rfl | rfl | rfl | rfl | rfl | rfl | rfl | rfl | rfl | rfl | rfl | rfl | rfl | rfl
  · rw [disp15, none_dict rfl]
    refine W.Keeps.run ?_ d
    unfold write15
    wkeep pg
    exact keeps_opt _ (by simp only [opt15, List.forall_mem_cons]; decide)
  · rw [disp18, none_dict rfl]
    refine W.Keeps.run ?_ d
    unfold write18
    wkeep pg
    exact keeps_opt _ (by simp only [opt18, List.forall_mem_cons]; decide)
  · rw [disp55, none_dict rfl]
    refine W.Keeps.run ?_ d
    unfold write55
    wkeep pg
    · exact keeps_opt _ (by decide)
    · unfold prep55
      split
      · exact keeps_opt _ (by decide)
      · wkeep pg
        · exact keeps_opt _ (by decide)
        · unfold makeComplex
          wkeep pg
          exact keeps_put _ _ (by decide) (by decide)
        · unfold makeComplex
          wkeep pg
          exact keeps_put _ _ (by decide) (by decide)
      · wkeep pg
      · wkeep pg
    · unfold head55
      split <;> wkeep pg
  · rw [disp58]
    refine W.Keeps.run ?_ d
    have hu : ∀ k, W.Keeps (Grown mayChangeK mayAddK) (unitsRow k) := by
      intro k; unfold unitsRow; wkeep pg
    have hi : ∀ a b c, W.Keeps (Grown mayChangeK mayAddK) (idRest58 a b c) := by
      intro a b c; unfold idRest58; wkeep pg
    have hb : ∀ a b c e f g, W.Keeps (Grown mayChangeK mayAddK) (body58 a b c e f g) := by
      intro a b c e f g; unfold body58; wkeep pg; split <;> wkeep pg
    unfold write58
    wkeep pg
    · exact keeps_opt _ (by decide +kernel)
    · exact keeps_put _ _ (by decide) (by decide)
    · exact keeps_put _ _ (by decide) (by decide)
    · exact keeps_put _ _ (by decide) (by decide)
    · exact hi _ _ _
    · exact hu _
    · exact hu _
    · exact hu _
    · exact hu _
    · exact hb _ _ _ _ _ _
  · rw [disp82, none_dict (dict82 d)]; exact grown_opt _ (by decide)
  · rw [disp151, none_dict (dict151 _ _ d)]; exact grown_opt _ (by simp only [opt151, List.forall_mem_cons]; decide)
  · rw [disp164, none_dict (dict164 d)]; exact grown_opt _ (by decide)
  · rw [disp1858, none_dict (dict1858 d)]; exact grown_opt _ (by decide)
  · rw [disp2400, none_dict (dict2400 d)]; exact grown_opt _ (by decide +kernel)
  · rw [disp2411, none_dict (dict2411 d)]; exact grown_opt _ (by decide)
  · rw [disp2412, none_dict (dict2412 d)]; exact pg.refl d
  · rw [disp2414, none_dict (dict2414 d)]; exact grown_opt _ (by decide +kernel)
  · rw [disp2420, none_dict (dict2420 d)]; exact grown_opt _ (by decide)
  · rw [disp2429, none_dict (dict2429 d)]; exact grown_opt _ (by decide)
  · rw [disp2467, none_dict (dict2467 d)]; exact grown_opt _ (by decide)

/-- Whether the write succeeds or not, only the keys of `mayChange` can lose the value they were given, and only documented
optional keys are added. -/
theorem C14_write_any (e : Env) (fd : Bool) (d : Dict) (n : Int) (ht : d.get? "type" = some (.int n)) :
    (∀ k v, (∀ s ∈ mayChange, k ≠ .s s) → d.get? k = some v → (writeBody e fd d).dict.get? k = some v) ∧
    (∀ k, (writeBody e fd d).dict.get? k ≠ none → d.get? k ≠ none ∨ ∃ s ∈ "n_bytes" :: mayAdd, k = .s s) := by
  unfold writeBody
  rw [ht]
  cases hc : cleanData d with
  | error e => simp only; exact ⟨fun _ _ _ h => h, fun _ h => .inl h⟩
  | ok d' =>
    simp only
    have hg := grown_writers e fd n d'
    refine ⟨fun k v hk hv => ?_, fun k hk => ?_⟩
    · refine hg.keep k v ?_ ?_
      · intro hm
        obtain ⟨s, hs, rfl⟩ := List.mem_map.1 hm
        exact hk s hs rfl
      · rw [cleanData_get hc _ (hk _ (by decide))]; exact hv
    · rcases hg.new k hk with h | h
      · by_cases hkd : k = .s "data"
        · left
          subst hkd
          intro h0
          rw [cleanData_none hc h0] at h
          exact h h0
        · left; rw [← cleanData_get hc k hkd]; exact h
      · right
        have h : k ∈ ("n_bytes" :: mayAdd).map Key.s := h
        obtain ⟨s, hs, rfl⟩ := List.mem_map.1 h
        exact ⟨s, hs, rfl⟩

/-! The dictionaries of the caller. -/

/-- `d'` is what a successful write at the time `now` makes of the caller's `d`. -/
def Finished (now : Text × Text) (d d' : Dict) : Prop :=
  ∃ n fs ch, d.get? "type" = some (.int n) ∧ Defaults now d n fs ch ∧ Completed d fs ("data" :: ch) d'

theorem finished {e : Env} {fd : Bool} {d : Dict} {n : Int} {x : Option Bytes} (ht : d.get? "type" = some (.int n))
    (h : (writeBody e fd d).res = .ok x) : Finished (e.clock 0) d (writeBody e fd d).dict := by
  obtain ⟨fs, ch, hD⟩ := C14_table ht h
  exact ⟨n, fs, ch, ht, hD, C14_write ht hD h⟩

theorem writeSet_finished {w : World} {e : Env} {fd over : Bool} {d : Dict} {n : Int}
    (ht : d.get? "type" = some (.int n)) (h : (w.writeSet e fd over d).2.2 = .ok ()) :
    Finished (e.clock 0) d (w.writeSet e fd over d).2.1 := by
  unfold World.writeSet at h ⊢
  simp only at h ⊢
  cases hr : (writeBody e fd d).res with
  | error x => simp only [hr] at h; cases h
  | ok x => simp only; exact finished ht hr

theorem addAll_finished {fd : Bool} (ds : List Dict) : ∀ (w : World) (e : Env)
    (_ : ∀ d ∈ ds, ∃ n, d.get? "type" = some (.int n)) (_ : (w.addAll e fd ds).2.2 = .ok ()),
    (w.addAll e fd ds).2.1.length = ds.length ∧
    ∀ i d d', ds[i]? = some d → (w.addAll e fd ds).2.1[i]? = some d' → Finished (e.clock i) d d' := by
  induction ds with
  | nil => intro w e _ _; exact ⟨rfl, fun i d d' h => by simp at h⟩
  | cons d ds ih =>
    intro w e ht h
    unfold World.addAll at h ⊢
    rcases hw : w.writeSet e fd false d with ⟨w', d1, r⟩
    rw [hw] at h
    cases r with
    | error x => simp only at h; cases h
    | ok u =>
      simp only at h ⊢
      obtain ⟨h1, h2⟩ := ih w' e.next (fun d hd => ht d (List.mem_cons_of_mem _ hd)) h
      refine ⟨by rw [List.length_cons, h1, List.length_cons], fun i a b ha hb => ?_⟩
      cases i with
      | zero =>
        simp only [List.getElem?_cons_zero, Option.some.injEq] at ha hb
        subst ha hb
        obtain ⟨n, hn⟩ := ht d List.mem_cons_self
        have := writeSet_finished (w := w) (e := e) (fd := fd) (over := false) hn (by rw [hw])
        rwa [hw] at this
      | succ i =>
        simp only [List.getElem?_cons_succ] at ha hb
        exact h2 i a b ha hb

/-- After `write_sets` returned, each of the caller's dictionaries shows what it was given plus the defaults; the defaults
that are dates are those of its own write. -/
theorem C14_sets (w : World) (e : Env) (mode : Text) (fd : Bool) (ds : List Dict)
    (ht : ∀ d ∈ ds, ∃ n, d.get? "type" = some (.int n)) (h : (w.writeSets e mode fd ds).2.2 = .ok ()) :
    (w.writeSets e mode fd ds).2.1.length = ds.length ∧
    ∀ i d d', ds[i]? = some d → (w.writeSets e mode fd ds).2.1[i]? = some d' → Finished (e.clock i) d d' := by
  unfold World.writeSets at h ⊢
  cases ds with
  | nil => simp only at h; cases h
  | cons d ds =>
    simp only at h ⊢
    by_cases hm : lower mode = "overwrite".toList
    · rw [if_pos hm] at h ⊢
      rcases hw : w.writeSet e fd true d with ⟨w', d1, r⟩
      rw [hw] at h
      cases r with
      | error x => simp only at h; cases h
      | ok u =>
        simp only at h ⊢
        obtain ⟨h1, h2⟩ := addAll_finished ds w' e.next (fun d hd => ht d (List.mem_cons_of_mem _ hd)) h
        refine ⟨by rw [List.length_cons, h1, List.length_cons], fun i a b ha hb => ?_⟩
        cases i with
        | zero =>
          simp only [List.getElem?_cons_zero, Option.some.injEq] at ha hb
          subst ha hb
          obtain ⟨n, hn⟩ := ht d List.mem_cons_self
          have := writeSet_finished (w := w) (e := e) (fd := fd) (over := true) hn (by rw [hw])
          rwa [hw] at this
        | succ i =>
          simp only [List.getElem?_cons_succ] at ha hb
          exact h2 i a b ha hb
    · rw [if_neg hm] at h ⊢
      by_cases ha : lower mode = "add".toList
      · rw [if_pos ha] at h ⊢
        exact addAll_finished _ w e ht h
      · rw [if_neg ha] at h; cases h

/-- A data-set 58 without any optional key, but with an "abscissa_min" and an "n_bytes". -/
def ex58min : Dict :=
  [((.s "type" : Key), Val.int 58), ("func_type", .int 1), ("rsp_node", .int 1), ("rsp_dir", .int 1), ("ref_node", .int 1),
   ("ref_dir", .int 1), ("data", .arrF [fA, fB]), ("x", .arrF [fA, fA]), ("orddenom_spec_data_type", .int 0),
   ("abscissa_min", .float fB), ("n_bytes", .int 1), ("ord_data_type", .int 2)]

/-- A data-set 55 with complex modes and a real "modal_a". -/
def ex55min : Dict :=
  [((.s "type" : Key), Val.int 55), ("analysis_type", .int 3), ("data_ch", .int 2), ("spec_data_type", .int 8),
   ("load_case", .int 1), ("mode_n", .int 1), ("eig", .cplx fA fB), ("modal_a", .float fA), ("node_nums", .arrI [1]),
   ("r1", .arrC [(fA, fB)]), ("r2", .arrC [(fA, fB)]), ("r3", .arrC [(fA, fB)])]

/-- Both are written; so is a data-set 151 with three keys. -/
example : (∃ x, (writeBody exEnv true ex58min).res = .ok x) ∧ (∃ x, (writeBody exEnv true ex55min).res = .ok x) ∧
    ∃ x, (writeBody exEnv true [((.s "type" : Key), Val.int 151), ("model_name", .str []), ("description", .str []),
      ("db_app", .str []), ("program", .str [])]).res = .ok x :=
  ⟨⟨none, by decide +kernel⟩, ⟨none, by decide +kernel⟩, ⟨none, by decide +kernel⟩⟩

/-- Two of them in one call. -/
example : ((World.new none).writeSets exEnv "add".toList true [ex58min, ex55min]).2.2 = .ok () := by decide +kernel

/-- The property in full is false: a data-set 58 given with single precision (`ord_data_type` 2), an "abscissa_min" and an
"n_bytes" loses all three values. -/
theorem C14_negation : ∃ d : Dict, d.get? "ord_data_type" = some (.int 2) ∧ d.get? "abscissa_min" = some (.float fB) ∧
    (writeBody exEnv true d).res = .ok none ∧
    (writeBody exEnv true d).dict.get? "ord_data_type" = some (.int 4) ∧
    (writeBody exEnv true d).dict.get? "abscissa_min" = some (.float fA) ∧
    (writeBody exEnv true d).dict.get? "n_bytes" = some (.int 16) :=
  ⟨ex58min, by decide +kernel, by decide +kernel, by decide +kernel, by decide +kernel, by decide +kernel, by decide +kernel⟩

end Verif
