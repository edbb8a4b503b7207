import Verif.Lemmas.Required
/-
Writers fail when an entry is missing: data-sets 55 and 58, entries needed for each item, entries needed for an analysis
type.
-/
namespace Verif
open W

theorem keeps_head55 {P : Dict → Prop} (an : Option An55) : Keeps (fun d d' => P d → P d') (head55 an) := by
  unfold head55
  split
  all_goals lackkeep

theorem load_lack {v : Val} (an : Option An55) : Fails (Lack "load_case" "type" v) (head55 an) := by
  unfold head55
  split
  · lack
  · lack
  · lack
  · exact fails_raise

/-- `lackkeep` for data-set 55. -/
macro "lack55" : tactic => `(tactic|
  (repeat' first
    | (with_reducible apply fails_here; with_reducible apply fails_key; done)
    | (with_reducible apply fails_here; with_reducible apply fails_row; lackflds; done)
    | (with_reducible apply fails_here; with_reducible exact load_lack _)
    | with_reducible refine fails_skip (keeps_head55 _) fun _ => ?_
    | with_reducible refine fails_skip (keeps_prep55 _ (by decide +kernel) (by decide +kernel) (by decide)) fun _ => ?_
    | with_reducible refine fails_skip (by lackkeep; done) fun _ => ?_))

theorem lack55 : ∀ k ∈ requiredKeys true 55, Fails (Lack (.s k) "type" (.int 55)) write55 := by
  each_key
  all_goals
    unfold write55
    apply fails_guarded
    lack55

theorem keeps_units {P : Dict → Prop} (k : UnitKeys) : Keeps (fun d d' => P d → P d') (unitsRow k) := keeps_row (pre_imp _) _

theorem keeps_idRest {P : Dict → Prop} (little b : Bool) (n : Res Nat) : Keeps (fun d d' => P d → P d') (idRest58 little b n) := by
  unfold idRest58
  lackkeep

theorem orddenom_lack {c : Key} {v : Val} : Fails (Lack "orddenom_spec_data_type" c v) (unitsRow orddenomKeys) :=
  fails_row (flds_head acc_i)

/-- `lack` for data-set 58. -/
macro "lack58" : tactic => `(tactic|
  (repeat' first
    | (with_reducible apply fails_here; with_reducible apply fails_key; done)
    | (with_reducible apply fails_here; with_reducible apply fails_row; lackflds; done)
    | (with_reducible apply fails_here; with_reducible exact orddenom_lack)
    | with_reducible refine fails_skip (keeps_units _) fun _ => ?_
    | with_reducible refine fails_skip (keeps_idRest _ _ _) fun _ => ?_
    | with_reducible refine fails_skip (by lackkeep; done) fun _ => ?_))

theorem lack58 (little fd : Bool) : ∀ k ∈ requiredKeys true 58, Fails (Lack (.s k) "type" (.int 58)) (write58 little fd) := by
  simp only [requiredKeys, if_true, List.append_nil]
  each_key
  all_goals
    unfold write58
    apply fails_guarded
    lack58

theorem lack58ord (little : Bool) : Fails (Lack "ord_data_type" "type" (.int 58)) (write58 little false) := by
  unfold write58
  apply fails_guarded
  simp only [W.when, Bool.false_eq_true, if_false]
  lack58

theorem len_pos {v : Val} {n : Nat} (h : emptyVal v = false) (hn : v.len = .ok n) : List.range n ≠ [] := by
  have : n ≠ 0 := by
    rintro rfl
    unfold Val.len at hn
    split at hn <;> simp only [Except.ok.injEq, reduceCtorEq, List.length_eq_zero_iff] at hn <;> subst hn <;>
      simp [emptyVal] at h
  simpa using this

theorem items_pos {v : Val} {l : List Val} (h : emptyVal v = false) (hn : v.items = .ok l) : l ≠ [] := by
  rintro rfl
  unfold Val.items at hn
  split at hn <;> simp only [Except.ok.injEq, reduceCtorEq, List.map_eq_nil_iff] at hn <;> subst hn <;>
    simp [emptyVal] at h

/-- The number of items is known not to be zero. -/
theorem fails_len {k c : Key} {v : Val} {β : Type} (h : emptyVal v = false) {f : Nat → W β}
    (hf : ∀ n, List.range n ≠ [] → Fails (Lack k c v) (f n)) : Fails (Lack k c v) (W.key c >>= fun a => W.lift a.len >>= f) := by
  apply fails_value
  cases hn : v.len with
  | error x => exact fails_here (fails_error rfl)
  | ok n => exact fails_lift rfl (hf n (len_pos h hn))

theorem fails_evalFlds {P : Dict → Prop} {fs : List Fld} {β : Type} {f : List Val → W β} (h : FldsFail P fs) :
    Fails P (W.getDict >>= fun d => W.lift (evalFlds d fs) >>= f) := by
  refine fails_getDict fun d hd => ?_
  obtain ⟨e, he⟩ := h d hd
  exact fails_here (fails_error he)

theorem items15 {v : Val} (h : emptyVal v = false) : ∀ k ∈ (["x", "y", "z"] : List String),
    Fails (Lack (.s k) "node_nums" v) write15 := by
  each_key
  all_goals
    unfold write15
    apply fails_guarded
    refine fails_len h fun n hn => ?_
    with_reducible refine fails_skip (by lackkeep; done) fun _ => ?_
    with_reducible refine fails_skip (by lackkeep; done) fun _ => ?_
    with_reducible apply fails_here
    refine fails_forL hn fun i => ?_
    apply fails_evalFlds
    simp only [List.map_cons, List.map_nil]
    lackflds

theorem items18 {v : Val} (h : emptyVal v = false) : ∀ k ∈ (["ref_cs_num", "ref_o", "x_point", "xz_point"] : List String),
    Fails (Lack (.s k) "cs_num" v) write18 := by
  each_key
  all_goals
    unfold write18
    apply fails_guarded
    refine fails_len h fun n hn => ?_
    with_reducible refine fails_skip (by lackkeep; done) fun _ => ?_
    with_reducible refine fails_skip (by lackkeep; done) fun _ => ?_
    with_reducible apply fails_here
    refine fails_forL hn fun i => ?_
    lack

theorem items2411 {v : Val} (h : emptyVal v = false) : ∀ k ∈ (["def_cs", "disp_cs", "color", "x", "y", "z"] : List String),
    Fails (Lack (.s k) "node_nums" v) write2411 := by
  each_key
  all_goals
    unfold write2411
    apply fails_guardedAny
    with_reducible refine fails_skip (by lackkeep; done) fun _ => ?_
    with_reducible refine fails_skip (by lackkeep; done) fun _ => ?_
    apply fails_value
    cases hn : v.items with
    | error x => exact fails_here (fails_error rfl)
    | ok l =>
      refine fails_lift rfl ?_
      with_reducible apply fails_here
      refine fails_forL (by simpa using items_pos h hn) fun p => ?_
      lack

theorem vals_lack {k c : Key} {v : Val} (hk : k = "r2" ∨ k = "r3") (cplx six : Bool) (i : Nat) :
    FldsFail (Lack k c v) (vals55 cplx six i) := by
  unfold vals55
  rcases hk with rfl | rfl
  all_goals
    split
    · lackflds
    · split
      · lackflds
      · lackflds

theorem items55 {v : Val} (h : emptyVal v = false) : ∀ k ∈ (["r2", "r3"] : List String),
    Fails (Lack (.s k) "node_nums" v) write55 := by
  each_key
  all_goals
    unfold write55
    apply fails_guarded
    with_reducible refine fails_skip (by lackkeep; done) fun _ => ?_
    with_reducible refine fails_skip (by lackkeep; done) fun _ => ?_
    with_reducible refine fails_skip (by lackkeep; done) fun _ => ?_
    with_reducible refine fails_skip (keeps_prep55 _ (by decide +kernel) (by decide +kernel) (by decide)) fun _ => ?_
    with_reducible refine fails_skip (by lackkeep; done) fun _ => ?_
    with_reducible refine fails_skip (by lackkeep; done) fun _ => ?_
    with_reducible refine fails_skip (by lackkeep; done) fun _ => ?_
    with_reducible refine fails_skip (by lackkeep; done) fun _ => ?_
    with_reducible refine fails_skip (by lackkeep; done) fun _ => ?_
    with_reducible refine fails_skip (by lackkeep; done) fun _ => ?_
    with_reducible refine fails_skip (by lackkeep; done) fun _ => ?_
    with_reducible refine fails_skip (by lackkeep; done) fun _ => ?_
    with_reducible refine fails_skip (by lackkeep; done) fun _ => ?_
    with_reducible refine fails_skip (by lackkeep; done) fun _ => ?_
    with_reducible refine fails_skip (keeps_head55 _) fun _ => ?_
    refine fails_len h fun n hn => ?_
    with_reducible apply fails_here
    refine fails_forL hn fun i => ?_
    with_reducible refine fails_skip (by lackkeep; done) fun _ => ?_
    exact fails_row (vals_lack (by decide) _ _ _)

theorem items2429 {v : Val} (h : emptyVal v = false) : Fails (Lack "entity_tag" "entity_type_code" v) write2429 := by
  unfold write2429
  apply fails_guardedAny
  with_reducible refine fails_skip (by lackkeep; done) fun _ => ?_
  with_reducible refine fails_skip (by lackkeep; done) fun _ => ?_
  refine fails_len h fun n hn => ?_
  with_reducible refine fails_skip (by lackkeep; done) fun _ => ?_
  with_reducible refine fails_skip (by lackkeep; done) fun _ => ?_
  by_cases h4 : n / 4 = 0
  · with_reducible refine fails_skip (by lackkeep; done) fun _ => ?_
    with_reducible apply fails_here
    refine fails_forL (by simp at hn ⊢; omega) fun i => ?_
    with_reducible apply fails_here
    exact fails_format (by lackflds)
  · with_reducible apply fails_here
    refine fails_forL (by simpa using h4) fun i => ?_
    lack

theorem fails_an {k : Key} {v : Val} {an : Option An55} {β : Type} (h : an55 v = .ok an) {f : Option An55 → W β}
    (hf : Fails (Lack k "analysis_type" v) (f an)) :
    Fails (Lack k "analysis_type" v) (W.key "analysis_type" >>= fun a => W.lift (an55 a) >>= f) :=
  fails_value (fails_lift h hf)

theorem head_normal {k : Key} {v : Val} (hk : k = "mode_n" ∨ k = "freq") : Fails (Lack k "analysis_type" v) (head55 (some .normal)) := by
  unfold head55
  rcases hk with rfl | rfl
  all_goals lack

theorem head_cmplx {k : Key} {v : Val} (hk : k = "mode_n" ∨ k = "eig") : Fails (Lack k "analysis_type" v) (head55 (some .cmplx)) := by
  unfold head55
  rcases hk with rfl | rfl
  all_goals lack

theorem head_frf {k : Key} {v : Val} (hk : k = "freq_step_n" ∨ k = "freq") : Fails (Lack k "analysis_type" v) (head55 (some .frf)) := by
  unfold head55
  rcases hk with rfl | rfl
  all_goals lack

/-- Up to the lines that depend on the analysis type. -/
theorem an55_lack {k : Key} {v : Val} {an : Option An55} (h : an55 v = .ok an)
    (ho : Dict.get? opt55 k = Option.none) (hn : Dict.get? opt55n k = Option.none) (hc : Dict.get? opt55c k = Option.none)
    (ha : (("modal_a" : Key) ≠ k ∧ ("modal_a" : Key) ≠ "analysis_type") ∧ ("modal_b" : Key) ≠ k ∧ ("modal_b" : Key) ≠ "analysis_type")
    (hf : Fails (Lack k "analysis_type" v) (head55 an)) : Fails (Lack k "analysis_type" v) write55 := by
  unfold write55
  apply fails_guarded
  with_reducible refine fails_skip (keeps_optLack ho) fun _ => ?_
  refine fails_an h ?_
  with_reducible refine fails_skip (keeps_prep55 _ hn hc ha) fun _ => ?_
  with_reducible refine fails_skip (by lackkeep; done) fun _ => ?_
  with_reducible refine fails_skip (by lackkeep; done) fun _ => ?_
  with_reducible refine fails_skip (by lackkeep; done) fun _ => ?_
  with_reducible refine fails_skip (by lackkeep; done) fun _ => ?_
  with_reducible refine fails_skip (by lackkeep; done) fun _ => ?_
  with_reducible refine fails_skip (by lackkeep; done) fun _ => ?_
  with_reducible refine fails_skip (by lackkeep; done) fun _ => ?_
  with_reducible refine fails_skip (by lackkeep; done) fun _ => ?_
  with_reducible refine fails_skip (by lackkeep; done) fun _ => ?_
  with_reducible refine fails_skip (by lackkeep; done) fun _ => ?_
  exact fails_here hf

theorem analysis55 {a : Int} : ∀ k ∈ requiredAnalysis 55 a, Fails (Lack (.s k) "analysis_type" (.int a)) write55 := by
  unfold requiredAnalysis
  split
  · each_key
    all_goals exact an55_lack (an := some .normal) rfl (by decide +kernel) (by decide +kernel) (by decide +kernel) (by decide) (head_normal (by decide))
  · each_key
    all_goals exact an55_lack (an := some .cmplx) rfl (by decide +kernel) (by decide +kernel) (by decide +kernel) (by decide) (head_cmplx (by decide))
  · each_key
    all_goals exact an55_lack (an := some .frf) rfl (by decide +kernel) (by decide +kernel) (by decide +kernel) (by decide) (head_frf (by decide))
  · each_key
    all_goals exact an55_lack (an := some .cmplx) rfl (by decide +kernel) (by decide +kernel) (by decide +kernel) (by decide) (head_cmplx (by decide))
  · rename_i h; omega
  · intro k hk; cases hk

theorem rest2414 {k : Key} (ho : Dict.get? opt2414 k = Option.none) (hf : Fails (Lack k "analysis_type" (.int 5)) freqRest) :
    Fails (Lack k "analysis_type" (.int 5)) write2414 := by
  unfold write2414
  apply fails_guardedAny
  with_reducible refine fails_skip (keeps_optLack ho) fun _ => ?_
  with_reducible refine fails_skip (by lackkeep; done) fun _ => ?_
  with_reducible refine fails_skip (by lackkeep; done) fun _ => ?_
  with_reducible refine fails_skip (by lackkeep; done) fun _ => ?_
  with_reducible refine fails_skip (by lackkeep; done) fun _ => ?_
  with_reducible refine fails_skip (by lackkeep; done) fun _ => ?_
  with_reducible refine fails_skip (by lackkeep; done) fun _ => ?_
  with_reducible refine fails_skip (by lackkeep; done) fun _ => ?_
  with_reducible refine fails_skip (by lackkeep; done) fun _ => ?_
  with_reducible refine fails_skip (by lackkeep; done) fun _ => ?_
  with_reducible refine fails_skip (by lackkeep; done) fun _ => ?_
  refine fails_value ?_
  rw [if_pos (by decide)]
  exact hf

theorem freq_lack : ∀ k ∈ requiredAnalysis 2414 5, Fails (Lack (.s k) "analysis_type" (.int 5)) freqRest := by
  simp only [requiredAnalysis, List.forall_mem_cons, List.not_mem_nil, false_implies, implies_true, and_true]
  repeat' apply And.intro
  all_goals
    unfold freqRest freqInts
    lack

theorem analysis2414 : ∀ k ∈ requiredAnalysis 2414 5, Fails (Lack (.s k) "analysis_type" (.int 5)) write2414 := by
  intro k hk
  refine rest2414 ?_ (freq_lack k hk)
  revert k
  decide +kernel

end Verif
