import Verif.Spec.Number
import Verif.Lemmas.Required2
/-
Writers fail when an entry that is written as a number is not a number.
-/
namespace Verif

/-- The value of the entry `k` satisfies `Q`, and the entry `c` is `u`. -/
def Entry (k : Key) (Q : Val → Prop) (c : Key) (u : Val) (d : Dict) : Prop := (∃ v, d.get? k = some v ∧ Q v) ∧ d.get? c = some u

/-- The entry `k` is not a number, and the entry `c` is `u`. -/
abbrev NotNum (k c : Key) (u : Val) : Dict → Prop := Entry k (fun v => notNumber v = true) c u

theorem fmtI_bad {w : Nat} {v : Val} (h : notNumber v = true) : ∃ e, fmtI w v = .error e := by
  unfold fmtI
  cases v <;> simp [notNumber] at h <;> exact ⟨_, rfl⟩

theorem fmtEV_bad {w p : Nat} {v : Val} (h : notNumber v = true) : ∃ e, fmtEV w p v = .error e := by
  unfold fmtEV
  cases v <;> simp [notNumber] at h <;> exact ⟨_, rfl⟩

namespace W

variable {α β : Type} {P : Dict → Prop} {k c : Key} {u : Val}

/-- The value cannot be formatted, or the expression fails. -/
def FldBad (P : Dict → Prop) (f : Fld) : Prop := ∀ d, P d → ∃ e, (f.acc d >>= f.fmt) = Except.error e

/-- The line cannot be formatted. -/
def FldsBad (P : Dict → Prop) (fs : List Fld) : Prop := ∀ d, P d → ∃ e, (evalFlds d fs >>= fmtFlds fs) = Except.error e

theorem bad_head {f : Fld} {fs : List Fld} (h : FldBad P f) : FldsBad P (f :: fs) := by
  intro d hd
  obtain ⟨e, he⟩ := h d hd
  unfold evalFlds
  cases hv : f.acc d with
  | error x => exact ⟨x, rfl⟩
  | ok v =>
    rw [hv] at he
    have he : f.fmt v = .error e := he
    cases hr : evalFlds d fs with
    | error x => exact ⟨x, rfl⟩
    | ok vs =>
      refine ⟨e, ?_⟩
      show fmtFlds (f :: fs) (v :: vs) = _
      simp only [fmtFlds, he]

theorem bad_tail {f : Fld} {fs : List Fld} (h : FldsBad P fs) : FldsBad P (f :: fs) := by
  intro d hd
  obtain ⟨e, he⟩ := h d hd
  unfold evalFlds
  cases hv : f.acc d with
  | error x => exact ⟨x, rfl⟩
  | ok v =>
    cases hr : evalFlds d fs with
    | error x => exact ⟨x, rfl⟩
    | ok vs =>
      rw [hr] at he
      have he : fmtFlds fs vs = .error e := he
      cases ht : f.fmt v with
      | error x => exact ⟨x, by show fmtFlds (f :: fs) (v :: vs) = _; simp only [fmtFlds, ht]⟩
      | ok t => exact ⟨e, by show fmtFlds (f :: fs) (v :: vs) = _; simp only [fmtFlds, ht, he]⟩

theorem bad_const {fmt : Val → Res Text} {v : Val} {fs : List Fld} (h : FldsBad P fs) : FldsBad P (Fld.c fmt v :: fs) := bad_tail h

theorem get_bad {d : Dict} {v : Val} (h : d.get? k = some v) : d.get k = .ok v := by unfold Dict.get; rw [h]

theorem bad_fmt {fmt : Val → Res Text} (hf : ∀ v, notNumber v = true → ∃ e, fmt v = .error e) :
    FldBad (NotNum k c u) ⟨fun d => d.get k, fmt⟩ := by
  intro d hd
  obtain ⟨⟨v, hv, hn⟩, -⟩ := hd
  obtain ⟨e, he⟩ := hf v hn
  refine ⟨e, ?_⟩
  show (d.get k >>= fmt) = _
  rw [get_bad hv]
  exact he

theorem bad_i {w : Nat} : FldBad (NotNum k c u) (Fld.i w k) := bad_fmt fun _ => fmtI_bad
theorem bad_e {w p : Nat} : FldBad (NotNum k c u) (Fld.e w p k) := bad_fmt fun _ => fmtEV_bad
theorem bad_e2 : FldBad (NotNum k c u) (Fld.e2 k) := bad_fmt fun v h => by
  obtain ⟨e, he⟩ := fmtEV_bad (w := 0) (p := 5) h
  exact ⟨e, by rw [he]; rfl⟩
theorem bad_re {w p : Nat} : FldBad (NotNum k c u) (Fld.re w p (·.get k)) := by
  intro d hd
  obtain ⟨⟨v, hv, hn⟩, -⟩ := hd
  unfold Fld.re
  simp only [get_bad hv]
  cases v <;> simp [notNumber] at hn <;> exact ⟨_, rfl⟩

theorem bad_format {fs : List Fld} (h : FldsBad P fs) : Fails P (W.format fs) := by
  intro d hd a ha
  obtain ⟨e, he⟩ := h d hd
  have ha : (match evalFlds d fs with | .error e => .error e | .ok vs => fmtFlds fs vs) = Except.ok a := ha
  cases hr : evalFlds d fs with
  | error x => rw [hr] at ha; cases ha
  | ok vs =>
    rw [hr] at ha he
    have he : fmtFlds fs vs = .error e := he
    simp only [he] at ha
    cases ha

theorem bad_row {fs : List Fld} (h : FldsBad P fs) : Fails P (W.row fs) := fails_here' (bad_format h)

theorem keeps_optNum {Q : Val → Prop} {fs : List (Key × Val)} :
    Keeps (fun d d' => Entry k Q c u d → Entry k Q c u d') (W.opt fs) := by
  refine ⟨fun d hd => ?_⟩
  show Entry k Q c u (optFields d fs)
  obtain ⟨⟨v, hv, hn⟩, hc⟩ := hd
  refine ⟨⟨v, ?_, hn⟩, ?_⟩
  · rw [get?_optFields, hv]; rfl
  · rw [get?_optFields, hc]; rfl

theorem keeps_putNum {Q : Val → Prop} {q : Key} {x : Val} (h : q ≠ k) (h' : q ≠ c) :
    Keeps (fun d d' => Entry k Q c u d → Entry k Q c u d') (W.put q x) := by
  refine ⟨fun d hd => ?_⟩
  show Entry k Q c u (d.set q x)
  unfold Entry
  rw [Dict.get?_set_ne _ _ _ _ h, Dict.get?_set_ne _ _ _ _ h']
  exact hd

/-- The value of the entry is known not to be a number. -/
theorem bad_value {Q : Val → Prop} {f : Val → W β} (h : ∀ v, Q v → Fails (Entry k Q c u) (f v)) :
    Fails (Entry k Q c u) (W.key k >>= f) := by
  intro d hd b hb
  obtain ⟨v, hv, hn⟩ := hd.1
  have hb : (W.bind (W.key k) f d).res = .ok b := hb
  rw [bind_res] at hb
  have : (W.key k d).res = .ok v := get_bad hv
  rw [this] at hb
  exact h v hn d hd b hb

/-- The value of the other entry is known. -/
theorem num_value {Q : Val → Prop} {f : Val → W β} (h : Fails (Entry k Q c u) (f u)) : Fails (Entry k Q c u) (W.key c >>= f) := by
  intro d hd b hb
  have hb : (W.bind (W.key c) f d).res = .ok b := hb
  rw [bind_res] at hb
  have : (W.key c d).res = .ok u := get_bad hd.2
  rw [this] at hb
  exact h d hd b hb

theorem record_bad {a : Res Text} {as : List (Res Text)} {x : Err} (h : a = .error x) : ∃ y, record (a :: as) = .error y :=
  ⟨x, by unfold record; rw [h]⟩
theorem record_rest {a : Res Text} {as : List (Res Text)} (h : ∃ y, record as = .error y) : ∃ y, record (a :: as) = .error y := by
  obtain ⟨y, hy⟩ := h
  unfold record
  cases a with
  | error x => exact ⟨x, rfl⟩
  | ok t => exact ⟨y, by simp only [hy]⟩

end W

open W

/-- Shows that one of the values of a line is not a number. -/
macro "badflds" : tactic => `(tactic|
  (repeat' first
    | with_reducible apply bad_const
    | with_reducible exact bad_head bad_i
    | with_reducible exact bad_head bad_e
    | with_reducible exact bad_head bad_e2
    | with_reducible apply bad_tail))

/-- Closes goals `Keeps` for the steps that leave the entry alone. -/
macro "numkeep" : tactic => `(tactic|
  repeat' first
    | intro _
    | with_reducible apply keeps_bind' (pre_imp _)
    | with_reducible apply keeps_bind (pre_imp _)
    | with_reducible exact keeps_pure' (pre_imp _) _
    | with_reducible exact keeps_pure (pre_imp _) _
    | with_reducible exact keeps_emit (pre_imp _) _
    | with_reducible exact keeps_raise (pre_imp _) _
    | with_reducible exact keeps_lift (pre_imp _) _
    | with_reducible exact keeps_getDict (pre_imp _)
    | with_reducible exact keeps_key (pre_imp _) _
    | with_reducible exact keeps_keyAt (pre_imp _) _ _
    | with_reducible exact keeps_format (pre_imp _) _
    | with_reducible exact keeps_row (pre_imp _) _
    | with_reducible exact keeps_writeRecord (pre_imp _) _ _ _
    | with_reducible apply keeps_when (pre_imp _)
    | with_reducible apply keeps_ite
    | with_reducible apply keeps_forL (pre_imp _)
    | with_reducible exact keeps_putNum (by decide) (by decide)
    | with_reducible exact keeps_optNum)

/-- Goes through a writer up to the line with the number. -/
macro "badnum" : tactic => `(tactic|
  (repeat' first
    | (with_reducible apply fails_here; with_reducible apply bad_row; badflds; done)
    | (with_reducible apply bad_row; badflds; done)
    | with_reducible refine fails_skip (by numkeep; done) fun _ => ?_))

/-- One goal for each entry. -/
macro "each_number" : tactic => `(tactic|
  (simp only [numberKeys, List.forall_mem_cons, List.not_mem_nil, false_implies, implies_true, and_true]; repeat' apply And.intro))

theorem num82 : ∀ k ∈ numberKeys 82, Fails (NotNum (.s k) "type" (.int 82)) write82 := by
  each_number
  all_goals
    unfold write82
    apply fails_guarded
    badnum

set_option maxHeartbeats 1000000 in
theorem num1858 : ∀ k ∈ numberKeys 1858, Fails (NotNum (.s k) "type" (.int 1858)) write1858 := by
  each_number
  all_goals
    unfold write1858
    apply fails_guardedAny
    badnum

theorem num2400 : ∀ k ∈ numberKeys 2400, Fails (NotNum (.s k) "type" (.int 2400)) write2400 := by
  each_number
  all_goals
    unfold write2400
    apply fails_guarded
    badnum

set_option maxHeartbeats 1000000 in
theorem num2414 : ∀ k ∈ numberKeys 2414, Fails (NotNum (.s k) "type" (.int 2414)) write2414 := by
  each_number
  all_goals
    unfold write2414
    apply fails_guardedAny
    badnum

theorem num2420 : ∀ k ∈ numberKeys 2420, Fails (NotNum (.s k) "type" (.int 2420)) write2420 := by
  each_number
  all_goals
    unfold write2420
    apply fails_guardedAny
    badnum

theorem num2429 : ∀ k ∈ numberKeys 2429, Fails (NotNum (.s k) "type" (.int 2429)) write2429 := by
  each_number
  all_goals
    unfold write2429
    apply fails_guardedAny
    badnum

theorem num164 : ∀ k ∈ numberKeys 164, Fails (NotNum (.s k) "type" (.int 164)) write164 := by
  each_number
  all_goals
    unfold write164
    apply fails_guarded
    with_reducible refine fails_skip (by numkeep) fun _ => ?_
    with_reducible refine fails_skip (by numkeep) fun _ => ?_
  · refine bad_value fun v hv => ?_
    with_reducible refine fails_skip (by numkeep) fun _ => ?_
    with_reducible refine fails_skip (by numkeep) fun _ => ?_
    obtain ⟨x, hx⟩ := fmtI_bad (w := 10) hv
    obtain ⟨y, hy⟩ : ∃ y, record [fmtI 10 v, _, _] = .error y := record_bad hx
    exact fails_here (fails_error hy)
  · with_reducible refine fails_skip (by numkeep) fun _ => ?_
    with_reducible refine fails_skip (by numkeep) fun _ => ?_
    refine bad_value fun v hv => ?_
    obtain ⟨x, hx⟩ := fmtI_bad (w := 10) hv
    obtain ⟨y, hy⟩ : ∃ y, record [_, _, fmtI 10 v] = .error y := record_rest (record_rest (record_bad hx))
    exact fails_here (fails_error hy)
  all_goals
    with_reducible refine fails_skip (by numkeep) fun _ => ?_
    with_reducible refine fails_skip (by numkeep) fun _ => ?_
    with_reducible refine fails_skip (by numkeep) fun _ => ?_
    with_reducible refine fails_skip (by numkeep) fun _ => ?_
    with_reducible refine fails_skip (by numkeep) fun _ => ?_
  · refine bad_value fun v hv => ?_
    with_reducible refine fails_skip (by numkeep) fun _ => ?_
    with_reducible refine fails_skip (by numkeep) fun _ => ?_
    with_reducible refine fails_skip (by numkeep) fun _ => ?_
    obtain ⟨x, hx⟩ := fmtEV_bad (w := 25) (p := 16) hv
    obtain ⟨y, hy⟩ : ∃ y, record [fmtEV 25 16 v, _, _] = .error y := record_bad hx
    exact fails_here (fails_error hy)
  · with_reducible refine fails_skip (by numkeep) fun _ => ?_
    refine bad_value fun v hv => ?_
    with_reducible refine fails_skip (by numkeep) fun _ => ?_
    with_reducible refine fails_skip (by numkeep) fun _ => ?_
    obtain ⟨x, hx⟩ := fmtEV_bad (w := 25) (p := 16) hv
    obtain ⟨y, hy⟩ : ∃ y, record [_, fmtEV 25 16 v, _] = .error y := record_rest (record_bad hx)
    exact fails_here (fails_error hy)
  · with_reducible refine fails_skip (by numkeep) fun _ => ?_
    with_reducible refine fails_skip (by numkeep) fun _ => ?_
    refine bad_value fun v hv => ?_
    with_reducible refine fails_skip (by numkeep) fun _ => ?_
    obtain ⟨x, hx⟩ := fmtEV_bad (w := 25) (p := 16) hv
    obtain ⟨y, hy⟩ : ∃ y, record [_, _, fmtEV 25 16 v] = .error y := record_rest (record_rest (record_bad hx))
    exact fails_here (fails_error hy)
  · with_reducible refine fails_skip (by numkeep) fun _ => ?_
    with_reducible refine fails_skip (by numkeep) fun _ => ?_
    with_reducible refine fails_skip (by numkeep) fun _ => ?_
    refine bad_value fun v hv => ?_
    with_reducible refine fails_skip (by numkeep) fun _ => ?_
    obtain ⟨x, hx⟩ := fmtEV_bad (w := 25) (p := 16) hv
    obtain ⟨y, hy⟩ : ∃ y, record [fmtEV 25 16 v] = .error y := record_bad hx
    exact fails_here (fails_error hy)

/-! Data-set 55. -/

theorem keeps_makeComplexNum {k c q : Key} {u : Val} {Q : Val → Prop} (h : q ≠ k) (h' : q ≠ c) :
    Keeps (fun d d' => Entry k Q c u d → Entry k Q c u d') (makeComplex q) := by
  unfold makeComplex
  refine keeps_bind (pre_imp _) (keeps_key (pre_imp _) _) fun _ => ?_
  refine keeps_bind (pre_imp _) (keeps_lift (pre_imp _) _) fun _ => ?_
  refine keeps_when (pre_imp _) _ ?_
  refine keeps_bind (pre_imp _) (keeps_lift (pre_imp _) _) fun _ => ?_
  exact keeps_putNum h h'

theorem keeps_prep55Num {k c : Key} {u : Val} {Q : Val → Prop} (an : Option An55)
    (ha : (("modal_a" : Key) ≠ k ∧ ("modal_a" : Key) ≠ c) ∧ ("modal_b" : Key) ≠ k ∧ ("modal_b" : Key) ≠ c) :
    Keeps (fun d d' => Entry k Q c u d → Entry k Q c u d') (prep55 an) := by
  unfold prep55
  split
  · exact keeps_optNum
  · refine keeps_bind (pre_imp _) keeps_optNum fun _ => ?_
    exact keeps_bind (pre_imp _) (keeps_makeComplexNum ha.1.1 ha.1.2) fun _ => keeps_makeComplexNum ha.2.1 ha.2.2
  · exact keeps_pure (pre_imp _) _
  · exact keeps_raise (pre_imp _) _

theorem load_num {c : Key} {u : Val} (an : Option An55) : Fails (NotNum "load_case" c u) (head55 an) := by
  unfold head55
  split
  · badnum
  · badnum
  · badnum
  · exact fails_raise

/-- `badnum` for data-set 55. -/
macro "badnum55" : tactic => `(tactic|
  (repeat' first
    | (with_reducible apply fails_here; with_reducible apply bad_row; badflds; done)
    | (with_reducible apply fails_here; with_reducible exact load_num _)
    | with_reducible refine fails_skip (keeps_prep55Num _ (by decide)) fun _ => ?_
    | with_reducible refine fails_skip (by numkeep; done) fun _ => ?_))

theorem num55 : ∀ k ∈ numberKeys 55, Fails (NotNum (.s k) "type" (.int 55)) write55 := by
  each_number
  all_goals
    unfold write55
    apply fails_guarded
    badnum55

theorem num_head_normal {k : Key} {u : Val} (hk : k ∈ (["mode_n", "freq", "modal_m", "modal_damp_vis", "modal_damp_his"] : List Key)) :
    Fails (NotNum k "analysis_type" u) (head55 (some .normal)) := by
  revert k
  simp only [List.forall_mem_cons, List.not_mem_nil, false_implies, implies_true, and_true]
  unfold head55
  repeat' apply And.intro
  all_goals badnum

theorem num_head_cmplx {k : Key} {u : Val} (hk : k = "mode_n" ∨ k = "eig") : Fails (NotNum k "analysis_type" u) (head55 (some .cmplx)) := by
  unfold head55
  rcases hk with rfl | rfl
  · badnum
  · with_reducible refine fails_skip (by numkeep) fun _ => ?_
    exact bad_row (bad_head bad_re)

theorem num_head_frf {k : Key} {u : Val} (hk : k = "freq_step_n" ∨ k = "freq") : Fails (NotNum k "analysis_type" u) (head55 (some .frf)) := by
  unfold head55
  rcases hk with rfl | rfl
  all_goals badnum

/-- Up to the lines that depend on the analysis type. -/
theorem an55_num {k : Key} {u : Val} {an : Option An55} (h : an55 u = .ok an)
    (ha : (("modal_a" : Key) ≠ k ∧ ("modal_a" : Key) ≠ "analysis_type") ∧ ("modal_b" : Key) ≠ k ∧ ("modal_b" : Key) ≠ "analysis_type")
    (hf : Fails (NotNum k "analysis_type" u) (head55 an)) : Fails (NotNum k "analysis_type" u) write55 := by
  unfold write55
  apply fails_guarded
  with_reducible refine fails_skip keeps_optNum fun _ => ?_
  refine num_value (fails_lift h ?_)
  with_reducible refine fails_skip (keeps_prep55Num _ ha) fun _ => ?_
  with_reducible refine fails_skip (by numkeep) fun _ => ?_
  with_reducible refine fails_skip (by numkeep) fun _ => ?_
  with_reducible refine fails_skip (by numkeep) fun _ => ?_
  with_reducible refine fails_skip (by numkeep) fun _ => ?_
  with_reducible refine fails_skip (by numkeep) fun _ => ?_
  with_reducible refine fails_skip (by numkeep) fun _ => ?_
  with_reducible refine fails_skip (by numkeep) fun _ => ?_
  with_reducible refine fails_skip (by numkeep) fun _ => ?_
  with_reducible refine fails_skip (by numkeep) fun _ => ?_
  with_reducible refine fails_skip (by numkeep) fun _ => ?_
  exact fails_here hf

theorem numAnalysis55 {a : Int} : ∀ k ∈ numberAnalysis 55 a, Fails (NotNum (.s k) "analysis_type" (.int a)) write55 := by
  unfold numberAnalysis
  split
  · simp only [List.forall_mem_cons, List.not_mem_nil, false_implies, implies_true, and_true]
    repeat' apply And.intro
    all_goals exact an55_num (an := some .normal) rfl (by decide) (num_head_normal (by decide))
  · simp only [List.forall_mem_cons, List.not_mem_nil, false_implies, implies_true, and_true]
    repeat' apply And.intro
    all_goals exact an55_num (an := some .cmplx) rfl (by decide) (num_head_cmplx (by decide))
  · simp only [List.forall_mem_cons, List.not_mem_nil, false_implies, implies_true, and_true]
    repeat' apply And.intro
    all_goals exact an55_num (an := some .frf) rfl (by decide) (num_head_frf (by decide))
  · simp only [List.forall_mem_cons, List.not_mem_nil, false_implies, implies_true, and_true]
    repeat' apply And.intro
    all_goals exact an55_num (an := some .cmplx) rfl (by decide) (num_head_cmplx (by decide))
  · rename_i h; omega
  · intro k hk; cases hk

theorem num_freq : ∀ k ∈ numberAnalysis 2414 5, Fails (NotNum (.s k) "analysis_type" (.int 5)) freqRest := by
  simp only [numberAnalysis, List.forall_mem_cons, List.not_mem_nil, false_implies, implies_true, and_true]
  repeat' apply And.intro
  all_goals
    unfold freqRest freqInts
    badnum

theorem numAnalysis2414 : ∀ k ∈ numberAnalysis 2414 5, Fails (NotNum (.s k) "analysis_type" (.int 5)) write2414 := by
  intro k hk
  unfold write2414
  apply fails_guardedAny
  iterate 11 with_reducible refine fails_skip (by numkeep) fun _ => ?_
  refine num_value ?_
  rw [if_pos (by decide)]
  exact num_freq k hk

/-! Data-set 58. -/

theorem units_num {c : Key} {u : Val} {k : Key} (ks : UnitKeys) (hk : k = ks.spec ∨ k = ks.len ∨ k = ks.force ∨ k = ks.temp) :
    Fails (NotNum k c u) (unitsRow ks) := by
  unfold unitsRow
  rcases hk with rfl | rfl | rfl | rfl
  all_goals
    apply bad_row
    badflds

/-- `badnum` for data-set 58. -/
macro "badnum58" : tactic => `(tactic|
  (repeat' first
    | (with_reducible apply fails_here; with_reducible apply bad_row; badflds; done)
    | (with_reducible apply fails_here; with_reducible refine units_num _ ?_; decide +kernel)
    | with_reducible refine fails_skip (keeps_units _) fun _ => ?_
    | with_reducible refine fails_skip (keeps_idRest _ _ _) fun _ => ?_
    | with_reducible refine fails_skip (by numkeep; done) fun _ => ?_))

set_option maxHeartbeats 2000000 in
theorem num58 (little fd : Bool) : ∀ k ∈ numberKeys 58, Fails (NotNum (.s k) "type" (.int 58)) (write58 little fd) := by
  each_number
  all_goals
    unfold write58
    apply fails_guarded
    badnum58

end Verif
