import Verif.Lemmas.Accept
/-
Which dictionaries the writers accept, type by type.
-/
namespace Verif
open W (JR jr_emit jr_seq jr_then jr_emit_then jr_key jr_lift jr_opt jr_guarded jr_guardedAny jr_format jr_row jr_row_then jr_forL jr_none)

theorem fj_k {K : EntryKind} {fmt : Val → Res Text} {v : Val} {d : Dict} {fs : List Fld} {Q : Prop} (hf : FitsK K fmt) (hv : K.accepts v = true)
    (h : FJ fs d Q) : FJ (.c fmt v :: fs) d Q := by
  obtain ⟨t, ht⟩ := isOk_iff.1 ((hf.ok v).trans hv)
  exact fj_c ht h
theorem int_ok (n : Int) : EntryKind.accepts .int (.int n) = true := rfl
theorem str_ok (s : Text) : EntryKind.accepts .text (.str s) = true := rfl
theorem zero_ok : EntryKind.accepts .float (.int 0) = true := by decide +kernel

/-- The steps of a writer, given that the entries are covered. -/
macro "judge " h:ident : tactic => `(tactic|
  repeat' first
    | with_reducible exact jr_emit
    | with_reducible apply jr_emit_then
    | with_reducible apply jr_row_then
    | with_reducible exact fj_nil
    | (with_reducible apply fj_i $h; on_goal 1 => inlist)
    | (with_reducible apply fj_e $h; on_goal 1 => inlist)
    | (with_reducible apply fj_sl $h; on_goal 1 => inlist)
    | (with_reducible apply fj_sr $h; on_goal 1 => inlist)
    | (with_reducible apply fj_get $h fits_mask; on_goal 1 => inlist)
    | (with_reducible apply fj_k (fits_i _); on_goal 1 => exact int_ok _)
    | (with_reducible apply fj_k (fits_e _ _); on_goal 1 => exact zero_ok)
    | (with_reducible apply fj_k (fits_sr _); on_goal 1 => exact str_ok _)
    | (with_reducible apply fj_k (fits_sl _); on_goal 1 => exact str_ok _))

variable {d : Dict}

theorem canWrite_fields {t : Int} (hc : columnsOf t = Option.none) : canWrite t d = (fieldsOf t).all (entryOk d) := by
  unfold canWrite
  rw [hc]
  simp

theorem accept151 (ds ts : Text) (hk : knownFor 151 d) : JR (write151 ds ts) d (canWrite 151 d = true) := by
  have ho : (fieldsOf 151).all (optCond (opt151 ds ts)) = true := rfl
  have h := known_opt ho hk.1
  rw [canWrite_fields rfl, entries_opt ho]
  unfold write151
  refine jr_guarded (jr_opt ?_)
  generalize optFields d (opt151 ds ts) = d1 at h ⊢
  apply JR.iff
  · judge h
  · unfold fieldsOf
    simp only [Int.reduceEq, if_true, if_false, List.all_cons, List.all_nil, Bool.and_eq_true, and_true, and_assoc]

theorem accept1858 (hk : knownFor 1858 d) : JR write1858 d (canWrite 1858 d = true) := by
  have ho : (fieldsOf 1858).all (optCond []) = true := rfl
  have h := known_opt ho hk.1
  rw [canWrite_fields rfl, entries_opt ho]
  unfold write1858
  refine jr_guardedAny (jr_opt ?_)
  generalize optFields d [] = d1 at h ⊢
  apply JR.iff
  · judge h
  · unfold fieldsOf
    simp only [Int.reduceEq, if_true, if_false, List.all_cons, List.all_nil, Bool.and_eq_true, and_true, true_and, and_assoc]

theorem accept2400 (hk : knownFor 2400 d) : JR write2400 d (canWrite 2400 d = true) := by
  have ho : (fieldsOf 2400).all (optCond opt2400) = true := by decide
  have h := known_opt ho hk.1
  rw [canWrite_fields rfl, entries_opt ho]
  unfold write2400
  refine jr_guarded (jr_opt ?_)
  generalize optFields d opt2400 = d1 at h ⊢
  apply JR.iff
  · judge h
  · unfold fieldsOf
    simp only [Int.reduceEq, if_true, if_false, List.all_cons, List.all_nil, Bool.and_eq_true, and_true, and_assoc]

theorem isOk_record {fs : List (Res Text)} : (record fs).isOk = fs.all Except.isOk := by
  induction fs with
  | nil => rfl
  | cons f r ih =>
    rw [List.all_cons, ← ih]
    conv_lhs => unfold record
    cases f with
    | error e => rfl
    | ok t => cases record r <;> rfl
theorem py_record {fs : List (Res Text)} (h : ∀ f ∈ fs, Py f) : Py (record fs) := by
  induction fs with
  | nil => exact py_ok
  | cons f r ih =>
    have h1 := h f List.mem_cons_self
    have h2 := ih fun b hb => h b (List.mem_cons_of_mem _ hb)
    unfold record
    cases f with
    | error e => intro h'; cases h'; exact h1 rfl
    | ok t =>
      simp only
      cases hm : record r with
      | error e => rw [hm] at h2; intro h'; cases h'; exact h2 rfl
      | ok u => exact py_ok

theorem all3 {a b c : Res Text} (h1 : Py a) (h2 : Py b) (h3 : Py c) : ∀ f ∈ [a, b, c], Py f := by
  simp only [List.forall_mem_cons, List.not_mem_nil, false_implies, implies_true, and_true]
  exact ⟨h1, h2, h3⟩
theorem all1 {a : Res Text} (h1 : Py a) : ∀ f ∈ [a], Py f := by
  simp only [List.forall_mem_cons, List.not_mem_nil, false_implies, implies_true, and_true]
  exact h1

theorem accept164 (hk : knownFor 164 d) : JR write164 d (canWrite 164 d = true) := by
  have ho : (fieldsOf 164).all (optCond opt164) = true := by decide
  have h := known_opt ho hk.1
  rw [canWrite_fields rfl, entries_opt ho]
  unfold write164
  refine jr_guarded (jr_opt ?_)
  generalize optFields d opt164 = d1 at h ⊢
  have hp : ∀ {k : String} {K : EntryKind} {fmt : Val → Res Text} {v : Val}, FitsK K fmt →
      (k, K) ∈ (fieldsOf 164).map (fun f => (f.1, f.2.1)) → d1.get? (.s k) = some v → Py (fmt v) :=
    fun hf hm hv => hf.py _ (h _ hm _ hv)
  apply JR.iff
  · exact jr_emit_then (jr_key fun code h1 => jr_key fun descr h2 => jr_key fun mode h3 =>
      jr_lift (py_record (all3 (hp (fits_i 10) (of_decide_eq_true rfl) h1) (hp (fits_sr 20) (of_decide_eq_true rfl) h2)
        (hp (fits_i 10) (of_decide_eq_true rfl) h3))) fun _ _ => jr_emit_then (jr_key fun len h4 => jr_key fun force h5 =>
      jr_key fun temp h6 => jr_key fun off h7 => jr_lift (py_record (all3 (hp (fits_e 25 16) (of_decide_eq_true rfl) h4)
        (hp (fits_e 25 16) (of_decide_eq_true rfl) h5) (hp (fits_e 25 16) (of_decide_eq_true rfl) h6))) fun _ _ =>
      jr_lift (py_record (all1 (hp (fits_e 25 16) (of_decide_eq_true rfl) h7))) fun _ _ => jr_emit_then jr_emit))
  · unfold fieldsOf
    simp only [Int.reduceEq, if_true, if_false, List.all_cons, List.all_nil, Bool.and_eq_true, and_true, entryOk_iff]
    have acc : ∀ {fs : List (Res Text)} {P : Prop}, (∃ t, record fs = .ok t ∧ P) ↔ fs.all Except.isOk = true ∧ P := by
      intro fs P
      rw [← isOk_record, isOk_iff]
      exact ⟨fun ⟨t, a, b⟩ => ⟨⟨t, a⟩, b⟩, fun ⟨⟨t, a⟩, b⟩ => ⟨t, a, b⟩⟩
    have acc' : ∀ {fs : List (Res Text)}, (∃ t, record fs = .ok t) ↔ fs.all Except.isOk = true := by
      intro fs
      rw [← isOk_record, isOk_iff]
    simp only [acc, acc', and_true, List.all_cons, List.all_nil, Bool.and_eq_true, (fits_i 10).ok, (fits_sr 20).ok, (fits_e 25 16).ok]
    constructor
    · rintro ⟨v1, h1, v2, h2, v3, h3, ⟨a1, a2, a3⟩, v4, h4, v5, h5, v6, h6, v7, h7, ⟨a4, a5, a6⟩, a7⟩
      exact ⟨⟨v1, h1, a1⟩, ⟨v2, h2, a2⟩, ⟨v3, h3, a3⟩, ⟨v4, h4, a4⟩, ⟨v5, h5, a5⟩, ⟨v6, h6, a6⟩, ⟨v7, h7, a7⟩⟩
    · rintro ⟨⟨v1, h1, a1⟩, ⟨v2, h2, a2⟩, ⟨v3, h3, a3⟩, ⟨v4, h4, a4⟩, ⟨v5, h5, a5⟩, ⟨v6, h6, a6⟩, ⟨v7, h7, a7⟩⟩
      exact ⟨v1, h1, v2, h2, v3, h3, ⟨a1, a2, a3⟩, v4, h4, v5, h5, v6, h6, v7, h7, ⟨a4, a5, a6⟩, a7⟩

/-! Lists. -/

theorem canWrite_columns {t : Int} {count : String} {places : Nat → List Nat} {cols : List (String × EntryKind × Bool)}
    (hf : fieldsOf t = []) (hc : columnsOf t = some (count, places, cols)) :
    canWrite t d = true ↔ ∃ v, d.get? (.s count) = some v ∧ ∃ n, v.len = .ok n ∧ ∀ i ∈ places n, ∀ f ∈ cols, itemOk d i f = true := by
  unfold canWrite
  rw [hf, hc]
  simp only [List.all_nil, Bool.true_and]
  cases d.get? (.s count) with
  | none => simp
  | some v =>
    simp only
    cases hl : v.len with
    | error e => simp [hl]
    | ok n => simp [hl, List.all_eq_true]

theorem item_opt {os : List (Key × Val)} {f : String × EntryKind × Bool} {i : Nat}
    (h : (Dict.get? os (.s f.1) = Option.none ∧ f.2.2 = false) ∨
      ∃ v x, Dict.get? os (.s f.1) = some v ∧ f.2.2 = true ∧ v.idx i = .ok x ∧ f.2.1.accepts x = true) :
    itemOk d i f = itemOk (optFields d os) i (f.1, f.2.1, false) := by
  unfold itemOk
  simp only [get?_optFields]
  cases d.get? (.s f.1) with
  | some v => rfl
  | none =>
    rcases h with ⟨h1, h2⟩ | ⟨v, x, h1, h2, h3, h4⟩
    · rw [h1, h2]; rfl
    · rw [h1, h2]; simp only [Option.none_or, h3, h4]

theorem knownI_opt {os : List (Key × Val)} {F : List (String × EntryKind × Bool)}
    (h : ∀ f ∈ F, ∀ v i x, Dict.get? os (.s f.1) = some v → v.idx i = .ok x → f.2.1.known x = true)
    (hk : ∀ f ∈ F, ∀ v i x, d.get? (.s f.1) = some v → v.idx i = .ok x → f.2.1.known x = true) :
    KnownI (optFields d os) (F.map fun f => (f.1, f.2.1)) := by
  intro p hp v i x hv hx
  obtain ⟨f, hf, rfl⟩ := List.mem_map.1 hp
  simp only [get?_optFields] at hv
  cases hd : d.get? (.s f.1) with
  | some u => rw [hd] at hv; cases hv; exact hk f hf _ i x hd hx
  | none =>
    rw [hd, Option.none_or] at hv
    exact h f hf v i x hv hx

/-- Items of the default lists. -/
theorem idx_zeros {n i : Nat} {m : Int} (h : i < n) : (Val.arrI (List.replicate n m)).idx i = .ok (.int m) := by
  show orIndex _ = _
  rw [List.getElem?_map, List.getElem?_replicate, if_pos h]
  rfl
theorem idx_zeros_inv {n i : Nat} {m : Int} {x : Val} (h : (Val.arrI (List.replicate n m)).idx i = .ok x) : x = .int m := by
  by_cases hi : i < n
  · rw [idx_zeros hi] at h; cases h; rfl
  · have : (Val.arrI (List.replicate n m)).idx i = orIndex _ := rfl
    rw [this, List.getElem?_map, List.getElem?_replicate, if_neg hi] at h
    cases h
theorem idx_same {n i : Nat} {v : Val} (h : i < n) : (Val.list (List.replicate n v)).idx i = .ok v := by
  show orIndex _ = _
  rw [List.getElem?_replicate, if_pos h]
  rfl
theorem idx_same_inv {n i : Nat} {v x : Val} (h : (Val.list (List.replicate n v)).idx i = .ok x) : x = v := by
  by_cases hi : i < n
  · rw [idx_same hi] at h; cases h; rfl
  · have : (Val.list (List.replicate n v)).idx i = orIndex _ := rfl
    rw [this, List.getElem?_replicate, if_neg hi] at h
    cases h

/-- The columns of nodes (15). -/
def cols15 : List (String × EntryKind × Bool) := [("node_nums", .float, false), ("def_cs", .float, true), ("disp_cs", .float, true),
    ("color", .float, true), ("x", .float, false), ("y", .float, false), ("z", .float, false)]
/-- The columns of coordinate systems (18). -/
def cols18 : List (String × EntryKind × Bool) := [("cs_num", .intCall, false), ("cs_type", .intCall, true), ("ref_cs_num", .intCall, false),
    ("color", .intCall, true), ("method", .intCall, true), ("cs_name", .text, true), ("ref_o", .three, false), ("x_point", .three, false),
    ("xz_point", .three, false)]
/-- The columns of nodes (2411). -/
def cols2411 : List (String × EntryKind × Bool) := [("node_nums", .intCall, false), ("def_cs", .int, false), ("disp_cs", .int, false),
    ("color", .int, false), ("x", .float, false), ("y", .float, false), ("z", .float, false)]

theorem accept18 (hk : knownFor 18 d) : JR write18 d (canWrite 18 d = true) := by
  have hI := (hk.2 _ _ _ (show columnsOf 18 = some ("cs_num", List.range, cols18) from rfl)).2
  refine JR.iff (P := ∃ v, d.get? (.s "cs_num") = some v ∧ ∃ n, v.len = .ok n ∧ ∀ i ∈ List.range n, ∀ f ∈ cols18, itemOk d i f = true) ?_
    (canWrite_columns rfl rfl).symm
  unfold write18
  refine jr_guarded (jr_key fun v hv => jr_lift (py_len v) fun n hn => jr_opt ?_)
  have h : KnownI (optFields d (opt18 n)) (cols18.map fun f => (f.1, f.2.1)) := by
    refine knownI_opt ?_ hI
    simp only [cols18, List.forall_mem_cons, List.not_mem_nil, false_implies, implies_true, and_true]
    refine ⟨?_, ?_, ?_, ?_, ?_, ?_, ?_, ?_, ?_⟩
    all_goals
      intro v i x h1 h2
      simp [opt18, Dict.get?] at h1
      try (subst h1; first | (rw [idx_zeros_inv h2]; rfl) | (rw [idx_same_inv h2]; rfl))
  have hopt : ∀ i ∈ List.range n, (∀ f ∈ cols18, itemOk d i f = true) ↔ ∀ f ∈ cols18, itemOk (optFields d (opt18 n)) i (f.1, f.2.1, false) = true := by
    intro i hi
    refine forall₂_congr fun f hf => ?_
    rw [item_opt]
    have hi := List.mem_range.1 hi
    simp only [cols18, List.mem_cons, List.not_mem_nil, or_false] at hf
    rcases hf with rfl | rfl | rfl | rfl | rfl | rfl | rfl | rfl | rfl
    all_goals first
      | (left; exact ⟨rfl, rfl⟩)
      | (right; exact ⟨_, _, rfl, rfl, idx_zeros hi, rfl⟩)
      | (right; exact ⟨_, _, rfl, rfl, idx_same hi, rfl⟩)
  generalize optFields d (opt18 n) = d1 at h hopt ⊢
  refine JR.iff (P := (∀ i ∈ List.range n, ∀ f ∈ cols18, itemOk d1 i (f.1, f.2.1, false) = true) ∧ True) ?_ ?_
  · refine jr_emit_then (jr_then ?_ (jr_forL ?_ ?_) jr_emit)
    · exact (W.Keeps.run (W.keeps_forL W.pre_eq _ fun a => by have hp := W.pre_eq; wkeep hp) d1).symm
    · intro a; have hp := W.pre_eq; wkeep hp
    · intro i _
      apply JR.iff
      · exact jr_row_then (fj_intAt h (of_decide_eq_true rfl) (fj_intAt h (of_decide_eq_true rfl) (fj_intAt h (of_decide_eq_true rfl)
          (fj_intAt h (of_decide_eq_true rfl) (fj_intAt h (of_decide_eq_true rfl) fj_nil)))))
          (jr_row_then (fj_at h (fits_sl 40) (of_decide_eq_true rfl) fj_nil)
          (jr_row_then (fj_three h (of_decide_eq_true rfl) (fj_three h (of_decide_eq_true rfl) fj_nil))
          (jr_row (fj_three h (of_decide_eq_true rfl) fj_nil))))
      · simp only [cols18, List.forall_mem_cons, List.not_mem_nil, false_implies, implies_true, and_true, and_assoc]
  · rw [and_true]
    exact forall₂_congr fun i hi => (hopt i hi).symm

/-- The expressions and formats of a record. -/
def recFlds (L : List ((Dict → Res Val) × RFmt)) : List Fld := L.map fun p => ⟨p.1, fun v => recField v p.2⟩

theorem recLoop_flds (L : List ((Dict → Res Val) × RFmt)) (vs : List Val) : recLoop false vs (L.map (·.2)) = fmtFlds (recFlds L) vs := by
  induction L generalizing vs with
  | nil => cases vs <;> rfl
  | cons p r ih =>
    cases vs with
    | nil => rfl
    | cons v vs =>
      have hr : recLoop false (v :: vs) ((p :: r).map (·.2)) = match recField v p.2 with
        | .error e => .error e
        | .ok t => match recLoop false vs (r.map (·.2)) with
          | .error e => .error e
          | .ok u => .ok (t ++ ([] ++ u)) := rfl
      have hl : fmtFlds (recFlds (p :: r)) (v :: vs) = match recField v p.2 with
        | .error e => .error e
        | .ok t => match fmtFlds (recFlds r) vs with
          | .error e => .error e
          | .ok u => .ok (t ++ u) := rfl
      rw [hr, hl, ih]
      rfl

theorem eval_flds (L : List ((Dict → Res Val) × RFmt)) (g : Val → Res Text) (d : Dict) :
    evalFlds d (L.map fun p => ⟨p.1, g⟩) = evalFlds d (recFlds L) := by
  induction L with
  | nil => rfl
  | cons p r ih =>
    have hl : evalFlds d ((p :: r).map fun p => ⟨p.1, g⟩) = match p.1 d with
      | .error e => .error e
      | .ok v => match evalFlds d (r.map fun p => ⟨p.1, g⟩) with
        | .error e => .error e
        | .ok vs => .ok (v :: vs) := rfl
    have hr : evalFlds d (recFlds (p :: r)) = match p.1 d with
      | .error e => .error e
      | .ok v => match evalFlds d (recFlds r) with
        | .error e => .error e
        | .ok vs => .ok (v :: vs) := rfl
    rw [hl, hr, ih]

theorem jr_writeRecord {vs : List Val} {fs : List RFmt} {b : Bool} (hp : Py (recLoop b vs fs)) :
    JR (writeRecord vs fs b) d ((recLoop b vs fs).isOk = true) := by
  refine JR.iff (m := writeRecord vs fs b) (jr_lift (R := fun _ => True) hp fun _ _ => jr_emit) ?_
  rw [isOk_iff]
  exact ⟨fun ⟨a, h, _⟩ => ⟨a, h⟩, fun ⟨a, h⟩ => ⟨a, h, trivial⟩⟩

theorem jr_recordOf (L : List ((Dict → Res Val) × RFmt)) (g : Val → Res Text) {P : Prop} (h : FJ (recFlds L) d P) :
    JR (W.getDict >>= fun d => W.lift (evalFlds d (L.map fun p => ⟨p.1, g⟩)) >>= fun vs => writeRecord vs (L.map (·.2)) false) d P := by
  refine JR.iff (jr_seq (m := W.getDict) (R := fun d' => ∃ vs, evalFlds d' (L.map fun p => ⟨p.1, g⟩) = .ok vs ∧
    (recLoop false vs (L.map (·.2))).isOk = true) rfl py_ok fun d' hd' => ?_) ?_
  · have : d' = d := (Except.ok.inj hd').symm
    subst this
    refine jr_lift ?_ fun vs hvs => jr_writeRecord ?_
    · rw [eval_flds]; exact h.pe
    · rw [eval_flds] at hvs
      rw [recLoop_flds]
      exact h.pf vs hvs
  · rw [← h.ok]
    constructor
    · rintro ⟨d', hd', vs, h1, h2⟩
      have : d' = d := (Except.ok.inj hd').symm
      subst this
      rw [eval_flds] at h1
      rw [recLoop_flds] at h2
      obtain ⟨t, ht⟩ := isOk_iff.1 h2
      exact ⟨vs, t, h1, ht⟩
    · rintro ⟨vs, t, h1, h2⟩
      exact ⟨d, rfl, vs, by rw [eval_flds]; exact h1, by rw [recLoop_flds]; exact isOk_iff.2 ⟨t, h2⟩⟩

/-- The expressions and formats of node `i` (15). -/
def flds15 (i : Nat) : List ((Dict → Res Val) × RFmt) :=
  [(Fld.at_ (.s "node_nums") i, .f0 10), (Fld.at_ (.s "def_cs") i, .f0 10), (Fld.at_ (.s "disp_cs") i, .f0 10), (Fld.at_ (.s "color") i, .f0 10),
   (Fld.at_ (.s "x") i, .eU 13 5), (Fld.at_ (.s "y") i, .eU 13 5), (Fld.at_ (.s "z") i, .eU 13 5)]

theorem accept15 (hk : knownFor 15 d) : JR write15 d (canWrite 15 d = true) := by
  have hI := (hk.2 _ _ _ (show columnsOf 15 = some ("node_nums", List.range, cols15) from rfl)).2
  refine JR.iff (P := ∃ v, d.get? (.s "node_nums") = some v ∧ ∃ n, v.len = .ok n ∧ ∀ i ∈ List.range n, ∀ f ∈ cols15, itemOk d i f = true) ?_
    (canWrite_columns rfl rfl).symm
  unfold write15
  refine jr_guarded (jr_key fun v hv => jr_lift (py_len v) fun n hn => jr_opt ?_)
  have hzero : (F64.ofInt 0).finite = true := by decide +kernel
  have h : KnownI (optFields d (opt15 n)) (cols15.map fun f => (f.1, f.2.1)) := by
    refine knownI_opt ?_ hI
    simp only [cols15, List.forall_mem_cons, List.not_mem_nil, false_implies, implies_true, and_true]
    refine ⟨?_, ?_, ?_, ?_, ?_, ?_, ?_⟩
    all_goals
      intro v i x h1 h2
      simp [opt15, Dict.get?] at h1
      try (subst h1; rw [idx_zeros_inv h2]; rfl)
  have hopt : ∀ i ∈ List.range n, (∀ f ∈ cols15, itemOk d i f = true) ↔ ∀ f ∈ cols15, itemOk (optFields d (opt15 n)) i (f.1, f.2.1, false) = true := by
    intro i hi
    refine forall₂_congr fun f hf => ?_
    rw [item_opt]
    have hi := List.mem_range.1 hi
    simp only [cols15, List.mem_cons, List.not_mem_nil, or_false] at hf
    rcases hf with rfl | rfl | rfl | rfl | rfl | rfl | rfl
    all_goals first
      | (left; exact ⟨rfl, rfl⟩)
      | (right; exact ⟨_, _, rfl, rfl, idx_zeros hi, hzero⟩)
  generalize optFields d (opt15 n) = d1 at h hopt ⊢
  have hhead : recLoop true [.int (-1), .int 15] [.f0 6, .f0 6] = .ok "    -1\n    15\n".toList := by decide +kernel
  have htail : recLoop false [.int (-1)] [.f0 6] = .ok "    -1".toList := by decide +kernel
  have e1 : JR (writeRecord [.int (-1), .int 15] [.f0 6, .f0 6] true) d1 True := by
    refine JR.iff (jr_writeRecord ?_) ?_
    · rw [hhead]; exact py_ok
    · rw [hhead]; exact ⟨fun _ => trivial, fun _ => rfl⟩
  have e2 : JR (writeRecord [.int (-1)] [.f0 6] false) d1 True := by
    refine JR.iff (jr_writeRecord ?_) ?_
    · rw [htail]; exact py_ok
    · rw [htail]; exact ⟨fun _ => trivial, fun _ => rfl⟩
  have hkeep : ∀ i, W.Keeps (· = ·) (W.getDict >>= fun d => W.lift (evalFlds d ((flds15 i).map fun p => ⟨p.1, fun _ => .ok []⟩)) >>= fun vs =>
      writeRecord vs ((flds15 i).map (·.2)) false) := by intro i; have hp := W.pre_eq; wkeep hp
  refine JR.iff (P := True ∧ (∀ i ∈ List.range n, ∀ f ∈ cols15, itemOk d1 i (f.1, f.2.1, false) = true) ∧ True) ?_ ?_
  · refine jr_then (W.Keeps.run (W.keeps_writeRecord W.pre_eq _ _ _) d1).symm e1 (jr_then ?_ (jr_forL hkeep fun i _ => ?_) e2)
    · exact (W.Keeps.run (W.keeps_forL W.pre_eq _ hkeep) d1).symm
    · refine JR.iff (jr_recordOf (flds15 i) (fun _ => .ok []) (fj_at h (fits_rec (.f0 10)) (k := "node_nums") (of_decide_eq_true rfl) (fj_at h (fits_rec (.f0 10)) (k := "def_cs") (of_decide_eq_true rfl)
        (fj_at h (fits_rec (.f0 10)) (k := "disp_cs") (of_decide_eq_true rfl) (fj_at h (fits_rec (.f0 10)) (k := "color") (of_decide_eq_true rfl)
        (fj_at h (fits_rec (.eU 13 5)) (k := "x") (of_decide_eq_true rfl) (fj_at h (fits_rec (.eU 13 5)) (k := "y") (of_decide_eq_true rfl)
        (fj_at h (fits_rec (.eU 13 5)) (k := "z") (of_decide_eq_true rfl) fj_nil)))))))) ?_
      simp only [cols15, List.forall_mem_cons, List.not_mem_nil, false_implies, implies_true, and_true]
  · rw [and_true, true_and]
    exact forall₂_congr fun i hi => (hopt i hi).symm

theorem items_len {v : Val} (hv : ∀ l, v ≠ .dict l) : (∃ l, v.items = .ok l ∧ v.len = .ok l.length ∧ ∀ i, v.idx i = orIndex l[i]?) ∨
    (v.items = .error .type ∧ v.len = .error .type) := by
  cases v with
  | dict l => exact absurd rfl (hv l)
  | none => exact .inr ⟨rfl, rfl⟩
  | bool b => exact .inr ⟨rfl, rfl⟩
  | int n => exact .inr ⟨rfl, rfl⟩
  | float x => exact .inr ⟨rfl, rfl⟩
  | cplx x y => exact .inr ⟨rfl, rfl⟩
  | str s => exact .inl ⟨_, rfl, by simp [Val.len], fun _ => rfl⟩
  | arrI l => exact .inl ⟨_, rfl, by simp [Val.len], fun _ => rfl⟩
  | arrF l => exact .inl ⟨_, rfl, by simp [Val.len], fun _ => rfl⟩
  | arrC l => exact .inl ⟨_, rfl, by simp [Val.len], fun _ => rfl⟩
  | mat l => exact .inl ⟨_, rfl, by simp [Val.len], fun _ => rfl⟩
  | list l => exact .inl ⟨_, rfl, rfl, fun _ => rfl⟩

theorem accept2411 (hk : knownFor 2411 d) : JR write2411 d (canWrite 2411 d = true) := by
  obtain ⟨hD, hI⟩ := hk.2 _ _ _ (show columnsOf 2411 = some ("node_nums", List.range, cols2411) from rfl)
  refine JR.iff (P := ∃ v, d.get? (.s "node_nums") = some v ∧ ∃ n, v.len = .ok n ∧ ∀ i ∈ List.range n, ∀ f ∈ cols2411, itemOk d i f = true) ?_
    (canWrite_columns rfl rfl).symm
  unfold write2411
  refine jr_guardedAny (jr_opt (jr_emit_then ?_))
  show JR _ d _
  have h : KnownI d (cols2411.map fun f => (f.1, f.2.1)) := by
    intro p hp v i x hv hx
    obtain ⟨f, hf, rfl⟩ := List.mem_map.1 hp
    exact hI f hf v i x hv hx
  refine jr_key fun v hv => ?_
  rcases items_len (hD v hv) with ⟨l, h1, h2, h3⟩ | ⟨h1, h2⟩
  · rw [h1, h2]
    refine JR.iff (jr_lift (r := .ok l) (R := fun l' => (∀ p ∈ l'.zipIdx, EntryKind.accepts .intCall p.1 = true ∧ itemOk d p.2 ("def_cs", .int, false) = true ∧
      itemOk d p.2 ("disp_cs", .int, false) = true ∧ itemOk d p.2 ("color", .int, false) = true ∧ itemOk d p.2 ("x", .float, false) = true ∧
      itemOk d p.2 ("y", .float, false) = true ∧ itemOk d p.2 ("z", .float, false) = true) ∧ True) py_ok ?_) ?_
    · rintro l' hl'
      cases hl'
      refine jr_then ?_ (jr_forL ?_ fun p hp => ?_) jr_emit
      · exact (W.Keeps.run (W.keeps_forL W.pre_eq _ fun a => by have hp := W.pre_eq; wkeep hp) d).symm
      · intro a; have hp := W.pre_eq; wkeep hp
      · have hp' := List.mem_zipIdx' hp
        have hidx : v.idx p.2 = .ok p.1 := by
          rw [h3, List.getElem?_eq_getElem hp'.1, ← hp'.2]; rfl
        refine JR.iff (jr_row_then (fj_call (h ("node_nums", .intCall) (of_decide_eq_true rfl) v p.2 p.1 hv hidx)
          (fj_at h (fits_i 10) (k := "def_cs") (of_decide_eq_true rfl) (fj_at h (fits_i 10) (k := "disp_cs") (of_decide_eq_true rfl)
            (fj_at h (fits_i 10) (k := "color") (of_decide_eq_true rfl) fj_nil))))
          (jr_row (fj_at h (fits_e 25 16) (k := "x") (of_decide_eq_true rfl) (fj_at h (fits_e 25 16) (k := "y") (of_decide_eq_true rfl)
            (fj_at h (fits_e 25 16) (k := "z") (of_decide_eq_true rfl) fj_nil))))) ?_
        simp only [and_true, and_assoc]
    · constructor
      · rintro ⟨l', hl', hall, -⟩
        cases hl'
        refine ⟨l.length, rfl, fun i hi => ?_⟩
        have hi := List.mem_range.1 hi
        have hm : (l[i], i) ∈ l.zipIdx := List.mem_zipIdx_iff_getElem?.2 (List.getElem?_eq_getElem hi)
        obtain ⟨g0, g⟩ := hall _ hm
        simp only [cols2411, List.forall_mem_cons, List.not_mem_nil, false_implies, implies_true, and_true]
        refine ⟨?_, g⟩
        rw [itemOk_iff]
        exact ⟨v, l[i], hv, by rw [h3, List.getElem?_eq_getElem hi]; rfl, g0⟩
      · rintro ⟨n, hn, hall⟩
        cases hn
        refine ⟨l, rfl, fun p hp => ?_, trivial⟩
        have hp' := List.mem_zipIdx' hp
        have := hall p.2 (List.mem_range.2 hp'.1)
        simp only [cols2411, List.forall_mem_cons, List.not_mem_nil, false_implies, implies_true, and_true] at this
        refine ⟨?_, this.2⟩
        obtain ⟨v', x, g1, g2, g3⟩ := itemOk_iff.1 this.1
        rw [hv] at g1
        cases g1
        rw [h3, List.getElem?_eq_getElem hp'.1, ← hp'.2] at g2
        cases g2
        exact g3
  · rw [h1, h2]
    refine JR.iff (jr_lift (r := .error .type) (R := fun _ => False) (py_err (by decide)) fun l hl => by cases hl) ?_
    exact ⟨fun ⟨_, h, _⟩ => (by cases h), fun ⟨_, h, _⟩ => (by cases h)⟩

/-- The columns of groups (2429). -/
def cols2429 : List (String × EntryKind × Bool) := [("entity_type_code", .int, false), ("entity_tag", .int, false)]
/-- The places of a list of `n` entities that are written (2429). -/
def places2429 (n : Nat) : List Nat := List.range (4 * (n / 4)) ++ (List.range (n % 4)).map (· * 4)

theorem accept2429 (hk : knownFor 2429 d) : JR write2429 d (canWrite 2429 d = true) := by
  have ho : (fieldsOf 2429).all (optCond optGroup) = true := by decide
  have hF := known_opt ho hk.1
  obtain ⟨hD, hI⟩ := hk.2 _ _ _ (show columnsOf 2429 = some ("entity_type_code", places2429, cols2429) from rfl)
  have h : KnownI (optFields d optGroup) (cols2429.map fun f => (f.1, f.2.1)) := by
    refine knownI_opt ?_ hI
    simp only [cols2429, List.forall_mem_cons, List.not_mem_nil, false_implies, implies_true, and_true]
    constructor <;> (intro v i x h1 h2; simp [optGroup, Dict.get?] at h1)
  have hopt : ∀ i, ∀ f ∈ cols2429, itemOk d i f = itemOk (optFields d optGroup) i (f.1, f.2.1, false) := by
    intro i f hf
    refine item_opt (.inl ?_)
    simp only [cols2429, List.mem_cons, List.not_mem_nil, or_false] at hf
    rcases hf with rfl | rfl <;> exact ⟨rfl, rfl⟩
  have hget : d.get? (.s "entity_type_code") = (optFields d optGroup).get? (.s "entity_type_code") := by
    rw [get?_optFields, show Dict.get? optGroup (.s "entity_type_code") = Option.none from rfl, Option.or_none]
  have hcw : canWrite 2429 d = true ↔ ((fieldsOf 2429).all fun f => entryOk (optFields d optGroup) (f.1, f.2.1, false)) = true ∧
      ∃ v, (optFields d optGroup).get? (.s "entity_type_code") = some v ∧ ∃ n, v.len = .ok n ∧
        ∀ i ∈ places2429 n, ∀ f ∈ cols2429, itemOk (optFields d optGroup) i (f.1, f.2.1, false) = true := by
    unfold canWrite
    rw [entries_opt ho, show columnsOf 2429 = some ("entity_type_code", places2429, cols2429) from rfl, Bool.and_eq_true, ← hget]
    refine and_congr_right fun _ => ?_
    simp only
    cases d.get? (.s "entity_type_code") with
    | none => simp
    | some v =>
      simp only
      cases hl : v.len with
      | error e => simp [hl]
      | ok n =>
        simp only [List.all_eq_true, Option.some.injEq, exists_eq_left', hl, Except.ok.injEq]
        exact forall₂_congr fun i _ => forall₂_congr fun f hf => by rw [hopt i f hf]
  rw [hcw]
  unfold write2429
  refine jr_guardedAny (jr_opt (jr_emit_then ?_))
  generalize optFields d optGroup = d1 at h hF ⊢
  have pre := W.pre_eq
  refine JR.iff (P := ∃ v, d1.get? (.s "entity_type_code") = some v ∧ ∃ n, v.len = .ok n ∧
    (((fieldsOf 2429).all fun f => entryOk d1 (f.1, f.2.1, false)) = true ∧
      ∀ i ∈ places2429 n, ∀ f ∈ cols2429, itemOk d1 i (f.1, f.2.1, false) = true)) ?_ ?_
  · refine jr_key fun v hv => jr_lift (py_len v) fun n hn => ?_
    apply JR.iff
    · apply jr_row_then
      · judge hF
      · apply jr_row_then
        · judge hF
        · refine jr_then ?_ (jr_forL (R := fun i => (itemOk d1 (i * 4) ("entity_type_code", .int, false) = true ∧ itemOk d1 (i * 4) ("entity_tag", .int, false) = true ∧
              itemOk d1 (i * 4 + 1) ("entity_type_code", .int, false) = true ∧ itemOk d1 (i * 4 + 1) ("entity_tag", .int, false) = true ∧
              itemOk d1 (i * 4 + 2) ("entity_type_code", .int, false) = true ∧ itemOk d1 (i * 4 + 2) ("entity_tag", .int, false) = true ∧
              itemOk d1 (i * 4 + 3) ("entity_type_code", .int, false) = true ∧ itemOk d1 (i * 4 + 3) ("entity_tag", .int, false) = true ∧ True)) ?_ fun i _ => ?_)
            (jr_then ?_ (jr_forL (R := fun i => (itemOk d1 (i * 4) ("entity_type_code", .int, false) = true ∧ itemOk d1 (i * 4) ("entity_tag", .int, false) = true ∧ True) ∧ True)
              ?_ fun i _ => ?_) (Q := True ∧ True) ?_)
          · exact (W.Keeps.run (W.keeps_forL pre _ fun a => by wkeep pre) d1).symm
          · intro a; wkeep pre
          · refine jr_row ?_
            iterate 8 refine fj_at h (fits_i 10) (of_decide_eq_true rfl) ?_
            exact fj_nil
          · exact (W.Keeps.run (W.keeps_forL pre _ fun a => by wkeep pre) d1).symm
          · intro a; wkeep pre
          · refine jr_format ?_ fun _ => jr_emit
            iterate 2 refine fj_at h (fits_i 10) (of_decide_eq_true rfl) ?_
            exact fj_nil
          · refine jr_then ?_ ?_ jr_emit
            · exact (W.Keeps.run (W.keeps_when pre _ (W.keeps_emit pre _)) d1).symm
            · unfold W.when
              split
              · exact jr_emit
              · exact ⟨⟨fun _ => trivial, fun _ => rfl⟩, py_ok⟩
    · have hp : (∀ i ∈ places2429 n, ∀ f ∈ cols2429, itemOk d1 i (f.1, f.2.1, false) = true) ↔
          (∀ i ∈ List.range (4 * (n / 4)), ∀ f ∈ cols2429, itemOk d1 i (f.1, f.2.1, false) = true) ∧
          (∀ i ∈ List.range (n % 4), ∀ f ∈ cols2429, itemOk d1 (i * 4) (f.1, f.2.1, false) = true) := by
        unfold places2429
        simp only [List.forall_mem_append, List.forall_mem_map]
      have hq : (∀ i ∈ List.range (4 * (n / 4)), ∀ f ∈ cols2429, itemOk d1 i (f.1, f.2.1, false) = true) ↔
          (∀ i ∈ List.range (n / 4), ∀ j < 4, ∀ f ∈ cols2429, itemOk d1 (i * 4 + j) (f.1, f.2.1, false) = true) := by
        constructor
        · intro hh i hi j hj
          have := List.mem_range.1 hi
          exact hh _ (List.mem_range.2 (by omega))
        · intro hh i hi
          have := List.mem_range.1 hi
          have := hh (i / 4) (List.mem_range.2 (by omega)) (i % 4) (by omega)
          rwa [show i / 4 * 4 + i % 4 = i by omega] at this
      have h4 : ∀ Q : Nat → Prop, (∀ j < 4, Q j) ↔ Q 0 ∧ Q 1 ∧ Q 2 ∧ Q 3 := by
        intro Q
        exact ⟨fun q => ⟨q 0 (by decide), q 1 (by decide), q 2 (by decide), q 3 (by decide)⟩, fun ⟨a, b, c, e⟩ j hj => by
          match j, hj with
          | 0, _ => exact a
          | 1, _ => exact b
          | 2, _ => exact c
          | 3, _ => exact e⟩
      rw [hp, hq]
      unfold fieldsOf
      simp only [h4, cols2429, Int.reduceEq, if_true, if_false, List.all_cons, List.all_nil, Bool.and_eq_true, and_true, and_assoc, List.forall_mem_cons,
        List.not_mem_nil, false_implies, implies_true, Nat.add_zero]
  · constructor
    · rintro ⟨v, h1, n, h2, h3, h4⟩
      exact ⟨h3, v, h1, n, h2, h4⟩
    · rintro ⟨h3, v, h1, n, h2, h4⟩
      exact ⟨v, h1, n, h2, h3, h4⟩

end Verif
