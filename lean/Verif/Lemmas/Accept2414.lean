import Verif.Lemmas.AcceptMore
import Verif.Spec.Accept2414
/-
Which dictionaries the writer of data-set 2414 accepts.
-/
namespace Verif
open W (JR jr_emit jr_seq jr_then jr_emit_then jr_key jr_lift jr_opt jr_guarded jr_guardedAny jr_format jr_row jr_row_then jr_forL jr_none)

variable {d : Dict}

theorem isNum_eq {v : Val} (h : scalarKnown v = true) (n : Int) : v.numEq n = isNum n v := by
  cases v with
  | int m => exact (Bool.beq_eq_decide_eq m n).symm
  | float x => exact (Bool.beq_eq_decide_eq x (F64.ofInt n)).symm
  | bool b => exact (Bool.beq_eq_decide_eq (if b then (1 : Int) else 0) n).symm
  | cplx x y => cases h
  | _ => rfl

theorem fits_e2 : FitsK .float (fun v => (fmtEV 0 5 v).map ([' ', ' '] ++ ·)) :=
  ⟨fun v => (isOk_map _ _).trans ((fits_e 0 5).ok v), fun v h => py_map ((fits_e 0 5).py v h)⟩

theorem itemP_iff {P : Val → Bool} {i : Nat} {k : String} : itemP P d i k = true ↔ ∃ x, Fld.at_ (.s k) i d = .ok x ∧ P x = true := by
  unfold itemP Fld.at_ Dict.get
  cases d.get? (.s k) with
  | none => simp
  | some v =>
    simp only
    cases v.idx i <;> simp

theorem fj_reIm {fs : List Fld} {Q : Prop} {k : String} {i : Nat} (hk : ∀ v x, d.get? (.s k) = some v → v.idx i = .ok x → numberKnown x = true)
    (h : FJ fs d Q) : FJ (reIm (.s k) i ++ fs) d (itemP numberOk d i k = true ∧ Q) := by
  have hx : ∀ x, Fld.at_ (.s k) i d = .ok x → numberKnown x = true := by
    intro x hx
    obtain ⟨v, h1, h2⟩ := at_ok.1 hx
    exact hk v x h1 h2
  have hpe := py_at d (.s k) i
  have re : ∀ x, numberKnown x = true → ∃ y, npPart x.re = .ok y ∧ scalarKnown y = true ∧ floatOk y = numberOk x := by
    intro x h
    cases x with
    | int n => exact ⟨_, rfl, rfl, rfl⟩
    | bool b => exact ⟨_, rfl, rfl, by cases b <;> decide +kernel⟩
    | float x => exact ⟨_, rfl, rfl, rfl⟩
    | cplx x y => exact ⟨_, rfl, rfl, rfl⟩
    | _ => cases h
  have im : ∀ x, numberKnown x = true → ∃ y, npPart x.im = .ok y ∧ scalarKnown y = true ∧ floatOk y = true := by
    intro x h
    cases x with
    | int n => exact ⟨_, rfl, rfl, by decide +kernel⟩
    | bool b => exact ⟨_, rfl, rfl, by decide +kernel⟩
    | float x => exact ⟨_, rfl, rfl, rfl⟩
    | cplx x y => exact ⟨_, rfl, rfl, rfl⟩
    | _ => cases h
  have one : ∀ {part : Val → Res Val} {P : Val → Bool} {fs : List Fld} {Q : Prop}, (∀ x, numberKnown x = true → ∃ y, part x = .ok y ∧ scalarKnown y = true ∧ floatOk y = P x) →
      FJ fs d Q → FJ (⟨fun d => match Fld.at_ (.s k) i d with
        | .error e => .error e
        | .ok v => part v, fmtEV 13 5⟩ :: fs) d (itemP P d i k = true ∧ Q) := by
    intro part P fs Q hp h
    refine fj_cons ?_ ?_ ?_ h
    · rw [itemP_iff]
      constructor
      · rintro ⟨v, t, h1, h2⟩
        simp only at h1 h2
        cases hat : Fld.at_ (.s k) i d with
        | error e => rw [hat] at h1; cases h1
        | ok x =>
          rw [hat] at h1
          obtain ⟨y, g1, g2, g3⟩ := hp x (hx x hat)
          simp only at h1
          rw [g1] at h1
          cases h1
          refine ⟨x, rfl, ?_⟩
          rw [← g3]
          exact ((fits_e 13 5).ok v).symm.trans (isOk_iff.2 ⟨t, h2⟩)
      · rintro ⟨x, h1, h2⟩
        obtain ⟨y, g1, g2, g3⟩ := hp x (hx x h1)
        obtain ⟨t, ht⟩ := isOk_iff.1 (((fits_e 13 5).ok y).trans (g3.trans h2))
        refine ⟨y, t, ?_, ht⟩
        simp only [h1, g1]
    · simp only
      cases hat : Fld.at_ (.s k) i d with
      | error e => rw [hat] at hpe; intro h'; cases h'; exact hpe rfl
      | ok x =>
        obtain ⟨y, g1, -⟩ := hp x (hx x hat)
        simp only [g1]
        exact py_ok
    · intro v hv
      simp only at hv
      cases hat : Fld.at_ (.s k) i d with
      | error e => rw [hat] at hv; cases hv
      | ok x =>
        rw [hat] at hv
        obtain ⟨y, g1, g2, -⟩ := hp x (hx x hat)
        simp only at hv
        rw [g1] at hv
        cases hv
        exact (fits_e 13 5).py _ g2
  have h2 := one (part := fun x => npPart x.re) (P := numberOk) re (one (part := fun x => npPart x.im) (P := fun _ => true) im h)
  have e : (itemP numberOk d i k = true ∧ Q) = (itemP numberOk d i k = true ∧ itemP (fun _ => true) d i k = true ∧ Q) := by
    refine propext ⟨fun ⟨a, b⟩ => ⟨a, ?_, b⟩, fun ⟨a, _, b⟩ => ⟨a, b⟩⟩
    obtain ⟨x, hx, -⟩ := itemP_iff.1 a
    exact itemP_iff.2 ⟨x, hx, rfl⟩
  rw [e]
  exact h2

theorem keeps_vals (v : Val) : W.Keeps (· = ·) (writeVals v) := by
  have pre := W.pre_eq
  unfold writeVals
  wkeep pre

theorem jr_vals {v : Val} (hk : floatsKnown v) : JR (writeVals v) d (floatsOk v = true) := by
  have pre := W.pre_eq
  refine JR.iff (m := writeVals v) (jr_lift (r := v.items) (R := fun l => (∀ x ∈ l, floatOk x = true) ∧ True) (py_items hk.1) fun l hl =>
    jr_then ?_ (jr_forL (fun x => by wkeep pre) fun x hx => ?_) jr_emit) ?_
  · exact (W.Keeps.run (W.keeps_forL pre _ fun a => by wkeep pre) d).symm
  · refine JR.iff (jr_format (P := floatOk x = true) ?_ fun t => jr_emit) (and_true _).to_iff
    have hp : Py (fmtEV 13 5 x) := (fits_e 13 5).py x (hk.2 l hl x hx)
    have := fj_cons (d := d) (f := .c (fmtEV 13 5) x) (P := floatOk x = true) ?_ py_ok (fun u hu => by cases hu; exact hp) fj_nil
    · rwa [and_true] at this
    · have ho : (fmtEV 13 5 x).isOk = floatOk x := (fits_e 13 5).ok x
      rw [← ho, isOk_iff]
      constructor
      · rintro ⟨v, t, h1, h2⟩
        cases h1
        exact ⟨t, h2⟩
      · rintro ⟨t, ht⟩
        exact ⟨x, t, rfl, ht⟩
  · unfold floatsOk
    cases v.items with
    | error e => simp
    | ok l => simp [List.all_eq_true]

theorem jr_rows {l : List Val} (hk : ∀ v ∈ l, floatsKnown v) : JR (W.forL l writeVals) d (∀ v ∈ l, floatsOk v = true) :=
  jr_forL keeps_vals fun v hv => jr_vals (hk v hv)

theorem jr_keyAt {k : String} {i : Nat} {f : Val → W Unit} {P : Val → Bool} (h : ∀ x, Fld.at_ (.s k) i d = .ok x → JR (f x) d (P x = true)) :
    JR (W.keyAt (.s k) i >>= f) d (itemP P d i k = true) := by
  refine JR.iff (jr_seq (m := W.keyAt (.s k) i) (R := fun x => P x = true) rfl (py_at d (.s k) i) h) ?_
  rw [itemP_iff]
  rfl

theorem shape_eq (v : Val) : (∃ n, v.shape0 = .ok n) ↔ ∃ n, rowCount v = some n := by
  cases v <;> simp [Val.shape0, rowCount]

theorem jr_shape {k : String} {f : Nat → W Unit} {P : Nat → Bool} (h : ∀ n, JR (f n) d (∀ i ∈ List.range n, P i = true)) :
    JR (W.key (.s k) >>= fun v => W.lift v.shape0 >>= f) d (forRows d k P = true) := by
  refine JR.iff (jr_key (R := fun v => ∃ n, v.shape0 = .ok n ∧ ∀ i ∈ List.range n, P i = true) fun v hv => jr_lift ?_ fun n _ => h n) ?_
  · cases v <;> (intro h'; cases h')
  · unfold forRows
    cases d.get? (.s k) with
    | none => simp
    | some v =>
      simp only [Option.some.injEq, exists_eq_left']
      cases v <;> simp [Val.shape0, rowCount, List.all_eq_true]

/-- A loop over the rows and the closing line. -/
theorem jr_loop {n : Nat} {body : Nat → W Unit} {P : Nat → Bool} (hb : ∀ i, W.Keeps (· = ·) (body i)) (h : ∀ i, JR (body i) d (P i = true)) :
    JR (W.forL (List.range n) body >>= fun _ => W.emit tailText) d (∀ i ∈ List.range n, P i = true) :=
  JR.iff (jr_then (W.Keeps.run (W.keeps_forL W.pre_eq _ hb) d).symm (jr_forL hb fun i _ => h i) jr_emit) (and_true _).to_iff

/-- The items that are written as integers. -/
def intCols : List (String × EntryKind) := [("node_nums", .int), ("element_nums", .int), ("IEXP", .int), ("number_of_nodes", .int),
  ("number_of_values_per_node", .int), ("node_nums", .intCall)]

theorem known_ints (hk : Known2414 d) : KnownI d intCols := by
  intro p hp v i x hv hx
  simp only [intCols, List.mem_cons, List.not_mem_nil, or_false] at hp
  rcases hp with rfl | rfl | rfl | rfl | rfl | rfl <;> exact hk.ints _ (by simp) v i x hv hx

theorem accept_locNodes (hk : Known2414 d) : JR locNodes d ((forRows d "node_nums" fun i => itemOk d i ("node_nums", .int, false) && itemP floatsOk d i "data_at_node") = true) := by
  have pre := W.pre_eq
  have hI := known_ints hk
  refine jr_shape fun n => jr_loop (fun i => ?_) fun i => ?_
  · exact W.keeps_bind pre (W.keeps_row pre _) fun _ => W.keeps_bind pre (W.keeps_keyAt pre _ _) fun v => keeps_vals v
  · rw [Bool.and_eq_true]
    refine JR.iff (jr_row_then (fj_at hI (k := "node_nums") (fits_i 10) (by simp [intCols]) fj_nil) (jr_keyAt fun x hx => jr_vals ?_)) (by rw [and_true])
    obtain ⟨v, h1, h2⟩ := at_ok.1 hx
    exact hk.rows _ (by simp) v i x h1 h2

theorem fj_lenAt {k : String} {i : Nat} {fs : List Fld} {Q : Prop} (h : FJ fs d Q) :
    FJ (.lenAt 10 (.s k) i :: fs) d ((∃ x n, Fld.at_ (.s k) i d = .ok x ∧ x.len = .ok n) ∧ Q) := by
  refine fj_cons ?_ ?_ ?_ h
  · constructor
    · rintro ⟨v, t, h1, -⟩
      unfold Fld.lenAt at h1
      simp only at h1
      cases hat : Fld.at_ (.s k) i d with
      | error e => rw [hat] at h1; cases h1
      | ok x =>
        rw [hat] at h1
        simp only at h1
        cases hl : x.len with
        | error e => rw [hl] at h1; cases h1
        | ok n => exact ⟨x, n, rfl, hl⟩
    · rintro ⟨x, n, h1, h2⟩
      refine ⟨.int n, padLeft 10 (intRepr n), ?_, rfl⟩
      unfold Fld.lenAt
      simp only [h1, h2]
  · unfold Fld.lenAt
    simp only
    have := py_at d (.s k) i
    cases hat : Fld.at_ (.s k) i d with
    | error e => rw [hat] at this; intro h'; cases h'; exact this rfl
    | ok x =>
      simp only
      have := py_len x
      cases hl : x.len with
      | error e => rw [hl] at this; intro h'; cases h'; exact this rfl
      | ok n => exact py_ok
  · intro v hv
    unfold Fld.lenAt at hv ⊢
    simp only at hv
    cases hat : Fld.at_ (.s k) i d with
    | error e => rw [hat] at hv; cases hv
    | ok x =>
      rw [hat] at hv
      simp only at hv
      cases hl : x.len with
      | error e => rw [hl] at hv; cases hv
      | ok n => rw [hl] at hv; cases hv; exact py_ok

theorem accept_locElems (hk : Known2414 d) :
    JR locElems d ((forRows d "element_nums" fun i => itemOk d i ("element_nums", .int, false) && itemP floatsOk d i "data_at_element") = true) := by
  have pre := W.pre_eq
  have hI := known_ints hk
  refine jr_shape fun n => jr_loop (fun i => ?_) fun i => ?_
  · exact W.keeps_bind pre (W.keeps_row pre _) fun _ => W.keeps_bind pre (W.keeps_keyAt pre _ _) fun v => keeps_vals v
  · rw [Bool.and_eq_true]
    refine JR.iff (jr_row_then (fj_at hI (k := "element_nums") (fits_i 10) (by simp [intCols]) (fj_lenAt fj_nil)) (jr_keyAt (P := floatsOk) fun x hx => jr_vals ?_)) ?_
    · obtain ⟨v, h1, h2⟩ := at_ok.1 hx
      exact hk.rows _ (by simp) v i x h1 h2
    · constructor
      · rintro ⟨⟨a, -⟩, b⟩
        exact ⟨a, b⟩
      · rintro ⟨a, b⟩
        refine ⟨⟨a, ?_, trivial⟩, b⟩
        obtain ⟨x, hx, hf⟩ := itemP_iff.1 b
        have hd : ∀ l, x ≠ .dict l := by
          obtain ⟨v, h1, h2⟩ := at_ok.1 hx
          exact (hk.rows _ (by simp) v i x h1 h2).1
        rcases items_len hd with ⟨l, g1, g2, -⟩ | ⟨g1, -⟩
        · exact ⟨x, _, hx, g2⟩
        · unfold floatsOk at hf
          rw [g1] at hf
          cases hf

theorem accept_locElemNodes (hk : Known2414 d) :
    JR locElemNodes d ((forRows d "element_nums" fun i => itemOk d i ("element_nums", .int, false) && (itemOk d i ("IEXP", .int, false) &&
      (itemOk d i ("number_of_nodes", .int, false) && (itemOk d i ("number_of_values_per_node", .int, false) &&
        itemP rowsOk d i "data_at_nodes_on_element")))) = true) := by
  have pre := W.pre_eq
  have hI := known_ints hk
  refine jr_shape fun n => jr_loop (fun i => ?_) fun i => ?_
  · exact W.keeps_bind pre (W.keeps_row pre _) fun _ => W.keeps_bind pre (W.keeps_keyAt pre _ _) fun v => W.keeps_bind pre (W.keeps_lift pre _) fun l =>
      W.keeps_forL pre _ keeps_vals
  · simp only [Bool.and_eq_true]
    refine JR.iff (jr_row_then (fj_at hI (k := "element_nums") (fits_i 10) (by simp [intCols]) (fj_at hI (k := "IEXP") (fits_i 10) (by simp [intCols])
      (fj_at hI (k := "number_of_nodes") (fits_i 10) (by simp [intCols]) (fj_at hI (k := "number_of_values_per_node") (fits_i 10) (by simp [intCols]) fj_nil))))
      (jr_keyAt (P := rowsOk) fun x hx => ?_)) (by simp only [and_true, and_assoc])
    obtain ⟨v, h1, h2⟩ := at_ok.1 hx
    have hr := hk.tables v i x h1 h2
    refine JR.iff (jr_lift (r := x.items) (R := fun l => ∀ v ∈ l, floatsOk v = true) (py_items hr.1) fun l hl => jr_rows (hr.2 l hl)) ?_
    unfold rowsOk
    cases x.items with
    | error e => simp
    | ok l => simp [List.all_eq_true]

theorem entryIs_of {k : String} {v : Val} (hv : d.get? (.s k) = some v) (hs : scalarKnown v = true) (n : Int) : v.numEq n = entryIs d k n := by
  unfold entryIs
  rw [hv]
  exact isNum_eq hs n

theorem jr_pure : JR (W.pure ()) d True := ⟨⟨fun _ => trivial, fun _ => rfl⟩, py_ok⟩

theorem accept_loc (hk : Known2414 d) {v : Val} (hv : d.get? "dataset_location" = some v) (hs : scalarKnown v = true) : JR (locRest v) d (locOk d = true) := by
  unfold locRest locOk
  rw [entryIs_of hv hs, entryIs_of hv hs, entryIs_of hv hs, entryIs_of hv hs]
  split
  · exact accept_locNodes hk
  split
  · exact accept_locElems hk
  split
  · exact accept_locElemNodes hk
  split
  · exact JR.iff jr_pure (by simp)
  · exact JR.iff jr_emit (by simp)

/-- The entries of results with their kinds. -/
def kindsResults : List (String × EntryKind) := (headResults ++ headFreq ++ headPlain).map fun f => (f.1, f.2.1)

theorem known_entries (hk : Known2414 d) : KnownE d kindsResults := by
  intro p hp v hv
  obtain ⟨f, hf, rfl⟩ := List.mem_map.1 hp
  exact hk.entries f hf v hv

theorem accept_freqNode (hk : Known2414 d) {v : Val} (hv : d.get? "number_of_data_values_for_the_data_component" = some v) (hs : scalarKnown v = true) (i : Nat) :
    JR (freqNode v i) d ((itemOk d i ("node_nums", .intCall, false) && (components d).all (itemP numberOk d i)) = true) := by
  have hI := known_ints hk
  have hx : ∀ v x, d.get? (.s "x") = some v → v.idx i = .ok x → numberKnown x = true := fun v x => hk.numbers _ (by simp) v i x
  have hy : ∀ v x, d.get? (.s "y") = some v → v.idx i = .ok x → numberKnown x = true := fun v x => hk.numbers _ (by simp) v i x
  have hz : ∀ v x, d.get? (.s "z") = some v → v.idx i = .ok x → numberKnown x = true := fun v x => hk.numbers _ (by simp) v i x
  rw [Bool.and_eq_true]
  refine JR.iff (jr_row_then (Q := (components d).all (itemP numberOk d i) = true) (fj_intAt hI (k := "node_nums") (by simp [intCols]) fj_nil) ?_) (by rw [and_true])
  unfold components
  rw [entryIs_of hv hs, entryIs_of hv hs, entryIs_of hv hs]
  split
  · refine JR.iff (jr_row (fj_reIm hx (fj_reIm hy (by simpa using fj_reIm hz fj_nil)))) ?_
    simp [and_assoc]
  split
  · refine JR.iff (jr_row (fj_reIm hx (by simpa using fj_reIm hy fj_nil))) ?_
    simp
  split
  · refine JR.iff (jr_row (by simpa using fj_reIm hx fj_nil)) ?_
    simp
  · exact JR.iff jr_pure (by simp)

theorem keeps_freqNode (v : Val) (i : Nat) : W.Keeps (· = ·) (freqNode v i) := by
  have pre := W.pre_eq
  unfold freqNode
  refine W.keeps_bind pre (W.keeps_row pre _) fun _ => ?_
  split
  · exact W.keeps_row pre _
  split
  · exact W.keeps_row pre _
  split
  · exact W.keeps_row pre _
  · exact W.keeps_pure pre _

theorem jr_row_dep {β : Type} {fs : List Fld} {f : Unit → W β} {P Q : Prop} (h : FJ fs d P) (hf : P → JR (f ()) d Q) : JR (W.row fs >>= f) d (P ∧ Q) := by
  have hm := jr_row h
  refine (jr_seq (R := fun _ => Q) ((W.keeps_row W.pre_eq fs).run d).symm hm.py fun a ha => hf (hm.ok.1 (isOk_iff.2 ⟨a, ha⟩))).iff ?_
  rw [← hm.ok, isOk_iff]
  exact ⟨fun ⟨a, h1, h2⟩ => ⟨⟨a, h1⟩, h2⟩, fun ⟨⟨a, h1⟩, h2⟩ => ⟨a, h1, h2⟩⟩

theorem accept_freqRest (hk : Known2414 d) {v : Val} (hv : d.get? "number_of_data_values_for_the_data_component" = some v) (hs : scalarKnown v = true) :
    JR freqRest d (freqOk d = true) := by
  have hE := known_entries hk
  have hlast : JR (W.key "node_nums" >>= fun v => W.lift v.shape0 >>= fun n => W.key "number_of_data_values_for_the_data_component" >>= fun c =>
      W.forL (List.range n) (freqNode c) >>= fun _ => W.emit tailText) d ((forRows d "node_nums" fun i => itemOk d i ("node_nums", .intCall, false) && (components d).all (itemP numberOk d i)) = true) := by
    refine jr_shape fun n => ?_
    refine JR.iff (jr_key (R := fun _ => ∀ i ∈ List.range n, (itemOk d i ("node_nums", .intCall, false) && (components d).all (itemP numberOk d i)) = true)
      fun u hu => ?_) ⟨fun ⟨_, _, h⟩ => h, fun h => ⟨v, hv, h⟩⟩
    rw [hv] at hu
    cases hu
    exact jr_loop (keeps_freqNode v) (accept_freqNode hk hv hs)
  unfold freqRest freqInts
  apply JR.iff
  · exact jr_row_then (fj_i hE (of_decide_eq_true rfl) (fj_i hE (of_decide_eq_true rfl) (fj_i hE (of_decide_eq_true rfl) (fj_i hE (of_decide_eq_true rfl) (fj_i hE (of_decide_eq_true rfl) (fj_i hE (of_decide_eq_true rfl) (fj_i hE (of_decide_eq_true rfl) (fj_i hE (of_decide_eq_true rfl) fj_nil)))))))) <|
      jr_row_then (fj_i hE (of_decide_eq_true rfl) (fj_i hE (of_decide_eq_true rfl) fj_nil)) <|
      jr_row_then (fj_get hE fits_e2 (of_decide_eq_true rfl) (fj_get hE fits_e2 (of_decide_eq_true rfl) (fj_get hE fits_e2 (of_decide_eq_true rfl) (fj_get hE fits_e2 (of_decide_eq_true rfl) (fj_get hE fits_e2 (of_decide_eq_true rfl) (fj_get hE fits_e2 (of_decide_eq_true rfl) fj_nil)))))) <|
      jr_row_then (fj_get hE fits_e2 (of_decide_eq_true rfl) (fj_get hE fits_e2 (of_decide_eq_true rfl) (fj_get hE fits_e2 (of_decide_eq_true rfl) (fj_get hE fits_e2 (of_decide_eq_true rfl) (fj_get hE fits_e2 (of_decide_eq_true rfl) (fj_get hE fits_e2 (of_decide_eq_true rfl) fj_nil)))))) hlast
  · unfold freqOk
    simp only [Bool.and_eq_true, headFreq, List.all_cons, List.all_nil, and_true, and_assoc]

theorem accept_plainRest (hk : Known2414 d) {v : Val} (hv : d.get? "dataset_location" = some v) (hs : scalarKnown v = true) :
    JR plainRest d (((headPlain.all fun f => entryOk d (f.1, f.2.1, false)) && locOk d) = true) := by
  have hE := known_entries hk
  have hlast : JR (W.key "dataset_location" >>= fun loc => locRest loc) d (locOk d = true) := by
    refine JR.iff (jr_key (R := fun _ => locOk d = true) fun u hu => ?_) ⟨fun ⟨_, _, h⟩ => h, fun h => ⟨v, hv, h⟩⟩
    rw [hv] at hu
    cases hu
    exact accept_loc hk hv hs
  unfold plainRest
  apply JR.iff
  · exact jr_row_then (fj_i hE (of_decide_eq_true rfl) (fj_i hE (of_decide_eq_true rfl) (fj_i hE (of_decide_eq_true rfl) (fj_i hE (of_decide_eq_true rfl) (fj_i hE (of_decide_eq_true rfl) (fj_i hE (of_decide_eq_true rfl) (fj_i hE (of_decide_eq_true rfl) (fj_i hE (of_decide_eq_true rfl) fj_nil)))))))) <|
      jr_row_then (fj_i hE (of_decide_eq_true rfl) (fj_i hE (of_decide_eq_true rfl) (fj_i hE (of_decide_eq_true rfl) (fj_i hE (of_decide_eq_true rfl) (fj_i hE (of_decide_eq_true rfl) (fj_i hE (of_decide_eq_true rfl) (fj_i hE (of_decide_eq_true rfl) (fj_i hE (of_decide_eq_true rfl) fj_nil)))))))) <|
      jr_row_then (fj_get hE fits_e2 (of_decide_eq_true rfl) (fj_get hE fits_e2 (of_decide_eq_true rfl) (fj_get hE fits_e2 (of_decide_eq_true rfl) (fj_get hE fits_e2 (of_decide_eq_true rfl) (fj_get hE fits_e2 (of_decide_eq_true rfl) (fj_get hE fits_e2 (of_decide_eq_true rfl) fj_nil)))))) <|
      jr_row_then (fj_get hE fits_e2 (of_decide_eq_true rfl) (fj_get hE fits_e2 (of_decide_eq_true rfl) (fj_get hE fits_e2 (of_decide_eq_true rfl) (fj_get hE fits_e2 (of_decide_eq_true rfl) (fj_get hE fits_e2 (of_decide_eq_true rfl) (fj_get hE fits_e2 (of_decide_eq_true rfl) fj_nil)))))) hlast
  · simp only [Bool.and_eq_true, headPlain, List.all_cons, List.all_nil, and_true, and_assoc]

theorem opt_none {k : String} (h : Dict.get? opt2414 (.s k) = Option.none) : (optFields d opt2414).get? (.s k) = d.get? (.s k) := by
  rw [get?_optFields, h, Option.or_none]

theorem known_after (hk : Known2414 d) : Known2414 (optFields d opt2414) := by
  have ho : (headResults ++ headFreq ++ headPlain).all (optCond opt2414) = true := by decide +kernel
  have h := known_opt ho hk.entries
  refine ⟨fun f hf v hv => h _ (List.mem_map_of_mem hf) v hv, fun k hm v i x hv hx => hk.ints k hm v i x ?_ hx, fun k hm v i x hv hx => hk.numbers k hm v i x ?_ hx,
    fun k hm v i x hv hx => hk.rows k hm v i x ?_ hx, fun v i x hv hx => hk.tables v i x ?_ hx⟩
  · rwa [opt_none] at hv
    simp only [List.mem_cons, List.not_mem_nil, or_false] at hm
    rcases hm with rfl | rfl | rfl | rfl | rfl <;> rfl
  · rwa [opt_none] at hv
    simp only [List.mem_cons, List.not_mem_nil, or_false] at hm
    rcases hm with rfl | rfl | rfl <;> rfl
  · rwa [opt_none] at hv
    simp only [List.mem_cons, List.not_mem_nil, or_false] at hm
    rcases hm with rfl | rfl <;> rfl
  · rwa [opt_none (by rfl)] at hv

theorem canWrite_after : canWrite2414 d = (headResults.all (entryOk (optFields d opt2414)) && if entryIs (optFields d opt2414) "analysis_type" 5 then freqOk (optFields d opt2414)
    else (headPlain.all fun f => entryOk (optFields d opt2414) (f.1, f.2.1, false)) && locOk (optFields d opt2414)) := by
  have e1 : ∀ {F : List (String × EntryKind × Bool)}, (F.all fun f => (Dict.get? opt2414 (.s f.1)).isNone) = true →
      F.all (entryOk (optFields d opt2414)) = F.all (entryOk d) := by
    intro F hF
    rw [Bool.eq_iff_iff, List.all_eq_true, List.all_eq_true]
    refine forall₂_congr fun f hf => ?_
    unfold entryOk
    rw [opt_none (Option.isNone_iff_eq_none.1 (List.all_eq_true.1 hF f hf))]
  have e2 : ∀ {k : String} {n : Int}, Dict.get? opt2414 (.s k) = Option.none → entryIs (optFields d opt2414) k n = entryIs d k n := by
    intro k n h
    unfold entryIs
    rw [opt_none h]
  have e3 : ∀ {P : Val → Bool} {i : Nat} {k : String}, Dict.get? opt2414 (.s k) = Option.none → itemP P (optFields d opt2414) i k = itemP P d i k := by
    intro P i k h
    unfold itemP
    rw [opt_none h]
  have e4 : ∀ {i : Nat} {k : String} {K : EntryKind}, Dict.get? opt2414 (.s k) = Option.none → itemOk (optFields d opt2414) i (k, K, false) = itemOk d i (k, K, false) := by
    intro i k K h
    unfold itemOk
    rw [opt_none h]
  have e5 : ∀ {k : String} {P : Nat → Bool}, Dict.get? opt2414 (.s k) = Option.none → forRows (optFields d opt2414) k P = forRows d k P := by
    intro k P h
    unfold forRows
    rw [opt_none h]
  have e6 : components (optFields d opt2414) = components d := by
    unfold components
    rw [e2 rfl, e2 rfl, e2 rfl]
  have e7 : ∀ i, (components d).all (itemP numberOk (optFields d opt2414) i) = (components d).all (itemP numberOk d i) := by
    intro i
    unfold components
    split
    · simp only [List.all_cons, List.all_nil, e3 (k := "x") rfl, e3 (k := "y") rfl, e3 (k := "z") rfl]
    split
    · simp only [List.all_cons, List.all_nil, e3 (k := "x") rfl, e3 (k := "y") rfl]
    split
    · simp only [List.all_cons, List.all_nil, e3 (k := "x") rfl]
    · simp only [List.all_nil]
  unfold canWrite2414 plainOk freqOk locOk
  rw [e1 (F := headResults) (by decide +kernel), e1 (F := headFreq) (by decide +kernel), entries_opt (F := headPlain) (os := opt2414) (by decide +kernel), e2 rfl, e2 rfl, e2 rfl, e2 rfl,
    e5 rfl, e5 rfl, e5 rfl, e5 rfl, e6]
  simp only [e3 (k := "data_at_node") rfl, e3 (k := "data_at_element") rfl, e3 (k := "data_at_nodes_on_element") rfl, e4 (k := "node_nums") rfl,
    e4 (k := "element_nums") rfl, e4 (k := "IEXP") rfl, e4 (k := "number_of_nodes") rfl, e4 (k := "number_of_values_per_node") rfl, e7]

/-- Exactly these dictionaries are accepted as results. -/
theorem accept2414 (hk : Known2414 d) : JR write2414 d (canWrite2414 d = true) := by
  rw [canWrite_after]
  have hk := known_after hk
  unfold write2414
  refine jr_guardedAny (jr_opt ?_)
  generalize optFields d opt2414 = d at hk ⊢
  have hE := known_entries hk
  have here : ∀ {k : String}, (k, EntryKind.int) ∈ kindsResults → ∀ {v : Val}, d.get? (.s k) = some v → scalarKnown v = true := fun hm v hv => hE _ hm v hv
  have hlast : entryOk d ("dataset_location", .int, false) = true → entryOk d ("analysis_type", .int, false) = true →
      entryOk d ("number_of_data_values_for_the_data_component", .int, false) = true →
      JR (W.key "analysis_type" >>= fun a => if a.numEq 5 then freqRest else plainRest) d ((if entryIs d "analysis_type" 5 then freqOk d else (headPlain.all fun f => entryOk d (f.1, f.2.1, false)) && locOk d) = true) := by
    intro h1 h2 h3
    obtain ⟨l, hl, -⟩ := entryOk_iff.1 h1
    obtain ⟨a, ha, -⟩ := entryOk_iff.1 h2
    obtain ⟨c, hc, -⟩ := entryOk_iff.1 h3
    refine JR.iff (jr_key (R := fun _ => (if entryIs d "analysis_type" 5 then freqOk d else (headPlain.all fun f => entryOk d (f.1, f.2.1, false)) && locOk d) = true) fun u hu => ?_) ⟨fun ⟨_, _, h⟩ => h, fun h => ⟨a, ha, h⟩⟩
    rw [ha] at hu
    cases hu
    rw [entryIs_of ha (here (of_decide_eq_true rfl) ha)]
    split
    · exact accept_freqRest hk hc (here (of_decide_eq_true rfl) hc)
    · exact accept_plainRest hk hl (here (of_decide_eq_true rfl) hl)
  apply JR.iff
  · exact jr_emit_then <| jr_row_then (fj_i hE (of_decide_eq_true rfl) fj_nil) <| jr_row_then (fj_sl hE (of_decide_eq_true rfl) fj_nil) <|
      jr_row_dep (fj_i hE (of_decide_eq_true rfl) fj_nil) fun hL =>
      jr_row_then (fj_sl hE (of_decide_eq_true rfl) fj_nil) <|
      jr_row_then (fj_sl hE (of_decide_eq_true rfl) fj_nil) <|
      jr_row_then (fj_sl hE (of_decide_eq_true rfl) fj_nil) <|
      jr_row_then (fj_sl hE (of_decide_eq_true rfl) fj_nil) <|
      jr_row_then (fj_sl hE (of_decide_eq_true rfl) fj_nil) <|
      jr_row_dep (fj_i hE (of_decide_eq_true rfl) (fj_i hE (of_decide_eq_true rfl) (fj_i hE (of_decide_eq_true rfl) (fj_i hE (of_decide_eq_true rfl) (fj_i hE (of_decide_eq_true rfl) (fj_i hE (of_decide_eq_true rfl) fj_nil)))))) fun hC => hlast hL.1 hC.2.1 hC.2.2.2.2.2.1
  · rw [Bool.and_eq_true]
    simp only [Bool.and_eq_true, headResults, List.all_cons, List.all_nil, and_true, and_assoc]

end Verif
