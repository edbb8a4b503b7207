import Verif.Lemmas.AcceptAll
import Verif.Spec.AcceptMore
/-
Which dictionaries the writers of data-sets 82, 2412, 2420 and 2467 accept.
-/
namespace Verif
open W (JR jr_emit jr_seq jr_then jr_emit_then jr_key jr_lift jr_opt jr_guarded jr_guardedAny jr_format jr_row jr_row_then jr_forL jr_none)

variable {d : Dict}

theorem steps_eq (l : List F64) : changes (fun a b => decide ((F64.sub b a).mag ≠ 0)) l = stepsF l := by
  induction l with
  | nil => rfl
  | cons a r ih =>
    cases r with
    | nil => rfl
    | cons b r =>
      unfold changes stepsF
      rw [ih]
      by_cases h : (F64.sub b a).mag = 0
      · rw [if_pos h, if_neg (by simp [h])]
      · rw [if_neg h, if_pos (by simp [h])]

theorem all_slices {α} (P : α → Prop) (l : List α) (k : Nat) :
    (∀ i ∈ List.range k, ∀ a ∈ slice l (8 * i) (8 * i + 8), P a) ↔ ∀ a ∈ l.take (8 * k), P a := by
  induction k with
  | zero => simp
  | succ k ih =>
    rw [List.range_succ, List.forall_mem_append, ih, show 8 * (k + 1) = 8 * k + 8 by omega, List.take_add, List.forall_mem_append]
    simp only [List.forall_mem_cons, List.not_mem_nil, false_implies, implies_true, and_true]
    unfold slice
    rw [show 8 * k + 8 - 8 * k = 8 by omega]

theorem jr_line {l : List Val} (h : ∀ v ∈ l, scalarKnown v = true) : JR (nodeLine l) d (∀ v ∈ l, intOk v = true) := by
  refine JR.iff (m := nodeLine l) (jr_lift (R := fun _ => True) (mapRes_py _ _ fun a ha => py_map (toInt_py a (h a ha))) fun _ _ => jr_emit) ?_
  have : (mapRes (fmtI 10) l).isOk = true ↔ ∀ v ∈ l, intOk v = true := by
    rw [mapRes_isOk, List.all_eq_true]
    exact forall₂_congr fun a _ => by rw [(fits_i 10).ok]; rfl
  rw [← this, isOk_iff]
  exact ⟨fun ⟨a, h, _⟩ => ⟨a, h⟩, fun ⟨a, h⟩ => ⟨a, h, trivial⟩⟩

theorem mem_slice {α} {l : List α} {i j : Nat} {a : α} (h : a ∈ slice l i j) : a ∈ l := List.mem_of_mem_drop (List.mem_of_mem_take h)

theorem written_all {α} (P : α → Prop) (l : List α) (n : Nat) :
    ((∀ i ∈ List.range (n / 8), ∀ a ∈ slice l (8 * i) (8 * i + 8), P a) ∧ (0 < n % 8 → ∀ a ∈ l.drop (8 * (n / 8)), P a)) ↔
      ∀ a ∈ (if n % 8 = 0 then l.take n else l), P a := by
  rw [all_slices]
  by_cases h : n % 8 = 0
  · rw [if_pos h, show 8 * (n / 8) = n by omega]
    exact ⟨fun a => a.1, fun a => ⟨a, fun h' => by omega⟩⟩
  · rw [if_neg h]
    constructor
    · rintro ⟨h1, h2⟩ a ha
      rw [← List.take_append_drop (8 * (n / 8)) l, List.mem_append] at ha
      rcases ha with ha | ha
      · exact h1 a ha
      · exact h2 (by omega) a ha
    · exact fun h1 => ⟨fun a ha => h1 a (List.mem_of_mem_take ha), fun _ a ha => h1 a (List.mem_of_mem_drop ha)⟩

/-- The part of the writer that writes the nodes. -/
theorem jr_nodes {n : Nat} {l : List Val} (hl : ∀ v ∈ l, scalarKnown v = true) {m : W Unit} {Q : Prop} (hm : JR m d Q) :
    JR (W.forL (List.range (n / 8)) (fun i => nodeLine (slice l (8 * i) (8 * i + 8))) >>= fun _ =>
      W.when (0 < n % 8) (nodeLine (l.drop (8 * (n / 8)))) >>= fun _ => m) d ((∀ v ∈ (if n % 8 = 0 then l.take n else l), intOk v = true) ∧ Q) := by
  have pre := W.pre_eq
  have kp : ∀ l, W.Keeps (· = ·) (nodeLine l) := fun l => by unfold nodeLine; wkeep pre
  rw [← written_all, and_assoc]
  refine jr_then ?_ (jr_forL (fun i => kp _) fun i _ => jr_line fun v hv => hl v (mem_slice hv)) (jr_then ?_ ?_ hm)
  · exact (W.Keeps.run (W.keeps_forL pre _ fun i => kp _) d).symm
  · exact (W.Keeps.run (W.keeps_when pre _ (kp _)) d).symm
  · unfold W.when
    by_cases h : 0 < n % 8
    · rw [if_pos h]
      exact (jr_line fun v hv => hl v (List.mem_of_mem_drop hv)).iff ⟨fun a _ => a, fun a => a h⟩
    · rw [if_neg h]
      exact ⟨⟨fun _ h' => absurd h' h, fun _ => rfl⟩, py_ok⟩

theorem accept82 (hk : known82 d) : JR write82 d (canWrite82 d = true) := by
  have ho : fields82.all (optCond [("id", .str "NONE".toList), ("color", .int 0)]) = true := by decide
  have h := known_opt ho hk.1
  have hget : d.get? "nodes" = (optFields d [("id", .str "NONE".toList), ("color", .int 0)]).get? "nodes" := by
    rw [get?_optFields, show Dict.get? [((.s "id" : Key), Val.str "NONE".toList), (.s "color", Val.int 0)] "nodes" = Option.none from rfl, Option.or_none]
  have hn := hk.2
  unfold canWrite82
  rw [entries_opt ho]
  rw [hget] at hn ⊢
  unfold write82
  refine jr_guarded (jr_opt ?_)
  generalize optFields d [("id", .str "NONE".toList), ("color", .int 0)] = d1 at h hn ⊢
  have each : ∀ (n : Nat) (l : List Val), (∀ v ∈ l, scalarKnown v = true) →
      JR (W.emit (headText 82) >>= fun _ => W.row [.i 10 "trace_num", .c (fmtI 10) (.int (n : Int)), .i 10 "color"] >>= fun _ => W.row [.sl 80 "id"] >>= fun _ =>
        W.forL (List.range (n / 8)) (fun i => nodeLine (slice l (8 * i) (8 * i + 8))) >>= fun _ =>
        W.when (0 < n % 8) (nodeLine (l.drop (8 * (n / 8)))) >>= fun _ => W.emit tailText) d1
      ((fields82.all fun f => entryOk d1 (f.1, f.2.1, false)) = true ∧ ∀ v ∈ (if n % 8 = 0 then l.take n else l), intOk v = true) := by
    intro n l hl
    apply JR.iff
    · refine jr_emit_then (jr_row_then (P := entryOk d1 ("trace_num", .int, false) = true ∧ entryOk d1 ("color", .int, false) = true ∧ True) ?_
        (jr_row_then (P := entryOk d1 ("id", .text, false) = true ∧ True) ?_ (jr_nodes hl jr_emit)))
      · judge h
      · judge h
    · unfold fields82
      simp only [List.all_cons, List.all_nil, Bool.and_eq_true, and_true, and_assoc]
  refine JR.iff (jr_key (R := fun v => ∃ nv, nodes82 v = .ok nv ∧ (fields82.all fun f => entryOk d1 (f.1, f.2.1, false)) = true ∧
    ∀ x ∈ (if nv.1 % 8 = 0 then nv.2.take nv.1 else nv.2), intOk x = true) fun v hv => jr_lift ?_ fun nv hnv => ?_) ?_
  · obtain ⟨h1, h2⟩ := hn v hv
    cases v with
    | arrC l => exact absurd rfl (h1 l)
    | mat l => exact absurd rfl (h2 l)
    | _ => intro h'; cases h'
  · refine each nv.1 nv.2 ?_
    cases v with
    | arrI l =>
      cases hnv
      intro x hx
      obtain ⟨y, -, rfl⟩ := List.mem_map.1 hx
      rfl
    | arrF l =>
      cases hnv
      intro x hx
      obtain ⟨y, -, rfl⟩ := List.mem_map.1 hx
      rfl
    | _ => cases hnv
  · rw [Bool.and_eq_true]
    have split : ∀ A : Prop, ∀ P : Val → Prop, (∃ v, d1.get? "nodes" = some v ∧ ∃ nv, nodes82 v = .ok nv ∧ A ∧ ∀ x ∈ (if nv.1 % 8 = 0 then nv.2.take nv.1 else nv.2), P x) ↔
        A ∧ ∃ v, d1.get? "nodes" = some v ∧ ∃ nv, nodes82 v = .ok nv ∧ ∀ x ∈ (if nv.1 % 8 = 0 then nv.2.take nv.1 else nv.2), P x := by
      intro A P
      exact ⟨fun ⟨v, a, nv, b, c, e⟩ => ⟨c, v, a, nv, b, e⟩, fun ⟨c, v, a, nv, b, e⟩ => ⟨v, a, nv, b, c, e⟩⟩
    rw [split]
    refine and_congr_right fun _ => ?_
    cases hv : d1.get? "nodes" with
    | none => exact ⟨fun ⟨_, h, _⟩ => (by cases h), fun h => (by cases h)⟩
    | some v =>
      cases v with
      | arrI l =>
        refine ⟨fun _ => rfl, fun _ => ⟨_, rfl, _, rfl, fun x hx => ?_⟩⟩
        have hx : x ∈ l.map Val.int := by
          split at hx
          · exact List.mem_of_mem_take hx
          · exact hx
        obtain ⟨y, -, rfl⟩ := List.mem_map.1 hx
        rfl
      | arrF l =>
        have hl : nodes82 (.arrF l) = .ok (stepsF l + 1, l.map .float) := by
          show Except.ok _ = _
          rw [steps_eq]
        simp only [Option.some.injEq, exists_eq_left', hl, Except.ok.injEq, List.all_eq_true, writtenNodes]
        have e : (if (stepsF l + 1) % 8 = 0 then List.take (stepsF l + 1) (List.map Val.float l) else List.map Val.float l) =
            (if (stepsF l + 1) % 8 = 0 then List.take (stepsF l + 1) l else l).map Val.float := by
          split
          · rw [List.map_take]
          · rfl
        rw [e]
        simp only [List.forall_mem_map]
        rfl
      | _ => exact ⟨fun ⟨_, h, _, h', _⟩ => (by cases h; cases h'), fun h => (by cases h)⟩

/-! Dictionaries in dictionaries. -/

theorem fj_gk {g : Dict} {L : List (String × EntryKind)} {fs : List Fld} {Q : Prop} {k : String} (hk : KnownE g L) {K : EntryKind} {fmt : Val → Res Text}
    (hf : FitsK K fmt) (hm : (k, K) ∈ L) (h : FJ fs d Q) :
    FJ (⟨fun _ => (Val.dict g).getK k, fmt⟩ :: fs) d (entryOk g (k, K, false) = true ∧ Q) := by
  refine fj_cons ?_ (py_get g (.s k)) (fun v hv => hf.py v (hk _ hm v (getRes_ok.1 hv))) h
  rw [entryOk_iff]
  constructor
  · rintro ⟨v, t, h1, h2⟩
    exact ⟨v, getRes_ok.1 h1, (hf.ok v).symm.trans (isOk_iff.2 ⟨t, h2⟩)⟩
  · rintro ⟨v, h1, h2⟩
    obtain ⟨t, ht⟩ := isOk_iff.1 ((hf.ok v).trans h2)
    exact ⟨v, t, getRes_ok.2 h1, ht⟩

theorem fj_gAt {g : Dict} {L : List (String × EntryKind)} {fs : List Fld} {Q : Prop} {k : String} (hk : KnownI g L) {K : EntryKind} {fmt : Val → Res Text}
    {i : Nat} (hf : FitsK K fmt) (hm : (k, K) ∈ L) (h : FJ fs d Q) :
    FJ (⟨fun _ => (Val.dict g).getAt k i, fmt⟩ :: fs) d (itemOk g i (k, K, false) = true ∧ Q) := by
  have e : (Val.dict g).getAt k i = Fld.at_ (.s k) i g := rfl
  refine fj_cons ?_ (py_at g (.s k) i) (fun x hx => ?_) h
  · rw [itemOk_iff]
    constructor
    · rintro ⟨x, t, h1, h2⟩
      obtain ⟨v, hv, hx⟩ := at_ok.1 h1
      exact ⟨v, x, hv, hx, (hf.ok x).symm.trans (isOk_iff.2 ⟨t, h2⟩)⟩
    · rintro ⟨v, x, h1, h2, h3⟩
      obtain ⟨t, ht⟩ := isOk_iff.1 ((hf.ok x).trans h3)
      exact ⟨x, t, at_ok.2 ⟨v, h1, h2⟩, ht⟩
  · obtain ⟨v, hv, hx⟩ := at_ok.1 hx
    exact hf.py x (hk _ hm v i x hv hx)

theorem getK_error {v : Val} (h : ∀ g, v ≠ .dict g) (k : String) : ∃ e, v.getK k = .error e ∧ e ≠ .unmodelled := by
  cases v with
  | dict g => exact absurd rfl (h g)
  | arrI l => exact ⟨_, rfl, by decide⟩
  | arrF l => exact ⟨_, rfl, by decide⟩
  | arrC l => exact ⟨_, rfl, by decide⟩
  | mat l => exact ⟨_, rfl, by decide⟩
  | none => exact ⟨_, rfl, by decide⟩
  | bool b => exact ⟨_, rfl, by decide⟩
  | int n => exact ⟨_, rfl, by decide⟩
  | float x => exact ⟨_, rfl, by decide⟩
  | cplx x y => exact ⟨_, rfl, by decide⟩
  | str s => exact ⟨_, rfl, by decide⟩
  | list l => exact ⟨_, rfl, by decide⟩

theorem py_items {v : Val} (h : ∀ l, v ≠ .dict l) : Py v.items := by
  cases v with
  | dict l => exact absurd rfl (h l)
  | _ => intro h'; cases h'

theorem jr_fail {m : W Unit} {e : Err} (h : (m d).res = .error e) (he : e ≠ .unmodelled) : JR m d False := by
  constructor
  · rw [h]; exact ⟨fun h => (by cases h), fun h => h.elim⟩
  · rw [h]; exact py_err he

theorem keeps_group (g : Val) : W.Keeps (· = ·) (writeGroup2467 g) := by
  have pre := W.pre_eq
  unfold writeGroup2467
  wkeep pre

theorem pairs_all (P : Nat → Prop) (n : Nat) : (∀ j ∈ List.range ((n + 1) / 2), if n - 2 * j > 1 then P (2 * j) ∧ P (2 * j + 1) else P (2 * j)) ↔
    ∀ i ∈ List.range n, P i := by
  constructor
  · intro h i hi
    have hi := List.mem_range.1 hi
    have := h (i / 2) (List.mem_range.2 (by omega))
    split at this
    · rcases Nat.mod_two_eq_zero_or_one i with h0 | h0
      · rw [show i = 2 * (i / 2) by omega]; exact this.1
      · rw [show i = 2 * (i / 2) + 1 by omega]; exact this.2
    · rw [show i = 2 * (i / 2) by omega]; exact this
  · intro h j hj
    have hj := List.mem_range.1 hj
    split
    · exact ⟨h _ (List.mem_range.2 (by omega)), h _ (List.mem_range.2 (by omega))⟩
    · exact h _ (List.mem_range.2 (by omega))

theorem jr_group {v : Val} (hk : knownGroup v) : JR (writeGroup2467 v) d (groupOk v = true) := by
  by_cases hv : ∃ g, v = .dict g
  · obtain ⟨g, rfl⟩ := hv
    obtain ⟨h1, h2⟩ := hk g rfl
    have hE : KnownE g (fieldsGroup.map fun f => (f.1, f.2.1)) := by
      intro p hp v hv
      obtain ⟨f, hf, rfl⟩ := List.mem_map.1 hp
      exact h1 f hf v hv
    have hI : KnownI g (colsGroup.map fun f => (f.1, f.2.1)) := by
      intro p hp v i x hv hx
      obtain ⟨f, hf, rfl⟩ := List.mem_map.1 hp
      exact h2 f hf v i x hv hx
    unfold writeGroup2467
    have pre := W.pre_eq
    refine JR.iff (jr_lift (r := Dict.get g (.s "entity_type_code")) (R := fun v => ∃ n, v.len = .ok n ∧ (fieldsGroup.all (entryOk g) = true ∧
      ∀ i ∈ List.range n, ∀ f ∈ colsGroup, itemOk g i f = true)) (py_get _ _) fun v _ => jr_lift (py_len v) fun n _ => ?_) ?_
    · refine JR.iff (jr_row_then (P := entryOk g ("group_number", .int, false) = true ∧ entryOk g ("active_constraint_set_no_for_group", .int, false) = true ∧
        entryOk g ("active_restraint_set_no_for_group", .int, false) = true ∧ entryOk g ("active_load_set_no_for_group", .int, false) = true ∧
        entryOk g ("active_dof_set_no_for_group", .int, false) = true ∧ entryOk g ("active_temperature_set_no_for_group", .int, false) = true ∧
        entryOk g ("active_contact_set_no_for_group", .int, false) = true ∧ True) ?_
        (jr_row_then (fj_gk hE (fits_sl 40) (of_decide_eq_true rfl) fj_nil) (jr_forL (R := fun j => if n - 2 * j > 1 then
          (∀ f ∈ colsGroup, itemOk g (2 * j) f = true) ∧ (∀ f ∈ colsGroup, itemOk g (2 * j + 1) f = true) else
          (∀ f ∈ colsGroup, itemOk g (2 * j) f = true)) (fun j => W.keeps_row pre _) fun j _ => ?_))) ?_
      · iterate 7 refine fj_gk hE (fits_i 10) (of_decide_eq_true rfl) ?_
        exact fj_k (fits_i 10) rfl fj_nil
      · have step : ∀ {i : Nat} {fs : List Fld} {Q : Prop}, FJ fs d Q → FJ (entFlds (.dict g) i ++ fs) d ((∀ f ∈ colsGroup, itemOk g i f = true) ∧ Q) := by
          intro i fs Q h
          have h4 := fj_gAt (d := d) hI (i := i) (k := "entity_type_code") (fits_i 10) (of_decide_eq_true rfl) (fj_gAt hI (i := i) (k := "entity_tag") (fits_i 10) (of_decide_eq_true rfl)
            (fj_gAt hI (i := i) (k := "entity_node_leaf_id") (fits_i 10) (of_decide_eq_true rfl) (fj_gAt hI (i := i) (k := "entity_component_id") (fits_i 10) (of_decide_eq_true rfl) h)))
          have e : ((∀ f ∈ colsGroup, itemOk g i f = true) ∧ Q) = (itemOk g i ("entity_type_code", .int, false) = true ∧ itemOk g i ("entity_tag", .int, false) = true ∧
              itemOk g i ("entity_node_leaf_id", .int, false) = true ∧ itemOk g i ("entity_component_id", .int, false) = true ∧ Q) := by
            unfold colsGroup
            simp only [List.forall_mem_cons, List.not_mem_nil, false_implies, implies_true, and_true, and_assoc]
          rw [e]
          exact h4
        by_cases hj : n - 2 * j > 1
        · rw [if_pos hj, if_pos hj]
          have := step (i := 2 * j) (step (i := 2 * j + 1) fj_nil)
          rw [List.append_nil, and_true] at this
          exact jr_row this
        · rw [if_neg hj, if_neg hj]
          have := step (i := 2 * j) fj_nil
          rw [List.append_nil, and_true] at this
          exact jr_row this
      · rw [pairs_all fun i => ∀ f ∈ colsGroup, itemOk g i f = true]
        unfold fieldsGroup
        simp only [List.all_cons, List.all_nil, Bool.and_eq_true, and_true, and_assoc]
    · unfold groupOk
      simp only [getRes_ok, Bool.and_eq_true]
      rw [show Dict.get? g "entity_type_code" = Dict.get? g (.s "entity_type_code") from rfl]
      cases Dict.get? g (.s "entity_type_code") with
      | none => simp
      | some u =>
        simp only [Option.some.injEq, exists_eq_left']
        cases u.len with
        | error e => simp
        | ok n => simp [List.all_eq_true]
  · have hv' : ∀ g, v ≠ .dict g := fun g h => hv ⟨g, h⟩
    obtain ⟨e, he, hu⟩ := getK_error hv' "entity_type_code"
    refine JR.iff (jr_fail (e := e) ?_ hu) ?_
    · unfold writeGroup2467
      rw [he]
      rfl
    · refine ⟨False.elim, fun h => ?_⟩
      cases v with
      | dict g => exact hv' g rfl
      | _ => cases h

theorem accept2467 (hk : known2467 d) : JR write2467 d (canWrite2467 d = true) := by
  have hget : d.get? "groups" = (optFields d optGroup).get? "groups" := by
    rw [get?_optFields, show Dict.get? optGroup "groups" = Option.none from rfl, Option.or_none]
  unfold known2467 at hk
  unfold canWrite2467
  rw [hget] at hk ⊢
  unfold write2467
  refine jr_guardedAny (jr_opt (jr_emit_then ?_))
  generalize optFields d optGroup = d1 at hk ⊢
  refine JR.iff (jr_key (R := fun v => ∃ l, v.items = .ok l ∧ (∀ g ∈ l, groupOk g = true) ∧ True) fun v hv => jr_lift (py_items (hk v hv).1) fun l hl =>
    jr_then ?_ (jr_forL keeps_group fun g hg => jr_group ((hk v hv).2 l hl g hg)) jr_emit) ?_
  · exact (W.Keeps.run (W.keeps_forL W.pre_eq _ keeps_group) d1).symm
  · cases d1.get? "groups" with
    | none => simp
    | some u =>
      simp only [Option.some.injEq, exists_eq_left']
      cases u.items with
      | error e => simp
      | ok l => simp [List.all_eq_true]

theorem keeps_elem (e : Val) : W.Keeps (· = ·) (writeElem e) := by
  have pre := W.pre_eq
  unfold writeElem
  wkeep pre

theorem eleven {v : Val} (h : scalarKnown v = true) : v.numEq 11 = isEleven v := by
  cases v with
  | int n => exact (Bool.beq_eq_decide_eq n 11).symm
  | float x => exact (Bool.beq_eq_decide_eq x (F64.ofInt 11)).symm
  | bool b => cases b <;> rfl
  | cplx x y => cases h
  | _ => rfl

theorem jr_elem {v : Val} (hk : knownElem v) : JR (writeElem v) d (elemOk v = true) := by
  have pre := W.pre_eq
  by_cases hv : ∃ g, v = .dict g
  · obtain ⟨g, rfl⟩ := hv
    have h1 := hk g rfl
    have hE : KnownE g ((fieldsElem ++ fieldsRod ++ [("nodes_nums", EntryKind.ints, false)]).map fun f => (f.1, f.2.1)) := by
      intro p hp v hv
      obtain ⟨f, hf, rfl⟩ := List.mem_map.1 hp
      exact h1 f hf v hv
    unfold writeElem
    have rod : JR (W.row [⟨fun _ => (Val.dict g).getK "beam_orientation", fmtI 10⟩, ⟨fun _ => (Val.dict g).getK "beam_foreend_cross", fmtI 10⟩,
        ⟨fun _ => (Val.dict g).getK "beam_aftend_cross", fmtI 10⟩]) d (fieldsRod.all (entryOk g) = true) := by
      refine JR.iff (jr_row (fj_gk hE (fits_i 10) (of_decide_eq_true rfl) (fj_gk hE (fits_i 10) (of_decide_eq_true rfl)
        (fj_gk hE (fits_i 10) (of_decide_eq_true rfl) fj_nil)))) ?_
      unfold fieldsRod
      simp only [List.all_cons, List.all_nil, Bool.and_eq_true, and_true]
    have nodes : ∀ l : List Val, (∀ x ∈ l, scalarKnown x = true) → JR (W.forL l (fun n => W.lift (fmtI 10 n) >>= fun t => W.emit t) >>= fun _ => W.emit ['\n']) d
        (∀ x ∈ l, intOk x = true) := by
      intro l hl
      refine JR.iff (jr_then ?_ (jr_forL (R := fun x => intOk x = true) (fun x => by wkeep pre) fun x hx => ?_) jr_emit) (and_true _).to_iff
      · exact (W.Keeps.run (W.keeps_forL pre _ fun a => by wkeep pre) d).symm
      · refine JR.iff (jr_lift (R := fun _ => True) (py_map (toInt_py x (hl x hx))) fun _ _ => jr_emit) ?_
        have := (fits_i 10).ok x
        rw [show EntryKind.accepts .int x = intOk x from rfl] at this
        rw [← this, isOk_iff]
        exact ⟨fun ⟨a, h, _⟩ => ⟨a, h⟩, fun ⟨a, h⟩ => ⟨a, h, trivial⟩⟩
    refine JR.iff (P := (fieldsElem.all (entryOk g) = true) ∧ ∃ fe, Dict.get g (.s "fe_descriptor") = .ok fe ∧ ((isEleven fe = true → fieldsRod.all (entryOk g) = true) ∧
      ∃ ns, Dict.get g (.s "nodes_nums") = .ok ns ∧ ∃ l, ns.items = .ok l ∧ ∀ x ∈ l, intOk x = true)) ?_ ?_
    · refine JR.iff (jr_row_then (P := entryOk g ("element_nums", .int, false) = true ∧ entryOk g ("fe_descriptor", .int, false) = true ∧
        entryOk g ("phys_table", .int, false) = true ∧ entryOk g ("mat_table", .int, false) = true ∧ entryOk g ("color", .int, false) = true ∧
        entryOk g ("num_nodes", .int, false) = true ∧ True) ?_ (jr_lift (r := Dict.get g (.s "fe_descriptor")) (R := fun fe => (isEleven fe = true → fieldsRod.all (entryOk g) = true) ∧
      ∃ ns, Dict.get g (.s "nodes_nums") = .ok ns ∧ ∃ l, ns.items = .ok l ∧ ∀ x ∈ l, intOk x = true) (py_get _ _) fun fe hfe =>
        jr_then ?_ ?_ (jr_lift (r := Dict.get g (.s "nodes_nums")) (py_get _ _) fun ns hns => jr_lift ?_ fun l hl => nodes l ?_))) ?_
      · iterate 6 refine fj_gk hE (fits_i 10) (of_decide_eq_true rfl) ?_
        exact fj_nil
      · exact (W.Keeps.run (W.keeps_when pre _ (W.keeps_row pre _)) d).symm
      · rw [eleven (hE ("fe_descriptor", .int) (of_decide_eq_true rfl) fe (getRes_ok.1 hfe))]
        unfold W.when
        by_cases h11 : isEleven fe = true
        · rw [if_pos h11]
          exact rod.iff ⟨fun a _ => a, fun a => a h11⟩
        · rw [if_neg h11]
          exact ⟨⟨fun _ h' => absurd h' h11, fun _ => rfl⟩, py_ok⟩
      · refine py_items fun l hl => ?_
        have := hE ("nodes_nums", .ints) (of_decide_eq_true rfl) ns (getRes_ok.1 hns)
        rw [hl] at this
        cases this
      · have := hE ("nodes_nums", .ints) (of_decide_eq_true rfl) ns (getRes_ok.1 hns)
        cases ns with
        | dict l => cases this
        | none => cases hl
        | bool b => cases hl
        | int n => cases hl
        | float x => cases hl
        | cplx x y => cases hl
        | str s => cases hl; exact List.all_eq_true.1 this
        | arrI l => cases hl; exact List.all_eq_true.1 this
        | arrF l => cases hl; exact List.all_eq_true.1 this
        | arrC l => cases hl; exact List.all_eq_true.1 this
        | mat l => cases hl; exact List.all_eq_true.1 this
        | list l => cases hl; exact List.all_eq_true.1 this
      · unfold fieldsElem
        simp only [List.all_cons, List.all_nil, Bool.and_eq_true, and_true]
    · unfold elemOk isRodElem
      simp only [getRes_ok, Bool.and_eq_true, and_assoc, entryOk_iff, Bool.or_eq_true, Bool.not_eq_true']
      refine and_congr_right fun hf => ?_
      rw [show Dict.get? g "fe_descriptor" = Dict.get? g (.s "fe_descriptor") from rfl]
      have hfe : entryOk g ("fe_descriptor", .int, false) = true := List.all_eq_true.1 hf _ (by simp [fieldsElem])
      obtain ⟨fe, h2, -⟩ := entryOk_iff.1 hfe
      rw [h2]
      simp only [Option.some.injEq, exists_eq_left']
      refine and_congr ?_ (exists_congr fun ns => and_congr_right fun _ => ?_)
      · cases isEleven fe <;> simp
      · have hacc : EntryKind.accepts .ints ns = match ns.items with
          | .ok l => l.all intOk
          | .error _ => false := by cases ns <;> rfl
        rw [hacc]
        cases ns.items with
        | error e => simp
        | ok l => simp [List.all_eq_true]
  · have hv' : ∀ g, v ≠ .dict g := fun g h => hv ⟨g, h⟩
    obtain ⟨e, he, hu⟩ := getK_error hv' "element_nums"
    refine JR.iff (jr_fail (e := e) ?_ hu) ?_
    · show (W.bind _ _ d).res = _
      have : (W.row [⟨fun _ => v.getK "element_nums", fmtI 10⟩, ⟨fun _ => v.getK "fe_descriptor", fmtI 10⟩,
        ⟨fun _ => v.getK "phys_table", fmtI 10⟩, ⟨fun _ => v.getK "mat_table", fmtI 10⟩,
        ⟨fun _ => v.getK "color", fmtI 10⟩, ⟨fun _ => v.getK "num_nodes", fmtI 10⟩] d).res = .error e := by
        show (W.bind _ _ d).res = _
        rw [W.bind_res]
        have hf : ∀ fs, (W.format (⟨fun _ => v.getK "element_nums", fmtI 10⟩ :: fs) d).res = .error e := fun fs => by
          simp only [W.format, evalFlds, he]
        rw [hf]
      rw [W.bind_res, this]
    · refine ⟨False.elim, fun h => ?_⟩
      cases v with
      | dict g => exact hv' g rfl
      | _ => cases h

theorem accept2412 (hk : known2412 d) : JR write2412 d (canWrite2412 d = true) := by
  have pre := W.pre_eq
  have kg : ∀ kv, W.Keeps (· = ·) (writeGroup kv) := by
    rintro ⟨k, v⟩
    cases k with
    | s k => exact W.keeps_pure pre _
    | i n => exact W.keeps_bind pre (W.keeps_lift pre _) fun _ => W.keeps_forL pre _ keeps_elem
  unfold write2412
  refine jr_guardedAny (jr_emit_then ?_)
  refine JR.iff (jr_seq (m := W.getDict) (R := fun d' => (∀ kv ∈ d', (match kv.1 with
    | .s _ => true
    | .i _ => match kv.2.items with
      | .ok l => l.all elemOk
      | .error _ => false) = true) ∧ True) rfl py_ok fun d' hd' => ?_) ?_
  · have : d' = d := (Except.ok.inj hd').symm
    subst this
    refine jr_then ?_ (jr_forL kg fun kv hkv => ?_) jr_emit
    · exact (W.Keeps.run (W.keeps_forL pre _ kg) d').symm
    · obtain ⟨k, v⟩ := kv
      cases k with
      | s k => exact ⟨⟨fun _ => rfl, fun _ => rfl⟩, py_ok⟩
      | i n =>
        obtain ⟨h1, h2⟩ := hk _ hkv n rfl
        refine JR.iff (m := writeGroup (.i n, v)) (jr_lift (r := v.items) (R := fun l => ∀ e ∈ l, elemOk e = true) (py_items h1) fun l hl =>
          jr_forL keeps_elem fun e he => jr_elem (h2 l hl e he)) ?_
        simp only
        cases v.items with
        | error e => simp
        | ok l => simp [List.all_eq_true]
  · unfold canWrite2412
    rw [List.all_eq_true]
    constructor
    · rintro ⟨d', hd', h, -⟩
      have : d' = d := (Except.ok.inj hd').symm
      subst this
      exact h
    · exact fun h => ⟨d, rfl, h, trivial⟩

/-! Coordinate systems. -/

theorem matRow_ok {i j : Nat} {row : List F64} : matRow d i j = .ok row ↔ ∃ rows, Fld.at_ "CS_matrices" i d = .ok (.mat rows) ∧ rows[j]? = some row := by
  unfold matRow
  cases hx : Fld.at_ "CS_matrices" i d with
  | error e => simp
  | ok x =>
    cases x with
    | mat rows =>
      simp only [Except.ok.injEq, Val.mat.injEq, exists_eq_left']
      cases rows[j]? <;> simp [orIndex]
    | _ => simp

theorem py_matRow (i j : Nat) : Py (matRow d i j) := by
  unfold matRow
  have := py_at d "CS_matrices" i
  cases hx : Fld.at_ "CS_matrices" i d with
  | error e => rw [hx] at this; intro h'; cases h'; exact this rfl
  | ok x =>
    cases x with
    | mat rows => exact py_index _
    | _ => intro h'; cases h'

theorem keeps_mat (i j : Nat) : W.Keeps (· = ·) (matLine i j) := by
  have pre := W.pre_eq
  unfold matLine
  wkeep pre

theorem jr_mat (i j : Nat) : JR (matLine i j) d (∃ row, matRow d i j = .ok row ∧ row.length = 3) := by
  unfold matLine
  refine JR.iff (jr_seq (m := W.getDict) (R := fun d' => ∃ row, matRow d' i j = .ok row ∧ ∃ t, (if row.length = 3 then (.ok ((row.map fun x => padLeft 25 (fmtE 16 x)).flatten ++ ['\n']) : Res Text)
    else .error .type) = .ok t ∧ True) rfl py_ok fun d' hd' => ?_) ?_
  · refine jr_lift (py_matRow i j) fun row _ => jr_lift ?_ fun t _ => ?_
    · by_cases h : row.length = 3
      · rw [if_pos h]; exact py_ok
      · rw [if_neg h]; exact py_err (by decide)
    · exact jr_emit
  · constructor
    · rintro ⟨d', hd', row, h1, t, h2, -⟩
      have : d' = d := (Except.ok.inj hd').symm
      subst this
      refine ⟨row, h1, ?_⟩
      by_contra h
      rw [if_neg h] at h2
      cases h2
    · rintro ⟨row, h1, h2⟩
      exact ⟨d, rfl, row, h1, _, if_pos h2, trivial⟩

theorem matrix_iff (i : Nat) : ((∃ row, matRow d i 0 = .ok row ∧ row.length = 3) ∧ (∃ row, matRow d i 1 = .ok row ∧ row.length = 3) ∧
    (∃ row, matRow d i 2 = .ok row ∧ row.length = 3) ∧ ∃ row, matRow d i 3 = .ok row ∧ row.length = 3) ↔ matrixAt d i = true := by
  have key : matrixAt d i = true ↔ ∃ rows, Fld.at_ "CS_matrices" i d = .ok (.mat rows) ∧ matrixOk (.mat rows) = true := by
    unfold matrixAt Fld.at_ Dict.get
    rw [show Dict.get? d "CS_matrices" = Dict.get? d (.s "CS_matrices") from rfl]
    cases Dict.get? d (.s "CS_matrices") with
    | none => simp
    | some v =>
      simp only
      cases v.idx i with
      | error e => simp
      | ok x => cases x <;> simp [matrixOk]
  rw [key]
  simp only [matRow_ok]
  constructor
  · rintro ⟨⟨r0, ⟨m, h, g0⟩, l0⟩, ⟨r1, ⟨m1, h1, g1⟩, l1⟩, ⟨r2, ⟨m2, h2, g2⟩, l2⟩, ⟨r3, ⟨m3, h3, g3⟩, l3⟩⟩
    rw [h] at h1 h2 h3
    cases h1; cases h2; cases h3
    refine ⟨m, h, ?_⟩
    match m, g0, g1, g2, g3 with
    | a :: b :: c :: e :: r, g0, g1, g2, g3 =>
      cases g0; cases g1; cases g2; cases g3
      simp [matrixOk, l0, l1, l2, l3]
    | [_, _, _], _, _, _, g3 => cases g3
    | [_, _], _, _, _, g3 => cases g3
    | [_], _, _, _, g3 => cases g3
    | [], _, _, _, g3 => cases g3
  · rintro ⟨m, h, hm⟩
    match m, hm with
    | a :: b :: c :: e :: r, hm =>
      simp only [matrixOk, Bool.and_eq_true, beq_iff_eq] at hm
      exact ⟨⟨a, ⟨_, h, rfl⟩, hm.1.1.1⟩, ⟨b, ⟨_, h, rfl⟩, hm.1.1.2⟩, ⟨c, ⟨_, h, rfl⟩, hm.1.2⟩, ⟨e, ⟨_, h, rfl⟩, hm.2⟩⟩
    | [_, _, _], hm => cases hm
    | [_, _], hm => cases hm
    | [_], hm => cases hm
    | [], hm => cases hm

theorem mapRes_same {α} {f : α → Res Nat} {n : Nat} (l : List α) : (∃ ls, mapRes f l = .ok ls ∧ ls.all (· = n) = true) ↔ ∀ a ∈ l, f a = .ok n := by
  induction l with
  | nil => exact ⟨fun _ _ h => (by cases h), fun _ => ⟨[], rfl, rfl⟩⟩
  | cons a r ih =>
    rw [List.forall_mem_cons, ← ih]
    conv_lhs => unfold mapRes
    cases f a with
    | error e => simp
    | ok m =>
      cases mapRes f r with
      | error e => simp
      | ok ls => simp

theorem py_lenKey (k : Key) : Py (lenKey d k) := by
  unfold lenKey
  have := py_get d k
  cases h : d.get k with
  | error e => rw [h] at this; intro h'; cases h'; exact this rfl
  | ok v => exact py_len v

theorem lenKey_ok {k : Key} {n : Nat} : lenKey d k = .ok n ↔ ∃ v, d.get? k = some v ∧ v.len = .ok n := by
  unfold lenKey Dict.get
  cases d.get? k <;> simp

theorem length_opt {n : Nat} : ∀ f ∈ same2420, lengthOk d n f = true ↔ lenKey (optFields d opt2420) (.s f.1) = .ok n := by
  intro f hf
  rw [lenKey_ok, get?_optFields]
  unfold lengthOk
  cases hd : d.get? (.s f.1) with
  | some v =>
    simp only [Option.some_or, Option.some.injEq, exists_eq_left']
    cases v.len <;> simp
  | none =>
    simp only [Option.none_or]
    simp only [same2420, List.mem_cons, List.not_mem_nil, or_false] at hf
    have one : ∀ (n : Nat) {v : Val}, (true && n == 1) = true ↔ ∃ w, some (Val.list [v]) = some w ∧ w.len = .ok n := by
      intro n v
      rw [Bool.true_and, beq_iff_eq]
      constructor
      · rintro rfl
        exact ⟨_, rfl, rfl⟩
      · rintro ⟨w, h1, h2⟩
        cases h1
        exact (Except.ok.inj h2).symm
    rcases hf with rfl | rfl | rfl | rfl
    · rw [show Dict.get? opt2420 (.s "CS_types") = some (.list [.int 0]) from rfl]
      exact one n
    · rw [show Dict.get? opt2420 (.s "CS_colors") = some (.list [.int 8]) from rfl]
      exact one n
    · rw [show Dict.get? opt2420 (.s "CS_names") = Option.none from rfl]
      simp
    · rw [show Dict.get? opt2420 (.s "CS_matrices") = Option.none from rfl]
      simp

theorem items_2420 {n i : Nat} (hs : ∀ f ∈ same2420, lengthOk d n f = true) (hi : i < n) :
    ∀ f ∈ cols2420, itemOk d i f = itemOk (optFields d opt2420) i (f.1, f.2.1, false) := by
  intro f hf
  have one : ∀ k, (k, true) ∈ same2420 → d.get? (.s k) = Option.none → i = 0 := by
    intro k hk hd
    have := hs _ hk
    unfold lengthOk at this
    rw [hd] at this
    have : n = 1 := by simpa using this
    omega
  unfold itemOk
  simp only [get?_optFields]
  cases hd : d.get? (.s f.1) with
  | some v => rfl
  | none =>
    simp only [cols2420, List.mem_cons, List.not_mem_nil, or_false] at hf
    rcases hf with rfl | rfl | rfl | rfl
    · rfl
    · rw [one "CS_types" (by simp [same2420]) hd]; rfl
    · rw [one "CS_colors" (by simp [same2420]) hd]; rfl
    · rfl

theorem matrix_opt (i : Nat) : matrixAt d i = matrixAt (optFields d opt2420) i := by
  unfold matrixAt
  rw [get?_optFields, show Dict.get? opt2420 "CS_matrices" = Option.none from rfl, Option.or_none]

theorem accept2420 (hk : known2420 d) : JR write2420 d (canWrite2420 d = true) := by
  have pre := W.pre_eq
  have ho : fields2420.all (optCond opt2420) = true := by decide
  have hF := known_opt ho hk.1
  have hI : KnownI (optFields d opt2420) (cols2420.map fun f => (f.1, f.2.1)) := by
    refine knownI_opt ?_ hk.2
    have one : ∀ {w v x : Val} {i : Nat}, w.items = .ok [v] → (∀ l, w ≠ .dict l) → w.idx i = .ok x → x = v := by
      intro w v x i h1 hd h2
      rcases items_len hd with ⟨l', g1, -, g3⟩ | ⟨g1, -⟩
      · rw [h1] at g1
        cases g1
        rw [g3] at h2
        match i, h2 with
        | 0, h2 => cases h2; rfl
        | i + 1, h2 => cases h2
      · rw [h1] at g1; cases g1
    simp only [cols2420, List.forall_mem_cons, List.not_mem_nil, false_implies, implies_true, and_true]
    refine ⟨?_, ?_, ?_, ?_⟩
    · intro v i x h1 h2; cases h1
    · intro v i x h1 h2
      cases h1
      rw [one (v := .int 0) rfl (fun l h => by cases h) h2]
      rfl
    · intro v i x h1 h2
      cases h1
      rw [one (v := .int 8) rfl (fun l h => by cases h) h2]
      rfl
    · intro v i x h1 h2; cases h1
  have hget : d.get? "CS_sys_labels" = (optFields d opt2420).get? "CS_sys_labels" := by
    rw [get?_optFields, show Dict.get? opt2420 "CS_sys_labels" = Option.none from rfl, Option.or_none]
  have hcw : canWrite2420 d = true ↔ ((fields2420.all fun f => entryOk (optFields d opt2420) (f.1, f.2.1, false)) = true ∧
      ∃ n, lenKey (optFields d opt2420) "CS_sys_labels" = .ok n ∧ (∀ k ∈ [("CS_types" : Key), "CS_colors", "CS_names", "CS_matrices"], lenKey (optFields d opt2420) k = .ok n) ∧
        ∀ i ∈ List.range n, (∀ f ∈ cols2420, itemOk (optFields d opt2420) i (f.1, f.2.1, false) = true) ∧ matrixAt (optFields d opt2420) i = true) := by
    unfold canWrite2420
    rw [entries_opt ho, Bool.and_eq_true]
    refine and_congr_right fun _ => ?_
    simp only [lenKey_ok]
    rw [← hget]
    cases d.get? "CS_sys_labels" with
    | none => simp
    | some v =>
      simp only [Option.some.injEq, exists_eq_left']
      cases v.len with
      | error e => simp
      | ok n =>
        simp only [Except.ok.injEq, exists_eq_left', Bool.and_eq_true, List.all_eq_true]
        have hlen : (∀ f ∈ same2420, lengthOk d n f = true) ↔ ∀ k ∈ [("CS_types" : Key), "CS_colors", "CS_names", "CS_matrices"], ∃ v, (optFields d opt2420).get? k = some v ∧ v.len = .ok n := by
          rw [forall₂_congr fun f hf => length_opt f hf]
          simp only [lenKey_ok, same2420, List.forall_mem_cons, List.not_mem_nil, false_implies, implies_true, and_true]
        rw [← hlen]
        refine and_congr_right fun hs => forall₂_congr fun i hi => ?_
        rw [← matrix_opt]
        refine and_congr_left fun _ => forall₂_congr fun f hf => ?_
        rw [items_2420 hs (List.mem_range.1 hi) f hf]
  rw [hcw]
  unfold write2420
  refine jr_guardedAny (jr_opt (jr_emit_then ?_))
  generalize optFields d opt2420 = d1 at hF hI ⊢
  refine JR.iff (jr_row_then (P := entryOk d1 ("Part_UID", .int, false) = true ∧ True) ?_ (jr_row_then (P := entryOk d1 ("Part_Name", .text, false) = true ∧ True) ?_
    (jr_seq (m := W.getDict) (R := fun d' => ∃ n, lenKey d' "CS_sys_labels" = .ok n ∧ ∃ ls, mapRes (lenKey d') ["CS_types", "CS_colors", "CS_names", "CS_matrices"] = .ok ls ∧
      ∃ _u : Unit, (if ls.all (· = n) then (.ok () : Res Unit) else .error .index) = .ok _u ∧ (∀ i ∈ List.range n, (∀ f ∈ cols2420, itemOk d1 i (f.1, f.2.1, false) = true) ∧
        matrixAt d1 i = true) ∧ True) rfl py_ok fun d' hd' => ?_))) ?_
  · judge hF
  · judge hF
  · have : d' = d1 := (Except.ok.inj hd').symm
    subst this
    have kb : ∀ i, W.Keeps (· = ·) (W.row [⟨Fld.at_ "CS_sys_labels" i, fmtI 10⟩, ⟨Fld.at_ "CS_types" i, fmtI 10⟩, ⟨Fld.at_ "CS_colors" i, fmtI 10⟩] >>= fun _ =>
        W.row [⟨Fld.at_ "CS_names" i, fmtSL 0⟩] >>= fun _ => matLine i 0 >>= fun _ => matLine i 1 >>= fun _ => matLine i 2 >>= fun _ => matLine i 3) := fun i =>
      W.keeps_bind pre (W.keeps_row pre _) fun _ => W.keeps_bind pre (W.keeps_row pre _) fun _ => W.keeps_bind pre (keeps_mat i 0) fun _ =>
        W.keeps_bind pre (keeps_mat i 1) fun _ => W.keeps_bind pre (keeps_mat i 2) fun _ => keeps_mat i 3
    refine jr_lift (py_lenKey _) fun n _ => jr_lift (mapRes_py _ _ fun k _ => py_lenKey k) fun ls _ => jr_lift ?_ fun _ _ => jr_then ?_ (jr_forL kb fun i _ => ?_) jr_emit
    · split
      · exact py_ok
      · exact py_err (by decide)
    · exact (W.Keeps.run (W.keeps_forL pre _ kb) d').symm
    · refine JR.iff (jr_row_then (fj_at hI (fits_i 10) (k := "CS_sys_labels") (of_decide_eq_true rfl) (fj_at hI (fits_i 10) (k := "CS_types") (of_decide_eq_true rfl)
        (fj_at hI (fits_i 10) (k := "CS_colors") (of_decide_eq_true rfl) fj_nil))) (jr_row_then (fj_at hI (fits_sl 0) (k := "CS_names") (of_decide_eq_true rfl) fj_nil)
        (jr_then ((keeps_mat i 0).run d').symm (jr_mat i 0) (jr_then ((keeps_mat i 1).run d').symm (jr_mat i 1)
        (jr_then ((keeps_mat i 2).run d').symm (jr_mat i 2) (jr_mat i 3)))))) ?_
      rw [← matrix_iff]
      simp only [cols2420, List.forall_mem_cons, List.not_mem_nil, false_implies, implies_true, and_true, and_assoc]
  · have hf : (fields2420.all fun f => entryOk d1 (f.1, f.2.1, false)) = true ↔ entryOk d1 ("Part_UID", .int, false) = true ∧ entryOk d1 ("Part_Name", .text, false) = true := by
      unfold fields2420
      simp only [List.all_cons, List.all_nil, Bool.and_eq_true, and_true]
    rw [hf]
    simp only [and_true, and_assoc]
    refine and_congr_right fun _ => and_congr_right fun _ => ?_
    constructor
    · rintro ⟨d', hd', n, h1, ls, h2, u, h3, h4⟩
      have : d' = d1 := (Except.ok.inj hd').symm
      subst this
      refine ⟨n, h1, (mapRes_same _).1 ⟨ls, h2, ?_⟩, h4⟩
      by_contra h
      rw [if_neg h] at h3
      cases h3
    · rintro ⟨n, h1, h2, h4⟩
      obtain ⟨ls, h5, h6⟩ := (mapRes_same _).2 h2
      exact ⟨d1, rfl, n, h1, ls, h5, (), if_pos h6, h4⟩

end Verif
