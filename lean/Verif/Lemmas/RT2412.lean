import Verif.Lemmas.RT82
import Verif.Lemmas.RT2420
import Verif.Model.DS2412
import Verif.Spec.S2412
/-
Round trip of data-set 2412.
-/
namespace Verif

/-- Lines of any number of fields; only the last one matters. -/
theorem tagFree_fields' (fs : List (Nat × Text)) (h : ∀ f ∈ fs, TokOk f.1 f.2 ∧ f.1 ≤ 74)
    (hl : ∀ f, fs.getLast? = some f → f.2 ≠ ['-', '1']) : TagFree (fieldLine fs) := by
  intro s hs
  constructor
  · rintro rfl
    rcases List.eq_nil_or_concat fs with rfl | ⟨fs', f, rfl⟩
    · simp [fieldLine_nil, tagText] at hs
    · rw [List.concat_eq_append] at hs h hl
      have hf := h f (by simp)
      have e : fieldLine (fs' ++ [f]) = fieldLine fs' ++ padLeft f.1 f.2 := by simp [fieldLine]
      rw [e] at hs
      exact not_tag_field _ _ _ hf.1.noSpace (hl f (by simp)) (Or.inl hf.1.lt) hf.1.ne hs
  · intro hp
    refine no_long_blanks fs h (s.drop 6) ((List.drop_suffix 6 s).trans hs) ?_
    obtain ⟨q, rfl⟩ := hp
    rw [List.append_assoc, List.drop_append]
    simp [tagText]

theorem tagFree_ints (w : Nat) (hw : 2 ≤ w) (hw' : w ≤ 74) (l : List Int) (h : ∀ n ∈ l, Fits (w - 1) n) (hl : l.getLast? ≠ some (-1)) :
    TagFree (fieldLine (l.map fun n => (w, intRepr n))) := by
  apply tagFree_fields'
  · intro f hf
    obtain ⟨n, hn, rfl⟩ := List.mem_map.1 hf
    exact ⟨tok_int w _ (h n hn) hw, hw'⟩
  · intro f hf e
    rw [List.getLast?_map, Option.map_eq_some_iff] at hf
    obtain ⟨n, hn, rfl⟩ := hf
    exact hl (by rw [hn, intRepr_eq_minus_one n e])

theorem tok_ints (w : Nat) (hw : 2 ≤ w) (l : List Int) (h : ∀ n ∈ l, Fits (w - 1) n) :
    ∀ f ∈ l.map fun n => (w, intRepr n), TokOk f.1 f.2 := by
  intro f hf
  obtain ⟨n, hn, rfl⟩ := List.mem_map.1 hf
  exact tok_int w _ (h n hn) hw

theorem split_ints (w : Nat) (hw : 2 ≤ w) (l : List Int) (h : ∀ n ∈ l, Fits (w - 1) n) :
    splitWs (fieldLine (l.map fun n => (w, intRepr n))) = l.map intRepr := by
  rw [splitWs_fieldLine' _ (tok_ints w hw l h), List.map_map]; rfl

theorem safe_ints (w : Nat) (hw : 2 ≤ w) (hw' : w ≤ 74) (l : List Int) (h : ∀ n ∈ l, Fits (w - 1) n) (hl : l.getLast? ≠ some (-1)) :
    Safe [fieldLine (l.map fun n => (w, intRepr n))] :=
  Safe.cons (noBreak_fieldLine _ fun f hf => NoBreak.of_noSpace (tok_ints w hw l h f hf).noSpace)
    (tagFree_ints w hw hw' l h hl) Safe.nil

theorem HasInt.getK {d : Dict} {k : String} {n : Int} (h : HasInt d k n) (d' : Dict) (w : Nat) :
    FldOk d' ⟨fun _ => Val.getK (.dict d) k, fmtI w⟩ (padLeft w (intRepr n)) := by
  obtain ⟨v, g, i⟩ := h
  exact ⟨v, by simp [Val.getK, Dict.get, g], fmtI_eq i w⟩

/-- `for n in l: fh.write('%10i' % n)`. -/
theorem forL_ints {v : Val} {l : List Int} {xs : List Val} (hi : v.items = .ok xs) (h : IsSeq IsInt v l) (w : Nat) (d : Dict) :
    W.forL xs (fun n => W.bind (W.lift (fmtI w n)) fun t => W.emit t) d
      = ⟨fieldLine (l.map fun n => (w, intRepr n)), d, .ok ()⟩ := by
  obtain ⟨xs', hi', hlen, hx⟩ := h
  rw [hi] at hi'
  cases hi'
  have := W.forL_get xs l (fun n => W.bind (W.lift (fmtI w n)) fun t => W.emit t) (fun n => padLeft w (intRepr n)) d hlen
    (fun i h1 h2 => by rw [fmtI_eq (hx i h1 h2) w, W.bind_lift_ok, W.emit_eq])
  rw [this, List.flatMap_def]
  simp [fieldLine, List.map_map, Function.comp_def]

namespace DS2412

/-- The numbers in the first record. -/
def n1 (e : Elem) : List Int := [e.num, e.fe, e.phys, e.mat, e.color, e.numNodes]
/-- The numbers in the beam record. -/
def n2 (e : Elem) : List Int := [e.beam.1, e.beam.2.1, e.beam.2.2]
/-- A line of numbers. -/
def ln (l : List Int) : Text := fieldLine (l.map fun n => (10, intRepr n))
/-- The lines of an element. -/
def row (e : Elem) : List Text := if e.fe = 11 then [ln (n1 e), ln (n2 e), ln e.nodes] else [ln (n1 e), ln e.nodes]
/-- The lines between the delimiters. -/
def lines (r : DS2412) : List Text := idLine 2412 :: r.elems.flatMap row

theorem numEq_fe (n : Int) : (Val.int n).numEq 11 = decide (n = 11) := rfl

theorem writeElem_eq {v : Val} {e : Elem} (h : IsElem v e) (d : Dict) :
    writeElem v d = ⟨joinLines (row e), d, .ok ()⟩ := by
  obtain ⟨ed, rfl, h1, h2, h3, h4, h5, h6, ⟨v7, g7, s7⟩, h8⟩ := h.ex
  have h2' : HasInt ed "fe_descriptor" e.fe := ⟨_, h2, rfl⟩
  have k2 : Val.getK (.dict ed) "fe_descriptor" = .ok (.int e.fe) := by simp [Val.getK, Dict.get, h2]
  have k7 : Val.getK (.dict ed) "nodes_nums" = .ok v7 := by simp [Val.getK, Dict.get, g7]
  obtain ⟨xs, hi, -, -⟩ := id s7
  unfold writeElem
  simp only [W.bind_eq]
  rw [W.bind_row (.cons (h1.getK _ 10) (.cons (h2'.getK _ 10) (.cons (h3.getK _ 10) (.cons (h4.getK _ 10)
    (.cons (h5.getK _ 10) (.cons (h6.getK _ 10) .nil)))))), k2, W.bind_lift_ok]
  have hw : W.when ((Val.int e.fe).numEq 11 = true) (W.row [⟨fun _ => Val.getK (.dict ed) "beam_orientation", fmtI 10⟩,
      ⟨fun _ => Val.getK (.dict ed) "beam_foreend_cross", fmtI 10⟩, ⟨fun _ => Val.getK (.dict ed) "beam_aftend_cross", fmtI 10⟩]) d
      = ⟨if e.fe = 11 then ln (n2 e) ++ ['\n'] else [], d, .ok ()⟩ := by
    unfold W.when
    by_cases hf : e.fe = 11
    · obtain ⟨b1, b2, b3⟩ := h8 hf
      rw [if_pos (by rw [numEq_fe, hf]; rfl), if_pos hf, W.row_eq (.cons (b1.getK _ 10) (.cons (b2.getK _ 10)
        (.cons (b3.getK _ 10) .nil)))]
      rfl
    · rw [if_neg (by rw [numEq_fe]; simpa using hf), if_neg hf]
      rfl
  rw [W.bind_ok hw, k7, W.bind_lift_ok, hi, W.bind_lift_ok, W.bind_forL_eq (forL_ints hi s7 10 d), W.emit_eq]
  unfold row
  split <;> simp [joinLines, ln, n1, n2, fieldLine]

theorem writeGroup_eq (d : Dict) (ds : Dict) (gs : List (List Elem)) (h : Each (IsSeq IsElem) (intEntries ds) gs) :
    W.forL ds writeGroup d = ⟨gs.flatten.flatMap fun e => joinLines (row e), d, .ok ()⟩ := by
  induction ds generalizing gs with
  | nil => cases h; rfl
  | cons kv ds ih =>
    obtain ⟨k, v⟩ := kv
    unfold W.forL
    cases k with
    | s k =>
      rw [W.bind_ok (rfl : writeGroup (.s k, v) d = ⟨[], d, .ok ()⟩), ih gs h]; rfl
    | i k =>
      cases h with
      | cons h1 h2 =>
        rename_i g gs
        obtain ⟨xs, hi, hl, hx⟩ := h1
        have e : writeGroup (.i k, v) d = ⟨g.flatMap fun e => joinLines (row e), d, .ok ()⟩ := by
          unfold writeGroup
          simp only [W.bind_eq]
          rw [hi, W.bind_lift_ok]
          exact W.forL_get xs g _ _ d hl fun i h1 h2 => writeElem_eq (hx i h1 h2) d
        rw [W.bind_ok e, ih gs h2]
        simp [List.flatMap_append]

theorem write_eq (d : Dict) (r : DS2412) (h : Rep d r) : write2412 d = ⟨frameText r.lines, d, .ok ()⟩ := by
  unfold write2412
  apply W.guardedAny_ok
  simp only [W.bind_eq, W.bind_emit, W.bind_getDict]
  rw [W.bind_forL_eq (writeGroup_eq d d r.groups h.groups)]
  simp only [W.emit_eq]
  simp [frameText, lines, elems, headText_eq, tailText, tagText, joinLines_append, joinLines_flatMap]
  rfl

theorem fits1 (e : Elem) (o : ElemFit e) : ∀ n ∈ n1 e, Fits (10 - 1) n := by
  unfold n1; all_mem; exact ⟨o.num, o.fe, o.phys, o.mat, o.color, o.numNodes⟩
theorem fits2 (e : Elem) (o : ElemFit e) (h : e.fe = 11) : ∀ n ∈ n2 e, Fits (10 - 1) n := by
  obtain ⟨a, b, c, -⟩ := o.beam h
  unfold n2; all_mem; exact ⟨a, b, c⟩

theorem safe (r : DS2412) (ok : ∀ e ∈ r.elems, ElemFit e) : Safe r.lines := by
  refine safe_idLine 2412 (by decide) (by decide) (by decide) (by decide) (Safe.flatMap fun e he => ?_)
  have o := ok e he
  have a := safe_ints 10 (by decide) (by decide) _ (fits1 e o) (by simp [n1]; exact o.numNodes1)
  have c := safe_ints 10 (by decide) (by decide) e.nodes o.nodes o.last
  unfold row
  split
  · rename_i hf
    have b := safe_ints 10 (by decide) (by decide) _ (fits2 e o hf) (by simp [n2]; exact (o.beam hf).2.2.2)
    exact a.append (b.append c)
  · exact a.append c

/-- What the reader gets for one element. -/
def pair (e : Elem) : Int × Dict := (e.fe, e.dict)

theorem tokInt_eq (l : List Int) (k : Nat) (n : Int) (h : l[k]? = some n) : tokInt (l.map intRepr) k = .ok n := by
  unfold tokInt
  rw [List.getElem?_map, h]
  exact pyInt_int n

theorem elemHead_eq (e : Elem) : elemHead ((n1 e).map intRepr) = .ok (e.fe, [("element_nums", .int e.num),
    ("fe_descriptor", .int e.fe), ("phys_table", .int e.phys),
    ("mat_table", .int e.mat), ("color", .int e.color), ("num_nodes", .int e.numNodes)]) := by
  unfold elemHead
  rw [tokInt_eq _ 0 e.num rfl, tokInt_eq _ 1 e.fe rfl, tokInt_eq _ 2 e.phys rfl, tokInt_eq _ 3 e.mat rfl,
    tokInt_eq _ 4 e.color rfl, tokInt_eq _ 5 e.numNodes rfl]
  simp only [ok_bind]

theorem elemBeam_eq (e : Elem) : elemBeam ((n2 e).map intRepr) = .ok [("beam_orientation", .int e.beam.1),
    ("beam_foreend_cross", .int e.beam.2.1), ("beam_aftend_cross", .int e.beam.2.2)] := by
  unfold elemBeam
  rw [tokInt_eq _ 0 e.beam.1 rfl, tokInt_eq _ 1 e.beam.2.1 rfl, tokInt_eq _ 2 e.beam.2.2 rfl]
  simp only [ok_bind]

theorem elemNodes_eq (l : List Int) : elemNodes (l.map intRepr) = .ok [("nodes_nums", .list (l.map .int))] := by
  unfold elemNodes
  rw [mapRes_map l intRepr id fun n _ => pyInt_int n]
  simp [ok_bind]

theorem readElems_eq (es : List Elem) (ok : ∀ e ∈ es, ElemOk e) :
    readElems ((es.flatMap row).map splitWs) = .ok (es.map pair) := by
  induction es with
  | nil => rfl
  | cons e es ih =>
    have o := ok e (by simp)
    have ih := ih fun x hx => ok x (by simp [hx])
    rw [List.flatMap_cons, List.map_append]
    have s1 := split_ints 10 (by decide) _ (fits1 e o.toElemFit)
    have s3 := split_ints 10 (by decide) _ o.nodes
    by_cases hf : e.fe = 11
    · have s2 := split_ints 10 (by decide) _ (fits2 e o.toElemFit hf)
      simp only [row, if_pos hf, List.map_cons, List.map_nil, List.cons_append, List.nil_append]
      unfold readElems ln
      rw [s1, s2, s3, elemHead_eq]
      have hr : isRod e.fe = true := by rw [hf]; rfl
      simp only [hr, if_true, elemBeam_eq, elemNodes_eq, ih]
      simp [pair, Elem.dict, hf]
    · simp only [row, if_neg hf, List.map_cons, List.map_nil, List.cons_append, List.nil_append]
      unfold readElems ln
      rw [s1, s3, elemHead_eq]
      have hr : isRod e.fe = false := by
        obtain ⟨a, b, c, d⟩ := o.rod
        simp [isRod, a, b, c, d, hf]
      simp only [hr, Bool.false_eq_true, if_false, elemNodes_eq, ih]
      obtain ⟨a, b, c, d⟩ := o.rod
      simp [pair, Elem.dict, hf, a, b, c, d]

theorem mem_firsts (l : List Int) (a : Int) : a ∈ firsts l ↔ a ∈ l := by
  induction l with
  | nil => rfl
  | cons b r ih =>
    unfold firsts
    by_cases h : a = b
    · simp [h]
    · simp [h, ih]

theorem nodup_firsts (l : List Int) : (firsts l).Nodup := by
  induction l with
  | nil => exact List.nodup_nil
  | cons b r ih =>
    unfold firsts
    rw [List.nodup_cons]
    exact ⟨by simp, ih.filter _⟩

theorem firsts_snoc (l : List Int) (a : Int) : firsts (l ++ [a]) = if a ∈ l then firsts l else firsts l ++ [a] := by
  induction l with
  | nil => rfl
  | cons b r ih =>
    rw [List.cons_append]
    unfold firsts
    rw [ih]
    by_cases hb : a = b
    · subst hb
      by_cases hr : a ∈ r <;> simp [hr]
    · by_cases hr : a ∈ r <;> simp [hr, hb]

/-- A dictionary with integer keys only. -/
def tab (ks : List Int) (f : Int → Val) : Dict := ks.map fun t => (.i t, f t)

theorem get?_tab (ks : List Int) (f : Int → Val) (a : Int) :
    Dict.get? (tab ks f) (.i a) = if a ∈ ks then some (f a) else none := by
  induction ks with
  | nil => rfl
  | cons k ks ih =>
    simp only [tab, List.map_cons] at ih ⊢
    unfold Dict.get?
    by_cases h : k = a
    · subst h; simp
    · have h' : ¬ a = k := fun e => h e.symm
      simp [h, h', ih]

theorem get?_tab_s (ks : List Int) (f : Int → Val) (a : String) : Dict.get? (tab ks f) (.s a) = none := by
  induction ks with
  | nil => rfl
  | cons k ks ih =>
    simp only [tab, List.map_cons] at ih ⊢
    unfold Dict.get?
    simp [ih]

theorem set_tab (ks : List Int) (hn : ks.Nodup) (f : Int → Val) (a : Int) (v : Val) :
    Dict.set (tab ks f) (.i a) v
      = if a ∈ ks then tab ks (fun t => if t = a then v else f t) else tab ks f ++ [(.i a, v)] := by
  induction ks with
  | nil => rfl
  | cons k ks ih =>
    rw [List.nodup_cons] at hn
    have ih := ih hn.2
    simp only [tab, List.map_cons] at ih ⊢
    unfold Dict.set
    by_cases h : k = a
    · subst h
      simp only [if_true, List.mem_cons, true_or, List.cons.injEq, true_and]
      apply List.map_congr_left
      intro t ht
      have : t ≠ k := fun e => hn.1 (e ▸ ht)
      simp [this]
    · have h' : ¬ a = k := fun e => h e.symm
      simp only [Key.i.injEq, h, if_false, ih, List.mem_cons, h', false_or]
      split <;> simp

/-- Elements grouped by descriptor. -/
def groupsOf (l : List (Int × Dict)) : Dict :=
  tab (firsts (l.map (·.1))) fun t => .list ((l.filter (·.1 = t)).map (.dict ·.2))

theorem add_step (l : List (Int × Dict)) (e : Int × Dict) :
    addElem ((Key.s "type", Val.int 2412) :: groupsOf l) e = (Key.s "type", Val.int 2412) :: groupsOf (l ++ [e]) := by
  have hg : Dict.get? ((Key.s "type", Val.int 2412) :: groupsOf l) (.i e.1)
      = if e.1 ∈ l.map (·.1) then some (.list ((l.filter (·.1 = e.1)).map (.dict ·.2))) else none := by
    unfold Dict.get?
    rw [if_neg (by intro h; cases h)]
    unfold groupsOf
    rw [get?_tab]
    simp only [mem_firsts]
  have hs : ∀ v, Dict.set ((Key.s "type", Val.int 2412) :: groupsOf l) (.i e.1) v
      = (Key.s "type", Val.int 2412) :: Dict.set (groupsOf l) (.i e.1) v := by
    intro v
    rw [Dict.set, if_neg (by intro h; cases h)]
  unfold addElem
  by_cases hm : e.1 ∈ l.map (·.1)
  · rw [hg, if_pos hm]
    simp only
    rw [hs]
    congr 1
    unfold groupsOf
    rw [set_tab _ (nodup_firsts _), List.map_append, List.map_cons, List.map_nil, firsts_snoc, if_pos hm,
      if_pos ((mem_firsts _ _).2 hm)]
    apply List.map_congr_left
    intro t ht
    by_cases h : t = e.1
    · subst h
      simp [List.filter_append]
    · have h' : ¬ e.1 = t := fun e => h e.symm
      simp [h, h', List.filter_append]
  · rw [hg, if_neg hm]
    simp only
    rw [hs]
    congr 1
    unfold groupsOf
    rw [set_tab _ (nodup_firsts _), List.map_append, List.map_cons, List.map_nil, firsts_snoc, if_neg hm,
      if_neg (fun h => hm ((mem_firsts _ _).1 h))]
    unfold tab
    rw [List.map_append]
    congr 1
    · apply List.map_congr_left
      intro t ht
      have h' : ¬ e.1 = t := fun e => hm (e ▸ (mem_firsts _ _).1 ht)
      simp [h', List.filter_append]
    · have : l.filter (fun x => decide (x.1 = e.1)) = [] := by
        rw [List.filter_eq_nil_iff]
        intro x hx
        simp only [decide_eq_true_eq]
        exact fun h => hm (h ▸ List.mem_map_of_mem hx)
      simp [List.filter_append, this]

theorem fold_add_from (l l0 : List (Int × Dict)) :
    l.foldl addElem ((Key.s "type", Val.int 2412) :: groupsOf l0) = (Key.s "type", Val.int 2412) :: groupsOf (l0 ++ l) := by
  induction l generalizing l0 with
  | nil => simp
  | cons e l ih =>
    rw [List.foldl_cons, add_step, ih]
    simp

theorem fold_add (l : List (Int × Dict)) :
    l.foldl addElem [("type", .int 2412)] = (Key.s "type", Val.int 2412) :: groupsOf l := by
  exact fold_add_from l []

theorem legacy_eq (l : List Elem) :
    legacy (l.map (.dict ·.dict)) ["element_nums", "fe_descriptor", "phys_table", "mat_table", "color", "num_nodes", "nodes_nums"]
      = .ok [("element_nums", .list (l.map (.int ·.num))),
    ("fe_descriptor", .list (l.map (.int ·.fe))), ("phys_table", .list (l.map (.int ·.phys))),
    ("mat_table", .list (l.map (.int ·.mat))), ("color", .list (l.map (.int ·.color))),
    ("num_nodes", .list (l.map (.int ·.numNodes))),
    ("nodes_nums", .list (l.map fun e => .list (e.nodes.map .int)))] := by
  have key : ∀ (k : String) (f : Elem → Val), (∀ e : Elem, Dict.get? e.dict k = some (f e)) →
      mapRes (fun e : Val => e.getK k) (l.map (.dict ·.dict)) = .ok (l.map f) := by
    intro k f h
    apply mapRes_map
    intro e _
    simp only [Val.getK, Dict.get]
    rw [h e]
  simp only [legacy]
  rw [key "element_nums" (.int ·.num) (fun e => by unfold Elem.dict; split <;> rfl),
    key "fe_descriptor" (.int ·.fe) (fun e => by unfold Elem.dict; split <;> rfl),
    key "phys_table" (.int ·.phys) (fun e => by unfold Elem.dict; split <;> rfl),
    key "mat_table" (.int ·.mat) (fun e => by unfold Elem.dict; split <;> rfl),
    key "color" (.int ·.color) (fun e => by unfold Elem.dict; split <;> rfl),
    key "num_nodes" (.int ·.numNodes) (fun e => by unfold Elem.dict; split <;> rfl),
    key "nodes_nums" (fun e => .list (e.nodes.map .int)) (fun e => by unfold Elem.dict; split <;> rfl)]
  simp only [ok_bind]

theorem addLegacy_eq (r : DS2412) (d : Dict) (fe : Int) (name : String)
    (h : d.get? (.i fe) = if fe ∈ r.elems.map (·.fe) then some (.list ((r.ofType fe).map (.dict ·.dict))) else none)
    (hn : Key.s name ∉ d.map (·.1)) : addLegacy d fe name = .ok (d ++ r.columns fe name) := by
  unfold addLegacy columns
  by_cases hm : fe ∈ r.elems.map (·.fe)
  · rw [h, if_pos hm, if_neg]
    · simp only [Val.items, ok_bind, legacy_eq]
      rw [Dict.set_fresh _ _ _ hn]
    · obtain ⟨e, he, rfl⟩ := List.mem_map.1 hm
      exact List.ne_nil_of_mem (List.mem_filter.2 ⟨he, by simp⟩)
  · rw [h, if_neg hm, if_pos]
    · simp
    · unfold ofType
      rw [List.filter_eq_nil_iff]
      intro e he
      simp only [decide_eq_true_eq]
      exact fun h => hm (h ▸ List.mem_map_of_mem he)

theorem groups_eq (r : DS2412) : groupsOf (r.elems.map pair)
    = tab (firsts (r.elems.map (·.fe))) fun fe => .list ((r.ofType fe).map (.dict ·.dict)) := by
  unfold groupsOf ofType pair
  rw [List.map_map]
  simp [tab, Function.comp_def, List.filter_map]

theorem get?_append (a b : Dict) (k : Key) (h : Dict.get? b k = none) : Dict.get? (a ++ b) k = Dict.get? a k := by
  induction a with
  | nil => exact h
  | cons kv r ih =>
    obtain ⟨k', v⟩ := kv
    simp only [List.cons_append, Dict.get?]
    split
    · rfl
    · exact ih

/-- Grouping the elements. -/
theorem group_eq (r : DS2412) (block : Text) (hr : readElems (((splitLines block).map splitWs).drop 2) = .ok (r.elems.map pair)) :
    extract2412 block = .ok r.readBack := by
  unfold extract2412
  rw [hr]
  simp only [ok_bind, fold_add]
  rw [groups_eq]
  have g : ∀ fe : Int, Dict.get? ((Key.s "type", Val.int 2412) ::
      tab (firsts (r.elems.map (·.fe))) fun fe => .list ((r.ofType fe).map (.dict ·.dict))) (.i fe)
      = if fe ∈ r.elems.map (·.fe) then some (.list ((r.ofType fe).map (.dict ·.dict))) else none := by
    intro fe
    unfold Dict.get?
    rw [if_neg (by intro h; cases h), get?_tab]
    simp only [mem_firsts]
  have nk : ∀ name : String, name ≠ "type" → Key.s name ∉ (((Key.s "type", Val.int 2412) ::
      tab (firsts (r.elems.map (·.fe))) fun fe => .list ((r.ofType fe).map (.dict ·.dict))) : Dict).map (·.1) := by
    intro name hn
    simp [tab, hn]
  rw [addLegacy_eq r _ 41 "triangle" (g 41) (nk _ (by decide))]
  simp only [ok_bind]
  rw [addLegacy_eq r _ 44 "quad" ?_ ?_]
  · simp only [readGuard, readBack, tab, List.append_assoc]
  · rw [get?_append]
    · exact g 44
    · unfold columns; split <;> rfl
  · rw [List.map_append, List.mem_append]
    rintro (h | h)
    · exact nk _ (by decide) h
    · unfold columns at h
      split at h <;> simp at h

theorem read_eq (r : DS2412) (ok : Ok r) : extract2412 (blockText r.lines) = .ok r.readBack := by
  apply group_eq
  rw [split_block _ (safe r fun e he => (ok e he).toElemFit)]
  simp only [lines, List.map_cons, List.drop_succ_cons, List.drop_zero]
  exact readElems_eq r.elems ok

theorem roundTrip (d : Dict) (r : DS2412) (h : Rep d r) (ok : Ok r) :
    RoundTrip 2412 write2412 extract2412 d r.readBack r.lines :=
  ⟨safe r fun e he => (ok e he).toElemFit, ⟨_, write_eq d r h⟩, (blockType_block _ _ (by decide)).trans (by decide +kernel), read_eq r ok⟩

end DS2412
end Verif
