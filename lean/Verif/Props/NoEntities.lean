import Verif.Lemmas.Whole
import Verif.Props.Counts
/-
C32: permanent groups without entities, and which permanent groups come back.
-/
namespace Verif

namespace DS2429

theorem bare_lines (g : Grp) : lines ⟨g, []⟩ = [padLeft 6 (natRepr 2429), (g.f1 0).flatten, padRight 40 g.name] := by
  simp [lines, rowsOf, stored]

theorem bare_write (d : Dict) (g : Grp) (h : Rep d ⟨g, []⟩) :
    write2429 d = ⟨frameText (lines ⟨g, []⟩), optFields d optGroup, .ok ()⟩ := by
  obtain ⟨v, gv, sv⟩ := h.code.opt (fs := optGroup)
  have hlen : v.len = .ok 0 := by rw [sv.len]; rfl
  unfold write2429
  apply W.guardedAny_ok
  simp only [W.bind_eq, W.bind_opt, W.bind_emit]
  rw [W.bind_key gv, hlen, W.bind_lift_ok,
    W.bind_row (.cons (h.num.opt.fld 10) (.cons ((h.constraint.opt rfl).fld 10) (.cons ((h.restraint.opt rfl).fld 10)
      (.cons ((h.load.opt rfl).fld 10) (.cons ((h.dof.opt rfl).fld 10) (.cons ((h.temperature.opt rfl).fld 10)
      (.cons ((h.contact.opt rfl).fld 10) (.cons (fld_c (fmtI_eq (isInt_int _) 10)) .nil)))))))),
    W.bind_row (.cons (h.name.opt.fldL 40) .nil),
    W.bind_forL_eq (W.forL_ok _ _ (fun _ => []) _ (by simp)),
    W.bind_forL_eq (W.forL_ok _ _ (fun _ => []) _ (by simp))]
  rw [W.bind_when_neg (by decide)]
  rw [bare_lines]
  simp [frameText, headShort_eq, tailText, tagText, joinLines, Grp.f1, W.emit]
  rfl

theorem bare_safe (g : Grp) (ok : g.Ok) : Safe (lines ⟨g, []⟩) := by
  rw [bare_lines]
  refine Safe.cons (by decide) (by exact tagFree_of_lt _ (by decide) (by decide)) ?_
  exact Grp.safe g 0 ok (by decide)

theorem bare_read (g : Grp) (ok : g.Ok) :
    extract2429 (blockText (lines ⟨g, []⟩)) = .ok [("type", .int 2429), ("groups", .list [])] := by
  unfold extract2429
  rw [split_block _ (bare_safe g ok), bare_lines]
  rfl

end DS2429

/-- A permanent group without entities: whatever its name and numbers and whatever the file, it is written and becomes one more
data-set, and reading that data-set yields no group at all. -/
theorem C32_empty (w : World) (e : Env) (mode : Text) (hm : lower mode = "add".toList) (fd : Bool) (d d' : Dict) (g : Grp)
    (hc : CleanD d d') (h : DS2429.Rep d' ⟨g, []⟩) (ok : g.Ok)
    (ht : Terminated (w.file.getD [])) (hb : Balanced (w.file.getD [])) (header : Bool) :
    (w.writeSets e mode fd [d]).2.2 = .ok () ∧
    (w.writeSets e mode fd [d]).1.getNSets.2 = setCount (w.file.getD []) + 1 ∧
    ((w.writeSets e mode fd [d]).1.readSets (.one (setCount (w.file.getD []))) header).2 =
      .ok (.single [("type", .int 2429), ("groups", .list [])]) := by
  have := read_lines (e := e) (fd := fd) (n := 2429) (ex := extract2429) hc h.type rfl (fun _ _ => rfl) (DS2429.bare_write d' g h)
    (DS2429.bare_safe g ok) ((blockType_block _ _ (by decide)).trans (by decide +kernel)) w ht hb header
  rw [DS2429.bare_read g ok] at this
  rw [writeSets_add w e mode hm]
  exact ⟨this.1, this.2.1, this.2.2⟩

/-- So it is for a named group without entities, appended to a file of one data-set. -/
example : lower "add".toList = "add".toList ∧ CleanD (⟨exGrp, []⟩ : DS2429).dict (⟨exGrp, []⟩ : DS2429).dict ∧
    DS2429.Rep (⟨exGrp, []⟩ : DS2429).dict ⟨exGrp, []⟩ ∧ exGrp.Ok ∧ Terminated exOne ∧ Balanced exOne :=
  ⟨by decide, cleanD_none rfl,
    ⟨rfl, ⟨_, rfl, rfl⟩, rfl, rfl, rfl, rfl, rfl, rfl, ⟨_, rfl, rfl⟩, ⟨_, rfl, isSeq_arrI _⟩, ⟨_, rfl, isSeq_arrI _⟩⟩, exGrp_ok,
    .inr (by decide +kernel), by decide +kernel⟩

/-- The dictionary that should be read of a permanent group. -/
def DS2429.wanted (r : DS2429) : Dict :=
  [((.s "type" : Key), Val.int 2429), (.s "groups", .list [.dict (r.grp.dict r.ents.length ++
    [((.s "entity_type_code" : Key), Val.arrI (r.ents.map (·.code))), (.s "entity_tag", .arrI (r.ents.map (·.tag)))])])]

theorem ents_ext {a b : List Ent} (h1 : a.map (·.code) = b.map (·.code)) (h2 : a.map (·.tag) = b.map (·.tag)) : a = b := by
  induction a generalizing b with
  | nil => cases b with
    | nil => rfl
    | cons y b => cases h1
  | cons x a ih => cases b with
    | nil => cases h1
    | cons y b =>
      simp only [List.map_cons, List.cons.injEq] at h1 h2
      obtain ⟨c, t⟩ := x
      obtain ⟨c', t'⟩ := y
      obtain ⟨rfl, h1⟩ := h1
      obtain ⟨rfl, h2⟩ := h2
      rw [ih h1 h2]

theorem DS2429.stored_iff (r : DS2429) (ok : r.Ok) :
    r.stored = r.ents ↔ ∀ i < r.ents.length % 4, r.ents[4 * (r.ents.length / 4) + i]? = r.ents[4 * i]? := by
  have h4 : (r.ents.take (4 * (r.ents.length / 4))).length = 4 * (r.ents.length / 4) := by
    rw [List.length_take]; omega
  have hlast : ∀ i < r.ents.length % 4, r.stored[4 * (r.ents.length / 4) + i]? = r.ents[4 * i]? := by
    intro i hi
    have hl := DS2429.rest_lt r ok i hi
    obtain ⟨e0, es, he0⟩ := List.exists_cons_of_ne_nil (List.ne_nil_of_length_pos (by omega : 0 < r.ents.length))
    unfold DS2429.stored
    rw [List.getElem?_append_right (by omega), h4, Nat.add_sub_cancel_left,
      DS2429.filterMap_some _ (fun i => r.ents[4 * i]?.getD e0) _ fun j hj => by
        have := DS2429.rest_lt r ok j (List.mem_range.1 hj)
        rw [List.getElem?_eq_getElem this]; rfl]
    rw [List.getElem?_map, List.getElem?_range hi, List.getElem?_eq_getElem hl]
    simp [List.getElem?_eq_getElem hl]
  constructor
  · intro h i hi
    rw [← hlast i hi, h]
  · intro h
    apply List.ext_getElem?
    intro j
    by_cases hj : j < 4 * (r.ents.length / 4)
    · unfold DS2429.stored
      rw [List.getElem?_append_left (by omega), List.getElem?_take, if_pos hj]
    · by_cases hk : j < r.ents.length
      · have e : j = 4 * (r.ents.length / 4) + (j - 4 * (r.ents.length / 4)) := by omega
        rw [e, hlast _ (by omega), h _ (by omega)]
      · rw [List.getElem?_eq_none (by rw [DS2429.stored_length r ok]; omega), List.getElem?_eq_none (by omega)]

/-- A permanent group whose numbers fit comes back exactly when it has entities and the entities behind the last multiple of
four, if any, are the same as the entities 0, 4 and 8 that are written in their place. -/
theorem C32_iff (e : Env) (fd : Bool) (d d' : Dict) (r : DS2429) (hc : CleanD d d') (h : r.Rep d') (hg : r.grp.Ok)
    (hl : Fits 10 r.ents.length) (hcode : ∀ x ∈ r.ents, Fits 9 x.code) (htag : ∀ x ∈ r.ents, Fits 9 x.tag ∧ x.tag ≠ -1) :
    StoredAs e fd d r.wanted r.wanted ↔
      r.ents ≠ [] ∧ ∀ i < r.ents.length % 4, r.ents[4 * (r.ents.length / 4) + i]? = r.ents[4 * i]? := by
  have mk : r.ents ≠ [] → r.ents.length ≠ 2 ∧ r.ents.length ≠ 3 ∧ r.ents.length ≠ 7 → r.Ok := fun h0 hn =>
    ⟨hg, hl, ⟨by have := List.length_pos_iff.2 h0; omega, hn⟩, hcode, fun x hx => (htag x hx).1, fun x hx => (htag x hx).2⟩
  constructor
  · intro hs
    obtain ⟨h1, -, h3, -⟩ := hs.all (World.new Option.none) (.inl rfl) (by decide)
    have h0 : r.ents ≠ [] := by
      intro h0
      obtain ⟨g, es⟩ := r
      cases h0
      have := (C32_empty (World.new Option.none) e "add".toList (by decide) fd d d' g hc h hg (.inl rfl) (by decide) false).2.2
      rw [h3] at this
      have this := congrArg (fun r : Res ReadOut => match r with | .ok (.single d) => d.get? "groups" | _ => Option.none) this
      have this : some (Val.list _) = some (Val.list []) := this
      cases this
    have ok := mk h0 ((C32_counts (World.new Option.none) e "add".toList (by decide) fd d d' r hc h hg hl h0 hcode htag).1 h1)
    refine ⟨h0, (DS2429.stored_iff r ok).1 ?_⟩
    have h4 := ((C32_stored e fd d d' r hc h ok).all (World.new Option.none) (.inl rfl) (by decide)).2.2.1
    rw [h3] at h4
    have h5 : r.wanted = r.readBack := by
      injection h4 with h4
      injection h4
    simp only [DS2429.wanted, DS2429.readBack, List.cons.injEq, Prod.mk.injEq, Val.list.injEq, Val.dict.injEq,
      List.append_cancel_left_eq, true_and, and_true, Val.arrI.injEq] at h5
    exact (ents_ext h5.1 h5.2).symm
  · rintro ⟨h0, hi⟩
    have hp := List.length_pos_iff.2 h0
    have ok := mk h0 (by
      refine ⟨fun hn => ?_, fun hn => ?_, fun hn => ?_⟩
      · have := hi 1 (by omega)
        rw [List.getElem?_eq_none (i := 4 * 1) (by omega), List.getElem?_eq_none_iff] at this
        omega
      · have := hi 1 (by omega)
        rw [List.getElem?_eq_none (i := 4 * 1) (by omega), List.getElem?_eq_none_iff] at this
        omega
      · have := hi 2 (by omega)
        rw [List.getElem?_eq_none (i := 4 * 2) (by omega), List.getElem?_eq_none_iff] at this
        omega)
    have e1 : r.wanted = r.readBack := by
      unfold DS2429.wanted DS2429.readBack
      rw [(DS2429.stored_iff r ok).2 hi]
    rw [e1]
    exact C32_stored e fd d d' r hc h ok

/-- Five entities, the fifth the same as the first, come back; with another fifth entity they do not. -/
example : (⟨exGrp, [⟨7, 1⟩, ⟨7, 2⟩, ⟨8, 3⟩, ⟨8, 4⟩, ⟨7, 1⟩]⟩ : DS2429).Rep (⟨exGrp, [⟨7, 1⟩, ⟨7, 2⟩, ⟨8, 3⟩, ⟨8, 4⟩, ⟨7, 1⟩]⟩ : DS2429).dict ∧
    (∀ i < 5 % 4, ([⟨7, 1⟩, ⟨7, 2⟩, ⟨8, 3⟩, ⟨8, 4⟩, ⟨7, 1⟩] : List Ent)[4 * (5 / 4) + i]? = ([⟨7, 1⟩, ⟨7, 2⟩, ⟨8, 3⟩, ⟨8, 4⟩, ⟨7, 1⟩] : List Ent)[4 * i]?) ∧
    bad2429.Rep bad2429.dict ∧ Fits 10 bad2429.ents.length ∧ (∀ x ∈ bad2429.ents, Fits 9 x.code) ∧
    (∀ x ∈ bad2429.ents, Fits 9 x.tag ∧ x.tag ≠ -1) ∧ bad2429.ents[4]?.map (·.tag) ≠ bad2429.ents[0]?.map (·.tag) := by
  refine ⟨⟨rfl, ⟨_, rfl, rfl⟩, rfl, rfl, rfl, rfl, rfl, rfl, ⟨_, rfl, rfl⟩, ⟨_, rfl, isSeq_arrI _⟩, ⟨_, rfl, isSeq_arrI _⟩⟩, ?_,
    ⟨rfl, ⟨_, rfl, rfl⟩, rfl, rfl, rfl, rfl, rfl, rfl, ⟨_, rfl, rfl⟩, ⟨_, rfl, isSeq_arrI _⟩, ⟨_, rfl, isSeq_arrI _⟩⟩,
    by decide, by decide, by decide, by decide⟩
  intro i hi
  obtain rfl : i = 0 := by omega
  rfl

end Verif
