import Verif.Lemmas.RT2414
import Verif.Lemmas.World
/-
What is written of results at location 5, which have no closing delimiter.
-/
namespace Verif
namespace DS2414
open W

/-- The results, but labelled with the location `l`. -/
def atLocation (r : DS2414) (a c : Int) (h : PlainHead) (l : Int) : DS2414 := { r with body := .plain a c h (.other l) }

theorem plain5_eq (d : Dict) (a c : Int) (h : PlainHead) (hr : PlainRep d h)
    (hl : (optFields d opt2414).get? "dataset_location" = some (.int 5)) (ok : BodyOk (.plain a c h (.other 4))) :
    plainRest (optFields d opt2414) = ⟨joinLines (bodyLines (.plain a c h (.other 5))), optFields d opt2414, .ok ()⟩ := by
  obtain ⟨-, -, -, o1, o2, -⟩ := ok
  unfold plainRest
  simp only [W.bind_eq]
  have hloc : locRest (.int 5) (optFields d opt2414) = ⟨[], optFields d opt2414, .ok ()⟩ := rfl
  rw [W.bind_row' (.cons ((hr.a1.opt rfl).fld 10) (.cons ((hr.a2.opt rfl).fld 10) (.cons ((hr.a3.opt rfl).fld 10)
      (.cons ((hr.a4.opt rfl).fld 10) (.cons ((hr.a5.opt rfl).fld 10) (.cons ((hr.a6.opt rfl).fld 10)
      (.cons ((hr.a7.opt rfl).fld 10) (.cons ((hr.a8.opt rfl).fld 10) .nil)))))))),
    W.bind_row' (.cons ((hr.b1.opt rfl).fld 10) (.cons ((hr.b2.opt rfl).fld 10) (.cons ((hr.b3.opt rfl).fld 10)
      (.cons ((hr.b4.opt rfl).fld 10) (.cons ((hr.b5.opt rfl).fld 10) (.cons ((hr.b6.opt rfl).fld 10)
      (.cons ((hr.b7.opt rfl).fld 10) (.cons ((hr.b8.opt rfl).fld 10) .nil)))))))),
    W.bind_row' (.cons (hr.x1.opt rfl).fld2 (.cons (hr.x2.opt rfl).fld2 (.cons (hr.x3.opt rfl).fld2
      (.cons (hr.x4.opt rfl).fld2 (.cons (hr.x5.opt rfl).fld2 (.cons (hr.x6.opt rfl).fld2 .nil)))))),
    W.bind_row' (.cons (hr.y1.opt rfl).fld2 (.cons (hr.y2.opt rfl).fld2 (.cons (hr.y3.opt rfl).fld2
      (.cons (hr.y4.opt rfl).fld2 (.cons (hr.y5.opt rfl).fld2 (.cons (hr.y6.opt rfl).fld2 .nil)))))),
    W.bind_key hl, hloc, six_pad _ o1, six_pad _ o2]
  simp [WRes.pre, bodyLines, ints, flts, sixF, eightF, joinLines, dataLines]

theorem write5_eq (d : Dict) (r : DS2414) (a c : Int) (hd : PlainHead) (h : Rep d (r.atLocation a c hd 5)) (ok : Ok (r.atLocation a c hd 4)) :
    write2414 d = ⟨blockText (r.atLocation a c hd 5).lines, optFields d opt2414, .ok ()⟩ := by
  have ia : HasInt (optFields d opt2414) "analysis_type" (analysis (r.atLocation a c hd 5).body) := ⟨_, get?_opt_present h.analysis, rfl⟩
  have il : HasInt (optFields d opt2414) "dataset_location" (loc (r.atLocation a c hd 5).body) := ⟨_, get?_opt_present h.loc, rfl⟩
  have ic : HasInt (optFields d opt2414) "number_of_data_values_for_the_data_component" (comps (r.atLocation a c hd 5).body) :=
    ⟨_, get?_opt_present h.comps, rfl⟩
  have hb : (if (Val.int (analysis (r.atLocation a c hd 5).body)).numEq 5 then freqRest else plainRest) (optFields d opt2414)
      = ⟨joinLines (bodyLines (r.atLocation a c hd 5).body), optFields d opt2414, .ok ()⟩ := by
    have ob : BodyOk (.plain a c hd (.other 4)) := ok.body
    have e : (Val.int (analysis (r.atLocation a c hd 5).body)).numEq 5 = false := by
      simp [atLocation, analysis, Val.numEq, ob.1]
    rw [e, if_neg (by decide)]
    exact plain5_eq d a c hd h.body.1 (get?_opt_present h.loc) ob
  unfold write2414
  apply W.guardedAny_ok
  simp only [W.bind_eq, W.bind_opt]
  rw [W.bind_emit', W.bind_row' (.cons (h.label.opt.fld 10) .nil), W.bind_row' (.cons (h.name.opt.fldL 80) .nil),
    W.bind_row' (.cons (il.fld 10) .nil), W.bind_row' (.cons (h.id1.opt.fldL 80) .nil),
    W.bind_row' (.cons (h.id2.opt.fldL 80) .nil), W.bind_row' (.cons (h.id3.opt.fldL 80) .nil),
    W.bind_row' (.cons (h.id4.opt.fldL 80) .nil), W.bind_row' (.cons (h.id5.opt.fldL 80) .nil),
    W.bind_row' (.cons (h.model.opt.fld 10) (.cons (ia.fld 10) (.cons (h.ch.opt.fld 10) (.cons (h.result.opt.fld 10)
      (.cons (h.dtype.opt.fld 10) (.cons (ic.fld 10) .nil)))))),
    W.bind_key (get?_opt_present h.analysis), hb]
  simp [WRes.pre, blockText, lines, headShort_eq, tagText, typeFields, joinLines]

theorem safe5 (r : DS2414) (a c : Int) (hd : PlainHead) (ok : Ok (r.atLocation a c hd 4)) : Safe (r.atLocation a c hd 5).lines := by
  have h := safe _ ok
  have l5 := num_safe 5 (by decide) (by decide)
  intro t ht
  have e : ∀ l, (r.atLocation a c hd l).lines = [padLeft 6 (natRepr 2414), padLeft 10 (intRepr r.label), padRight 80 r.name] ++
      (padLeft 10 (intRepr l) :: (r.atLocation a c hd 4).lines.drop 4) := fun l => rfl
  rw [e 5] at ht
  rw [e 4] at h
  rcases List.mem_append.1 ht with ht | ht
  · exact h t (List.mem_append_left _ ht)
  rcases List.mem_cons.1 ht with rfl | ht
  · exact l5
  · exact h t (List.mem_append_right _ (List.mem_cons_of_mem _ ht))

end DS2414

theorem block_terminated (ls : List Text) : Terminated (encode (blockText ls)) := by
  rcases endsLF_joinLines (tagText :: ls) with h | h
  · simp at h
  · exact (terminated_iff _).2 (.inr h)

/-- A block without its closing delimiter has one delimiter. -/
theorem block_delims {ls : List Text} (h : Safe ls) : delims (encode (blockText ls)) = [0] := by
  have h1 := tags_frame ls h 0
  rw [← delims_eq, frameText_eq, encode_append, delims_append _ _ (block_terminated ls)] at h1
  have h2 : delims (encode (tagText ++ ['\n'])) = [0] := by decide +kernel
  rw [h2] at h1
  simp only [List.map_cons, List.map_nil, Nat.zero_add] at h1
  have : delims (encode (blockText ls)) ++ [(encode (blockText ls)).length] = [0] ++ [(encode (blockText ls)).length] := h1
  exact List.append_cancel_right this

end Verif
