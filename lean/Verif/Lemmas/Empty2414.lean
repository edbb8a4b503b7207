import Verif.Lemmas.RT2414
/-
What is written of results without any node or element, and what the reader makes of it.
-/
namespace Verif
namespace DS2414
open W

/-- The results, but without any data: at location 1 or 2. -/
inductive NoData : PlainData → PlainData → Prop
  | nodes : NoData (.atNodes []) (.atNodes [⟨1, []⟩])
  | elems : NoData (.onElems []) (.onElems [⟨1, []⟩])

theorem NoData.loc {x y : PlainData} (h : NoData x y) (a c : Int) (p : PlainHead) :
    DS2414.loc (.plain a c p x) = DS2414.loc (.plain a c p y) := by cases h <;> rfl

theorem NoData.data {x y : PlainData} (h : NoData x y) (a c : Int) (p : PlainHead) : dataLines (.plain a c p x) = [] := by
  cases h <;> rfl

theorem NoData.ok {x y : PlainData} (h : NoData x y) : PlainDataOk y := by
  have sp : Spaced [] := ⟨by simp, by simp⟩
  cases h with
  | nodes =>
    refine ⟨by simp, fun n hn => ?_⟩
    rw [List.mem_singleton] at hn
    subst hn
    exact ⟨by decide, by decide, sp⟩
  | elems =>
    refine ⟨by simp, fun n hn => ?_⟩
    rw [List.mem_singleton] at hn
    subst hn
    exact ⟨by decide, by decide, sp⟩

theorem NoData.full {x y : PlainData} (h : NoData x y) {r : DS2414} {a c : Int} {p : PlainHead}
    (ok : Ok { r with body := .plain a c p (.other 4) }) : Ok { r with body := .plain a c p y } where
  label := ok.label
  label1 := ok.label1
  name := ok.name
  loc := by
    cases h with
    | nodes => exact (show Fits 10 1 by decide)
    | elems => exact (show Fits 10 2 by decide)
  loc1 := by
    cases h with
    | nodes => exact (show (1 : Int) ≠ -1 by decide)
    | elems => exact (show (2 : Int) ≠ -1 by decide)
  id1 := ok.id1
  id2 := ok.id2
  id3 := ok.id3
  id4 := ok.id4
  id5 := ok.id5
  model := ok.model
  analysis := ok.analysis
  ch := ok.ch
  result := ok.result
  dtype := ok.dtype
  comps := ok.comps
  comps1 := ok.comps1
  body := ⟨ok.body.1, ok.body.2.1, ok.body.2.2.1, ok.body.2.2.2.1, ok.body.2.2.2.2.1, h.ok⟩

theorem NoData.lines {x y : PlainData} (h : NoData x y) (r : DS2414) (a c : Int) (p : PlainHead) :
    ({ r with body := .plain a c p y } : DS2414).lines =
      ({ r with body := .plain a c p x } : DS2414).lines ++ dataLines (.plain a c p y) := by cases h <;> rfl

theorem NoData.first {x y : PlainData} (h : NoData x y) (r : DS2414) (a c : Int) (p : PlainHead) :
    ({ r with body := .plain a c p x } : DS2414).first = ({ r with body := .plain a c p y } : DS2414).first := by cases h <;> rfl

theorem NoData.safe {x y : PlainData} (h : NoData x y) {r : DS2414} {a c : Int} {p : PlainHead}
    (ok : Ok { r with body := .plain a c p (.other 4) }) : Safe ({ r with body := .plain a c p x } : DS2414).lines := by
  intro t ht
  refine DS2414.safe _ (h.full ok) t ?_
  rw [h.lines]
  exact List.mem_append_left _ ht

theorem NoData.rest {x y : PlainData} (h : NoData x y) (d : Dict) (hx : PlainDataRep d x) (a c : Int) (p : PlainHead) :
    locRest (.int (DS2414.loc (.plain a c p x))) d = ⟨tailText, d, .ok ()⟩ := by
  cases h with
  | nodes => exact locNodes_eq d [] hx a c p
  | elems => exact locElems_eq d [] hx a c p

theorem empty_plain {x y : PlainData} (n : NoData x y) (d : Dict) (a c : Int) (h : PlainHead) (hr : PlainRep d h)
    (hx : PlainDataRep (optFields d opt2414) x)
    (hl : (optFields d opt2414).get? "dataset_location" = some (.int (loc (.plain a c h x))))
    (o1 : h.rec12.Ok) (o2 : h.rec13.Ok) :
    plainRest (optFields d opt2414)
      = ⟨joinLines (bodyLines (.plain a c h x)) ++ tailText, optFields d opt2414, .ok ()⟩ := by
  unfold plainRest
  simp only [W.bind_eq]
  rw [W.bind_row' (.cons ((hr.a1.opt rfl).fld 10) (.cons ((hr.a2.opt rfl).fld 10) (.cons ((hr.a3.opt rfl).fld 10)
      (.cons ((hr.a4.opt rfl).fld 10) (.cons ((hr.a5.opt rfl).fld 10) (.cons ((hr.a6.opt rfl).fld 10)
      (.cons ((hr.a7.opt rfl).fld 10) (.cons ((hr.a8.opt rfl).fld 10) .nil)))))))),
    W.bind_row' (.cons ((hr.b1.opt rfl).fld 10) (.cons ((hr.b2.opt rfl).fld 10) (.cons ((hr.b3.opt rfl).fld 10)
      (.cons ((hr.b4.opt rfl).fld 10) (.cons ((hr.b5.opt rfl).fld 10) (.cons ((hr.b6.opt rfl).fld 10)
      (.cons ((hr.b7.opt rfl).fld 10) (.cons ((hr.b8.opt rfl).fld 10) .nil)))))))),
    W.bind_row' (.cons (hr.x1.opt rfl).fld2 (.cons (hr.x2.opt rfl).fld2 (.cons (hr.x3.opt rfl).fld2
      (.cons (hr.x4.opt rfl).fld2 (.cons (hr.x5.opt rfl).fld2 (.cons (hr.x6.opt rfl).fld2 .nil)))))),
    W.bind_row' (.cons (hr.y1.opt rfl).fld2 (.cons (hr.y2.opt rfl).fld2 (.cons (hr.y3.opt rfl).fld2
      (.cons (hr.y4.opt rfl).fld2 (.cons (hr.y5.opt rfl).fld2 (.cons (hr.y6.opt rfl).fld2 .nil)))))),
    W.bind_key hl, n.rest _ hx a c h, six_pad _ o1, six_pad _ o2]
  simp [WRes.pre, bodyLines, ints, flts, sixF, eightF, joinLines, n.data]

theorem empty_write {x y : PlainData} (n : NoData x y) (d : Dict) (r : DS2414) (a c : Int) (hd : PlainHead)
    (hr : r.body = .plain a c hd x) (h : Rep d r) (o0 : a ≠ 5) (o1 : hd.rec12.Ok) (o2 : hd.rec13.Ok) :
    write2414 d = ⟨frameText r.lines, optFields d opt2414, .ok ()⟩ := by
  have ia : HasInt (optFields d opt2414) "analysis_type" (analysis r.body) := ⟨_, get?_opt_present h.analysis, rfl⟩
  have il : HasInt (optFields d opt2414) "dataset_location" (loc r.body) := ⟨_, get?_opt_present h.loc, rfl⟩
  have ic : HasInt (optFields d opt2414) "number_of_data_values_for_the_data_component" (comps r.body) :=
    ⟨_, get?_opt_present h.comps, rfl⟩
  have hb : (if (Val.int (analysis r.body)).numEq 5 then freqRest else plainRest) (optFields d opt2414)
      = ⟨joinLines (bodyLines r.body) ++ tailText, optFields d opt2414, .ok ()⟩ := by
    have hb := h.body
    have hl := h.loc
    rw [hr] at hb hl ⊢
    obtain ⟨h1, h2⟩ := hb
    have e : (Val.int (analysis (.plain a c hd x))).numEq 5 = false := by
      simp [analysis, Val.numEq, o0]
    rw [e, if_neg (by decide)]
    refine empty_plain n d a c hd h1 ?_ (get?_opt_present hl) o1 o2
    cases n with
    | nodes => exact ⟨h2.1.opt, h2.2.opt⟩
    | elems => exact ⟨h2.1.opt, h2.2.opt⟩
  unfold write2414
  apply W.guardedAny_ok
  simp only [W.bind_eq, W.bind_opt]
  rw [W.bind_emit', W.bind_row' (.cons (h.label.opt.fld 10) .nil), W.bind_row' (.cons (h.name.opt.fldL 80) .nil),
    W.bind_row' (.cons (il.fld 10) .nil), W.bind_row' (.cons (h.id1.opt.fldL 80) .nil),
    W.bind_row' (.cons (h.id2.opt.fldL 80) .nil), W.bind_row' (.cons (h.id3.opt.fldL 80) .nil),
    W.bind_row' (.cons (h.id4.opt.fldL 80) .nil), W.bind_row' (.cons (h.id5.opt.fldL 80) .nil),
    W.bind_row' (.cons (h.model.opt.fld 10) (.cons (ia.fld 10) (.cons (h.ch.opt.fld 10) (.cons (h.result.opt.fld 10)
      (.cons (h.dtype.opt.fld 10) (.cons (ic.fld 10) .nil)))))),
    W.bind_key (get?_opt_present h.analysis), hb]
  simp [WRes.pre, frameText, lines, headShort_eq, tailText, tagText, typeFields, joinLines]
  rfl

theorem empty_read {x y : PlainData} (n : NoData x y) (r : DS2414) (a c : Int) (p : PlainHead)
    (ok : Ok { r with body := .plain a c p (.other 4) }) :
    extract2414 (blockText ({ r with body := .plain a c p x } : DS2414).lines) = .error (.reading 2414) := by
  have sf := n.safe ok
  have full := n.full ok
  unfold extract2414
  rw [splitKeep_block _ sf]
  have e1 : (tagText ++ ['\n']) :: (List.map (· ++ ['\n']) ({ r with body := .plain a c p x } : DS2414).lines)
      = ({ r with body := .plain a c p x } : DS2414).first ++ (dataLines (.plain a c p x)).map (· ++ ['\n']) := rfl
  rw [e1, n.data, n.first]
  simp only
  have l15 : ({ r with body := .plain a c p y } : DS2414).first.length = 15 := rfl
  rw [List.take_left' l15, List.drop_left' l15, head_eq _ full, ok_bind, args_eq, ok_bind]
  simp only [analysis]
  rw [if_neg ok.body.1, plainHead_eq _ a c p y rfl full.body, ok_bind]
  have e : readPlainData (DS2414.loc (.plain a c p y)) (splitLines (List.map (· ++ ['\n']) ([] : List Text)).flatten) = .error .index := by
    cases n <;> rfl
  rw [e]
  rfl

end DS2414
end Verif
