import Verif.Lemmas.Val58
/-
Round trip of data-set 58.
-/
namespace Verif

/-- Text in front of what a writer writes. -/
def WRes.pre {α : Type} (t : Text) (w : WRes α) : WRes α := ⟨t ++ w.out, w.dict, w.res⟩

theorem WRes.pre_pre {α : Type} (s t : Text) (w : WRes α) : WRes.pre s (WRes.pre t w) = WRes.pre (s ++ t) w := by
  simp [WRes.pre]
theorem WRes.pre_mk {α : Type} (s t : Text) (d : Dict) (x : Res α) : WRes.pre s ⟨t, d, x⟩ = ⟨s ++ t, d, x⟩ := rfl
theorem WRes.pre_nil {α : Type} (w : WRes α) : WRes.pre [] w = w := by simp [WRes.pre]

theorem W.bind_ok' {α β} {m : W α} {f : α → W β} {d d' : Dict} {o : Text} {a : α} (h : m d = ⟨o, d', .ok a⟩) :
    W.bind m f d = WRes.pre o (f a d') := W.bind_ok h
theorem W.bind_row' {d : Dict} {fs : List Fld} {ts : List Text} (h : FldsOk d fs ts) {β} (g : Unit → W β) :
    W.bind (W.row fs) g d = WRes.pre (ts.flatten ++ ['\n']) (g () d) := W.bind_row h g
theorem W.bind_emit' {β} (t : Text) (f : Unit → W β) (d : Dict) : W.bind (W.emit t) f d = WRes.pre t (f () d) := rfl

namespace DS58

/-- Twelve significant digits. -/
def dbl : Store58 → Bool
  | .ascii b => b
  | .binary _ => true

theorem code_eq (r : DS58) : r.ordType = code (dbl r.store) (isReal r.ord) := by
  unfold ordType
  cases r.ord with
  | real l => cases r.store with
    | ascii b => cases b <;> rfl
    | binary b => rfl
  | cplx l => cases r.store with
    | ascii b => cases b <;> rfl
    | binary b => rfl

/-! The dictionary while writing. -/

/-- `n_bytes` of the header. -/
def nb (r : DS58) : Nat := if dbl r.store then r.count * 8 else r.count * 4

/-- After the defaults. -/
def d0 (d : Dict) : Dict := optFields d opt58
/-- After setting the type of the ordinate. -/
def d1 (fd : Bool) (d : Dict) (r : DS58) : Dict :=
  if fd = true then (d0 d).set "ord_data_type" (.int r.ordType) else d0 d
/-- After setting the number of bytes. -/
def d2 (fd : Bool) (d : Dict) (r : DS58) : Dict :=
  if (d1 fd d r).has "n_bytes" = true then (d1 fd d r).set "n_bytes" (.int (nb r)) else d1 fd d r
/-- The final dictionary. -/
def d3 (fd : Bool) (d : Dict) (r : DS58) : Dict := (d2 fd d r).set "abscissa_min" (.float r.x0)

theorem get_d1 {fd : Bool} {d : Dict} {r : DS58} {k : Key} (h : Key.s "ord_data_type" ≠ k) :
    (d1 fd d r).get? k = (d0 d).get? k := by
  unfold d1
  split
  · exact Dict.get?_set_ne _ _ _ _ h
  · rfl

theorem get_d2 {fd : Bool} {d : Dict} {r : DS58} {k : Key} (h : Key.s "ord_data_type" ≠ k) (h2 : Key.s "n_bytes" ≠ k) :
    (d2 fd d r).get? k = (d0 d).get? k := by
  rw [← get_d1 (fd := fd) (r := r) h]
  unfold d2
  split
  · exact Dict.get?_set_ne _ _ _ _ h2
  · rfl

theorem get_d3 {fd : Bool} {d : Dict} {r : DS58} {k : Key} (h : Key.s "ord_data_type" ≠ k) (h2 : Key.s "n_bytes" ≠ k)
    (h3 : Key.s "abscissa_min" ≠ k) : (d3 fd d r).get? k = (d0 d).get? k := by
  unfold d3
  rw [Dict.get?_set_ne _ _ _ _ h3, get_d2 h h2]

/-- A key the writer does not change. -/
structure Kept (k : Key) : Prop where
  h1 : Key.s "ord_data_type" ≠ k
  h2 : Key.s "n_bytes" ≠ k
  h3 : Key.s "abscissa_min" ≠ k

theorem int_d3 {fd : Bool} {d : Dict} {r : DS58} {k : Key} {n : Int} (h : HasInt (d0 d) k n) (hk : Kept k) :
    HasInt (d3 fd d r) k n := by
  obtain ⟨v, h1, h2⟩ := h
  exact ⟨v, by rw [get_d3 hk.h1 hk.h2 hk.h3, h1], h2⟩
theorem flt_d3 {fd : Bool} {d : Dict} {r : DS58} {k : Key} {n : F64} (h : HasFloat (d0 d) k n) (hk : Kept k) :
    HasFloat (d3 fd d r) k n := by
  obtain ⟨v, h1, h2⟩ := h
  exact ⟨v, by rw [get_d3 hk.h1 hk.h2 hk.h3, h1], h2⟩
theorem str_d3 {fd : Bool} {d : Dict} {r : DS58} {k : Key} {n : Text} (h : HasStr (d0 d) k n) (hk : Kept k) :
    HasStr (d3 fd d r) k n := by
  obtain ⟨v, h1, h2⟩ := h
  exact ⟨v, by rw [get_d3 hk.h1 hk.h2 hk.h3, h1], h2⟩

macro "kept" : tactic => `(tactic| exact ⟨by decide, by decide, by decide⟩)

theorem HasIntOr.present {d : Dict} {k : Key} {dv n : Int} (h : HasIntOr d k dv n) (hp : d.has k = true) : HasInt d k n := by
  unfold HasIntOr Dict.getOr at h
  unfold Dict.has at hp
  obtain ⟨v, hv⟩ := Option.isSome_iff_exists.1 hp
  rw [hv] at h
  exact ⟨v, hv, h⟩

/-! The header. -/

/-- Fields of an axis. -/
def axisFields (a : Axis58) : List Text :=
  [padLeft 10 (intRepr a.spec), padLeft 5 (intRepr a.len), padLeft 5 (intRepr a.force), padLeft 5 (intRepr a.temp),
   ' ' :: padRight 20 a.lab, ' ' :: padRight 20 a.units]

/-- Fields of record 6. -/
def recFields (r : DS58) : List Text :=
  [padLeft 5 (intRepr r.func), padLeft 10 (intRepr r.funcId), padLeft 5 (intRepr r.ver), padLeft 10 (intRepr r.load),
   ' ' :: padLeft 10 r.rspName, padLeft 10 (intRepr r.rspNode), padLeft 4 (intRepr r.rspDir),
   ' ' :: padLeft 10 r.refName, padLeft 10 (intRepr r.refNode), padLeft 4 (intRepr r.refDir)]

/-- Fields of record 7. -/
def formFields (r : DS58) : List Text :=
  [padLeft 10 (intRepr r.ordType), padLeft 10 (intRepr r.count), padLeft 10 (intRepr (if r.even then 1 else 0)),
   padLeft 13 (fmtE 5 r.min), padLeft 13 (fmtE 5 r.inc), padLeft 13 (fmtE 5 r.zValue)]

/-- Rest of the identifier line of a binary data-set. -/
def binFields (le : Bool) (n : Nat) : List Text :=
  ['b' :: padLeft 6 (intRepr (if le then 1 else 2)), padLeft 6 (intRepr 2), padLeft 12 (intRepr 11),
   padLeft 12 (intRepr n), padLeft 6 (intRepr 0), padLeft 6 (intRepr 0), padLeft 12 (intRepr 0), padLeft 12 (intRepr 0)]

/-- The identifier line. -/
def idl (r : DS58) : Text := match r.store with
  | .ascii _ => idLine 58
  | .binary le => padLeft 6 (natRepr 58) ++ (binFields le (8 * r.count)).flatten

/-- The header lines. -/
def head (r : DS58) : List Text :=
  [padRight 80 r.id1, padRight 80 r.id2, padRight 80 r.id3, padRight 80 r.id4, padRight 80 r.id5,
   (recFields r).flatten, (formFields r).flatten, (axisFields r.abscissa).flatten, (axisFields r.ordinate).flatten,
   (axisFields r.orddenom).flatten, (axisFields r.zAxis).flatten]

/-- The lines of numbers of an ASCII data-set. -/
def numLinesOf (double : Bool) (r : DS58) : List Text :=
  (rowsOf (perLine double (isReal r.ord) r.even) r.pts).map
    (recLine (fmts double (isReal r.ord) r.even) (nums (isReal r.ord) r.even))

/-- The lines that follow the header. -/
def body (r : DS58) : List Text := match r.store with
  | .ascii double => numLinesOf double r
  | .binary _ => []

/-- The lines between the delimiters. -/
def lines (r : DS58) : List Text := idl r :: (head r ++ body r)

/-- The payload, if any. -/
def extra (r : DS58) : Bytes := match r.store with
  | .ascii _ => []
  | .binary le => payload le r

/-! Writing. -/

theorem fld_sl1 {d : Dict} {k : Key} {s : Text} (h : HasStr d k s) (w : Nat) : FldOk d (.sl1 w k) (' ' :: padRight w s) := by
  obtain ⟨v, h1, h2⟩ := h
  refine ⟨v, ?_, ?_⟩
  · simp [Fld.sl1, Dict.get, h1]
  · simp only [Fld.sl1, fmtSL_eq h2]; rfl
theorem fld_sr1 {d : Dict} {k : Key} {s : Text} (h : HasStr d k s) (w : Nat) : FldOk d (.sr1 w k) (' ' :: padLeft w s) := by
  obtain ⟨v, h1, h2⟩ := h
  refine ⟨v, ?_, ?_⟩
  · simp [Fld.sr1, Dict.get, h1]
  · simp only [Fld.sr1, fmtSR_eq h2]; rfl

/-- Representation of an axis in the dictionary of the writer. -/
structure AxisIn (d : Dict) (k : UnitKeys) (a : Axis58) : Prop where
  spec : HasInt d k.spec a.spec
  len : HasInt d k.len a.len
  force : HasInt d k.force a.force
  temp : HasInt d k.temp a.temp
  lab : HasStr d k.lab a.lab
  units : HasStr d k.units a.units

theorem unitsRow_eq {d : Dict} {k : UnitKeys} {a : Axis58} (h : AxisIn d k a) :
    unitsRow k d = ⟨(axisFields a).flatten ++ ['\n'], d, .ok ()⟩ :=
  W.row_eq (.cons (h.spec.fld 10) (.cons (h.len.fld 5) (.cons (h.force.fld 5) (.cons (h.temp.fld 5)
    (.cons (fld_sl1 h.lab 20) (.cons (fld_sl1 h.units 20) .nil))))))

theorem axis_abscissa (d : Dict) (r : DS58) (fd : Bool) (h : AxisRep d "abscissa_spec_data_type" "abscissa_len_unit_exp"
    "abscissa_force_unit_exp" "abscissa_temp_unit_exp" "abscissa_axis_lab" "abscissa_axis_units_lab" r.abscissa) :
    AxisIn (d3 fd d r) abscissaKeys r.abscissa :=
  ⟨int_d3 (h.spec.opt rfl) (by kept), int_d3 (h.len.opt rfl) (by kept), int_d3 (h.force.opt rfl) (by kept),
   int_d3 (h.temp.opt rfl) (by kept), str_d3 (h.lab.opt rfl) (by kept), str_d3 (h.units.opt rfl) (by kept)⟩
theorem axis_ordinate (d : Dict) (r : DS58) (fd : Bool) (h : AxisRep d "ordinate_spec_data_type" "ordinate_len_unit_exp"
    "ordinate_force_unit_exp" "ordinate_temp_unit_exp" "ordinate_axis_lab" "ordinate_axis_units_lab" r.ordinate) :
    AxisIn (d3 fd d r) ordinateKeys r.ordinate :=
  ⟨int_d3 (h.spec.opt rfl) (by kept), int_d3 (h.len.opt rfl) (by kept), int_d3 (h.force.opt rfl) (by kept),
   int_d3 (h.temp.opt rfl) (by kept), str_d3 (h.lab.opt rfl) (by kept), str_d3 (h.units.opt rfl) (by kept)⟩
theorem axis_orddenom (d : Dict) (r : DS58) (fd : Bool) (hp : d.has "orddenom_spec_data_type" = true)
    (h : AxisRep d "orddenom_spec_data_type" "orddenom_len_unit_exp"
    "orddenom_force_unit_exp" "orddenom_temp_unit_exp" "orddenom_axis_lab" "orddenom_axis_units_lab" r.orddenom) :
    AxisIn (d3 fd d r) orddenomKeys r.orddenom :=
  ⟨int_d3 ((HasIntOr.present h.spec hp).opt) (by kept), int_d3 (h.len.opt rfl) (by kept), int_d3 (h.force.opt rfl) (by kept),
   int_d3 (h.temp.opt rfl) (by kept), str_d3 (h.lab.opt rfl) (by kept), str_d3 (h.units.opt rfl) (by kept)⟩
theorem axis_zAxis (d : Dict) (r : DS58) (fd : Bool) (h : AxisRep d "z_axis_spec_data_type" "z_axis_len_unit_exp"
    "z_axis_force_unit_exp" "z_axis_temp_unit_exp" "z_axis_axis_lab" "z_axis_axis_units_lab" r.zAxis) :
    AxisIn (d3 fd d r) zAxisKeys r.zAxis :=
  ⟨int_d3 (h.spec.opt rfl) (by kept), int_d3 (h.len.opt rfl) (by kept), int_d3 (h.force.opt rfl) (by kept),
   int_d3 (h.temp.opt rfl) (by kept), str_d3 (h.lab.opt rfl) (by kept), str_d3 (h.units.opt rfl) (by kept)⟩

/-- The value of `data`. -/
def ordVal : Ord58 → Val
  | .real l => .arrF l
  | .cplx l => .arrC l

theorem ordVal_len (o : Ord58) (r : DS58) (h : r.ord = o) : (ordVal o).len = .ok r.count := by
  unfold count
  rw [h]
  cases o with
  | real l => simp [ordVal, Val.len]
  | cplx l => simp [ordVal, Val.len]

theorem prec_eq (r : DS58) : prec58 (.int r.ordType) = .ok (some (dbl r.store)) := by
  rw [code_eq]
  generalize dbl r.store = b
  generalize isReal r.ord = c
  cases b <;> cases c <;> decide

theorem nBytes_eq (r : DS58) : nBytes58 r.count (some (dbl r.store)) = .ok (nb r) := by
  unfold nb
  cases dbl r.store <;> rfl

theorem times_min (r : DS58) (ok : Fit r) : boolTimes r.even (.float r.x0) = .ok (.float r.min) := by
  have hx : r.x0.finite = true := ok.xs _ (by simp [abscissaVals])
  unfold boolTimes min
  cases r.even with
  | true => simp only [if_true]; rw [F64.one_mul' _ hx]
  | false =>
    simp only [Bool.false_eq_true, if_false]
    rw [show F64.zero = F64.sz false from rfl, F64.sz_mul _ hx]; rfl

theorem times_inc (r : DS58) (ok : Fit r) : boolTimes r.even (.float (r.x1.sub r.x0)) = .ok (.float r.inc) := by
  have hx := ok.dx
  unfold boolTimes inc
  generalize r.x1.sub r.x0 = y at hx
  cases r.even with
  | true => simp only [if_true]; rw [F64.one_mul' _ hx]
  | false =>
    simp only [Bool.false_eq_true, if_false]
    rw [show F64.zero = F64.sz false from rfl, F64.sz_mul _ hx]; rfl

theorem func_good (r : DS58) (ok : Fit r) : funcOk (.int r.func) = .ok true := by
  have := ok.func
  generalize r.func = n at this
  simp only [List.mem_cons, List.not_mem_nil, or_false] at this
  rcases this with h | h | h | h | h | h | h <;> subst h <;> decide

/-- What goes through the text file. -/
def textOut (r : DS58) : Text := match r.store with
  | .ascii _ => frameText r.lines
  | .binary _ => blockText r.lines

/-- What the writer returns. -/
def ret (r : DS58) : Option Bytes := match r.store with
  | .ascii _ => none
  | .binary _ => some r.extra

/-- The storage asked for, as the writer sees it. -/
theorem store_in (little fd : Bool) (d : Dict) (r : DS58) (h : StoreRep d little fd r) :
    ∃ v b, (d3 fd d r).get? "binary" = some v ∧ v.truthy = .ok b ∧
      (b = true ↔ ∃ le, r.store = .binary le) ∧ (∀ le, r.store = .binary le → le = little) := by
  rw [get_d3 (by decide) (by decide) (by decide)]
  unfold StoreRep at h
  cases hs : r.store with
  | ascii dd =>
    rw [hs] at h
    obtain ⟨⟨v, h1, h2⟩, -⟩ := h
    refine ⟨v, false, ?_, ?_, by simp, by simp⟩
    · unfold d0
      rw [get?_opt_default (v := .int 0) rfl, h1]
    · rcases h2 with rfl | rfl <;> rfl
  | binary le =>
    rw [hs] at h
    obtain ⟨⟨v, h1, h2⟩, h3, -⟩ := h
    refine ⟨v, true, get?_opt_present h1, ?_, by simp, by simp [h3]⟩
    rcases h2 with rfl | rfl <;> rfl

theorem odt_in (little fd : Bool) (d : Dict) (r : DS58) (h : StoreRep d little fd r) :
    (d1 fd d r).get? "ord_data_type" = some (.int r.ordType) := by
  unfold d1
  cases fd with
  | true => rw [if_pos rfl]; exact Dict.get?_set_self _ _ _
  | false =>
    rw [if_neg (by decide)]
    unfold StoreRep at h
    cases hs : r.store with
    | ascii dd => rw [hs] at h; exact get?_opt_present h.2
    | binary le => rw [hs] at h; exact get?_opt_present (h.2.2 rfl)

theorem force_code (little : Bool) (d : Dict) (r : DS58) (h : StoreRep d little true r) :
    (if (!isReal r.ord) = true then 6 else 4 : Int) = r.ordType := by
  have hd : dbl r.store = true := by
    unfold StoreRep at h
    cases hs : r.store with
    | ascii dd => rw [hs] at h; exact h.2
    | binary le => rfl
  rw [code_eq, hd]
  cases isReal r.ord <;> rfl

theorem joinLines_one (l : Text) : joinLines [l] = l ++ ['\n'] := by simp [joinLines]

theorem idRest_eq (little : Bool) (r : DS58) (b : Bool) (hb : b = true ↔ ∃ le, r.store = .binary le)
    (hle : ∀ le, r.store = .binary le → le = little) (d : Dict) :
    ∃ rest, idl r = padLeft 6 (natRepr 58) ++ rest ∧ idRest58 little b (.ok (nb r)) d = ⟨rest ++ ['\n'], d, .ok ()⟩ := by
  unfold idRest58 idl
  cases hs : r.store with
  | ascii dd =>
    rw [hs] at hb
    have : b = false := by cases b <;> simp_all
    subst this
    exact ⟨padLeft 74 [' '], rfl, rfl⟩
  | binary le =>
    have hb' : b = true := hb.2 ⟨le, hs⟩
    have hl := hle le hs
    subst hb' hl
    refine ⟨_, rfl, ?_⟩
    rw [if_pos rfl, W.bind_lift_ok]
    have e : nb r = 8 * r.count := by unfold nb; rw [hs]; show r.count * 8 = _; omega
    rw [e]
    refine W.row_eq (.cons (fld_c ?_) (.cons (fld_c (fmtI_eq (isInt_int _) 6)) (.cons (fld_c (fmtI_eq (isInt_int _) 12))
      (.cons (fld_c (fmtI_eq (isInt_int _) 12)) (.cons (fld_c (fmtI_eq (isInt_int _) 6)) (.cons (fld_c (fmtI_eq (isInt_int _) 6))
      (.cons (fld_c (fmtI_eq (isInt_int _) 12)) (.cons (fld_c (fmtI_eq (isInt_int _) 12)) .nil))))))))
    cases le <;> rfl

theorem body_eq (little : Bool) (r : DS58) (b : Bool) (hb : b = true ↔ ∃ le, r.store = .binary le)
    (hle : ∀ le, r.store = .binary le → le = little) (d : Dict) :
    body58 little b (some (dbl r.store)) (isReal r.ord) r.even r.stored d
      = ⟨joinLines r.body ++ (match r.store with | .ascii _ => tailText | .binary _ => []), d, .ok r.ret⟩ := by
  unfold body58 body ret
  cases hs : r.store with
  | ascii dd =>
    rw [hs] at hb
    have : b = false := by cases b <;> simp_all
    subst this
    simp only [Bool.false_eq_true, if_false, dbl]
    rw [W.bind_emit, W.bind_emit]
    have e : asciiLines dd (isReal r.ord) r.even r.stored = joinLines (numLinesOf dd r) := by
      unfold asciiLines numLinesOf
      rw [lineFmt_eq, stored_eq, numLines_records _ _ (nums_length dd _ _) (fmts_pos _ _ _) _ (perLine_pos _ _ _)]
    rw [e]
    simp [W.pure]
  | binary le =>
    have hb' : b = true := hb.2 ⟨le, hs⟩
    have hl := hle le hs
    subst hb' hl
    simp only [if_true, extra, hs, payload_eq]
    rfl

theorem floats_eq (r : DS58) (xv : Val) (hxs : IsSeq (fun v x => v = .float x) xv r.abscissaVals) :
    xv.floats = .ok r.abscissaVals := by
  obtain ⟨xs, h1, h2, h3⟩ := hxs
  have hall : xs = r.abscissaVals.map Val.float := by
    apply List.ext_getElem (by simpa using h2)
    intro i g1 g2
    rw [List.getElem_map]
    exact h3 i g1 (by omega)
  have hm : ∀ l : List F64, mapRes Val.toFloat (l.map Val.float) = .ok l := by
    intro l
    have := mapRes_map (f := Val.toFloat) l Val.float id (fun _ _ => rfl)
    simpa using this
  cases xv with
  | arrF l =>
    simp only [Val.items, Except.ok.injEq] at h1
    have : l.map Val.float = r.abscissaVals.map Val.float := by rw [← hall, ← h1]
    have h0 : l = r.abscissaVals := (List.map_inj_right (fun a b hab => by injection hab)).1 this
    rw [h0]; rfl
  | list l =>
    simp only [Val.items, Except.ok.injEq] at h1
    subst h1
    unfold Val.floats
    rw [hall]
    have c1 : (r.abscissaVals.map Val.float).all Val.isFlat = true := by
      simp only [List.all_map, List.all_eq_true]; intro x _; rfl
    have c2 : (r.abscissaVals.map Val.float).any Val.isCplx = false := by
      simp only [List.any_map, List.any_eq_false]; intro x _; exact Bool.false_ne_true
    simp only [c1, c2, hm]; rfl
  | arrI l =>
    simp only [Val.items, Except.ok.injEq] at h1
    rw [hall] at h1
    exfalso
    cases l with
    | nil => simp [abscissaVals] at h1
    | cons a l => simp [abscissaVals] at h1
  | arrC l =>
    simp only [Val.items, Except.ok.injEq] at h1
    rw [hall] at h1
    exfalso
    cases l with
    | nil => simp [abscissaVals] at h1
    | cons a l => simp [abscissaVals] at h1
  | mat l =>
    simp only [Val.items, Except.ok.injEq] at h1
    rw [hall] at h1
    exfalso
    cases l with
    | nil => simp [abscissaVals] at h1
    | cons a l => simp [abscissaVals] at h1
  | none => simp [Val.items] at h1
  | bool _ => simp [Val.items] at h1
  | int _ => simp [Val.items] at h1
  | float _ => simp [Val.items] at h1
  | cplx _ _ => simp [Val.items] at h1
  | str l =>
    simp only [Val.items, Except.ok.injEq] at h1
    rw [hall] at h1
    exfalso
    cases l with
    | nil => simp [abscissaVals] at h1
    | cons a l => simp [abscissaVals] at h1
  | dict _ => simp [Val.items] at h1

/-- The same data-set with another ordinate. -/
def withOrd (r : DS58) (o : Ord58) : DS58 := { r with ord := o }

/-- Writing, whatever the storage and the type declared (that of the ordinate `u`): what depends on them are the rest of the
identifier line, the type in the header, and what follows the header. -/
theorem write_decl (little fd : Bool) (d : Dict) (r : DS58) (u : Ord58) (hu : (r.withOrd u).count = r.count) (h : Content d r)
    (ok : Fit r) (bv : Val) (b : Bool)
    (hbv : (d3 fd d r).get? "binary" = some bv) (hbt : bv.truthy = .ok b)
    (hodt : (d1 fd d r).get? "ord_data_type" = some (.int (r.withOrd u).ordType))
    (hforce : fd = true → (if (!isReal r.ord) = true then 6 else 4 : Int) = r.ordType) (rest o : Text) (x : Option Bytes)
    (hrest : idRest58 little b (.ok (nb r)) (d3 fd d r) = ⟨rest ++ ['\n'], d3 fd d r, .ok ()⟩)
    (hbody : body58 little b (some (dbl r.store)) (isReal r.ord) r.even r.stored (d3 fd d r) = ⟨o, d3 fd d r, .ok x⟩) :
    write58 little fd d = ⟨joinLines (tagText :: (padLeft 6 (natRepr 58) ++ rest) :: head (r.withOrd u)) ++ o, d3 fd d r, .ok x⟩ := by
  obtain ⟨sv, hsv, hsp⟩ := h.spacing
  obtain ⟨xv, hxv, hxs⟩ := h.x
  obtain ⟨u0, hi0, e0⟩ := hxs.idx (i := 0) (by simp [abscissaVals])
  obtain ⟨u1, hi1, e1⟩ := hxs.idx (i := 1) (by simp [abscissaVals])
  have e0 : u0 = .float r.x0 := e0
  have e1 : u1 = .float r.x1 := e1
  subst e0 e1
  have hdata : d.get? "data" = some (ordVal r.ord) := by
    have := h.ord; unfold OrdRep at this; unfold ordVal; cases ho : r.ord <;> rw [ho] at this <;> exact this
  have hcplx : (ordVal r.ord).isComplexObj = .ok (!isReal r.ord) := by cases r.ord <;> rfl
  have heven : sv.truthy = .ok r.even := by
    rcases hsp with rfl | rfl
    · cases r.even <;> rfl
    · rfl
  have hfloats : xv.floats = .ok r.abscissaVals := floats_eq r xv hxs
  have hint : interleave58 (isReal r.ord) r.even xv (ys r.ord) = .ok r.stored :=
    interleave_eq r xv (fun _ => hfloats) ok.length
  have hord : ordinate58 (ordVal r.ord) = .ok (ys r.ord) := by cases r.ord <;> rfl
  have hft : d.get? "func_type" = some (.int r.func) := h.func
  have hmin : Val.minus (.float r.x1) (.float r.x0) = .ok (.float (r.x1.sub r.x0)) := rfl
  have step1 : W.when (fd = true) (W.put "ord_data_type" (.int (if (!isReal r.ord) = true then 6 else 4))) (d0 d)
      = ⟨[], d1 fd d r, .ok ()⟩ := by
    unfold d1 W.when
    cases fd with
    | true => rw [if_pos rfl, if_pos rfl, hforce rfl]; rfl
    | false => rw [if_neg (by decide), if_neg (by decide)]; rfl
  have step2 : W.when ((d1 fd d r).has "n_bytes" = true) (W.bind (W.lift (.ok (nb r))) fun k => W.put "n_bytes" (.int k)) (d1 fd d r)
      = ⟨[], d2 fd d r, .ok ()⟩ := by
    unfold d2 W.when
    split
    · rfl
    · rfl
  have hsv' : (d2 fd d r).get? "abscissa_spacing" = some sv := by
    rw [get_d2 (by decide) (by decide)]
    unfold d0
    rw [get?_opt_default (v := .int 0) rfl, hsv]
  have hxv' : (d2 fd d r).get? "x" = some xv := by
    rw [get_d2 (by decide) (by decide)]; exact get?_opt_present hxv
  have i1 : HasStr (d3 fd d r) "id1" r.id1 := str_d3 (h.id1.opt rfl) (by kept)
  have i2 : HasStr (d3 fd d r) "id2" r.id2 := str_d3 (h.id2.opt rfl) (by kept)
  have i3 : HasStr (d3 fd d r) "id3" r.id3 := str_d3 (h.id3.opt rfl) (by kept)
  have i4 : HasStr (d3 fd d r) "id4" r.id4 := str_d3 (h.id4.opt rfl) (by kept)
  have i5 : HasStr (d3 fd d r) "id5" r.id5 := str_d3 (h.id5.opt rfl) (by kept)
  have j1 : HasInt (d3 fd d r) "func_type" r.func := int_d3 (HasInt.opt ⟨_, h.func, rfl⟩) (by kept)
  have j2 : HasInt (d3 fd d r) "func_id" r.funcId := int_d3 (h.funcId.opt rfl) (by kept)
  have j3 : HasInt (d3 fd d r) "ver_num" r.ver := int_d3 (h.ver.opt rfl) (by kept)
  have j4 : HasInt (d3 fd d r) "load_case_id" r.load := int_d3 (h.load.opt rfl) (by kept)
  have j5 : HasStr (d3 fd d r) "rsp_ent_name" r.rspName := str_d3 (h.rspName.opt rfl) (by kept)
  have j6 : HasInt (d3 fd d r) "rsp_node" r.rspNode := int_d3 h.rspNode.opt (by kept)
  have j7 : HasInt (d3 fd d r) "rsp_dir" r.rspDir := int_d3 h.rspDir.opt (by kept)
  have j8 : HasStr (d3 fd d r) "ref_ent_name" r.refName := str_d3 (h.refName.opt rfl) (by kept)
  have j9 : HasInt (d3 fd d r) "ref_node" r.refNode := int_d3 h.refNode.opt (by kept)
  have j10 : HasInt (d3 fd d r) "ref_dir" r.refDir := int_d3 h.refDir.opt (by kept)
  have jz : HasFloat (d3 fd d r) "z_axis_value" r.zValue := flt_d3 (h.zValue.opt rfl) (by kept)
  have f4 : FldOk (d3 fd d r) ⟨fun _ => boolTimes r.even (.float r.x0), fmtEV 13 5⟩ (padLeft 13 (fmtE 5 r.min)) :=
    ⟨_, times_min r ok, fmtEV_eq (show IsFloat (Val.float r.min) r.min from rfl) 13 5⟩
  have f5 : FldOk (d3 fd d r) ⟨fun _ => boolTimes r.even (.float (r.x1.sub r.x0)), fmtEV 13 5⟩ (padLeft 13 (fmtE 5 r.inc)) :=
    ⟨_, times_inc r ok, fmtEV_eq (show IsFloat (Val.float r.inc) r.inc from rfl) 13 5⟩
  have f3 : fmtI 10 (.bool r.even) = .ok (padLeft 10 (intRepr (if r.even then 1 else 0))) := by cases r.even <;> rfl
  have hw0 : ¬ (true = false) := by decide
  have a1 := unitsRow_eq (axis_abscissa d r fd h.abscissa)
  have a2 := unitsRow_eq (axis_ordinate d r fd h.ordinate)
  have a3 := unitsRow_eq (axis_orddenom d r fd h.denomSpec h.orddenom)
  have a4 := unitsRow_eq (axis_zAxis d r fd h.zAxis)
  have hd3 : (d2 fd d r).set "abscissa_min" (.float r.x0) = d3 fd d r := rfl
  have hprec : prec58 (.int (r.withOrd u).ordType) = .ok (some (dbl r.store)) := prec_eq (r.withOrd u)
  generalize d3 fd d r = D at *
  unfold write58
  apply W.guarded_ok
  simp only [W.bind_eq]
  rw [W.bind_key hft, func_good r ok, W.bind_lift_ok, W.bind_when_neg hw0, W.bind_opt,
    W.bind_key (v := ordVal r.ord) (get?_opt_present hdata), ordVal_len _ r rfl, W.bind_lift_ok, hcplx, W.bind_lift_ok]
  rw [show optFields d opt58 = d0 d from rfl, W.bind_ok' step1, W.bind_key hodt, hprec, W.bind_lift_ok,
    W.bind_getDict, nBytes_eq, W.bind_ok' step2, W.bind_key hsv', heven, W.bind_lift_ok, W.bind_key hxv']
  rw [hi0, W.bind_lift_ok, W.bind_put, hi1, W.bind_lift_ok, hmin, W.bind_lift_ok, W.bind_emit']
  rw [hd3, W.bind_key hbv, hbt, W.bind_lift_ok,
    W.bind_ok' hrest]
  rw [W.bind_row' (.cons (i1.fldL 80) .nil), W.bind_row' (.cons (i2.fldL 80) .nil),
    W.bind_row' (.cons (i3.fldL 80) .nil), W.bind_row' (.cons (i4.fldL 80) .nil), W.bind_row' (.cons (i5.fldL 80) .nil),
    W.bind_row' (.cons (j1.fld 5) (.cons (j2.fld 10) (.cons (j3.fld 5) (.cons (j4.fld 10) (.cons (fld_sr1 j5 10)
      (.cons (j6.fld 10) (.cons (j7.fld 4) (.cons (fld_sr1 j8 10) (.cons (j9.fld 10) (.cons (j10.fld 4) .nil)))))))))),
    W.bind_row' (.cons (fld_c (fmtI_eq (isInt_int _) 10)) (.cons (fld_c (fmtI_eq (isInt_int _) 10)) (.cons (fld_c f3)
      (.cons f4 (.cons f5 (.cons (jz.fld 13 5) .nil))))))]
  rw [W.bind_ok' a1, W.bind_ok' a2, W.bind_ok' a3, W.bind_ok' a4]
  rw [hord, W.bind_lift_ok, Bool.not_not, hint, W.bind_lift_ok, hbody]
  simp only [WRes.pre_mk]
  congr 1
  have htop : ∀ tl : Text, padLeft 6 ['-', '1'] ++ '\n' :: padLeft 6 (natRepr 58) ++ (rest ++ ['\n'] ++ tl)
      = tagText ++ '\n' :: (padLeft 6 (natRepr 58) ++ (rest ++ '\n' :: tl)) := by
    intro tl
    simp only [List.append_assoc, List.cons_append, List.nil_append]
    rfl
  simp only [List.nil_append]
  rw [htop]
  have hc : (r.withOrd u).count = r.count := hu
  simp only [head, formFields, hc]
  simp [joinLines, recFields]
  rfl

/-- Writing, whatever the storage, with the type of the ordinate. -/
theorem write_core (little fd : Bool) (d : Dict) (r : DS58) (h : Content d r) (ok : Fit r) (bv : Val) (b : Bool)
    (hbv : (d3 fd d r).get? "binary" = some bv) (hbt : bv.truthy = .ok b)
    (hodt : (d1 fd d r).get? "ord_data_type" = some (.int r.ordType))
    (hforce : fd = true → (if (!isReal r.ord) = true then 6 else 4 : Int) = r.ordType) (rest o : Text) (x : Option Bytes)
    (hrest : idRest58 little b (.ok (nb r)) (d3 fd d r) = ⟨rest ++ ['\n'], d3 fd d r, .ok ()⟩)
    (hbody : body58 little b (some (dbl r.store)) (isReal r.ord) r.even r.stored (d3 fd d r) = ⟨o, d3 fd d r, .ok x⟩) :
    write58 little fd d = ⟨joinLines (tagText :: (padLeft 6 (natRepr 58) ++ rest) :: head r) ++ o, d3 fd d r, .ok x⟩ :=
  write_decl little fd d r r.ord rfl h ok bv b hbv hbt hodt hforce rest o x hrest hbody

theorem write_eq (little fd : Bool) (d : Dict) (r : DS58) (h : Rep little fd d r) (ok : Fit r) :
    write58 little fd d = ⟨textOut r, d3 fd d r, .ok r.ret⟩ := by
  obtain ⟨bv, b, hbv, hbt, hb, hle⟩ := store_in little fd d r h.store
  obtain ⟨rest, hidl, hrest⟩ := idRest_eq little r b hb hle (d3 fd d r)
  rw [write_core little fd d r h.toContent ok bv b hbv hbt (odt_in little fd d r h.store)
    (fun hf => force_code little d r (hf ▸ h.store)) rest _ _ hrest (body_eq little r b hb hle _), ← hidl]
  congr 1
  unfold textOut
  cases hs : r.store with
  | ascii dd =>
    simp [frameText, lines, joinLines, tailText, tagText]
    rfl
  | binary le =>
    simp [blockText, lines, joinLines, tagText, body, hs]

end DS58
end Verif
