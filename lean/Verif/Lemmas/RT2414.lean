import Verif.Lemmas.RT55
import Verif.Lemmas.RT2467
import Verif.Lemmas.RT18
import Verif.Lemmas.RT58
import Verif.Model.DS2414
import Verif.Spec.S2414
/-
Round trip of data-set 2414.
-/
namespace Verif
open F64

theorem expDigits (k : Nat) (h : k < 100) : (if k < 10 then '0' :: natRepr k else natRepr k).length = 2 := by
  revert h; revert k; decide +kernel

theorem expRepr_two (e : Int) (h1 : -100 < e) (h2 : e < 100) : (expRepr e).length = 3 := by
  unfold expRepr
  rw [List.length_cons, expDigits e.natAbs (by omega)]

/-- A finite number whose decimal exponent has two digits: zero, or a magnitude of at least `1e-99` and
below `9e99`. -/
def TwoDigit (x : F64) : Prop :=
  x.finite = true ∧ (x.mag = 0 ∨ F64.scale ≤ x.units * 10 ^ 99 ∧ x.units < 9 * 10 ^ 99 * F64.scale)

theorem twoDigit_exp (x : F64) (h : TwoDigit x) : -100 < (toDec 5 x.units).2 ∧ (toDec 5 x.units).2 < 100 := by
  obtain ⟨hf, h0 | ⟨h1, h2⟩⟩ := h
  · rw [F64.units_zero h0]; exact ⟨by decide, by decide⟩
  · have hu : 0 < x.units := by
      rcases Nat.eq_zero_or_pos x.units with e | e
      · rw [e] at h1; have := scale_pos; omega
      · exact e
    obtain ⟨a, b⟩ := decExp_spec _ hu
    have hs := scale_pos
    have e1 : 301 ≤ decExp x.units := by
      by_contra hc
      have : decExp x.units + 1 ≤ 301 := by omega
      have p := Nat.pow_le_pow_right (show 0 < 10 by decide) this
      have q : 10 ^ (decExp x.units + 1) * scale ≤ 10 ^ 301 * scale := Nat.mul_le_mul_right _ p
      have r : 10 ^ 301 * scale ≤ x.units * decScale := by
        rw [decScale_eq]
        calc 10 ^ 301 * scale ≤ 10 ^ 301 * (x.units * 10 ^ 99) := Nat.mul_le_mul_left _ h1
          _ = x.units * 10 ^ 400 := by rw [Nat.mul_left_comm, ← Nat.pow_add]
      omega
    have e2 : decExp x.units ≤ 499 := by
      by_contra hc
      have p := Nat.pow_le_pow_right (show 0 < 10 by decide) (show 500 ≤ decExp x.units by omega)
      have q : 10 ^ 500 * scale ≤ 10 ^ decExp x.units * scale := Nat.mul_le_mul_right _ p
      have r : x.units * decScale < 9 * 10 ^ 99 * scale * decScale :=
        Nat.mul_lt_mul_of_pos_right h2 decScale_pos
      have s : 9 * 10 ^ 99 * scale * decScale ≤ 10 ^ 500 * scale := by
        rw [decScale_eq, Nat.mul_right_comm, Nat.mul_assoc 9, ← Nat.pow_add]
        refine Nat.mul_le_mul_right _ ?_
        decide +kernel
      omega
    unfold toDec
    rw [if_neg (by omega)]
    split
    · rename_i hsig
      have e3 : decExp x.units ≠ 499 := by
        intro e
        have := rhe_le (x.units * decScale * 10 ^ 5) (scale * 10 ^ decExp x.units) 900000
          (by rw [e]; exact decDen_pos 499) (by
            rw [e]
            have r : x.units * decScale ≤ 9 * 10 ^ 99 * scale * decScale := Nat.mul_le_mul_right _ (Nat.le_of_lt h2)
            calc x.units * decScale * 10 ^ 5 ≤ 9 * 10 ^ 99 * scale * decScale * 10 ^ 5 := Nat.mul_le_mul_right _ r
              _ = 900000 * (scale * 10 ^ 499) := by
                  rw [decScale_eq]
                  have : 9 * 10 ^ 99 * scale * 10 ^ 400 * 10 ^ 5 = (9 * 10 ^ 5) * (scale * (10 ^ 99 * 10 ^ 400)) := by ring
                  rw [this, ← Nat.pow_add]; norm_num)
        unfold decSig at hsig
        rw [hsig] at this
        exact absurd this (by decide)
      simp only
      unfold decShift
      omega
    · simp only
      unfold decShift
      omega

theorem twoDigit_length (x : F64) (h : TwoDigit x) : (fmtE 5 x).length = (if x.neg then 1 else 0) + 11 := by
  obtain ⟨a, b⟩ := twoDigit_exp x h
  rw [fmtE_body 5 x h.1]
  simp only [List.length_append, List.length_cons, digitsW_length, expRepr_two _ a b]
  cases x.neg <;> rfl

theorem eleven_length (x : F64) (h : Eleven x) : (fmtE 5 x).length = 11 := h.2

theorem apart_length (x : F64) (h : Apart x) : (fmtE 5 x).length < 13 := h.2

theorem eleven_of (x : F64) (h : TwoDigit x) (hn : x.neg = false) : Eleven x :=
  ⟨h.1, by rw [twoDigit_length x h, hn]; rfl⟩

theorem apart_of (x : F64) (hf : x.finite = true) (h : x.neg = false ∨ TwoDigit x) : Apart x := by
  refine ⟨hf, ?_⟩
  obtain h | h := h
  · rw [fmtE_body 5 x hf, h]
    have hb := toDec_exp_bound 5 x.units (units_lt x hf)
    have he := expRepr_length _ hb.1 hb.2
    simp only [List.length_append, List.length_cons, digitsW_length]
    simp
    omega
  · rw [twoDigit_length x h]
    cases x.neg <;> simp

theorem eleven_pad (x : F64) (h : Eleven x) : [' ', ' '] ++ fmtE 5 x = padLeft 13 (fmtE 5 x) := by
  unfold padLeft; rw [eleven_length x h]; rfl

theorem HasFloat.fld2 {d : Dict} {k : Key} {x : F64} (h : HasFloat d k x) :
    FldOk d (.e2 k) ([' ', ' '] ++ fmtE 5 x) := by
  obtain ⟨v, g, i⟩ := h
  refine ⟨v, by simp [Fld.e2, Dict.get, g], ?_⟩
  simp only [Fld.e2]
  rw [fmtEV_eq i]
  simp [padLeft, Except.map]

theorem six_pad (r : Six) (ok : r.Ok) :
    [[' ', ' '] ++ fmtE 5 r.x1, [' ', ' '] ++ fmtE 5 r.x2, [' ', ' '] ++ fmtE 5 r.x3, [' ', ' '] ++ fmtE 5 r.x4,
      [' ', ' '] ++ fmtE 5 r.x5, [' ', ' '] ++ fmtE 5 r.x6]
      = DS55.vfields [r.x1, r.x2, r.x3, r.x4, r.x5, r.x6] := by
  simp only [DS55.vfields, List.map_cons, List.map_nil, eleven_pad _ ok.x1, eleven_pad _ ok.x2, eleven_pad _ ok.x3,
    eleven_pad _ ok.x4, eleven_pad _ ok.x5, eleven_pad _ ok.x6]

/-! Lines of any number of values. -/

/-- No `n` blanks in a row. -/
def NoRun (n : Nat) (t : Text) : Prop := ¬ blanks n <:+: t

theorem noRun_append (n : Nat) (a b : Text) (ha : NoRun n a) (hb : NoRun n b) (hl : a.getLast? ≠ some ' ') :
    NoRun n (a ++ b) := by
  intro h
  obtain ⟨s, t, e⟩ := h
  rw [List.append_eq_append_iff] at e
  rcases e with ⟨q, e1, e2⟩ | ⟨q, e1, e2⟩
  · exact ha ⟨s, q, e1.symm⟩
  · rw [List.append_eq_append_iff] at e1
    rcases e1 with ⟨p, f1, f2⟩ | ⟨p, f1, f2⟩
    · by_cases h0 : p = []
      · subst h0
        rw [List.nil_append] at f2
        exact hb ⟨[], t, by rw [f2, e2]; rfl⟩
      · apply hl
        rw [f1, List.getLast?_append, List.getLast?_eq_some_getLast h0]
        have : p.getLast h0 ∈ blanks n := by rw [f2]; simp
        simp [blanks] at this
        simp [this.2]
    · rw [f2, List.append_assoc] at e2
      exact hb ⟨p, t, by rw [e2, List.append_assoc]⟩

theorem noRun_tagFree (t : Text) (h : NoRun 74 t) (h2 : ¬ tagText <:+ t) : TagFree t := by
  intro s hs
  refine ⟨fun e => h2 (e ▸ hs), ?_⟩
  rintro ⟨q, hq⟩
  obtain ⟨p, hp⟩ := hs
  exact h ⟨p ++ tagText, q, by rw [← hp, ← hq]; simp⟩

theorem NoRun.mono {m n : Nat} {t : Text} (h : NoRun m t) (hmn : m ≤ n) : NoRun n t := by
  intro hc
  refine h (List.IsInfix.trans ⟨[], blanks (n - m), ?_⟩ hc)
  simp only [blanks, List.nil_append, List.replicate_append_replicate]
  congr 1; omega

theorem fmtE_last (p : Nat) (x : F64) (hx : x.finite = true) (w : Nat) : (padLeft w (fmtE p x)).getLast? ≠ some ' ' := by
  have hne := fmtE_ne_nil p x hx
  unfold padLeft
  rw [List.getLast?_append, List.getLast?_eq_some_getLast hne]
  have := fmtE_noSpace p x hx _ (List.getLast_mem hne)
  intro hc
  simp at hc
  rw [hc] at this
  exact absurd this (by decide)

theorem noRun_field (x : F64) (hx : x.finite = true) : NoRun 13 (padLeft 13 (fmtE 5 x)) := by
  intro h
  have l := len_flt 13 5 x hx (by decide)
  have := h.eq_of_length (by rw [l]; simp [blanks])
  exact fmtE_last 5 x hx 13 (by rw [← this]; decide)

theorem vfields_noRun (vs : List F64) (h : ∀ x ∈ vs, x.finite = true) : NoRun 13 (DS55.vfields vs).flatten := by
  induction vs with
  | nil =>
    intro hc
    have := hc.length_le
    simp [blanks, DS55.vfields] at this
  | cons x r ih =>
    have hx := h x (by simp)
    exact noRun_append 13 _ _ (noRun_field x hx) (ih fun y hy => h y (by simp [hy])) (fmtE_last 5 x hx 13)

/-- A line of any number of values is not mistaken for a delimiter. -/
theorem vals_tagFree (vs : List F64) (h : ∀ x ∈ vs, x.finite = true) : TagFree (DS55.vfields vs).flatten := by
  refine noRun_tagFree _ ((vfields_noRun vs h).mono (by decide)) ?_
  rcases List.eq_nil_or_concat vs with rfl | ⟨pre, x, rfl⟩
  · decide
  · rw [List.concat_eq_append] at h ⊢
    have hx := h x (by simp)
    have t := DS55.vfields_tagFree [x] (by simpa using hx) (by simp) (by simp)
    intro hc
    have e : (DS55.vfields (pre ++ [x])).flatten = (DS55.vfields pre).flatten ++ (DS55.vfields [x]).flatten := by
      simp [DS55.vfields]
    rw [e] at hc
    have l : (DS55.vfields [x]).flatten.length = 13 := by
      simp [DS55.vfields, len_flt 13 5 x hx (by decide)]
    have hs : tagText <:+ (DS55.vfields [x]).flatten :=
      List.suffix_of_suffix_length_le hc (List.suffix_append _ _) (by rw [l]; decide)
    exact (t _ hs).1 rfl

/-! Words of a line. -/

/-- The words of a line of values, whatever follows. -/
theorem splitWs_vals (vs : List F64) (h : Spaced vs) (rest : Text) (hr : StartsSpace rest) :
    splitWs ((DS55.vfields vs).flatten ++ rest) = vs.map (fmtE 5) ++ splitWs rest := by
  cases vs with
  | nil => rfl
  | cons x r =>
    have hx := h.1 x (by simp)
    have hr' : ∀ f ∈ r.map (fun y => (13, fmtE 5 y)), TokOk f.1 f.2 := by
      intro f hf
      obtain ⟨y, hy, rfl⟩ := List.mem_map.1 hf
      have hy' := h.1 y (by simp [hy])
      exact ⟨fmtE_noSpace 5 y hy', fmtE_ne_nil 5 y hy', apart_length y (h.2 y (by simpa using hy))⟩
    have e : (DS55.vfields (x :: r)).flatten ++ rest
        = padLeft 13 (fmtE 5 x) ++ (fieldLine (r.map fun y => (13, fmtE 5 y)) ++ rest) := by
      simp [DS55.vfields, fieldLine, Function.comp_def]
    rw [e, splitWs_padLeft _ _ _ (fmtE_noSpace 5 x hx) (fmtE_ne_nil 5 x hx) (startsSpace_fieldLine _ _ hr' hr),
      splitWs_fieldLine _ _ hr' hr]
    simp [Function.comp_def]

theorem splitWs_intLine (w : Nat) (n : Int) (rest : Text) (hr : StartsSpace rest) :
    splitWs (padLeft w (intRepr n) ++ rest) = intRepr n :: splitWs rest :=
  splitWs_padLeft w _ _ (intRepr_noSpace n) (intRepr_ne_nil n) hr

theorem floats_of (vs : List F64) (h : ∀ x ∈ vs, x.finite = true) :
    mapRes pyFloat (vs.map (fmtE 5)) = .ok (vs.map (F64.quant 5)) :=
  mapRes_map vs _ _ fun x hx => pyFloat_flt 5 x (h x hx)

namespace DS2414

/-! Writing. -/

/-- Printed integers. -/
def eightF (r : Eight) : List Text :=
  [padLeft 10 (intRepr r.a1), padLeft 10 (intRepr r.a2), padLeft 10 (intRepr r.a3), padLeft 10 (intRepr r.a4),
   padLeft 10 (intRepr r.a5), padLeft 10 (intRepr r.a6), padLeft 10 (intRepr r.a7), padLeft 10 (intRepr r.a8)]
/-- Printed numbers. -/
def sixF (r : Six) : List Text := DS55.vfields [r.x1, r.x2, r.x3, r.x4, r.x5, r.x6]

/-- Records 10 and 11. -/
def ints : Body2414 → List Text × List Text
  | .freq _ h _ => (eightF h.ids, [padLeft 10 (intRepr h.creation), padLeft 10 (intRepr h.retained)])
  | .plain _ _ h _ => (eightF h.rec10, eightF h.rec11)
/-- Records 12 and 13. -/
def flts : Body2414 → Six × Six
  | .freq _ h _ => (h.rec12, h.rec13)
  | .plain _ _ h _ => (h.rec12, h.rec13)

/-- Node numbers and values of a frequency response. -/
def rows : FreqData → List (Int × List F64)
  | .one l => l.map fun n => (n.num, parts [n.x])
  | .two l => l.map fun n => (n.num, parts [n.x, n.y])
  | .three l => l.map fun n => (n.num, parts [n.x, n.y, n.z])

/-- A line of values. -/
def vline (vs : List F64) : Text := (DS55.vfields vs).flatten
/-- The header of an element with its number of values. -/
def elemLine (n : Vals) : Text :=
  [padLeft 10 (intRepr n.num), padLeft 10 (intRepr (n.vals.length : Int))].flatten
/-- The fields of the header of an element with values at its nodes. -/
def elemFields (e : ElemVals) : List Text :=
  [padLeft 10 (intRepr e.num), padLeft 10 (intRepr e.iexp), padLeft 10 (intRepr e.nodes), padLeft 10 (intRepr e.nvals)]

/-- Records 14 and 15. -/
def dataLines : Body2414 → List Text
  | .freq _ _ d => (rows d).flatMap DS55.nodeLines
  | .plain _ _ _ (.atNodes l) => l.flatMap fun n => [padLeft 10 (intRepr n.num), vline n.vals]
  | .plain _ _ _ (.onElems l) => l.flatMap fun n => [elemLine n, vline n.vals]
  | .plain _ _ _ (.atElemNodes l) => l.flatMap fun e => (elemFields e).flatten :: e.rows.map vline
  | .plain _ _ _ (.other _) => []

/-- Line of the types. -/
def typeFields (r : DS2414) : List Text :=
  [padLeft 10 (intRepr r.model), padLeft 10 (intRepr (analysis r.body)), padLeft 10 (intRepr r.ch),
   padLeft 10 (intRepr r.result), padLeft 10 (intRepr r.dtype), padLeft 10 (intRepr (comps r.body))]

/-- The lines after the types. -/
def bodyLines (b : Body2414) : List Text :=
  (ints b).1.flatten :: (ints b).2.flatten :: (sixF (flts b).1).flatten :: (sixF (flts b).2).flatten :: dataLines b

/-- The lines between the delimiters. -/
def lines (r : DS2414) : List Text :=
  padLeft 6 (natRepr 2414) :: padLeft 10 (intRepr r.label) :: padRight 80 r.name :: padLeft 10 (intRepr (loc r.body)) ::
  padRight 80 r.id1 :: padRight 80 r.id2 :: padRight 80 r.id3 :: padRight 80 r.id4 :: padRight 80 r.id5 ::
  (typeFields r).flatten :: bodyLines r.body

theorem HasIntArr.ints {d : Dict} {k : Key} {l : List Int} (h : HasIntArr d k l) : HasInts d k l := by
  obtain ⟨v, g, -, s⟩ := h
  exact ⟨v, g, s⟩

theorem HasIntArr.shape {d : Dict} {k : Key} {l : List Int} (h : HasIntArr d k l) :
    ∃ v, d.get? k = some v ∧ v.shape0 = .ok l.length := by
  obtain ⟨v, g, ha, s⟩ := h
  refine ⟨v, g, ?_⟩
  have := s.len
  rcases ha with ⟨m, rfl⟩ | ⟨m, rfl⟩ <;> exact this

theorem HasIntArr.opt {d : Dict} {k : Key} {l : List Int} {fs : List (Key × Val)} (h : HasIntArr d k l) :
    HasIntArr (optFields d fs) k l := by
  obtain ⟨v, g, s⟩ := h
  exact ⟨v, get?_opt_present g, s⟩

theorem reIm_ok {d : Dict} {k : Key} {i : Nat} {x y : F64} (h : Fld.at_ k i d = .ok (.cplx x y)) {fs : List Fld}
    {ts : List Text} (hf : FldsOk d fs ts) :
    FldsOk d (reIm k i ++ fs) (padLeft 13 (fmtE 5 x) :: padLeft 13 (fmtE 5 y) :: ts) := by
  refine .cons ⟨.float x, ?_, fmtEV_float 13 5 _⟩ (.cons ⟨.float y, ?_, fmtEV_float 13 5 _⟩ hf)
  · simp only [h]; rfl
  · simp only [h]; rfl

theorem freqLoop (d : Dict) (x : FreqData) (h : FreqDataRep d x) (loc : Int) (hd : FreqHead) :
    ∃ v, d.get? "node_nums" = some v ∧ v.shape0 = .ok (rows x).length ∧
      W.forL (List.range (rows x).length) (freqNode (.int (comps (.freq loc hd x)))) d
        = ⟨(rows x).flatMap fun n => joinLines (DS55.nodeLines n), d, .ok ()⟩ := by
  cases x with
  | one l =>
    obtain ⟨hn, h1⟩ := h
    obtain ⟨v, g, s⟩ := hn.shape
    refine ⟨v, g, by rw [s]; simp [rows], ?_⟩
    apply W.forL_range
    intro i hi
    have hi' : i < l.length := by simpa [rows] using hi
    unfold freqNode
    rw [W.bind_row (.cons (hn.ints.intAt hi' 10) .nil)]
    have n3 : (Val.int (comps (.freq loc hd (.one l)))).numEq 3 = false := rfl
    have n2 : (Val.int (comps (.freq loc hd (.one l)))).numEq 2 = false := rfl
    have n1 : (Val.int (comps (.freq loc hd (.one l)))).numEq 1 = true := rfl
    simp only [n1, n2, n3, Bool.false_eq_true, if_false, if_true]
    have e1 := reIm_ok (DS55.cplx_at h1 hi') .nil
    rw [List.append_nil] at e1
    rw [W.row_eq e1]
    simp [joinLines, DS55.nodeLines, rows, DS55.vfields, parts]
  | two l =>
    obtain ⟨hn, h1, h2⟩ := h
    obtain ⟨v, g, s⟩ := hn.shape
    refine ⟨v, g, by rw [s]; simp [rows], ?_⟩
    apply W.forL_range
    intro i hi
    have hi' : i < l.length := by simpa [rows] using hi
    unfold freqNode
    rw [W.bind_row (.cons (hn.ints.intAt hi' 10) .nil)]
    have n3 : (Val.int (comps (.freq loc hd (.two l)))).numEq 3 = false := rfl
    have n2 : (Val.int (comps (.freq loc hd (.two l)))).numEq 2 = true := rfl
    simp only [n2, n3, Bool.false_eq_true, if_false, if_true]
    have e2 := reIm_ok (DS55.cplx_at h2 hi') .nil
    rw [List.append_nil] at e2
    rw [W.row_eq (reIm_ok (DS55.cplx_at h1 hi') e2)]
    simp [joinLines, DS55.nodeLines, rows, DS55.vfields, parts]
  | three l =>
    obtain ⟨hn, h1, h2, h3⟩ := h
    obtain ⟨v, g, s⟩ := hn.shape
    refine ⟨v, g, by rw [s]; simp [rows], ?_⟩
    apply W.forL_range
    intro i hi
    have hi' : i < l.length := by simpa [rows] using hi
    unfold freqNode
    rw [W.bind_row (.cons (hn.ints.intAt hi' 10) .nil)]
    have n3 : (Val.int (comps (.freq loc hd (.three l)))).numEq 3 = true := rfl
    simp only [n3, if_true]
    have e3 := reIm_ok (DS55.cplx_at h3 hi') .nil
    rw [List.append_nil] at e3
    rw [W.row_eq (reIm_ok (DS55.cplx_at h1 hi') (reIm_ok (DS55.cplx_at h2 hi') e3))]
    simp [joinLines, DS55.nodeLines, rows, DS55.vfields, parts]

theorem freq_eq (d : Dict) (loc : Int) (h : FreqHead) (x : FreqData) (hr : FreqRep d h) (hx : FreqDataRep d x)
    (hc : d.get? "number_of_data_values_for_the_data_component" = some (.int (comps (.freq loc h x))))
    (ok : BodyOk (.freq loc h x)) :
    freqRest d = ⟨joinLines (bodyLines (.freq loc h x)) ++ tailText, d, .ok ()⟩ := by
  obtain ⟨v, hv, hs, hl⟩ := freqLoop d x hx loc h
  obtain ⟨-, -, -, -, o1, o2, -⟩ := ok
  unfold freqRest freqInts
  simp only [W.bind_eq]
  rw [W.bind_row' (.cons (hr.a1.fld 10) (.cons (hr.a2.fld 10) (.cons (hr.a3.fld 10) (.cons (hr.a4.fld 10)
      (.cons (hr.a5.fld 10) (.cons (hr.a6.fld 10) (.cons (hr.a7.fld 10) (.cons (hr.a8.fld 10) .nil)))))))),
    W.bind_row' (.cons (hr.creation.fld 10) (.cons (hr.retained.fld 10) .nil)),
    W.bind_row' (.cons hr.x1.fld2 (.cons hr.x2.fld2 (.cons hr.x3.fld2 (.cons hr.x4.fld2 (.cons hr.x5.fld2
      (.cons hr.x6.fld2 .nil)))))),
    W.bind_row' (.cons hr.y1.fld2 (.cons hr.y2.fld2 (.cons hr.y3.fld2 (.cons hr.y4.fld2 (.cons hr.y5.fld2
      (.cons hr.y6.fld2 .nil)))))),
    W.bind_key hv, hs, W.bind_lift_ok, W.bind_key hc, W.bind_ok' hl, six_pad _ o1, six_pad _ o2]
  simp [WRes.pre, W.emit_eq, bodyLines, ints, flts, sixF, eightF, dataLines, joinLines, List.flatMap_assoc]

theorem writeVals_eq (d : Dict) {v : Val} {l : List F64} (h : IsSeq IsFloat v l) :
    writeVals v d = ⟨vline l ++ ['\n'], d, .ok ()⟩ := by
  obtain ⟨xs, hi, hl, hx⟩ := h
  unfold writeVals
  rw [hi, W.bind_lift_ok, W.bind_forL_eq (W.forL_get xs l _ (fun x => padLeft 13 (fmtE 5 x)) d hl ?_)]
  · simp [W.emit_eq, vline, DS55.vfields, List.flatMap_def]
  · intro i h1 h2
    rw [W.bind_ok (W.format_eq (.cons (fld_c (fmtEV_eq (hx i h1 h2) 13 5)) .nil))]
    simp [W.emit_eq]

theorem seq_at {α β : Type} {P : Val → β → Prop} {d : Dict} {k : Key} {l : List α} {f : α → β} {v : Val}
    (g : d.get? k = some v) (s : IsSeq P v (l.map f)) {i : Nat} (hi : i < l.length) :
    ∃ x, Fld.at_ k i d = .ok x ∧ P x (f l[i]) := by
  obtain ⟨x, h1, h2⟩ := s.idx (i := i) (by simpa using hi)
  refine ⟨x, by simp only [Fld.at_, Dict.get, g, h1], ?_⟩
  rwa [List.getElem_map] at h2

theorem bind_keyAt {β : Type} {k : Key} {i : Nat} {d : Dict} {v : Val} (h : Fld.at_ k i d = .ok v) (f : Val → W β) :
    W.bind (W.keyAt k i) f d = f v d := by
  rw [W.bind_ok (show W.keyAt k i d = ⟨[], d, .ok v⟩ by simp only [W.keyAt, h])]
  rfl

theorem locNodes_eq (d : Dict) (l : List Vals) (h : PlainDataRep d (.atNodes l)) (a c : Int) (p : PlainHead) :
    locNodes d = ⟨joinLines (dataLines (.plain a c p (.atNodes l))) ++ tailText, d, .ok ()⟩ := by
  obtain ⟨hn, w, gw, sw⟩ := h
  obtain ⟨v, g, s⟩ := hn.shape
  unfold locNodes
  simp only [W.bind_eq]
  rw [W.bind_key g, s, W.bind_lift_ok, List.length_map, W.bind_forL_eq (W.forL_range l _
    (fun n => joinLines [padLeft 10 (intRepr n.num), vline n.vals]) d ?_)]
  · simp [W.emit_eq, dataLines, joinLines_flatMap]
  · intro i hi
    obtain ⟨x, hx, sx⟩ := seq_at gw sw hi
    rw [W.bind_row (.cons (hn.ints.at_row hi 10) .nil), bind_keyAt hx, writeVals_eq d sx]
    simp [joinLines]

theorem locElems_eq (d : Dict) (l : List Vals) (h : PlainDataRep d (.onElems l)) (a c : Int) (p : PlainHead) :
    locElems d = ⟨joinLines (dataLines (.plain a c p (.onElems l))) ++ tailText, d, .ok ()⟩ := by
  obtain ⟨hn, w, gw, sw⟩ := h
  obtain ⟨v, g, s⟩ := hn.shape
  unfold locElems
  simp only [W.bind_eq]
  rw [W.bind_key g, s, W.bind_lift_ok, List.length_map, W.bind_forL_eq (W.forL_range l _
    (fun n => joinLines [elemLine n, vline n.vals]) d ?_)]
  · simp [W.emit_eq, dataLines, joinLines_flatMap]
  · intro i hi
    obtain ⟨x, hx, sx⟩ := seq_at gw sw hi
    have f2 : FldOk d (.lenAt 10 "data_at_element" i) (padLeft 10 (intRepr (l[i].vals.length : Int))) :=
      ⟨.int (l[i].vals.length : Int), by simp only [Fld.lenAt, hx, sx.len], fmtI_eq (isInt_int _) 10⟩
    rw [W.bind_row (.cons (hn.ints.at_row hi 10) (.cons f2 .nil)), bind_keyAt hx, writeVals_eq d sx]
    simp [joinLines, elemLine]

theorem locElemNodes_eq (d : Dict) (l : List ElemVals) (h : PlainDataRep d (.atElemNodes l)) (a c : Int) (p : PlainHead) :
    locElemNodes d = ⟨joinLines (dataLines (.plain a c p (.atElemNodes l))) ++ tailText, d, .ok ()⟩ := by
  obtain ⟨hn, h1, h2, h3, w, gw, sw⟩ := h
  obtain ⟨v, g, s⟩ := hn.shape
  unfold locElemNodes
  simp only [W.bind_eq]
  rw [W.bind_key g, s, W.bind_lift_ok, List.length_map, W.bind_forL_eq (W.forL_range l _
    (fun e => joinLines ((elemFields e).flatten :: e.rows.map vline)) d ?_)]
  · simp [W.emit_eq, dataLines, joinLines_flatMap]
  · intro i hi
    obtain ⟨x, hx, xs, ix, lx, px⟩ := seq_at gw sw hi
    rw [W.bind_row (.cons (hn.ints.at_row hi 10) (.cons (h1.at_row hi 10) (.cons (h2.at_row hi 10)
      (.cons (h3.at_row hi 10) .nil)))), bind_keyAt hx, ix, W.bind_lift_ok,
      W.forL_get xs l[i].rows _ (fun v => vline v ++ ['\n']) d lx fun j h1 h2 => writeVals_eq d (px j h1 h2)]
    simp [joinLines, elemFields, List.flatMap_map]

theorem loc_eq (d : Dict) (x : PlainData) (h : PlainDataRep d x) (ok : PlainDataOk x) (a c : Int) (p : PlainHead) :
    locRest (.int (loc (.plain a c p x))) d
      = ⟨joinLines (dataLines (.plain a c p x)) ++ tailText, d, .ok ()⟩ := by
  cases x with
  | atNodes l => exact locNodes_eq d l h a c p
  | onElems l => exact locElems_eq d l h a c p
  | atElemNodes l => exact locElemNodes_eq d l h a c p
  | other n =>
    obtain ⟨n1, n2, n3, n5⟩ := ok
    simp only [locRest, loc, Val.numEq, n1, n2, n3, n5, decide_false, Bool.false_eq_true, if_false]
    rfl

theorem plain_eq (d : Dict) (a c : Int) (h : PlainHead) (x : PlainData) (hr : PlainRep d h)
    (hx : PlainDataRep (optFields d opt2414) x)
    (hl : (optFields d opt2414).get? "dataset_location" = some (.int (loc (.plain a c h x))))
    (ok : BodyOk (.plain a c h x)) :
    plainRest (optFields d opt2414)
      = ⟨joinLines (bodyLines (.plain a c h x)) ++ tailText, optFields d opt2414, .ok ()⟩ := by
  obtain ⟨-, -, -, o1, o2, o3⟩ := ok
  unfold plainRest
  simp only [W.bind_eq]
  rw [W.bind_row' (.cons ((hr.a1.opt rfl).fld 10) (.cons ((hr.a2.opt rfl).fld 10) (.cons ((hr.a3.opt rfl).fld 10)
      (.cons ((hr.a4.opt rfl).fld 10) (.cons ((hr.a5.opt rfl).fld 10) (.cons ((hr.a6.opt rfl).fld 10)
      (.cons ((hr.a7.opt rfl).fld 10) (.cons ((hr.a8.opt rfl).fld 10) .nil)))))))),
    W.bind_row' (.cons ((hr.b1.opt rfl).fld 10) (.cons ((hr.b2.opt rfl).fld 10) (.cons ((hr.b3.opt rfl).fld 10)
      (.cons ((hr.b4.opt rfl).fld 10) (.cons ((hr.b5.opt rfl).fld 10) (.cons ((hr.b6.opt rfl).fld 10)
      (.cons ((hr.b7.opt rfl).fld 10) (.cons ((hr.b8.opt rfl).fld 10) .nil)))))))),
    W.bind_row' (.cons (hr.x1.opt rfl).fld2 (.cons (hr.x2.opt rfl).fld2 (.cons (hr.x3.opt rfl).fld2
      (.cons (hr.x4.opt rfl).fld2 (.cons (hr.x5.opt rfl).fld2 (.cons (hr.x6.opt rfl).fld2 .nil)))))),
    W.bind_row' (.cons (hr.y1.opt rfl).fld2 (.cons (hr.y2.opt rfl).fld2 (.cons (hr.y3.opt rfl).fld2
      (.cons (hr.y4.opt rfl).fld2 (.cons (hr.y5.opt rfl).fld2 (.cons (hr.y6.opt rfl).fld2 .nil)))))),
    W.bind_key hl, loc_eq _ x hx o3 a c h, six_pad _ o1, six_pad _ o2]
  simp [WRes.pre, bodyLines, ints, flts, sixF, eightF, joinLines]

theorem write_eq (d : Dict) (r : DS2414) (h : Rep d r) (ok : Ok r) :
    write2414 d = ⟨frameText r.lines, optFields d opt2414, .ok ()⟩ := by
  have ia : HasInt (optFields d opt2414) "analysis_type" (analysis r.body) := ⟨_, get?_opt_present h.analysis, rfl⟩
  have il : HasInt (optFields d opt2414) "dataset_location" (loc r.body) := ⟨_, get?_opt_present h.loc, rfl⟩
  have ic : HasInt (optFields d opt2414) "number_of_data_values_for_the_data_component" (comps r.body) :=
    ⟨_, get?_opt_present h.comps, rfl⟩
  have hb : (if (Val.int (analysis r.body)).numEq 5 then freqRest else plainRest) (optFields d opt2414)
      = ⟨joinLines (bodyLines r.body) ++ tailText, optFields d opt2414, .ok ()⟩ := by
    have hb := h.body
    have ob := ok.body
    have hl := h.loc
    have hc := h.comps
    cases hr : r.body with
    | freq l hd x =>
      rw [hr] at hb ob hc
      obtain ⟨h1, h2⟩ := hb
      have e : (Val.int (analysis (.freq l hd x))).numEq 5 = true := rfl
      rw [e, if_pos rfl]
      refine freq_eq _ l hd x ?_ ?_ (get?_opt_present hc) ob
      · exact ⟨h1.a1.opt, h1.a2.opt, h1.a3.opt, h1.a4.opt, h1.a5.opt, h1.a6.opt, h1.a7.opt, h1.a8.opt, h1.creation.opt,
          h1.retained.opt, h1.x1.opt, h1.x2.opt, h1.x3.opt, h1.x4.opt, h1.x5.opt, h1.x6.opt, h1.y1.opt, h1.y2.opt,
          h1.y3.opt, h1.y4.opt, h1.y5.opt, h1.y6.opt⟩
      · cases x with
        | one => exact ⟨h2.1.opt, DS55.opt_cplxs h2.2⟩
        | two => exact ⟨h2.1.opt, DS55.opt_cplxs h2.2.1, DS55.opt_cplxs h2.2.2⟩
        | three => exact ⟨h2.1.opt, DS55.opt_cplxs h2.2.1, DS55.opt_cplxs h2.2.2.1, DS55.opt_cplxs h2.2.2.2⟩
    | plain a c hd x =>
      rw [hr] at hb ob hl
      obtain ⟨h1, h2⟩ := hb
      have e : (Val.int (analysis (.plain a c hd x))).numEq 5 = false := by
        simp [analysis, Val.numEq, ob.1]
      rw [e, if_neg (by decide)]
      refine plain_eq d a c hd x h1 ?_ (get?_opt_present hl) ob
      cases x with
      | atNodes => exact ⟨h2.1.opt, h2.2.opt⟩
      | onElems => exact ⟨h2.1.opt, h2.2.opt⟩
      | atElemNodes =>
        obtain ⟨k1, k2, k3, k4, v, g, s⟩ := h2
        exact ⟨k1.opt, k2.opt, k3.opt, k4.opt, v, get?_opt_present g, s⟩
      | other => trivial
  unfold write2414
  apply W.guardedAny_ok
  simp only [W.bind_eq, W.bind_opt]
  rw [W.bind_emit', W.bind_row' (.cons (h.label.opt.fld 10) .nil), W.bind_row' (.cons (h.name.opt.fldL 80) .nil),
    W.bind_row' (.cons (il.fld 10) .nil), W.bind_row' (.cons (h.id1.opt.fldL 80) .nil),
    W.bind_row' (.cons (h.id2.opt.fldL 80) .nil), W.bind_row' (.cons (h.id3.opt.fldL 80) .nil),
    W.bind_row' (.cons (h.id4.opt.fldL 80) .nil), W.bind_row' (.cons (h.id5.opt.fldL 80) .nil),
    W.bind_row' (.cons (h.model.opt.fld 10) (.cons (ia.fld 10) (.cons (h.ch.opt.fld 10) (.cons (h.result.opt.fld 10)
      (.cons (h.dtype.opt.fld 10) (.cons (ic.fld 10) .nil)))))),
    W.bind_key (get?_opt_present h.analysis), hb]
  simp [WRes.pre, frameText, lines, headShort_eq, tailText, tagText, typeFields, joinLines]
  rfl

/-! The lines contain no delimiter. -/

theorem eight_safe (r : Eight) (ok : r.Ok) : NoBreak (eightF r).flatten ∧ TagFree (eightF r).flatten := by
  constructor
  · apply noBreak_fields
    unfold eightF
    simp only [List.forall_mem_cons, noBreak_int, true_and]
    simp
  · refine tagFree_int [_, _, _, _, _, _, _] 10 _ ?_ ok.a8 ok.last (by decide)
    simp [len_int 10 _ ok.a1, len_int 10 _ ok.a2, len_int 10 _ ok.a3, len_int 10 _ ok.a4, len_int 10 _ ok.a5,
      len_int 10 _ ok.a6, len_int 10 _ ok.a7]

theorem six_finite (r : Six) (ok : r.Ok) : ∀ x ∈ [r.x1, r.x2, r.x3, r.x4, r.x5, r.x6], x.finite = true := by
  simp [ok.x1.1, ok.x2.1, ok.x3.1, ok.x4.1, ok.x5.1, ok.x6.1]

theorem ints_safe (b : Body2414) (ok : BodyOk b) : (NoBreak (ints b).1.flatten ∧ TagFree (ints b).1.flatten) ∧
    NoBreak (ints b).2.flatten ∧ TagFree (ints b).2.flatten := by
  cases b with
  | freq l h d =>
    obtain ⟨o1, o2, o3, o4, -⟩ := ok
    refine ⟨eight_safe _ o1, ?_, ?_⟩
    · apply noBreak_fields
      unfold ints
      simp only [List.forall_mem_cons, noBreak_int, true_and]
      simp
    · refine tagFree_int [_] 10 _ ?_ o3 o4 (by decide)
      simp [len_int 10 _ o2]
  | plain a c h d => exact ⟨eight_safe _ ok.2.1, eight_safe _ ok.2.2.1⟩

theorem flts_ok (b : Body2414) (ok : BodyOk b) : (flts b).1.Ok ∧ (flts b).2.Ok := by
  cases b with
  | freq l h d => exact ⟨ok.2.2.2.2.1, ok.2.2.2.2.2.1⟩
  | plain a c h d => exact ⟨ok.2.2.2.1, ok.2.2.2.2.1⟩

theorem vline_safe (vs : List F64) (h : ∀ x ∈ vs, x.finite = true) : NoBreak (vline vs) ∧ TagFree (vline vs) :=
  ⟨DS55.vfields_noBreak vs h, vals_tagFree vs h⟩

theorem num_safe (n : Int) (h : Fits 10 n) (h1 : n ≠ -1) :
    NoBreak (padLeft 10 (intRepr n)) ∧ TagFree (padLeft 10 (intRepr n)) := by
  refine ⟨noBreak_int _ _, ?_⟩
  have := tagFree_int [] 10 n (by decide) h h1 (by decide)
  simpa using this

/-- Node numbers and values of a frequency response fit. -/
theorem rows_ok (d : FreqData) (ok : FreqDataOk d) :
    ∀ n ∈ rows d, Fits 10 n.1 ∧ n.1 ≠ -1 ∧ Spaced n.2 := by
  intro n hn
  cases d with
  | one l => obtain ⟨a, ha, rfl⟩ := List.mem_map.1 hn; exact ok a ha
  | two l => obtain ⟨a, ha, rfl⟩ := List.mem_map.1 hn; exact ok a ha
  | three l => obtain ⟨a, ha, rfl⟩ := List.mem_map.1 hn; exact ok a ha

theorem data_safe (b : Body2414) (ok : BodyOk b) : Safe (dataLines b) := by
  cases b with
  | freq l h d =>
    refine Safe.flatMap fun n hn => ?_
    obtain ⟨h1, h2, h3⟩ := rows_ok d ok.2.2.2.2.2.2 n hn
    exact Safe.cons (num_safe _ h1 h2).1 (num_safe _ h1 h2).2
      (Safe.cons (vline_safe _ h3.1).1 (vline_safe _ h3.1).2 Safe.nil)
  | plain a c h d =>
    have od := ok.2.2.2.2.2
    cases d with
    | atNodes l =>
      refine Safe.flatMap fun n hn => ?_
      obtain ⟨h1, h2, h3⟩ := od.2 n hn
      exact Safe.cons (num_safe _ h1 h2).1 (num_safe _ h1 h2).2
        (Safe.cons (vline_safe _ h3.1).1 (vline_safe _ h3.1).2 Safe.nil)
    | onElems l =>
      refine Safe.flatMap fun n hn => ?_
      obtain ⟨h1, h2, h3⟩ := od.2 n hn
      refine Safe.cons ?_ ?_ (Safe.cons (vline_safe _ h3.1).1 (vline_safe _ h3.1).2 Safe.nil)
      · apply noBreak_fields
        simp only [List.forall_mem_cons, noBreak_int, true_and]
        simp
      · refine tagFree_int [_] 10 _ ?_ (h2.mono (by decide)) (by omega) (by decide)
        simp [len_int 10 _ h1]
    | atElemNodes l =>
      refine Safe.flatMap fun e he => ?_
      obtain ⟨h1, h2, h3, h4, h5, -, h6⟩ := od e he
      refine Safe.cons ?_ ?_ ?_
      · apply noBreak_fields
        unfold elemFields
        simp only [List.forall_mem_cons, noBreak_int, true_and]
        simp
      · refine tagFree_int [_, _, _] 10 _ ?_ (h4.mono (by decide)) h5 (by decide)
        simp [len_int 10 _ h1, len_int 10 _ (h2.mono (show 9 ≤ 10 by decide)), len_int 10 _ (h3.mono (show 9 ≤ 10 by decide))]
      · intro t ht
        obtain ⟨v, hv, rfl⟩ := List.mem_map.1 ht
        exact vline_safe v (h6 v hv).1
    | other => exact Safe.nil

theorem safe (r : DS2414) (ok : Ok r) : Safe r.lines := by
  obtain ⟨⟨i1, i2⟩, i3, i4⟩ := ints_safe r.body ok.body
  obtain ⟨f1, f2⟩ := flts_ok r.body ok.body
  have l1 : ∀ {t}, LineText 80 t → NoBreak (padRight 80 t) := fun h => NoBreak.padRight h.noBreak
  have l2 : ∀ {t}, LineText 80 t → TagFree (padRight 80 t) := fun h => (tagFree_iff _).2 h.noDelim
  refine Safe.cons (by decide) (by exact tagFree_of_lt _ (by decide) (by decide))
    (Safe.cons (num_safe _ ok.label ok.label1).1 (num_safe _ ok.label ok.label1).2
    (Safe.cons (l1 ok.name) (l2 ok.name) (Safe.cons (num_safe _ ok.loc ok.loc1).1 (num_safe _ ok.loc ok.loc1).2
    (Safe.cons (l1 ok.id1) (l2 ok.id1) (Safe.cons (l1 ok.id2) (l2 ok.id2) (Safe.cons (l1 ok.id3) (l2 ok.id3)
    (Safe.cons (l1 ok.id4) (l2 ok.id4) (Safe.cons (l1 ok.id5) (l2 ok.id5) (Safe.cons ?_ ?_
    (Safe.cons i1 i2 (Safe.cons i3 i4 (Safe.cons (vline_safe _ (six_finite _ f1)).1 (vline_safe _ (six_finite _ f1)).2
    (Safe.cons (vline_safe _ (six_finite _ f2)).1 (vline_safe _ (six_finite _ f2)).2 (data_safe _ ok.body))))))))))))))
  · apply noBreak_fields
    unfold typeFields
    simp only [List.forall_mem_cons, noBreak_int, true_and]
    simp
  · refine tagFree_int [_, _, _, _, _] 10 _ ?_ ok.comps ok.comps1 (by decide)
    simp [len_int 10 _ ok.model, len_int 10 _ ok.analysis, len_int 10 _ ok.ch, len_int 10 _ ok.result,
      len_int 10 _ ok.dtype]

/-! Reading. -/

theorem readInt80 (n : Int) (k : Key) (h : Fits 10 n) :
    parseHeader (padLeft 10 (intRepr n) ++ ['\n']) 1 [80] [.int] [k] = .ok [(k, .int n)] := by
  rw [parseHeader_padded]
  have l := len_int 10 n h (by decide)
  have := parseHeader_fields [padLeft 10 (intRepr n) ++ ['\n'] ++ blanks (80 - (padLeft 10 (intRepr n) ++ ['\n']).length)] [] 1
    [80] [.int] [k] (by simp [l, blanks]) (by simp) (by simp)
  simp only [List.flatten_cons, List.flatten_nil, List.append_nil] at this
  rw [this]
  have e : headerField .int (strip (padLeft 10 (intRepr n) ++ ['\n'] ++
      blanks (80 - (padLeft 10 (intRepr n) ++ ['\n']).length))) = .ok (some (.int n)) := by
    unfold headerField pyInt
    rw [strip_append_blanks, strip_append_right _ _ (by decide), parseInt_strip_padLeft]; rfl
  simp only [List.map_cons, List.map_nil, headerLoop_cons, e]
  simp only [headerLoop]
  rfl

theorem readTypes (r : DS2414) (ok : Ok r) :
    parseHeader ((typeFields r).flatten ++ ['\n']) 6 [10, 10, 10, 10, 10, 10] [.int, .int, .int, .int, .int, .int]
      ["model_type", "analysis_type", "data_characteristic", "result_type", "data_type",
       "number_of_data_values_for_the_data_component"]
      = .ok [("model_type", .int r.model), ("analysis_type", .int (analysis r.body)), ("data_characteristic", .int r.ch),
          ("result_type", .int r.result), ("data_type", .int r.dtype),
          ("number_of_data_values_for_the_data_component", .int (comps r.body))] := by
  rw [parseHeader_fields _ _ _ _ _ _ (by
    simp [typeFields, len_int 10 _ ok.model, len_int 10 _ ok.analysis, len_int 10 _ ok.ch, len_int 10 _ ok.result,
      len_int 10 _ ok.dtype, len_int 10 _ ok.comps]) (by simp [typeFields]) (by simp [typeFields])]
  simp only [typeFields, List.map_cons, List.map_nil, headerLoop_cons, headerField_int]
  simp only [headerLoop]
  build_dict

theorem readEight (r : Eight) (ok : r.Ok) (m : Nat) (hm : m = 8 ∨ m = 1) (k1 k2 k3 k4 k5 k6 k7 k8 : Key)
    (hk : ([k1, k2, k3, k4, k5, k6, k7, k8] : List Key).Nodup) :
    parseHeader ((eightF r).flatten ++ ['\n']) m [10, 10, 10, 10, 10, 10, 10, 10]
      [.int, .int, .int, .int, .int, .int, .int, .int] [k1, k2, k3, k4, k5, k6, k7, k8]
      = .ok [(k1, .int r.a1), (k2, .int r.a2), (k3, .int r.a3), (k4, .int r.a4), (k5, .int r.a5), (k6, .int r.a6),
          (k7, .int r.a7), (k8, .int r.a8)] := by
  rw [parseHeader_fields _ _ _ _ _ _ (by
    simp [eightF, len_int 10 _ ok.a1, len_int 10 _ ok.a2, len_int 10 _ ok.a3, len_int 10 _ ok.a4,
      len_int 10 _ ok.a5, len_int 10 _ ok.a6, len_int 10 _ ok.a7, len_int 10 _ ok.a8]) (by simp [eightF])
      (by simp [eightF]; omega)]
  simp only [eightF, List.map_cons, List.map_nil, headerLoop_cons, headerField_int]
  simp only [headerLoop]
  simp only [Dict.set_eq_update, Dict.update_update, List.cons_append, List.nil_append]
  rw [Dict.update_fresh _ _ (by
    simp only [List.map_cons, List.map_nil, List.nil_append]
    exact hk)]
  rfl

theorem readTwo (a b : Int) (ha : Fits 10 a) (hb : Fits 10 b) :
    parseHeader ([padLeft 10 (intRepr a), padLeft 10 (intRepr b)].flatten ++ ['\n']) 2 [10, 10] [.int, .int]
      ["creation_option", "number_retained"] = .ok [("creation_option", .int a), ("number_retained", .int b)] := by
  rw [parseHeader_fields _ _ _ _ _ _ (by simp [len_int 10 _ ha, len_int 10 _ hb]) (by simp) (by simp)]
  simp only [List.map_cons, List.map_nil, headerLoop_cons, headerField_int]
  simp only [headerLoop]
  build_dict

theorem readSix (r : Six) (ok : r.Ok) (m : Nat) (hm : m = 6 ∨ m = 1) (k1 k2 k3 k4 k5 k6 : Key)
    (hk : ([k1, k2, k3, k4, k5, k6] : List Key).Nodup) :
    parseHeader ((sixF r).flatten ++ ['\n']) m [13, 13, 13, 13, 13, 13] [.flt, .flt, .flt, .flt, .flt, .flt]
      [k1, k2, k3, k4, k5, k6]
      = .ok [(k1, .float (r.x1.quant 5)), (k2, .float (r.x2.quant 5)), (k3, .float (r.x3.quant 5)),
          (k4, .float (r.x4.quant 5)), (k5, .float (r.x5.quant 5)), (k6, .float (r.x6.quant 5))] := by
  have hlen : (sixF r).map List.length = [13, 13, 13, 13, 13, 13] := DS55.map_len _ (six_finite r ok) 6 rfl
  rw [parseHeader_fields _ _ _ _ _ _ hlen (by simp [sixF, DS55.vfields]) (by simp [sixF, DS55.vfields]; omega)]
  simp only [sixF, DS55.vfields, List.map_cons, List.map_nil, headerLoop_cons, DS55.headerField_v _ ok.x1.1,
    DS55.headerField_v _ ok.x2.1, DS55.headerField_v _ ok.x3.1, DS55.headerField_v _ ok.x4.1,
    DS55.headerField_v _ ok.x5.1, DS55.headerField_v _ ok.x6.1]
  simp only [headerLoop]
  simp only [Dict.set_eq_update, Dict.update_update, List.cons_append, List.nil_append]
  rw [Dict.update_fresh _ _ (by
    simp only [List.map_cons, List.map_nil, List.nil_append]
    exact hk)]
  rfl

/-- The first fifteen lines of the block. -/
def first (r : DS2414) : List Text :=
  [tagText ++ ['\n'], padLeft 6 (natRepr 2414) ++ ['\n'], padLeft 10 (intRepr r.label) ++ ['\n'],
   padRight 80 r.name ++ ['\n'], padLeft 10 (intRepr (loc r.body)) ++ ['\n'], padRight 80 r.id1 ++ ['\n'],
   padRight 80 r.id2 ++ ['\n'], padRight 80 r.id3 ++ ['\n'], padRight 80 r.id4 ++ ['\n'], padRight 80 r.id5 ++ ['\n'],
   (typeFields r).flatten ++ ['\n'], (ints r.body).1.flatten ++ ['\n'], (ints r.body).2.flatten ++ ['\n'],
   (sixF (flts r.body).1).flatten ++ ['\n'], (sixF (flts r.body).2).flatten ++ ['\n']]

theorem head_eq (r : DS2414) (ok : Ok r) : readHead2414 r.first = .ok r.common := by
  have ids : ∀ (t : Text) (k : Key), LineText 80 t → parseHeader (padRight 80 t ++ ['\n']) 1 [80] [.str] [k]
      = .ok [(k, .str (strip t))] := fun t k h => parseHeader_str 80 t _ k h.fits
  unfold readHead2414 first
  simp only [List.getElem?_cons_succ, List.getElem?_cons_zero, orIndex, ok_bind, readInt80 _ _ ok.label,
    readInt80 _ _ ok.loc, ids _ _ ok.name, ids _ _ ok.id1, ids _ _ ok.id2, ids _ _ ok.id3, ids _ _ ok.id4,
    ids _ _ ok.id5, readTypes r ok]
  unfold common
  build_dict

theorem freqHead_eq (r : DS2414) (l : Int) (h : FreqHead) (d : FreqData) (hr : r.body = .freq l h d)
    (ok : BodyOk (.freq l h d)) : readFreqHead r.first = .ok (freqBack h) := by
  obtain ⟨o1, o2, o3, o4, o5, o6, -⟩ := ok
  unfold readFreqHead first
  simp only [List.getElem?_cons_succ, List.getElem?_cons_zero, orIndex, ok_bind, hr, ints, flts]
  rw [readEight _ o1 8 (Or.inl rfl) _ _ _ _ _ _ _ _ (by decide +kernel), ok_bind, readTwo _ _ o2 o3, ok_bind,
    readSix _ o5 6 (Or.inl rfl) _ _ _ _ _ _ (by decide +kernel), ok_bind,
    readSix _ o6 6 (Or.inl rfl) _ _ _ _ _ _ (by decide +kernel), ok_bind]
  unfold freqBack
  build_dict

theorem plainHead_eq (r : DS2414) (a c : Int) (h : PlainHead) (d : PlainData) (hr : r.body = .plain a c h d)
    (ok : BodyOk (.plain a c h d)) : readPlainHead r.first = .ok (plainBack h) := by
  obtain ⟨-, o1, o2, o5, o6, -⟩ := ok
  unfold readPlainHead first
  simp only [List.getElem?_cons_succ, List.getElem?_cons_zero, orIndex, ok_bind, hr, ints, flts]
  rw [readEight _ o1 1 (Or.inr rfl) _ _ _ _ _ _ _ _ (by decide +kernel), ok_bind,
    readEight _ o2 1 (Or.inr rfl) _ _ _ _ _ _ _ _ (by decide +kernel), ok_bind,
    readSix _ o5 1 (Or.inr rfl) _ _ _ _ _ _ (by decide +kernel), ok_bind,
    readSix _ o6 1 (Or.inr rfl) _ _ _ _ _ _ (by decide +kernel), ok_bind]
  unfold plainBack
  build_dict

theorem arr64_fits (l : List Int) (h : ∀ n ∈ l, Fits 10 n) : arr64 l = .ok l := by
  unfold arr64
  rw [if_pos]
  rw [List.all_eq_true]
  intro n hn
  obtain ⟨h1, h2⟩ := h n hn
  simp only [decide_eq_true_eq]
  constructor <;> omega

theorem truncInts_eq (l : List Int) (h : ∀ n ∈ l, Fits 10 n) : truncInts (l.map F64.ofInt) = .ok l := by
  have := mapRes_map (f := fun x : F64 => match x.toInt with
    | some n => if -(2 ^ 63) ≤ n ∧ n < 2 ^ 63 then Except.ok n else .error .unmodelled
    | none => .error .unmodelled) l F64.ofInt id (by
      intro n hn
      obtain ⟨h1, h2⟩ := h n hn
      rw [toInt_ofInt n (by omega)]
      simp only
      rw [if_pos (by constructor <;> omega)]
      rfl)
  rw [List.map_id] at this
  exact this

theorem words_eq (l : List (Int × List F64)) (h : ∀ n ∈ l, Spaced n.2) :
    splitWs (joinLines (l.flatMap DS55.nodeLines)) = l.flatMap fun n => intRepr n.1 :: n.2.map (fmtE 5) := by
  induction l with
  | nil => rfl
  | cons n r ih =>
    rw [List.flatMap_cons, List.flatMap_cons, joinLines_append, ← ih fun x hx => h x (by simp [hx])]
    have e : joinLines (DS55.nodeLines n) ++ joinLines (r.flatMap DS55.nodeLines)
        = padLeft 10 (intRepr n.1) ++ '\n' :: ((DS55.vfields n.2).flatten ++ '\n' :: joinLines (r.flatMap DS55.nodeLines)) := by
      simp [joinLines, DS55.nodeLines]
    rw [e, splitWs_intLine 10 _ _ (startsSpace_lf _), splitWs_lf, splitWs_vals _ (h n (by simp)) _ (startsSpace_lf _),
      splitWs_lf]
    rfl

theorem nums_eq (l : List (Int × List F64)) (h : ∀ n ∈ l, Spaced n.2) :
    mapRes pyFloat (l.flatMap fun n => intRepr n.1 :: n.2.map (fmtE 5))
      = .ok (l.flatMap fun n => F64.ofInt n.1 :: n.2.map (F64.quant 5)) :=
  mapRes_flatMap l _ _ fun n hn => mapRes_cons (pyFloat_int _) (floats_of _ (h n hn).1)

theorem col0 {α : Type} (l : List α) (f : α → Int × List F64) (n : Nat) (h : ∀ a ∈ l, (f a).2.length + 1 = n) :
    everyN 0 n ((l.map f).flatMap fun n => F64.ofInt n.1 :: n.2.map (F64.quant 5)) = (l.map fun a => (f a).1).map F64.ofInt := by
  rw [List.flatMap_map, List.map_map]
  exact everyN_flatMap n 0 l _ _ (fun a ha => by simp [h a ha]) fun a _ => rfl

theorem colK {α : Type} (l : List α) (f : α → Int × List F64) (n k : Nat) (g : α → F64)
    (h : ∀ a ∈ l, (f a).2.length + 1 = n) (h2 : ∀ a ∈ l, (f a).2[k]? = some (g a)) :
    everyN (k + 1) n ((l.map f).flatMap fun n => F64.ofInt n.1 :: n.2.map (F64.quant 5)) = l.map fun a => (g a).quant 5 := by
  rw [List.flatMap_map]
  refine everyN_flatMap n (k + 1) l _ _ (fun a ha => by simp [h a ha]) fun a ha => ?_
  rw [List.getElem?_cons_succ, List.getElem?_map, h2 a ha]; rfl

theorem broadcast_eq {α : Type} (l : List α) (g : α → Cplx) (h : ∀ a ∈ l, (g a).Finite) :
    cplxBroadcast (l.map fun a => (g a).1.quant 5) (l.map fun a => (g a).2.quant 5)
      = .ok (.arrC (l.map fun a => (g a).quant 5)) := by
  unfold cplxBroadcast cplxZip
  rw [if_pos (by simp)]
  congr 2
  induction l with
  | nil => rfl
  | cons a r ih =>
    simp only [List.map_cons, List.zipWith_cons_cons]
    rw [ih fun b hb => h b (by simp [hb]), DS55.cplx_back _ (h a (by simp))]

theorem spaced_parts {l : List Cplx} (h : Spaced (parts l)) : ∀ z ∈ l, z.Finite := by
  intro z hz
  exact ⟨h.1 _ (List.mem_flatMap.2 ⟨z, hz, by simp⟩), h.1 _ (List.mem_flatMap.2 ⟨z, hz, by simp⟩)⟩

theorem freqData_eq (x : FreqData) (ok : FreqDataOk x) (l : Int) (h : FreqHead) :
    readFreqData (comps (.freq l h x)) (((rows x).flatMap DS55.nodeLines).map (· ++ ['\n'])) = .ok (freqDataBack x) := by
  have ro := rows_ok x ok
  have e0 : (((rows x).flatMap DS55.nodeLines).map (· ++ ['\n'])).flatten = joinLines ((rows x).flatMap DS55.nodeLines) := by
    unfold joinLines; rw [← List.flatMap_def]
  unfold readFreqData
  rw [e0, words_eq _ fun n hn => (ro n hn).2.2, nums_eq _ fun n hn => (ro n hn).2.2, ok_bind]
  cases x with
  | one l =>
    have n1 : ∀ a ∈ l, (parts [a.x]).length + 1 = 3 := fun _ _ => rfl
    have f1 : ∀ n ∈ l, (n.x).Finite := fun n hn => spaced_parts (ok n hn).2.2 _ (by simp)
    simp only [comps, rows]
    show (truncInts (everyN 0 3 _) >>= _) = _
    rw [col0 l _ 3 n1, truncInts_eq _ (by simpa using fun n hn => (ok n hn).1), ok_bind]
    show (cplxBroadcast (everyN 1 3 _) (everyN 2 3 _) >>= _) = _
    rw [colK l _ 3 0 (fun a => a.x.1) n1 (fun _ _ => rfl), colK l _ 3 1 (fun a => a.x.2) n1 (fun _ _ => rfl),
      broadcast_eq l (·.x) f1, ok_bind]
    rfl
  | two l =>
    have n1 : ∀ a ∈ l, (parts [a.x, a.y]).length + 1 = 5 := fun _ _ => rfl
    have f1 : ∀ n ∈ l, (n.x).Finite := fun n hn => spaced_parts (ok n hn).2.2 _ (by simp)
    have f2 : ∀ n ∈ l, (n.y).Finite := fun n hn => spaced_parts (ok n hn).2.2 _ (by simp)
    simp only [comps, rows]
    show (truncInts (everyN 0 5 _) >>= _) = _
    rw [col0 l _ 5 n1, truncInts_eq _ (by simpa using fun n hn => (ok n hn).1), ok_bind]
    show (cplxBroadcast (everyN 1 5 _) (everyN 2 5 _) >>= _) = _
    rw [colK l _ 5 0 (fun a => a.x.1) n1 (fun _ _ => rfl), colK l _ 5 1 (fun a => a.x.2) n1 (fun _ _ => rfl),
      broadcast_eq l (·.x) f1, ok_bind]
    show ((cplxBroadcast (everyN 3 5 _) (everyN 4 5 _)).map _ >>= _) = _
    rw [colK l _ 5 2 (fun a => a.y.1) n1 (fun _ _ => rfl), colK l _ 5 3 (fun a => a.y.2) n1 (fun _ _ => rfl),
      broadcast_eq l (·.y) f2]
    rfl
  | three l =>
    have n1 : ∀ a ∈ l, (parts [a.x, a.y, a.z]).length + 1 = 7 := fun _ _ => rfl
    have f1 : ∀ n ∈ l, (n.x).Finite := fun n hn => spaced_parts (ok n hn).2.2 _ (by simp)
    have f2 : ∀ n ∈ l, (n.y).Finite := fun n hn => spaced_parts (ok n hn).2.2 _ (by simp)
    have f3 : ∀ n ∈ l, (n.z).Finite := fun n hn => spaced_parts (ok n hn).2.2 _ (by simp)
    simp only [comps, rows]
    show (truncInts (everyN 0 7 _) >>= _) = _
    rw [col0 l _ 7 n1, truncInts_eq _ (by simpa using fun n hn => (ok n hn).1), ok_bind]
    show (cplxBroadcast (everyN 1 7 _) (everyN 2 7 _) >>= _) = _
    rw [colK l _ 7 0 (fun a => a.x.1) n1 (fun _ _ => rfl), colK l _ 7 1 (fun a => a.x.2) n1 (fun _ _ => rfl),
      broadcast_eq l (·.x) f1, ok_bind]
    show ((cplxBroadcast (everyN 3 7 _) (everyN 4 7 _)).map _ >>= _) = _
    rw [colK l _ 7 2 (fun a => a.y.1) n1 (fun _ _ => rfl), colK l _ 7 3 (fun a => a.y.2) n1 (fun _ _ => rfl),
      broadcast_eq l (·.y) f2]
    show ((cplxBroadcast (everyN 5 7 _) (everyN 6 7 _)).map _ >>= _) = _
    rw [colK l _ 7 4 (fun a => a.z.1) n1 (fun _ _ => rfl), colK l _ 7 5 (fun a => a.z.2) n1 (fun _ _ => rfl),
      broadcast_eq l (·.z) f3]
    rfl


/-! The other analysis types. -/

theorem splitWs_vline (vs : List F64) (h : Spaced vs) : splitWs (vline vs) = vs.map (fmtE 5) := by
  have := splitWs_vals vs h [] StartsSpace.nil
  simpa [vline, splitWs_nil] using this

theorem floatLists_eq {α : Type} (l : List α) (g : α → List F64) (h : ∀ a ∈ l, Spaced (g a)) :
    floatLists (l.map fun a => vline (g a)) = .ok (l.map fun a => rowBack (g a)) := by
  unfold floatLists
  refine mapRes_map l _ _ fun a ha => ?_
  rw [splitWs_vline _ (h a ha), floats_of _ (h a ha).1]
  rfl

/-- A column of integers. -/
theorem intColumn_eq {α : Type} (l : List α) (hne : l ≠ []) (t : α → Text) (w : α → List Text) (n k : Nat) (g : α → Int)
    (hw : ∀ a ∈ l, splitWs (t a) = w a) (hl : ∀ a ∈ l, (w a).length = n) (hk : ∀ a ∈ l, (w a)[k]? = some (intRepr (g a)))
    (hg : ∀ a ∈ l, Fits 10 (g a)) : intColumn k (l.map t) = .ok (l.map g) := by
  unfold intColumn
  have e : (l.map t).map splitWs = l.map w := by
    rw [List.map_map]; exact List.map_congr_left hw
  rw [e]
  have all : ∀ m, m = n → ((l.map w).all fun q => decide (q.length = m)) = true := by
    rintro m rfl
    simp only [List.all_map, List.all_eq_true, Function.comp, decide_eq_true_eq]
    exact hl
  have mp : mapRes (intWord k) (l.map w) = .ok (l.map g) := by
    refine mapRes_map l _ _ fun a ha => ?_
    unfold intWord
    rw [hk a ha]
    exact pyInt_int _
  have ar := arr64_fits (l.map g) (by simpa using hg)
  cases l with
  | nil => exact absurd rfl hne
  | cons a r =>
    simp only [List.map_cons] at all mp ar ⊢
    rw [if_pos (all _ (hl a (by simp))), mp]
    exact ar

theorem splitWs_int10 (n : Int) : splitWs (padLeft 10 (intRepr n)) = [intRepr n] := by
  have := splitWs_intLine 10 n [] StartsSpace.nil
  simpa [splitWs_nil] using this

/-- Words of a line of integers, the first of which may fill its field. -/
theorem splitWs_ints (n : Int) (l : List Int) (h : ∀ x ∈ l, Fits 9 x) :
    splitWs (padLeft 10 (intRepr n) ++ (l.map fun x => padLeft 10 (intRepr x)).flatten) = intRepr n :: l.map intRepr := by
  have hr : ∀ f ∈ l.map (fun x => (10, intRepr x)), TokOk f.1 f.2 := by
    intro f hf
    obtain ⟨x, hx, rfl⟩ := List.mem_map.1 hf
    exact tok_int 10 x (h x hx) (by decide)
  have e : (l.map fun x => padLeft 10 (intRepr x)).flatten = fieldLine (l.map fun x => (10, intRepr x)) ++ [] := by
    simp [fieldLine, Function.comp_def]
  rw [e, splitWs_intLine _ _ _ (startsSpace_fieldLine _ _ hr StartsSpace.nil), splitWs_fieldLine _ _ hr StartsSpace.nil]
  simp [Function.comp_def, splitWs_nil]

theorem elemRecord_eq (e : ElemVals) (h2 : Fits 9 e.iexp) (h3 : Fits 9 e.nodes) (h4 : Fits 9 e.nvals) :
    elemRecord (elemFields e).flatten = .ok (e.num, e.iexp, e.nodes, e.nvals) := by
  have w : splitWs (elemFields e).flatten = [intRepr e.num, intRepr e.iexp, intRepr e.nodes, intRepr e.nvals] := by
    have := splitWs_ints e.num [e.iexp, e.nodes, e.nvals] (by simp [h2, h3, h4])
    simpa [elemFields] using this
  unfold elemRecord
  simp only [w, List.getElem?_cons_zero, List.getElem?_cons_succ, orIndex, ok_bind, pyInt_int]

theorem elemLines_eq (e : ElemVals) : elemLines e.iexp e.nodes e.nvals = lineCount e := by
  have c : ceilDiv e.nvals 6 = (e.nvals + 5) / 6 := by
    unfold ceilDiv
    omega
  unfold elemLines lineCount
  split <;> rw [c] <;> simp

theorem elemLoop_eq (l : List ElemVals) (ok : PlainDataOk (.atElemNodes l)) (fuel : Nat)
    (hf : (l.flatMap fun e => (elemFields e).flatten :: e.rows.map vline).length ≤ fuel) :
    elemLoop fuel (l.flatMap fun e => (elemFields e).flatten :: e.rows.map vline)
      = .ok (l.map fun e => ((e.num, e.iexp, e.nodes, e.nvals), Val.list (e.rows.map rowBack))) := by
  induction l generalizing fuel with
  | nil => cases fuel <;> rfl
  | cons e r ih =>
    obtain ⟨-, h2, h3, h4, -, hc, hv⟩ := ok e (by simp)
    cases fuel with
    | zero => simp at hf
    | succ fuel =>
      rw [List.flatMap_cons, List.cons_append]
      unfold elemLoop
      rw [elemRecord_eq e h2 h3 h4, ok_bind]
      simp only [elemLines_eq, ← hc]
      rw [if_neg (by omega), Int.toNat_natCast, List.take_left' (by simp), List.drop_left' (by simp),
        show floatLists (e.rows.map vline) = _ from floatLists_eq e.rows id hv, ok_bind, ih (fun x hx => ok x (by simp [hx])) fuel (by
          simp only [List.flatMap_cons, List.length_append, List.length_cons] at hf; omega), ok_bind]
      rfl

theorem plainData_eq (a c : Int) (h : PlainHead) (x : PlainData) (ok : PlainDataOk x) :
    readPlainData (loc (.plain a c h x)) (dataLines (.plain a c h x)) = .ok (plainDataBack x) := by
  cases x with
  | atNodes l =>
    obtain ⟨hne, ok⟩ := ok
    show readPlainData 1 (l.flatMap fun n => [padLeft 10 (intRepr n.num), vline n.vals]) = _
    unfold readPlainData
    rw [if_pos rfl, everyN_flatMap 2 1 l _ (fun n => vline n.vals) (fun _ _ => rfl) (fun _ _ => rfl),
      everyN_flatMap 2 0 l _ (fun n => padLeft 10 (intRepr n.num)) (fun _ _ => rfl) (fun _ _ => rfl),
      floatLists_eq l (·.vals) (fun n hn => (ok n hn).2.2), ok_bind,
      intColumn_eq l hne _ (fun n => [intRepr n.num]) 1 0 (·.num) (fun n _ => splitWs_int10 n.num) (fun _ _ => rfl)
        (fun _ _ => rfl) (fun n hn => (ok n hn).1), ok_bind]
    rfl
  | onElems l =>
    obtain ⟨hne, ok⟩ := ok
    have hw : ∀ n ∈ l, splitWs (elemLine n) = [intRepr n.num, intRepr (n.vals.length : Int)] := by
      intro n hn
      have := splitWs_ints n.num [(n.vals.length : Int)] (by simpa using (ok n hn).2.1)
      simpa [elemLine] using this
    have f10 : ∀ n ∈ l, Fits 10 (n.vals.length : Int) := by
      intro n hn
      obtain ⟨h1, h2⟩ := (ok n hn).2.1
      constructor <;> omega
    show readPlainData 2 (l.flatMap fun n => [elemLine n, vline n.vals]) = _
    unfold readPlainData
    rw [if_neg (by decide), if_pos rfl, everyN_flatMap 2 1 l _ (fun n => vline n.vals) (fun _ _ => rfl) (fun _ _ => rfl),
      everyN_flatMap 2 0 l _ elemLine (fun _ _ => rfl) (fun _ _ => rfl),
      floatLists_eq l (·.vals) (fun n hn => (ok n hn).2.2), ok_bind,
      intColumn_eq l hne _ _ 2 0 (·.num) hw (fun _ _ => rfl) (fun _ _ => rfl) (fun n hn => (ok n hn).1), ok_bind,
      intColumn_eq l hne _ _ 2 1 (fun n => (n.vals.length : Int)) hw (fun _ _ => rfl) (fun _ _ => rfl) f10, ok_bind]
    rfl
  | atElemNodes l =>
    have up : ∀ {n : Int}, Fits 9 n → Fits 10 n := by
      rintro n ⟨h1, h2⟩
      constructor <;> omega
    show readPlainData 3 (l.flatMap fun e => (elemFields e).flatten :: e.rows.map vline) = _
    unfold readPlainData
    rw [if_neg (by decide), if_neg (by decide), if_pos rfl]
    unfold readElemNodes
    rw [elemLoop_eq l ok _ (Nat.le_refl _), ok_bind]
    simp only [List.map_map, Function.comp_def]
    rw [arr64_fits _ (by simpa using fun e he => (ok e he).1), ok_bind,
      arr64_fits _ (by simpa using fun e he => up (ok e he).2.1), ok_bind,
      arr64_fits _ (by simpa using fun e he => up (ok e he).2.2.1), ok_bind,
      arr64_fits _ (by simpa using fun e he => up (ok e he).2.2.2.1), ok_bind]
    rfl
  | other l =>
    obtain ⟨h1, h2, h3, -⟩ := ok
    show readPlainData l [] = _
    unfold readPlainData
    rw [if_neg h1, if_neg h2, if_neg h3]
    rfl

theorem args_eq (r : DS2414) : args2414 r.common = .ok (loc r.body, analysis r.body, r.dtype, comps r.body) := rfl

theorem read_eq (r : DS2414) (ok : Ok r) : extract2414 (blockText r.lines) = .ok r.readBack := by
  have sf := safe r ok
  unfold extract2414
  rw [splitKeep_block _ sf]
  have e1 : (List.map (· ++ ['\n']) r.lines) = r.first.tail ++ (dataLines r.body).map (· ++ ['\n']) := rfl
  rw [e1]
  have e2 : (tagText ++ ['\n']) :: (r.first.tail ++ (dataLines r.body).map (· ++ ['\n']))
      = r.first ++ (dataLines r.body).map (· ++ ['\n']) := rfl
  rw [e2]
  simp only
  rw [List.take_left' (show r.first.length = 15 from rfl), List.drop_left' (show r.first.length = 15 from rfl),
    head_eq r ok, ok_bind, args_eq, ok_bind]
  have nb : ∀ l ∈ dataLines r.body, NoBreak l := fun l hl => (data_safe r.body ok.body l hl).1
  have e3 : ((dataLines r.body).map (· ++ ['\n'])).flatten = joinLines (dataLines r.body) := by
    unfold joinLines; rw [← List.flatMap_def]
  rw [e3, splitLines_joinLines _ nb]
  have bok := ok.body
  generalize hb : r.body = b at bok
  cases b with
  | freq l h x =>
    simp only [analysis]
    rw [if_pos trivial, freqHead_eq r l h x hb bok, ok_bind]
    have fd := freqData_eq x bok.2.2.2.2.2.2 l h
    simp only [dataLines]
    unfold readBack
    rw [hb]
    simp only [bodyBack]
    by_cases t : r.dtype = 5
    · rw [if_pos t, if_pos t, fd, ok_bind]
      simp only [readGuard]
      rw [Dict.update_update, Dict.update_fresh]
      cases x <;> (unfold common freqBack freqDataBack; simp only [List.map_cons, List.map_nil, List.cons_append, List.nil_append]; decide +kernel)
    · rw [if_neg t, if_neg t, ok_bind]
      simp only [readGuard]
      rw [Dict.update_update, Dict.update_fresh]
      unfold common freqBack
      simp only [List.map_cons, List.map_nil, List.cons_append, List.nil_append, List.append_nil]
      decide +kernel
  | plain a c h x =>
    simp only [analysis]
    rw [if_neg bok.1, plainHead_eq r a c h x hb bok, ok_bind, plainData_eq a c h x bok.2.2.2.2.2, ok_bind]
    simp only [readGuard]
    unfold readBack
    rw [hb]
    simp only [bodyBack]
    rw [Dict.update_update, Dict.update_fresh]
    cases x <;> (unfold common plainBack plainDataBack; simp only [List.map_cons, List.map_nil, List.cons_append, List.nil_append, List.append_nil]; decide +kernel)

/-- A data-set 2414 comes back. -/
theorem roundTrip (d : Dict) (r : DS2414) (h : Rep d r) (ok : Ok r) :
    RoundTrip 2414 write2414 extract2414 d r.readBack r.lines :=
  ⟨safe r ok, ⟨_, write_eq d r h ok⟩, (blockType_block _ _ (by decide)).trans (by decide +kernel), read_eq r ok⟩

end DS2414
end Verif
