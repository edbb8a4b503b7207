import Verif.Lemmas.Tags
import Verif.Lemmas.Num
import Verif.Model.Tools
import Verif.Spec.Basic
/-
Framing of a data-set in a file; fixed-width fields; header parsing.
-/
namespace Verif
open F64

/-! ### Lines without delimiter -/

theorem tagFree_iff (l : Text) : TagFree l ↔ ¬ HasDelim l := by
  unfold TagFree HasDelim
  constructor
  · rintro h ⟨s, hs, h1 | h1⟩
    · exact (h s hs).1 h1
    · exact (h s hs).2 h1
  · intro h s hs
    exact ⟨fun e => h ⟨s, hs, Or.inl e⟩, fun e => h ⟨s, hs, Or.inr e⟩⟩

/-- Lines of at most 80 columns: it is enough that the line does not end with the delimiter and, when
full, does not end with a blank. -/
theorem tagFree_of_short' (l : Text) (h1 : l.length ≤ 80) (h2 : l ≠ tagText ++ blanks 74)
    (h3 : ¬ tagText <:+ l) : TagFree l := by
  intro s hs
  refine ⟨fun e => h3 (e ▸ hs), fun hp => ?_⟩
  have a := hp.length_le
  have b := hs.length_le
  simp [tagText, blanks] at a
  have e1 : s = l := hs.eq_of_length (by omega)
  have e2 : tagText ++ blanks 74 = s := hp.eq_of_length (by simp [tagText, blanks]; omega)
  exact h2 (by rw [← e1, ← e2])

/-- Lines of at most 79 columns. -/
theorem tagFree_of_lt (l : Text) (h1 : l.length < 80) (h3 : ¬ tagText <:+ l) : TagFree l :=
  tagFree_of_short' l (by omega) (fun e => by rw [e] at h1; simp [tagText, blanks] at h1) h3

/-- Lines of at most 80 columns that end in a character other than a blank. -/
theorem tagFree_of_short (l : Text) (h1 : l.length ≤ 80) (h2 : l.getLast? ≠ some ' ')
    (h3 : ¬ tagText <:+ l) : TagFree l :=
  tagFree_of_short' l h1 (fun e => h2 (by rw [e]; decide)) h3

theorem suffix_last_space (l : Text) (c : Char) (hc : isSpace c = true) : ¬ tagText <:+ (l ++ [c]) := by
  rintro ⟨q, hq⟩
  have := congrArg List.getLast? hq
  simp [tagText] at this
  rw [← this] at hc
  exact absurd hc (by decide)

/-- A line ending in a right-aligned token does not end with the delimiter unless the token is `-1`. -/
theorem not_tag_field (x t : Text) (w : Nat) (ht : ∀ c ∈ t, isSpace c = false) (hn : t ≠ ['-', '1'])
    (hl : t.length < w ∨ 3 ≤ t.length) (hne : t ≠ []) : ¬ tagText <:+ x ++ padLeft w t := by
  intro h
  have e : x ++ padLeft w t = (x ++ List.replicate (w - t.length) ' ') ++ t := by simp [padLeft]
  rw [e] at h
  obtain ⟨q, hq⟩ := h
  have et : tagText = [' ', ' ', ' ', ' '] ++ ['-', '1'] := by decide
  rw [et, ← List.append_assoc] at hq
  rcases List.append_eq_append_iff.1 hq with ⟨a, h1, h2⟩ | ⟨a, h1, h2⟩
  · -- "-1" = a ++ t
    match a, h2 with
    | [], h2 => exact hn (by simpa using h2.symm)
    | [_], h2 =>
      simp at h2
      obtain ⟨h21, h22⟩ := h2
      subst h21
      have hlen : t.length = 1 := by rw [← h22]; rfl
      rcases hl with hl | hl
      · obtain ⟨k, hk⟩ : ∃ k, w - t.length = k + 1 := ⟨w - t.length - 1, by omega⟩
        rw [hk, List.replicate_succ', ← List.append_assoc] at h1
        have := congrArg List.getLast? h1
        simp at this
      · omega
    | [_, _], h2 =>
      simp at h2
      exact hne h2.2.2
    | _ :: _ :: _ :: _, h2 => simp at h2
  · -- t = a ++ "-1"
    match a, List.eq_nil_or_concat a with
    | _, Or.inl ha => subst ha; exact hn (by simpa using h2)
    | _, Or.inr ⟨b, c, hc⟩ =>
      subst hc
      rw [List.concat_eq_append, ← List.append_assoc] at h1
      have hl := congrArg List.getLast? h1
      rw [List.getLast?_append, List.getLast?_append] at hl
      simp at hl
      have := ht c (by rw [h2]; simp)
      rw [← hl] at this
      exact absurd this (by decide)

theorem intRepr_eq_minus_one (n : Int) (h : intRepr n = ['-', '1']) : n = -1 := by
  have h1 := parseInt_intRepr n
  rw [h] at h1
  have : parseInt ['-', '1'] = some (-1) := by decide
  rw [this] at h1
  exact (Option.some.inj h1).symm

theorem intRepr_length (w : Nat) (n : Int) (h : Fits w n) (hw : 0 < w) : (intRepr n).length ≤ w := by
  obtain ⟨h1, h2⟩ := h
  unfold intRepr
  split
  · rename_i hn
    have : 0 < w - 1 := by
      rcases Nat.lt_or_ge 0 (w - 1) with hc | hc
      · exact hc
      · have : w = 1 := by omega
        subst this
        simp at h1; omega
    have := natRepr_length n.natAbs (w - 1) this (by
      have : (n.natAbs : Int) < 10 ^ (w - 1) := by omega
      exact_mod_cast this)
    simp; omega
  · exact natRepr_length n.natAbs w hw (by
      have : (n.natAbs : Int) < 10 ^ w := by omega
      exact_mod_cast this)

theorem not_tag_int (x : Text) (w : Nat) (n : Int) (hn : n ≠ -1) (hw : 3 ≤ w) :
    ¬ tagText <:+ x ++ padLeft w (intRepr n) :=
  not_tag_field x _ w (intRepr_noSpace n) (fun h => hn (intRepr_eq_minus_one n h))
    (by omega) (intRepr_ne_nil n)

theorem fmtE_length_ge (p : Nat) (x : F64) (hx : x.finite = true) : p + 3 ≤ (fmtE p x).length := by
  rw [fmtE_body p x hx]
  simp only [List.length_append, List.length_cons, digitsW_length]
  omega

theorem not_tag_flt (x : Text) (w p : Nat) (y : F64) (hy : y.finite = true) :
    ¬ tagText <:+ x ++ padLeft w (fmtE p y) :=
  not_tag_field x _ w (fmtE_noSpace p y hy)
    (fun h => by have := fmtE_length_ge p y hy; rw [h] at this; simp at this)
    (Or.inr (by have := fmtE_length_ge p y hy; omega)) (fmtE_ne_nil p y hy)

/-! ### Frames -/

/-- Text of a data-set with identifier line `idl` and further lines `body`. -/
def frameText (lines : List Text) : Text := joinLines (tagText :: lines ++ [tagText])
/-- The block a reader gets: everything before the closing delimiter. -/
def blockText (lines : List Text) : Text := joinLines (tagText :: lines)

/-- Lines that are safe inside a frame. -/
def Safe (lines : List Text) : Prop := ∀ l ∈ lines, NoBreak l ∧ TagFree l

theorem Safe.nil : Safe [] := by intro l hl; cases hl
theorem Safe.cons {l : Text} {ls : List Text} (h1 : NoBreak l) (h2 : TagFree l) (h : Safe ls) : Safe (l :: ls) := by
  intro x hx
  rcases List.mem_cons.1 hx with rfl | hx
  · exact ⟨h1, h2⟩
  · exact h x hx
theorem Safe.append {a b : List Text} (ha : Safe a) (hb : Safe b) : Safe (a ++ b) := by
  intro x hx
  rcases List.mem_append.1 hx with hx | hx
  · exact ha x hx
  · exact hb x hx
theorem Safe.flatMap {α} {l : List α} {f : α → List Text} (h : ∀ a ∈ l, Safe (f a)) : Safe (l.flatMap f) := by
  intro x hx
  obtain ⟨a, ha, hx⟩ := List.mem_flatMap.1 hx
  exact h a ha x hx

theorem frameText_eq (lines : List Text) : frameText lines = blockText lines ++ (tagText ++ ['\n']) := by
  unfold frameText blockText
  rw [joinLines_append]; simp

theorem noBreak_tagText : NoBreak tagText := by decide

/-- The delimiters of a frame. -/
theorem tags_frame (lines : List Text) (h : Safe lines) (i : Nat) :
    tagsFrom i (encode (frameText lines)) = [i, i + (encode (blockText lines)).length] := by
  rw [frameText_eq, encode_append, tagsFrom_append _ _ (Or.inr ?_), encode_append, encode_LF, encode_tagText,
    tags_tagLine]
  · unfold blockText
    rw [joinLines_cons, show tagText ++ '\n' :: joinLines lines = (tagText ++ ['\n']) ++ joinLines lines by simp,
      encode_append, tagsFrom_append _ _ (Or.inr (endsLF_encode _)), encode_append, encode_LF, encode_tagText,
      tags_tagLine, tags_joinLines lines (fun l hl => (h l hl).1) (fun l hl => (h l hl).2)]
    rfl
  · unfold blockText
    rcases endsLF_joinLines (tagText :: lines) with h | h
    · simp at h
    · exact h

theorem endsLF_frame (lines : List Text) : EndsLF (encode (frameText lines)) := by
  rw [frameText_eq, ← List.append_assoc]; exact endsLF_encode _

theorem splitLinesB_line (l r : Bytes) (h : ∀ b ∈ l, b ≠ 10 ∧ b ≠ 13) :
    splitLinesB (l ++ 10 :: r) = l :: splitLinesB r := by
  unfold splitLinesB
  have := splitLinesGen_line (13 : UInt8) 10 (fun c => c == 10 || c == 13) false (by decide) (by decide)
    (by decide) l [] r (by intro c hc; have := h c hc; simp [this.1, this.2])
  rw [this]
  simp

/-- The type reported for a framed block: the first six bytes of the identifier line. -/
theorem blockType_block (idl : Text) (rest : List Text) (h : NoBreak idl) :
    blockType (encode (blockText (idl :: rest))) = (parseIntB ((encode idl).take 6)).getD 0 := by
  have e : encode (blockText (idl :: rest)) = tagPat ++ 10 :: (encode idl ++ 10 :: encode (joinLines rest)) := by
    unfold blockText
    rw [joinLines_cons, joinLines_cons, show tagText ++ '\n' :: (idl ++ '\n' :: joinLines rest)
      = tagText ++ (['\n'] ++ (idl ++ (['\n'] ++ joinLines rest))) by simp]
    simp only [encode_append, encode_tagText, encode_LF]; simp
  unfold blockType
  rw [e, splitLinesB_line _ _ (by decide), splitLinesB_line _ _ (encode_noLF idl h)]
  rfl

/-- The identifier line written by most writers: number and 74 blanks. -/
def idLine (n : Nat) : Text := padLeft 6 (natRepr n) ++ padLeft 74 [' ']

theorem headText_eq (n : Nat) : headText n = tagText ++ '\n' :: (idLine n ++ ['\n']) := by
  unfold headText idLine
  simp only [List.append_assoc]
  rfl

/-! ### The writer monad -/

namespace W

@[simp] theorem bind_eq {α β} (m : W α) (f : α → W β) : (m >>= f) = W.bind m f := rfl
@[simp] theorem pure_eq {α} (a : α) : (Pure.pure a : W α) = W.pure a := rfl

theorem bind_ok {α β} {m : W α} {f : α → W β} {d d' : Dict} {o : Text} {a : α} (h : m d = ⟨o, d', .ok a⟩) :
    W.bind m f d = ⟨o ++ (f a d').out, (f a d').dict, (f a d').res⟩ := by
  unfold W.bind; rw [h]

@[simp] theorem bind_lift_ok {α β} (a : α) (f : α → W β) (d : Dict) : W.bind (W.lift (.ok a)) f d = f a d := by
  rfl
@[simp] theorem bind_lift_err {α β} (e : Err) (f : α → W β) (d : Dict) :
    W.bind (W.lift (.error e)) f d = ⟨[], d, .error e⟩ := rfl
@[simp] theorem bind_pure' {α β} (a : α) (f : α → W β) (d : Dict) : W.bind (W.pure a) f d = f a d := by
  rfl
@[simp] theorem bind_getDict {β} (f : Dict → W β) (d : Dict) : W.bind W.getDict f d = f d d := by
  rfl
@[simp] theorem bind_opt {β} (fs : List (Key × Val)) (f : Unit → W β) (d : Dict) :
    W.bind (W.opt fs) f d = f () (optFields d fs) := by
  rfl
@[simp] theorem bind_put {β} (k : Key) (v : Val) (f : Unit → W β) (d : Dict) :
    W.bind (W.put k v) f d = f () (d.set k v) := by
  rfl
theorem bind_key {β} {k : Key} {v : Val} {f : Val → W β} {d : Dict} (h : d.get? k = some v) :
    W.bind (W.key k) f d = f v d := by
  unfold W.bind W.key Dict.get; rw [h]; rfl
theorem bind_emit {β} (t : Text) (f : Unit → W β) (d : Dict) :
    W.bind (W.emit t) f d = ⟨t ++ (f () d).out, (f () d).dict, (f () d).res⟩ := rfl
theorem emit_eq (t : Text) (d : Dict) : W.emit t d = ⟨t, d, .ok ()⟩ := rfl

theorem guarded_ok {α} {n : Nat} {m : W α} {d d' : Dict} {o : Text} {a : α} (h : m d = ⟨o, d', .ok a⟩) :
    W.guarded n m d = ⟨o, d', .ok a⟩ := by
  unfold W.guarded; rw [h]

theorem forL_ok {α} (l : List α) (body : α → W Unit) (g : α → Text) (d : Dict)
    (h : ∀ a ∈ l, body a d = ⟨g a, d, .ok ()⟩) : W.forL l body d = ⟨l.flatMap g, d, .ok ()⟩ := by
  induction l with
  | nil => rfl
  | cons a r ih =>
    unfold W.forL
    rw [bind_ok (h a (List.mem_cons_self ..)), ih (fun x hx => h x (List.mem_cons_of_mem _ hx))]
    simp

theorem forL_range {α} (rows : List α) (body : Nat → W Unit) (g : α → Text) (d : Dict)
    (h : ∀ i, (hi : i < rows.length) → body i d = ⟨g rows[i], d, .ok ()⟩) :
    W.forL (List.range rows.length) body d = ⟨rows.flatMap g, d, .ok ()⟩ := by
  rw [forL_ok _ body (fun i => if hi : i < rows.length then g rows[i] else []) d]
  · congr 1
    rw [List.flatMap_def, List.flatMap_def]
    congr 1
    apply List.ext_getElem
    · simp
    · intro i h1 h2
      simp at h1
      simp [h1]
  · intro i hi
    rw [List.mem_range] at hi
    rw [h i hi, dif_pos hi]

end W

/-! ### Dictionaries -/

theorem Dict.get?_set_self (d : Dict) (k : Key) (v : Val) : (d.set k v).get? k = some v := by
  induction d with
  | nil => simp [Dict.set, Dict.get?]
  | cons kv r ih =>
    obtain ⟨k', v'⟩ := kv
    unfold Dict.set
    split
    · rename_i h; simp [Dict.get?, h]
    · rename_i h; simp [Dict.get?, h, ih]

theorem Dict.get?_set_ne (d : Dict) (k q : Key) (v : Val) (h : k ≠ q) : (d.set k v).get? q = d.get? q := by
  induction d with
  | nil => simp [Dict.set, Dict.get?, h]
  | cons kv r ih =>
    obtain ⟨k', v'⟩ := kv
    unfold Dict.set
    split
    · rename_i h'; subst h'; simp [Dict.get?, h]
    · simp only [Dict.get?, ih]

/-- `optFields` keeps what is there and fills in the first default of each missing key. -/
theorem get?_optFields (fs : List (Key × Val)) (d : Dict) (k : Key) :
    (optFields d fs).get? k = (d.get? k).or (Dict.get? fs k) := by
  induction fs generalizing d with
  | nil => simp [optFields, Dict.get?]
  | cons kv r ih =>
    obtain ⟨k', v'⟩ := kv
    simp only [optFields, Dict.get?]
    rw [ih]
    by_cases hk : k' = k
    · subst hk
      simp only [if_true]
      cases hh : Dict.has d k' with
      | true =>
        simp only [if_true]
        unfold Dict.has at hh
        obtain ⟨v, hv⟩ := Option.isSome_iff_exists.1 hh
        rw [hv]; rfl
      | false =>
        simp only [Bool.false_eq_true, if_false]
        rw [Dict.get?_set_self]
        unfold Dict.has at hh
        rw [Option.isSome_eq_false_iff, Option.isNone_iff_eq_none] at hh
        rw [hh]; rfl
    · simp only [hk, if_false]
      split
      · rfl
      · rw [Dict.get?_set_ne _ _ _ _ hk]

theorem get?_opt_present {fs : List (Key × Val)} {d : Dict} {k : Key} {v : Val} (h : d.get? k = some v) :
    (optFields d fs).get? k = some v := by
  rw [get?_optFields, h]; rfl

theorem get?_opt_default {fs : List (Key × Val)} {d : Dict} {k : Key} {v : Val}
    (h : Dict.get? fs k = some v) : (optFields d fs).get? k = some (d.getOr k v) := by
  rw [get?_optFields, h]
  unfold Dict.getOr
  cases d.get? k <;> rfl

/-! ### Fields -/

theorem fmtI_eq {v : Val} {n : Int} (h : IsInt v n) (w : Nat) : fmtI w v = .ok (padLeft w (intRepr n)) := by
  unfold fmtI; rw [h]; rfl
theorem fmtEV_eq {v : Val} {x : F64} (h : IsFloat v x) (w p : Nat) : fmtEV w p v = .ok (padLeft w (fmtE p x)) := by
  unfold fmtEV; rw [h]; rfl
theorem fmtSR_eq {v : Val} {s : Text} (h : IsStr v s) (w : Nat) : fmtSR w v = .ok (padLeft w s) := by
  unfold fmtSR; rw [h]; rfl
theorem fmtSL_eq {v : Val} {s : Text} (h : IsStr v s) (w : Nat) : fmtSL w v = .ok (padRight w s) := by
  unfold fmtSL; rw [h]; rfl

@[simp] theorem record_nil : record [] = .ok ['\n'] := rfl
theorem record_ok (ts : List Text) : record (ts.map .ok) = .ok (ts.flatten ++ ['\n']) := by
  induction ts with
  | nil => rfl
  | cons t r ih => simp [record, ih]

@[simp] theorem record_cons_ok (t : Text) (r : List (Res Text)) (s : Text) (h : record r = .ok s) :
    record (.ok t :: r) = .ok (t ++ s) := by
  simp [record, h]

/-! ### Header lines -/

theorem cutFields_append (a b : Text) (k : Nat) (ws : List Nat) :
    cutFields (a ++ b) (a.length + k) ws = cutFields b k ws := by
  induction ws generalizing k with
  | nil => rfl
  | cons w ws ih =>
    unfold cutFields
    rw [show a.length + k + w = a.length + (k + w) by omega, ih,
      slice_append_right _ _ _ _ (by omega)]
    congr 3 <;> omega

/-- Cutting a line into the fields it was made of. -/
theorem cutFields_flatten (fs : List Text) (rest : Text) :
    cutFields (fs.flatten ++ rest) 0 (fs.map List.length) = fs.map strip := by
  induction fs with
  | nil => rfl
  | cons f fs ih =>
    simp only [List.map_cons, List.flatten_cons, List.append_assoc]
    unfold cutFields
    rw [Nat.zero_add, slice_prefix f _ _ rfl]
    congr 1
    have := cutFields_append f (fs.flatten ++ rest) 0 (fs.map List.length)
    rw [Nat.add_zero] at this
    rw [this, ih]

/-- Parsing a line made of fields of exactly the requested widths. -/
theorem parseHeader_fields (fs : List Text) (rest : Text) (minV : Nat) (ws : List Nat) (tys : List FTy)
    (ks : List Key) (hw : fs.map List.length = ws) (hk : fs.length ≤ ks.length) (hm : minV ≤ fs.length) :
    parseHeader (fs.flatten ++ rest) minV ws tys ks = headerLoop minV tys ks (fs.map strip) [] := by
  unfold parseHeader
  subst hw
  simp only
  have e : ∀ x, cutFields (fs.flatten ++ rest ++ x) 0 (fs.map List.length) = fs.map strip := by
    intro x; rw [List.append_assoc]; exact cutFields_flatten fs _
  have e2 : cutFields (if (fs.flatten ++ rest).length < 80 then
      fs.flatten ++ rest ++ blanks (80 - (fs.flatten ++ rest).length) else fs.flatten ++ rest) 0
      (fs.map List.length) = fs.map strip := by
    split
    · exact e _
    · have := e []
      rwa [List.append_nil] at this
  rw [e2]
  rw [if_neg (by simp; omega)]

@[simp] theorem headerField_int (w : Nat) (n : Int) :
    headerField .int (strip (padLeft w (intRepr n))) = .ok (some (.int n)) := by
  unfold headerField pyInt orValue
  rw [parseInt_strip_padLeft]; rfl
theorem headerField_flt (w p : Nat) (x : F64) (hx : x.finite = true) :
    headerField .flt (strip (padLeft w (fmtE p x))) = .ok (some (.float (x.quant p))) := by
  unfold headerField pyFloat orValue
  rw [strip_padLeft, strip_eq_self_of_noSpace _ (fmtE_noSpace p x hx), parseFloat_fmtE p x hx]; rfl
@[simp] theorem headerField_ign (s : Text) : headerField .ign s = .ok none := rfl
@[simp] theorem headerField_strR (w : Nat) (s : Text) :
    headerField .str (strip (padRight w s)) = .ok (some (.str (strip s))) := by
  unfold headerField; rw [strip_padRight]
@[simp] theorem headerField_strL (w : Nat) (s : Text) :
    headerField .str (strip (padLeft w s)) = .ok (some (.str (strip s))) := by
  unfold headerField; rw [strip_padLeft]
theorem headerField_str (s : Text) : headerField .str (strip s) = .ok (some (.str (strip s))) := rfl

end Verif
namespace Verif

/-- One data-set: the writer succeeds and writes a frame (delimiter, identifier line giving the type
`n`, further lines, delimiter; no other delimiter), and the reader returns `rb` from its block. -/
structure RoundTrip (n : Int) (w : W Unit) (ex : Text → Res Dict) (d rb : Dict) (lines : List Text) : Prop where
  safe : Safe lines
  wr : ∃ d', w d = ⟨frameText lines, d', .ok ()⟩
  ty : blockType (encode (blockText lines)) = n
  rd : ex (blockText lines) = .ok rb

theorem noBreak_int (w : Nat) (n : Int) : NoBreak (padLeft w (intRepr n)) := (noBreak_intRepr n).padLeft
theorem noBreak_flt (w p : Nat) (x : F64) (hx : x.finite = true) : NoBreak (padLeft w (fmtE p x)) :=
  (noBreak_fmtE p x hx).padLeft

theorem len_int (w : Nat) (n : Int) (h : Fits w n) (hw : 0 < w) : (padLeft w (intRepr n)).length = w :=
  padLeft_length _ _ (intRepr_length w n h hw)
theorem len_flt (w p : Nat) (x : F64) (hx : x.finite = true) (hw : p + 8 ≤ w) : (padLeft w (fmtE p x)).length = w :=
  padLeft_length _ _ (Nat.le_trans (fmtE_length p x hx) hw)

theorem splitKeep_block (lines : List Text) (h : Safe lines) :
    splitLinesKeep (blockText lines) = (tagText ++ ['\n']) :: lines.map (· ++ ['\n']) := by
  unfold blockText
  rw [splitLinesKeep_joinLines]
  · rfl
  · intro l hl
    rcases List.mem_cons.1 hl with rfl | hl
    · exact noBreak_tagText
    · exact (h l hl).1

theorem split_block (lines : List Text) (h : Safe lines) :
    splitLines (blockText lines) = tagText :: lines := by
  unfold blockText
  rw [splitLines_joinLines]
  intro l hl
  rcases List.mem_cons.1 hl with rfl | hl
  · exact noBreak_tagText
  · exact (h l hl).1

end Verif
