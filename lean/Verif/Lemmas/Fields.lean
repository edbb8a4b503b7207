import Verif.Lemmas.Frame
/-
Lines made of right-aligned fields.
-/
namespace Verif

/-- Unfold a statement about every member of an explicit list. -/
macro "all_mem" : tactic => `(tactic| simp only [List.forall_mem_cons, List.not_mem_nil, false_implies, implies_true, and_true])

theorem noBreak_append_iff (a b : Text) : NoBreak (a ++ b) ↔ NoBreak a ∧ NoBreak b :=
  ⟨fun h => ⟨fun c hc => h c (by simp [hc]), fun c hc => h c (by simp [hc])⟩, fun h => h.1.append h.2⟩
theorem noBreak_cons_iff (c : Char) (b : Text) : NoBreak (c :: b) ↔ isBreak c = false ∧ NoBreak b := by
  simp [NoBreak]
theorem noBreak_padLeft_iff (w : Nat) (t : Text) : NoBreak (padLeft w t) ↔ NoBreak t :=
  ⟨fun h c hc => h c (by simp [padLeft, hc]), NoBreak.padLeft⟩
theorem noBreak_padRight_iff (w : Nat) (t : Text) : NoBreak (padRight w t) ↔ NoBreak t :=
  ⟨fun h c hc => h c (by simp [padRight, hc]), NoBreak.padRight⟩
theorem noBreak_flatten_iff (l : List Text) : NoBreak l.flatten ↔ ∀ t ∈ l, NoBreak t := by
  constructor
  · intro h t ht c hc
    exact h c (List.mem_flatten.2 ⟨t, ht, hc⟩)
  · intro h c hc
    obtain ⟨t, ht, hc⟩ := List.mem_flatten.1 hc
    exact h t ht c hc

theorem break_iff (c : Char) : isBreak c = true ↔ c ∈ lineBreaks := by
  constructor
  · intro h
    have hc : Char.ofNat c.toNat = c := Char.ofNat_toNat c
    unfold isBreak at h
    simp only [Bool.or_eq_true, Bool.and_eq_true, decide_eq_true_eq, beq_iff_eq] at h
    rw [← hc]
    unfold lineBreaks
    refine List.mem_map.2 ⟨c.toNat, ?_, rfl⟩
    simp only [List.mem_cons, List.not_mem_nil, or_false]
    omega
  · intro h
    exact (by decide : ∀ c ∈ lineBreaks, isBreak c = true) c h

theorem oneLine_iff (t : Text) : OneLine t ↔ NoBreak t := by
  refine ⟨fun h c hc => ?_, fun h c hc hm => ?_⟩
  · cases hb : isBreak c with
    | false => rfl
    | true => exact absurd ((break_iff c).1 hb) (h c hc)
  · rw [← break_iff, h c hc] at hm; cases hm

theorem OneLine.noBreak {t : Text} (h : OneLine t) : NoBreak t := (oneLine_iff t).1 h
theorem FieldText.noBreak {w : Nat} {t : Text} (h : FieldText w t) : NoBreak t := h.oneLine.noBreak
theorem LineText.noBreak {w : Nat} {t : Text} (h : LineText w t) : NoBreak t := h.oneLine.noBreak
theorem FieldText.lenL {w : Nat} {t : Text} (h : FieldText w t) : (padLeft w t).length = w := padLeft_length _ _ h.fits
theorem FieldText.lenR {w : Nat} {t : Text} (h : FieldText w t) : (padRight w t).length = w := padRight_length _ _ h.fits
theorem LineText.lenR {w : Nat} {t : Text} (h : LineText w t) : (padRight w t).length = w := padRight_length _ _ h.fits
theorem LineText.tagFree {w : Nat} {t : Text} (h : LineText w t) : TagFree (padRight w t) := (tagFree_iff _).2 h.noDelim

/-- A right-aligned blank-separated field: a nonempty token without blanks, shorter than its column. -/
structure TokOk (w : Nat) (t : Text) : Prop where
  noSpace : ∀ c ∈ t, isSpace c = false
  ne : t ≠ []
  lt : t.length < w

theorem tok_int (w : Nat) (n : Int) (h : Fits (w - 1) n) (hw : 2 ≤ w) : TokOk w (intRepr n) :=
  ⟨intRepr_noSpace n, intRepr_ne_nil n, by have := intRepr_length (w - 1) n h (by omega); omega⟩
theorem tok_flt (w p : Nat) (x : F64) (hx : x.finite = true) (h : p + 8 < w) : TokOk w (fmtE p x) :=
  ⟨fmtE_noSpace p x hx, fmtE_ne_nil p x hx, by have := fmtE_length p x hx; omega⟩

/-- The line made of the given fields. -/
def fieldLine (fs : List (Nat × Text)) : Text := (fs.map fun f => padLeft f.1 f.2).flatten

theorem fieldLine_nil : fieldLine [] = [] := rfl
theorem fieldLine_cons (f : Nat × Text) (fs : List (Nat × Text)) :
    fieldLine (f :: fs) = padLeft f.1 f.2 ++ fieldLine fs := rfl

theorem startsSpace_fieldLine (fs : List (Nat × Text)) (rest : Text) (h : ∀ f ∈ fs, TokOk f.1 f.2)
    (hr : StartsSpace rest) : StartsSpace (fieldLine fs ++ rest) := by
  cases fs with
  | nil => exact hr
  | cons f fs =>
    rw [fieldLine_cons, List.append_assoc]
    exact startsSpace_padLeft _ _ _ (h f (by simp)).lt

theorem splitWs_fieldLine (fs : List (Nat × Text)) (rest : Text) (h : ∀ f ∈ fs, TokOk f.1 f.2)
    (hr : StartsSpace rest) : splitWs (fieldLine fs ++ rest) = fs.map (·.2) ++ splitWs rest := by
  induction fs with
  | nil => simp [fieldLine_nil]
  | cons f fs ih =>
    have hf := h f (by simp)
    have hfs : ∀ g ∈ fs, TokOk g.1 g.2 := fun g hg => h g (by simp [hg])
    rw [fieldLine_cons, List.append_assoc, splitWs_padLeft _ _ _ hf.noSpace hf.ne
      (startsSpace_fieldLine fs rest hfs hr), ih hfs]
    rfl

theorem startsSpace_lf (t : Text) : StartsSpace ('\n' :: t) := StartsSpace.cons (by decide)

theorem splitWs_lf (t : Text) : splitWs ('\n' :: t) = splitWs t :=
  splitWs_spaces ['\n'] t (by decide)

/-- Splitting a line of fields and what follows the line feed. -/
theorem splitWs_fieldLine_lf (fs : List (Nat × Text)) (rest : Text) (h : ∀ f ∈ fs, TokOk f.1 f.2) :
    splitWs (fieldLine fs ++ '\n' :: rest) = fs.map (·.2) ++ splitWs rest := by
  rw [splitWs_fieldLine fs _ h (startsSpace_lf _), splitWs_lf]

theorem splitWs_fieldLine' (fs : List (Nat × Text)) (h : ∀ f ∈ fs, TokOk f.1 f.2) :
    splitWs (fieldLine fs) = fs.map (·.2) := by
  have := splitWs_fieldLine fs [] h StartsSpace.nil
  simpa using this

/-- Splitting the joined lines of fields of many rows. -/
theorem splitWs_lines (ls : List (List (Nat × Text))) (rest : Text) (h : ∀ l ∈ ls, ∀ g ∈ l, TokOk g.1 g.2) :
    splitWs ((ls.flatMap fun l => fieldLine l ++ ['\n']) ++ rest) = ls.flatten.map (·.2) ++ splitWs rest := by
  induction ls with
  | nil => simp
  | cons l ls ih =>
    simp only [List.flatMap_cons, List.append_assoc, List.cons_append, List.nil_append]
    rw [splitWs_fieldLine_lf l _ (h l (by simp)), ih (fun x hx => h x (by simp [hx]))]
    simp

theorem splitWs_rows_join {α} (rows : List α) (f : α → List (Nat × Text))
    (h : ∀ a ∈ rows, ∀ g ∈ f a, TokOk g.1 g.2) :
    splitWs (rows.flatMap fun a => fieldLine (f a)) = rows.flatMap fun a => (f a).map (·.2) := by
  have : (rows.flatMap fun a => fieldLine (f a)) = fieldLine (rows.flatMap f) := by
    induction rows with
    | nil => rfl
    | cons a r ih =>
      rw [List.flatMap_cons, ih (fun x hx => h x (by simp [hx]))]
      simp [fieldLine]
  rw [this, splitWs_fieldLine']
  · rw [List.map_flatMap]
  · intro g hg
    obtain ⟨a, ha, hg⟩ := List.mem_flatMap.1 hg
    exact h a ha g hg

theorem fieldLine_length (fs : List (Nat × Text)) (h : ∀ f ∈ fs, f.2.length ≤ f.1) :
    (fieldLine fs).length = (fs.map (·.1)).sum := by
  induction fs with
  | nil => rfl
  | cons f fs ih =>
    rw [fieldLine_cons, List.length_append, padLeft_length _ _ (h f (by simp)), ih (fun g hg => h g (by simp [hg]))]
    simp

theorem noBreak_fieldLine (fs : List (Nat × Text)) (h : ∀ f ∈ fs, NoBreak f.2) : NoBreak (fieldLine fs) := by
  unfold fieldLine
  rw [noBreak_flatten_iff]
  intro t ht
  obtain ⟨f, hf, rfl⟩ := List.mem_map.1 ht
  exact (h f hf).padLeft

/-- A line of fields is free of delimiters when its last field is not `-1`. -/
theorem tagFree_fieldLine (fs : List (Nat × Text)) (f : Nat × Text)
    (hlen : (fieldLine (fs ++ [f])).length ≤ 80) (hsp : ∀ c ∈ f.2, isSpace c = false) (hne : f.2 ≠ [])
    (hn : f.2 ≠ ['-', '1']) (hl : f.2.length < f.1 ∨ 3 ≤ f.2.length) : TagFree (fieldLine (fs ++ [f])) := by
  have e : fieldLine (fs ++ [f]) = fieldLine fs ++ padLeft f.1 f.2 := by
    simp [fieldLine]
  apply tagFree_of_short _ hlen
  · rw [e]
    unfold padLeft
    rw [← List.append_assoc, List.getLast?_append]
    cases h : f.2.getLast? with
    | none => rw [List.getLast?_eq_none_iff] at h; exact absurd h hne
    | some c =>
      simp
      rintro rfl
      exact absurd (hsp _ (List.mem_of_getLast? h)) (by decide)
  · rw [e]
    exact not_tag_field _ _ _ hsp hn hl hne

/-- Parsing a header line of fields of exactly the requested widths. -/
theorem parseHeader_line (fs : List (Nat × Text)) (rest : Text) (minV : Nat) (ws : List Nat) (tys : List FTy)
    (ks : List Key) (hf : ∀ f ∈ fs, f.2.length ≤ f.1) (hw : fs.map (·.1) = ws) (hk : fs.length ≤ ks.length)
    (hm : minV ≤ fs.length) :
    parseHeader (fieldLine fs ++ rest) minV ws tys ks
      = headerLoop minV tys ks (fs.map fun f => strip (padLeft f.1 f.2)) [] := by
  unfold fieldLine
  rw [parseHeader_fields _ _ _ ws _ _ ?_ (by simpa using hk) (by simpa using hm)]
  · simp [List.map_map]; rfl
  · rw [← hw, List.map_map]
    apply List.map_congr_left
    intro f h
    exact padLeft_length _ _ (hf f h)

/-- Parsing a full-width string line. -/
theorem parseHeader_str (w : Nat) (s rest : Text) (k : Key) (h : s.length ≤ w) :
    parseHeader (padRight w s ++ rest) 1 [w] [.str] [k] = .ok [(k, .str (strip s))] := by
  have := parseHeader_fields [padRight w s] rest 1 [w] [.str] [k] (by simp [padRight_length _ _ h]) (by simp) (by simp)
  simp only [List.flatten_cons, List.flatten_nil, List.append_nil] at this
  rw [this]
  simp [headerLoop, Dict.set]

end Verif
