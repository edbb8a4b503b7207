import Verif.Lemmas.Fields
import Verif.Lemmas.Ints
import Verif.Model.DS164
import Verif.Spec.S164
/-
Round trip of data-set 164.
-/
namespace Verif

/-- `e` becomes `D`. -/
def edChar (c : Char) : Char := if c = 'e' then 'D' else c

/-- Every `e` is followed by a sign. -/
def EOk : Text → Prop
  | [] => True
  | c :: r => (c = 'e' → ∃ s r', r = s :: r' ∧ (s = '+' ∨ s = '-')) ∧ EOk r

theorem EOk.append {a b : Text} (ha : EOk a) (hb : EOk b) : EOk (a ++ b) := by
  induction a with
  | nil => exact hb
  | cons c r ih =>
    refine ⟨fun h => ?_, ih ha.2⟩
    obtain ⟨s, r', e, hs⟩ := ha.1 h
    exact ⟨s, r' ++ b, by simp [e], hs⟩

theorem EOk.of_no_e {a : Text} (h : ∀ c ∈ a, c ≠ 'e') : EOk a := by
  induction a with
  | nil => trivial
  | cons c r ih => exact ⟨fun e => absurd e (h c (by simp)), ih fun x hx => h x (by simp [hx])⟩

theorem EOk.e_cons {s : Char} {r : Text} (hs : s = '+' ∨ s = '-') (h : EOk (s :: r)) : EOk ('e' :: s :: r) :=
  ⟨fun _ => ⟨s, r, rfl, hs⟩, h⟩

theorem replED_both (t : Text) (h : EOk t) : replED '-' (replED '+' t) = t.map edChar := by
  suffices H : ∀ n, ∀ t : Text, t.length ≤ n → EOk t → replED '-' (replED '+' t) = t.map edChar by
    exact H _ t (Nat.le_refl _) h
  intro n
  induction n with
  | zero => intro t ht _; rw [List.length_eq_zero_iff.1 (Nat.le_zero.1 ht)]; rfl
  | succ n ih =>
    intro t ht h
    match t, ht, h with
    | [], _, _ => rfl
    | [c], _, h =>
      have : c ≠ 'e' := by
        intro e
        obtain ⟨s, r', hh, _⟩ := h.1 e
        cases hh
      simp [replED, edChar, this]
    | c :: c' :: r, ht, h =>
      by_cases hc : c = 'e'
      · obtain ⟨s, r', e, hs⟩ := h.1 hc
        cases e
        subst hc
        have ih' := ih r (by simp at ht; omega) h.2.2
        have hD : ∀ t : Text, replED '-' ('D' :: t) = 'D' :: replED '-' t := by
          intro t; cases t <;> simp [replED]
        have hS : ∀ (t : Text), replED '-' (c' :: t) = c' :: replED '-' t := by
          intro t; rcases hs with h | h <;> subst h <;> cases t <;> simp [replED]
        have hS' : ∀ (t : Text), replED '+' (c' :: t) = c' :: replED '+' t := by
          intro t; rcases hs with h | h <;> subst h <;> cases t <;> simp [replED]
        rcases hs with h1 | h1
        · rw [replED, if_pos ⟨rfl, h1⟩, hD, hS, ih']
          simp [edChar]; rw [h1]; decide
        · rw [replED, if_neg (by rw [h1]; decide), hS', replED, if_pos ⟨rfl, h1⟩, ih']
          simp [edChar]; rw [h1]; decide
      · have ih' := ih (c' :: r) (by simp at ht ⊢; omega) h.2
        rw [replED, if_neg (by simp [hc])]
        have : ∀ t : Text, replED '-' (c :: t) = c :: replED '-' t := by
          intro t; cases t <;> simp [replED, hc]
        rw [this, ih']
        simp [edChar, hc]

theorem digit_ne_e {c : Char} (h : IsDigit c) : c ≠ 'e' := by
  rintro rfl; exact absurd h (by decide)

theorem EOk_fmtE (p : Nat) (x : F64) (hx : x.finite = true) : EOk (fmtE p x) := by
  have hq : (F64.toDec p x.units).1 / 10 ^ p < 10 := by
    apply Nat.div_lt_of_lt_mul
    rw [← Nat.pow_succ]; exact toDec_lt _ _
  rw [fmtE_body p x hx]
  apply EOk.append
  · apply EOk.of_no_e
    intro c hc
    split at hc
    · rw [List.mem_singleton] at hc; rw [hc]; decide
    · cases hc
  refine ⟨fun h => absurd h (digit_ne_e (isDigit_digitChar _ hq)), fun h => absurd h (by decide), ?_⟩
  apply EOk.append
  · exact EOk.of_no_e fun c hc => digit_ne_e (digitsW_digits _ _ c hc)
  · unfold expRepr
    apply EOk.e_cons
    · split
      · right; rfl
      · left; rfl
    · apply EOk.of_no_e
      intro c hc
      rcases expRepr_chars (F64.toDec p x.units).2 c hc with h | h | h
      · exact digit_ne_e h
      · rw [h]; decide
      · rw [h]; decide

theorem EOk_padLeft {w : Nat} {t : Text} (h : EOk t) : EOk (padLeft w t) :=
  EOk.append (EOk.of_no_e (by intro c hc; rw [List.mem_replicate] at hc; rw [hc.2]; decide)) h

theorem map_padLeft (w : Nat) (t : Text) : (padLeft w t).map edChar = padLeft w (t.map edChar) := by
  simp [padLeft, show edChar ' ' = ' ' by decide]

theorem undo_ed {c : Char} (h : IsNumChar c) :
    (if lowerChar (edChar c) = 'd' then 'e' else lowerChar (edChar c)) = c := by
  rcases h with h | rfl | rfl | rfl | rfl
  · have : c ≠ 'e' := digit_ne_e h
    rw [edChar, if_neg this, lowerChar_digit h, if_neg]
    rintro rfl; exact absurd h (by decide)
  all_goals decide

theorem dFloat_ed (p : Nat) (x : F64) (hx : x.finite = true) :
    dFloat ((fmtE p x).map edChar) = .ok (x.quant p) := by
  unfold dFloat pyFloat orValue
  have : replaceChar 'd' 'e' (lower ((fmtE p x).map edChar)) = fmtE p x := by
    unfold replaceChar lower
    rw [List.map_map, List.map_map]
    conv => rhs; rw [← List.map_id (fmtE p x)]
    apply List.map_congr_left
    intro c hc
    exact undo_ed (fmtE_chars p x hx c hc)
  rw [this, parseFloat_fmtE p x hx]

theorem ed_noSpace (p : Nat) (x : F64) (hx : x.finite = true) :
    ∀ c ∈ (fmtE p x).map edChar, isSpace c = false := by
  intro c hc
  obtain ⟨c', h', rfl⟩ := List.mem_map.1 hc
  rcases fmtE_chars p x hx c' h' with h | rfl | rfl | rfl | rfl
  · rw [edChar, if_neg (digit_ne_e h)]; exact isSpace_of_isDigit h
  all_goals decide

namespace DS164

/-- The lines of a written data-set 164 after the opening delimiter. -/
def lines (r : DS164) : List Text :=
  let f := fun (x : F64) => padLeft 25 ((fmtE 16 x).map edChar)
  [idLine 164,
   [padLeft 10 (intRepr r.code), padLeft 20 r.descr, padLeft 10 (intRepr r.tempMode)].flatten,
   [f r.length, f r.force, f r.temp].flatten, f r.offset]

theorem write_finite (d : Dict) (r : DS164) (h : Rep d r)
    (fin : r.length.finite = true ∧ r.force.finite = true ∧ r.temp.finite = true ∧ r.offset.finite = true) :
    write164 d = ⟨frameText r.lines, optFields d opt164, .ok ()⟩ := by
  obtain ⟨v1, g1, i1⟩ := h.code
  obtain ⟨v4, g4, i4⟩ := h.length
  obtain ⟨v5, g5, i5⟩ := h.force
  obtain ⟨v6, g6, i6⟩ := h.temp
  obtain ⟨v7, g7, i7⟩ := h.offset
  have i2 := h.descr
  have i3 := h.tempMode
  apply W.guarded_ok
  simp only [W.bind_eq, W.bind_opt, W.bind_emit]
  rw [W.bind_key (get?_opt_present g1), W.bind_key (get?_opt_default rfl), W.bind_key (get?_opt_default rfl),
    fmtI_eq i1, fmtSR_eq i2, fmtI_eq i3]
  simp only [record, W.bind_lift_ok, W.bind_emit]
  rw [W.bind_key (get?_opt_present g4), W.bind_key (get?_opt_present g5), W.bind_key (get?_opt_present g6),
    W.bind_key (get?_opt_present g7), fmtEV_eq i4, fmtEV_eq i5, fmtEV_eq i6, fmtEV_eq i7]
  simp only [W.bind_lift_ok, W.bind_emit, W.emit_eq]
  rw [replED_both]
  · simp [frameText, lines, headText_eq, map_padLeft, tailText, show edChar '\n' = '\n' by decide, tagText]
    rfl
  · have e : ∀ x : F64, x.finite = true → EOk (padLeft 25 (fmtE 16 x)) :=
      fun x hx => EOk_padLeft (EOk_fmtE 16 x hx)
    have n : EOk ['\n'] := EOk.of_no_e (by decide)
    exact ((e _ fin.1).append ((e _ fin.2.1).append ((e _ fin.2.2.1).append n))).append ((e _ fin.2.2.2).append n)

theorem write_eq (d : Dict) (r : DS164) (h : Rep d r) (ok : Ok r) :
    write164 d = ⟨frameText r.lines, optFields d opt164, .ok ()⟩ :=
  write_finite d r h ⟨ok.length, ok.force, ok.temp, ok.offset⟩

theorem safe (r : DS164) (ok : Ok r) : Safe r.lines := by
  have hf : ∀ x : F64, x.finite = true → NoBreak (padLeft 25 ((fmtE 16 x).map edChar)) := fun x hx =>
    (NoBreak.of_noSpace (ed_noSpace 16 x hx)).padLeft
  have ht : ∀ (y : Text) (x : F64), x.finite = true → ¬ tagText <:+ y ++ padLeft 25 ((fmtE 16 x).map edChar) := by
    intro y x hx
    have := fmtE_length_ge 16 x hx
    apply not_tag_field _ _ _ (ed_noSpace 16 x hx)
    · intro e
      have := congrArg List.length e
      simp at this; omega
    · right; simp; omega
    · intro e
      rw [List.map_eq_nil_iff] at e
      rw [e] at this; simp at this
  have hl : ∀ x : F64, x.finite = true → (padLeft 25 ((fmtE 16 x).map edChar)).length = 25 := by
    intro x hx
    apply padLeft_length
    have := fmtE_length 16 x hx
    simp; omega
  refine Safe.cons (by decide) (tagFree_of_short' _ (by decide) (by decide) (by decide))
    (Safe.cons ?_ ?_ (Safe.cons ?_ ?_ (Safe.cons ?_ ?_ Safe.nil)))
  · simp only [List.flatten_cons, List.flatten_nil]
    exact (noBreak_int _ _).append ((NoBreak.padLeft ok.descr.noBreak).append ((noBreak_int _ _).append NoBreak.nil))
  · apply tagFree_of_lt
    · simp [len_int 10 _ ok.code, len_int 10 _ ok.tempMode, padLeft_length 20 _ ok.descr.fits]
    · simp only [List.flatten_cons, List.flatten_nil, List.append_nil]
      rw [← List.append_assoc]
      exact not_tag_int _ _ _ ok.noDelim (by decide)
  · simp only [List.flatten_cons, List.flatten_nil]
    exact (hf _ ok.length).append ((hf _ ok.force).append ((hf _ ok.temp).append NoBreak.nil))
  · apply tagFree_of_lt
    · simp [hl _ ok.length, hl _ ok.force, hl _ ok.temp]
    · simp only [List.flatten_cons, List.flatten_nil, List.append_nil]
      rw [← List.append_assoc]
      exact ht _ _ ok.temp
  · exact hf _ ok.offset
  · apply tagFree_of_lt
    · rw [hl _ ok.offset]; decide
    · exact ht [] _ ok.offset

theorem read_eq (r : DS164) (ok : Ok r) : extract164 (blockText r.lines) = .ok r.readBack := by
  have hl : ∀ x : F64, x.finite = true → ((fmtE 16 x).map edChar).length < 25 := by
    intro x hx
    have := fmtE_length 16 x hx
    simp; omega
  have hne : ∀ x : F64, x.finite = true → (fmtE 16 x).map edChar ≠ [] := by
    intro x hx; simp [fmtE_ne_nil 16 x hx]
  unfold extract164
  rw [splitKeep_block _ (safe r ok)]
  have htok : splitWs (padLeft 25 ((fmtE 16 r.length).map edChar) ++ (padLeft 25 ((fmtE 16 r.force).map edChar)
      ++ (padLeft 25 ((fmtE 16 r.temp).map edChar) ++ (['\n'] ++ (padLeft 25 ((fmtE 16 r.offset).map edChar)
      ++ ['\n']))))) = [(fmtE 16 r.length).map edChar, (fmtE 16 r.force).map edChar, (fmtE 16 r.temp).map edChar,
        (fmtE 16 r.offset).map edChar] := by
    have ht : ∀ x : F64, x.finite = true → TokOk 25 ((fmtE 16 x).map edChar) := fun x hx =>
      ⟨ed_noSpace 16 x hx, hne x hx, hl x hx⟩
    have := splitWs_lines [[(25, (fmtE 16 r.length).map edChar), (25, (fmtE 16 r.force).map edChar),
      (25, (fmtE 16 r.temp).map edChar)], [(25, (fmtE 16 r.offset).map edChar)]] []
      (by all_mem; exact ⟨⟨ht _ ok.length, ht _ ok.force, ht _ ok.temp⟩, ht _ ok.offset⟩)
    simpa [fieldLine, splitWs_nil] using this
  have hp : parseHeader ([padLeft 10 (intRepr r.code), padLeft 20 r.descr, padLeft 10 (intRepr r.tempMode)].flatten
      ++ ['\n']) 1 [10, 20, 10] [.int, .str, .int] ["units_code", "units_description", "temp_mode"]
      = .ok [("units_code", .int r.code), ("units_description", .str (strip r.descr)), ("temp_mode", .int r.tempMode)] := by
    rw [parseHeader_fields _ _ _ _ _ _ (by simp [len_int 10 _ ok.code, len_int 10 _ ok.tempMode,
      padLeft_length 20 _ ok.descr.fits]) (by simp) (by simp)]
    simp [headerLoop, Dict.set]
  simp only [lines, List.map_cons, List.map_nil, List.getElem?_cons_succ, List.getElem?_cons_zero, orIndex, List.drop_succ_cons, List.drop_zero]
  simp only [bind, Except.bind, hp]
  simp only [List.flatten_cons, List.flatten_nil, List.append_nil, List.append_assoc, htok]
  have q : ∀ x : F64, x.finite = true → x.quant 16 = x := fun x hx => quant_exact 16 (by decide) x hx
  simp [dFloat_ed, q, ok.length, ok.force, ok.temp, ok.offset, readGuard, readBack, Dict.update, Dict.set]

theorem roundTrip (d : Dict) (r : DS164) (h : Rep d r) (ok : Ok r) :
    RoundTrip 164 write164 extract164 d r.readBack r.lines :=
  ⟨safe r ok, ⟨_, write_eq d r h ok⟩, (blockType_block _ _ (by decide)).trans (by decide +kernel), read_eq r ok⟩

end DS164
end Verif
