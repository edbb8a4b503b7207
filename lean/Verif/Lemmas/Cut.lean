import Verif.Lemmas.Sets
import Verif.Lemmas.World
import Verif.Lemmas.Many
/-
A line that ends like a delimiter cuts its data-set.
-/
namespace Verif

theorem tagsFrom_skip (s t : Bytes) (h : ∀ u, u ≠ [] → u <:+ s → ¬ isTag (u ++ t)) (i : Nat) :
    tagsFrom i (s ++ t) = tagsFrom (i + s.length) t := by
  induction s generalizing i with
  | nil => rfl
  | cons c r ih =>
    rw [show tagsFrom i (c :: r ++ t) = (if isTag (c :: r ++ t) then [i] else []) ++ tagsFrom (i + 1) (r ++ t) from rfl, if_neg (h _ (by simp) (List.suffix_refl _)),
      ih (fun u h1 h2 => h u h1 (h2.trans (List.suffix_cons ..)))]
    simp only [List.nil_append, List.length_cons]
    rw [show i + 1 + r.length = i + (r.length + 1) by omega]

theorem count_blank (x : Text) : (encode x).count 32 ≤ x.length := by
  induction x with
  | nil => simp [encode_nil]
  | cons c r ih =>
    rw [encode_cons, List.count_append, List.length_cons]
    have : (encodeChar c).count 32 ≤ 1 := by
      by_cases hc : c.toNat < 0x80
      · rw [encodeChar_ascii c hc]; exact List.count_le_length
      · rw [List.count_eq_zero.2 (fun hm => absurd (encodeChar_high c (by omega) 32 hm) (by decide))]; omega
    omega

/-- A line of less than 80 characters that ends like a delimiter has exactly this delimiter. -/
theorem tags_cutLine (x : Text) (hb : NoBreak x) (hl : x.length ≤ 73) (i : Nat) :
    tagsFrom i (encode x ++ (tagPat ++ [10])) = [i + (encode x).length] := by
  rw [tagsFrom_skip, tags_tagLine]
  intro u hu hs ⟨hp, hT⟩
  have hpos : 0 < u.length := List.length_pos_iff.2 hu
  have hn : ∀ c ∈ u, c ≠ 10 ∧ c ≠ 13 := fun c hc => encode_noLF x hb c (hs.subset hc)
  have h6 : ∀ c, (u ++ (tagPat ++ [10]))[6]? = some c → c ≠ 10 ∧ c ≠ 13 := by
    intro c hc
    by_cases h : 6 < u.length
    · rw [List.getElem?_append_left h] at hc
      exact hn c (List.mem_of_getElem? hc)
    · rw [List.getElem?_append_right (by omega), List.getElem?_append_left (by simp [tagPat]; omega)] at hc
      have hm := List.mem_of_getElem? hc
      have : ∀ c ∈ tagPat, c ≠ 10 ∧ c ≠ 13 := by decide
      exact this c hm
  rcases hT with h | h | h | ⟨h, h'⟩
  · simp [tagPat] at h
  · exact (h6 10 h).1 rfl
  · exact (h6 13 h).2 rfl
  · have e := prefix_take_six hp
    have hc : ((u ++ (tagPat ++ [10])).count 32) ≤ x.length + 4 := by
      rw [List.count_append]
      have h1 := hs.sublist.count_le 32
      have h2 := count_blank x
      have h3 : (tagPat ++ [10]).count 32 = 4 := by decide
      omega
    have hd : 74 ≤ ((u ++ (tagPat ++ [10])).drop 6).count 32 := by
      unfold slice at h'
      have := ((List.take_sublist (80 - 6) ((u ++ (tagPat ++ [10])).drop 6)).count_le 32)
      rw [h', List.count_replicate_self] at this
      exact this
    rw [e, List.count_append] at hc
    have h3 : tagPat.count 32 = 4 := by decide
    omega

/-- The delimiters of a data-set with such a line. -/
theorem tags_cut (pre : List Text) (hp : Safe pre) (x : Text) (hb : NoBreak x) (hl : x.length ≤ 73) (rest : Bytes) :
    tagsFrom 0 (encode (blockText pre ++ x) ++ (tagPat ++ [10]) ++ rest) =
      [0, (encode (blockText pre ++ x)).length] ++ tagsFrom ((encode (blockText pre ++ x)).length + 7) rest := by
  have hE : EndsLF (encode (blockText pre)) := by
    unfold blockText
    rcases endsLF_joinLines (tagText :: pre) with h | h
    · simp at h
    · exact h
  rw [tagsFrom_append _ _ (.inr ⟨encode (blockText pre ++ x) ++ tagPat, by simp⟩), encode_append, List.append_assoc,
    tagsFrom_append _ _ (.inr hE), tags_cutLine x hb hl]
  have e : tagsFrom 0 (encode (blockText pre)) = [0] := by
    unfold blockText
    rw [joinLines_cons, show tagText ++ '\n' :: joinLines pre = (tagText ++ ['\n']) ++ joinLines pre by simp,
      encode_append, tagsFrom_append _ _ (Or.inr (endsLF_encode _)), encode_append, encode_LF, encode_tagText,
      tags_tagLine, tags_joinLines pre (fun l hl => (hp l hl).1) (fun l hl => (hp l hl).2)]
    rfl
  rw [e]
  simp [tagPat, Nat.add_assoc]

/-- The text of a data-set with such a line. -/
theorem frameText_cut (pre post : List Text) (x : Text) :
    encode (frameText (pre ++ (x ++ tagText) :: post)) =
      encode (blockText pre ++ x) ++ (tagPat ++ [10]) ++ encode (joinLines (post ++ [tagText])) := by
  have : frameText (pre ++ (x ++ tagText) :: post) =
      (blockText pre ++ x) ++ (tagText ++ ['\n']) ++ joinLines (post ++ [tagText]) := by
    unfold frameText blockText
    simp [joinLines_append]
  rw [this, encode_append, encode_append, encode_append (tagText), encode_tagText, encode_LF]

/-- The first data-set of what is written then ends at this line. -/
theorem first_cut (f : Bytes) (hT : Terminated f) (hB : Balanced f) (pre post : List Text) (hp : Safe pre) (x : Text)
    (hb : NoBreak x) (hl : x.length ≤ 73) :
    setCount f < setCount (f ++ encode (frameText (pre ++ (x ++ tagText) :: post))) ∧
    setBytes (f ++ encode (frameText (pre ++ (x ++ tagText) :: post))) (setCount f) = encode (blockText pre ++ x) := by
  have hs := sets_append f (encode (frameText (pre ++ (x ++ tagText) :: post))) hT hB
  have hd := tags_cut pre hp x hb hl (encode (joinLines (post ++ [tagText])))
  rw [← frameText_cut, ← delims_eq] at hd
  have h1 : sets (encode (frameText (pre ++ (x ++ tagText) :: post))) = encode (blockText pre ++ x) ::
      (sets (encode (frameText (pre ++ (x ++ tagText) :: post)))).tail := by
    rw [sets_eq, hd]
    simp only [List.cons_append, List.nil_append, pairUp, List.map_cons, List.tail_cons, List.cons.injEq, and_true]
    rw [frameText_cut, List.append_assoc]
    unfold blockBytes
    exact slice_prefix _ _ _ rfl
  have hc : setCount f < setCount (f ++ encode (frameText (pre ++ (x ++ tagText) :: post))) := by
    rw [← sets_length, ← sets_length, hs, h1]; simp
  refine ⟨hc, ?_⟩
  have := sets_getElem _ _ hc
  rw [hs, h1, ← sets_length, List.getElem?_append_right (Nat.le_refl _), Nat.sub_self] at this
  rw [← sets_length]
  exact (Option.some.inj this).symm

/-- The type of what is left. -/
theorem blockType_cut (idl : Text) (pre : List Text) (x : Text) (h : NoBreak idl) :
    blockType (encode (blockText (idl :: pre) ++ x)) = (parseIntB ((encode idl).take 6)).getD 0 := by
  have e : encode (blockText (idl :: pre) ++ x) = tagPat ++ 10 :: (encode idl ++ 10 :: encode (joinLines pre ++ x)) := by
    unfold blockText
    rw [joinLines_cons, joinLines_cons, show tagText ++ '\n' :: (idl ++ '\n' :: joinLines pre) ++ x
      = tagText ++ (['\n'] ++ (idl ++ (['\n'] ++ (joinLines pre ++ x)))) by simp]
    simp only [encode_append, encode_tagText, encode_LF]; simp
  unfold blockType
  rw [e, splitLinesB_line _ _ (by decide), splitLinesB_line _ _ (encode_noLF idl h)]
  rfl

/-- A data-set written as text, one line of which ends like a delimiter: the call succeeds, and what is read of the new
data-set is what the reader makes of the lines before and of the beginning of this line. -/
theorem read_cut {e : Env} {fd : Bool} {d d' : Dict} {n : Nat} {w : W Unit} {ex : Text → Res Dict} {pre post : List Text}
    {x : Text} {o : Dict} (hc : CleanD d d') (ht : d'.get? "type" = some (.int n)) (hw : writeDispatch e fd (.int n) = W.none w)
    (hr : ∀ h b, readBlock n h b = ex (decode b)) (ho : w d' = ⟨frameText (idLine n :: (pre ++ (x ++ tagText) :: post)), o, .ok ()⟩)
    (hi : (parseIntB ((encode (idLine n)).take 6)).getD 0 = n) (hid : NoBreak (idLine n))
    (hp : Safe (idLine n :: pre)) (hb : NoBreak x) (hl : x.length ≤ 73)
    (u : World) (hT : Terminated (u.file.getD [])) (hB : Balanced (u.file.getD [])) (header : Bool) :
    (u.addAll e fd [d]).2.2 = .ok () ∧
    ((u.addAll e fd [d]).1.readSets (.one (setCount (u.file.getD []))) header).2 =
      (match ex (blockText (idLine n :: pre) ++ x) with
        | .ok r => .ok (.single r)
        | .error y => .error (readErr y)) := by
  have hwb : writeBody e fd d = ⟨frameText (idLine n :: (pre ++ (x ++ tagText) :: post)), o, .ok none⟩ := by
    rw [writeBody_eq hc ht, hw]; unfold W.none; rw [ho]; rfl
  have hf := writeSet_file u e fd false d
  rw [hwb, fileAfter_add] at hf
  simp only [added] at hf
  obtain ⟨hc1, hs1⟩ := first_cut (u.file.getD []) hT hB (idLine n :: pre) post hp x hb hl
  rw [List.cons_append] at hc1 hs1
  have hnew : (u.addAll e fd [d]).1 = World.new (some (u.file.getD [] ++
      encode (frameText (idLine n :: (pre ++ (x ++ tagText) :: post))))) := by
    rw [addAll_cons_ok (a := none) (by rw [hwb])]
    simp only [World.addAll]
    unfold World.writeSet
    simp only [hwb, fileAfter_add, added]
    unfold World.refresh
    simp only
    rw [refreshObj_eq _ _ (by omega)]; rfl
  refine ⟨by rw [addAll_cons_ok (a := none) (by rw [hwb])]; rfl, ?_⟩
  rw [hnew, readSets_new]
  simp only [readRange, mapRes]
  rw [readSet_in _ _ hc1, hs1, blockType_cut _ _ _ hid, hi, hr, decode_encode]
  cases ex (blockText (idLine n :: pre) ++ x) <;> rfl

end Verif
