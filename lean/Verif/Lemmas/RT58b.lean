import Verif.Lemmas.RT58
/-
Round trip of data-set 58: reading.
-/
namespace Verif

theorem strip_blank_cons (t : Text) : strip (' ' :: t) = strip t := strip_append_left [' '] t (by decide)

/-- Two integers, the second in four columns: its `-1` is not a delimiter. -/
theorem tagFree_int4 (pre : List Text) (w : Nat) (m n : Int) (hl : pre.flatten.length + w + 4 ≤ 80) (hm : Fits w m)
    (hw : 0 < w) (hf : Fits 4 n) : TagFree (pre ++ [padLeft w (intRepr m), padLeft 4 (intRepr n)]).flatten := by
  have e : (pre ++ [padLeft w (intRepr m), padLeft 4 (intRepr n)]).flatten
      = (pre.flatten ++ padLeft w (intRepr m)) ++ padLeft 4 (intRepr n) := by simp
  have l4 := len_int 4 n hf (by decide)
  have lw := len_int w m hm hw
  rw [e]
  refine tagFree_of_short _ ?_ ?_ ?_
  · rw [List.length_append, List.length_append, l4, lw]; exact hl
  · unfold padLeft
    rw [← List.append_assoc (as := pre.flatten ++ _), List.getLast?_append]
    cases h : (intRepr n).getLast? with
    | none => rw [List.getLast?_eq_none_iff] at h; exact absurd h (intRepr_ne_nil n)
    | some c =>
      simp
      rintro rfl
      exact absurd (intRepr_noSpace n _ (List.mem_of_getLast? h)) (by decide)
  · rintro ⟨t, ht⟩
    have ht' : (t ++ [' ', ' ']) ++ [' ', ' ', '-', '1'] = (pre.flatten ++ padLeft w (intRepr m)) ++ padLeft 4 (intRepr n) := by
      rw [← ht, List.append_assoc]; rfl
    have h1 := (List.append_inj' ht' (by rw [l4]; rfl)).1
    have h2 := congrArg List.getLast? h1
    unfold padLeft at h2
    rw [← List.append_assoc, List.getLast?_append, List.getLast?_append] at h2
    cases h : (intRepr m).getLast? with
    | none => rw [List.getLast?_eq_none_iff] at h; exact absurd h (intRepr_ne_nil m)
    | some c =>
      rw [h] at h2
      simp at h2
      have := intRepr_noSpace m c (List.mem_of_getLast? h)
      rw [← h2] at this
      exact absurd this (by decide)

namespace DS58

theorem fits_ordType (r : DS58) : Fits 10 r.ordType := by
  rw [code_eq]
  generalize dbl r.store = a
  generalize isReal r.ord = b
  cases a <;> cases b <;> decide

theorem fits_even (r : DS58) : Fits 10 (if r.even then 1 else 0) := by
  cases r.even <;> decide

theorem fits_count (r : DS58) (ok : Fit r) : Fits 10 (r.count : Int) := by
  have := ok.count
  unfold Fits
  norm_num at this ⊢
  omega

theorem fits_bytes (r : DS58) (ok : Fit r) : Fits 12 ((8 * r.count : Nat) : Int) := by
  have := ok.count
  unfold Fits
  norm_num at this ⊢
  omega

theorem fits_func (r : DS58) (ok : Fit r) : Fits 5 r.func := by
  have := ok.func
  generalize r.func = n at this
  simp only [List.mem_cons, List.not_mem_nil, or_false] at this
  rcases this with h | h | h | h | h | h | h <;> subst h <;> decide

theorem fin_min (r : DS58) (ok : Fit r) : r.min.finite = true := by
  unfold min
  cases r.even with
  | true => exact ok.xs _ (by simp [abscissaVals])
  | false => simp only [Bool.false_eq_true, if_false]; exact F64.sz_finite _

theorem fin_inc (r : DS58) (ok : Fit r) : r.inc.finite = true := by
  have hd := ok.dx
  unfold inc
  generalize r.x1.sub r.x0 = y at hd
  cases r.even with
  | true => exact hd
  | false => simp only [Bool.false_eq_true, if_false]; exact F64.sz_finite _

theorem axis_safe (a : Axis58) (ok : AxisOk a) {ls : List Text} (h : Safe ls) : Safe ((axisFields a).flatten :: ls) := by
  have lr : (padRight 20 a.units).length = 20 := ok.units.lenR
  refine Safe.cons ?_ ?_ h
  · apply noBreak_fields
    unfold axisFields
    all_mem
    refine ⟨noBreak_int _ _, noBreak_int _ _, noBreak_int _ _, noBreak_int _ _, ?_, ?_⟩
    · exact (noBreak_cons_iff _ _).2 ⟨by decide, NoBreak.padRight ok.lab.noBreak⟩
    · exact (noBreak_cons_iff _ _).2 ⟨by decide, NoBreak.padRight ok.units.noBreak⟩
  · refine tagFree_last [_, _, _, _, _] _ ?_ ?_ ?_
    · simp [len_int 10 _ ok.spec, len_int 5 _ ok.len, len_int 5 _ ok.force, len_int 5 _ ok.temp, ok.lab.lenR, lr]
    · simp [lr]
    · intro hs
      apply ok.noDelim
      have h2 : padRight 20 a.units <:+ ' ' :: padRight 20 a.units := List.suffix_cons _ _
      exact List.suffix_of_suffix_length_le hs h2 (by rw [lr]; decide)

theorem binLine_safe (le : Bool) (n : Nat) (hn : Fits 12 (n : Int)) {ls : List Text} (h : Safe ls) :
    Safe ((padLeft 6 (natRepr 58) ++ (binFields le n).flatten) :: ls) := by
  have hb : ∀ c : Char, ∀ t : Text, isBreak c = false → NoBreak t → NoBreak (c :: t) := fun c t h1 h2 =>
    (noBreak_cons_iff c t).2 ⟨h1, h2⟩
  have e : padLeft 6 (natRepr 58) ++ (binFields le n).flatten
      = (padLeft 6 (intRepr 58) :: binFields le n).flatten := rfl
  refine Safe.cons ?_ ?_ h
  · rw [e]
    apply noBreak_fields
    unfold binFields
    all_mem
    exact ⟨noBreak_int _ _, hb _ _ (by decide) (noBreak_int _ _), noBreak_int _ _, noBreak_int _ _, noBreak_int _ _,
      noBreak_int _ _, noBreak_int _ _, noBreak_int _ _, noBreak_int _ _⟩
  · rw [e]
    unfold binFields
    refine tagFree_int [_, _, _, _, _, _, _, _] 12 0 ?_ (by decide) (by decide) (by decide)
    have h1 : (padLeft 6 (intRepr (if le then 1 else 2))).length = 6 := by cases le <;> decide
    have h2 : (padLeft 6 (intRepr 58)).length = 6 := by decide
    have h3 : (padLeft 6 (intRepr 2)).length = 6 := by decide
    have h4 : (padLeft 12 (intRepr 11)).length = 12 := by decide
    have h5 : (padLeft 6 (intRepr 0)).length = 6 := by decide
    have h6 : (padLeft 12 (intRepr 0)).length = 12 := by decide
    have h7 := len_int 12 _ hn (by decide)
    simp only [List.flatten_cons, List.flatten_nil, List.length_append, List.length_cons, List.length_nil, h1, h2, h3, h4,
      h5, h6, h7]
    decide

theorem idl_safe (r : DS58) (ok : Fit r) {ls : List Text} (h : Safe ls) : Safe (idl r :: ls) := by
  unfold idl
  cases hs : r.store with
  | ascii dd => exact safe_idLine 58 (by decide) (by decide) (by decide) (by decide) h
  | binary le => exact binLine_safe le _ (fits_bytes r ok) h

theorem nums_safe (double : Bool) (r : DS58) (ok : Fit r) : Safe (numLinesOf double r) := by
  unfold numLinesOf
  apply safe_records _ _ (nums_length double _ _) (fmts_pos _ _ _) _ (perLine_pos _ _ _)
  · generalize isReal r.ord = a
    generalize r.even = b
    cases double <;> cases a <;> cases b <;> decide
  · generalize isReal r.ord = a
    generalize r.even = b
    cases double <;> cases a <;> cases b <;> decide
  · intro p hp
    exact nums_finite _ _ _ (pts_fin r ok p hp)

theorem safe (r : DS58) (ok : Fit r) : Safe r.lines := by
  have l1 : ∀ {t}, LineText 80 t → NoBreak (padRight 80 t) := fun h => NoBreak.padRight h.noBreak
  have l2 : ∀ {t}, LineText 80 t → TagFree (padRight 80 t) := fun h => (tagFree_iff _).2 h.noDelim
  have hb : Safe (body r) := by
    unfold body
    cases r.store with
    | ascii dd => exact nums_safe dd r ok
    | binary le => exact Safe.nil
  refine idl_safe r ok ?_
  unfold head
  refine (Safe.cons (l1 ok.id1) (l2 ok.id1)
    (Safe.cons (l1 ok.id2) (l2 ok.id2) (Safe.cons (l1 ok.id3) (l2 ok.id3) (Safe.cons (l1 ok.id4) (l2 ok.id4)
    (Safe.cons (l1 ok.id5) (l2 ok.id5) (Safe.cons ?_ ?_ (Safe.cons ?_ ?_ (axis_safe _ ok.abscissa (axis_safe _ ok.ordinate
      (axis_safe _ ok.orddenom (axis_safe _ ok.zAxis hb)))))))))))
  · apply noBreak_fields
    unfold recFields
    all_mem
    exact ⟨noBreak_int _ _, noBreak_int _ _, noBreak_int _ _, noBreak_int _ _,
      (noBreak_cons_iff _ _).2 ⟨by decide, NoBreak.padLeft ok.rspName.noBreak⟩, noBreak_int _ _, noBreak_int _ _,
      (noBreak_cons_iff _ _).2 ⟨by decide, NoBreak.padLeft ok.refName.noBreak⟩, noBreak_int _ _, noBreak_int _ _⟩
  · refine tagFree_int4 [_, _, _, _, _, _, _, _] 10 _ _ ?_ ok.refNode (by decide) ok.refDir
    simp [len_int 5 _ (fits_func r ok), len_int 10 _ ok.funcId, len_int 5 _ ok.ver, len_int 10 _ ok.load, ok.rspName.lenL,
      len_int 10 _ ok.rspNode, len_int 4 _ ok.rspDir, ok.refName.lenL]
  · apply noBreak_fields
    unfold formFields
    all_mem
    exact ⟨noBreak_int _ _, noBreak_int _ _, noBreak_int _ _, noBreak_flt _ _ _ (fin_min r ok), noBreak_flt _ _ _ (fin_inc r ok),
      noBreak_flt _ _ _ ok.zValue⟩
  · refine tagFree_flt [_, _, _, _, _] 13 5 _ ?_ ok.zValue (by decide)
    simp [len_int 10 _ (fits_ordType r), len_int 10 _ (fits_count r ok), len_int 10 _ (fits_even r),
      len_flt 13 5 _ (fin_min r ok), len_flt 13 5 _ (fin_inc r ok)]

/-! Reading the header. -/

theorem read_axis (k : UnitKeys) (a : Axis58) (ok : AxisOk a)
    (hn : ([k.spec, k.len, k.force, k.temp, k.lab, k.units] : List Key).Nodup) :
    readUnits (.ok ((axisFields a).flatten ++ ['\n'])) k
      = .ok (axisBack k.spec k.len k.force k.temp k.lab k.units a) := by
  unfold readUnits
  simp only
  rw [parseHeader_fields _ _ _ _ _ _ (by
    simp [axisFields, len_int 10 _ ok.spec, len_int 5 _ ok.len, len_int 5 _ ok.force, len_int 5 _ ok.temp, ok.lab.lenR,
      ok.units.lenR]) (by simp [axisFields]) (by simp [axisFields])]
  simp only [axisFields, List.map_cons, List.map_nil, headerLoop_cons, headerField_int, strip_blank_cons, strip_padRight,
    headerField_str]
  simp only [headerLoop]
  simp only [Dict.set_eq_update, Dict.update_update, List.cons_append, List.nil_append]
  rw [Dict.update_fresh _ _ (by simpa using hn)]
  rfl

theorem read_rec (r : DS58) (ok : Fit r) :
    parseHeader ((recFields r).flatten ++ ['\n']) 1 [5, 10, 5, 10, 11, 10, 4, 11, 10, 4]
      [.int, .int, .int, .int, .str, .int, .int, .str, .int, .int]
      ["func_type", "func_id", "ver_num", "load_case_id", "rsp_ent_name", "rsp_node", "rsp_dir", "ref_ent_name",
       "ref_node", "ref_dir"]
      = .ok [("func_type", .int r.func), ("func_id", .int r.funcId),
         ("ver_num", .int r.ver), ("load_case_id", .int r.load), ("rsp_ent_name", .str (strip r.rspName)),
         ("rsp_node", .int r.rspNode), ("rsp_dir", .int r.rspDir), ("ref_ent_name", .str (strip r.refName)),
         ("ref_node", .int r.refNode), ("ref_dir", .int r.refDir)] := by
  rw [parseHeader_fields _ _ _ _ _ _ (by
    simp [recFields, len_int 5 _ (fits_func r ok), len_int 10 _ ok.funcId, len_int 5 _ ok.ver, len_int 10 _ ok.load, ok.rspName.lenL,
      len_int 10 _ ok.rspNode, len_int 4 _ ok.rspDir, ok.refName.lenL, len_int 10 _ ok.refNode, len_int 4 _ ok.refDir])
    (by simp [recFields]) (by simp [recFields])]
  simp only [recFields, List.map_cons, List.map_nil, headerLoop_cons, headerField_int, strip_blank_cons]
  rw [strip_padLeft 10 r.rspName, strip_padLeft 10 r.refName]
  simp only [headerLoop, headerField_str]
  build_dict

theorem read_form (r : DS58) (ok : Fit r) :
    parseHeader ((formFields r).flatten ++ ['\n']) 6 [10, 10, 10, 13, 13, 13] [.int, .int, .int, .flt, .flt, .flt]
      ["ord_data_type", "num_pts", "abscissa_spacing", "abscissa_min", "abscissa_inc", "z_axis_value"]
      = .ok r.formBack := by
  rw [parseHeader_fields _ _ _ _ _ _ (by
    simp [formFields, len_int 10 _ (fits_ordType r), len_int 10 _ (fits_count r ok), len_int 10 _ (fits_even r),
      len_flt 13 5 _ (fin_min r ok), len_flt 13 5 _ (fin_inc r ok), len_flt 13 5 _ ok.zValue])
    (by simp [formFields]) (by simp [formFields])]
  simp only [formFields, List.map_cons, List.map_nil, headerLoop_cons, headerField_int, headerField_flt _ _ _ (fin_min r ok),
    headerField_flt _ _ _ (fin_inc r ok), headerField_flt _ _ _ ok.zValue]
  simp only [headerLoop]
  unfold formBack
  build_dict

theorem read_bin (le : Bool) (n : Nat) (hn : Fits 12 (n : Int)) :
    parseHeader (padLeft 6 (natRepr 58) ++ (binFields le n).flatten ++ ['\n']) 6 [6, 1, 6, 6, 12, 12, 6, 6, 12, 12]
        [.ign, .ign, .int, .int, .int, .int, .ign, .ign, .ign, .ign]
        ["", "", "byte_ordering", "fp_format", "n_ascii_lines", "n_bytes", "", "", "", ""]
      = .ok [("byte_ordering", .int (if le then 1 else 2)), ("fp_format", .int 2), ("n_ascii_lines", .int 11),
          ("n_bytes", .int n)] := by
  have e : padLeft 6 (natRepr 58) ++ (binFields le n).flatten
      = [padLeft 6 (natRepr 58), ['b'], padLeft 6 (intRepr (if le then 1 else 2)), padLeft 6 (intRepr 2), padLeft 12 (intRepr 11),
         padLeft 12 (intRepr (n : Int)), padLeft 6 (intRepr 0), padLeft 6 (intRepr 0), padLeft 12 (intRepr 0),
         padLeft 12 (intRepr 0)].flatten := rfl
  have h1 : (padLeft 6 (intRepr (if le then 1 else 2))).length = 6 := by cases le <;> decide
  have h2 : (padLeft 6 (natRepr 58)).length = 6 := by decide
  have h3 : (padLeft 6 (intRepr 2)).length = 6 := by decide
  have h4 : (padLeft 12 (intRepr 11)).length = 12 := by decide
  have h5 : (padLeft 6 (intRepr 0)).length = 6 := by decide
  have h6 : (padLeft 12 (intRepr 0)).length = 12 := by decide
  have h7 := len_int 12 _ hn (by decide)
  have hig : ∀ t, headerField .ign t = .ok none := fun _ => rfl
  rw [e, parseHeader_fields _ _ _ _ _ _ (by
      simp only [List.map_cons, List.map_nil, h1, h2, h3, h4, h5, h6, h7]; rfl) (by simp) (by simp)]
  simp only [List.map_cons, List.map_nil, headerLoop_cons, headerField_int, hig]
  simp only [headerLoop]
  build_dict

/-- The entries of the identifier line of a binary data-set. -/
def binBack (le : Bool) (n : Nat) : Dict :=
  [("type", .int 58), ("binary", .int 1), ("byte_ordering", .int (if le then 1 else 2)), ("fp_format", .int 2),
   ("n_ascii_lines", .int 11), ("n_bytes", .int n)]

theorem read_binLine (le : Bool) (n : Nat) (hn : Fits 12 (n : Int)) :
    isBinary58 (padLeft 6 (natRepr 58) ++ (binFields le n).flatten ++ ['\n']) = true ∧
    idEntries58 (padLeft 6 (natRepr 58) ++ (binFields le n).flatten ++ ['\n']) = .ok (binBack le n) := by
  have h : isBinary58 (padLeft 6 (natRepr 58) ++ (binFields le n).flatten ++ ['\n']) = true := by
    unfold isBinary58 binFields
    have : (padLeft 6 (natRepr 58) : Text).length = 6 := by decide
    rw [List.append_assoc, List.getElem?_append_right (by rw [this]), this]
    simp only [List.flatten_cons, List.cons_append, Nat.sub_self, List.getElem?_cons_zero]
    decide
  refine ⟨h, ?_⟩
  unfold idEntries58
  simp only
  rw [h, if_pos rfl, read_bin le n hn]
  rfl

/-- The start of the dictionary. -/
theorem read_store (r : DS58) (ok : Fit r) :
    isBinary58 (idl r ++ ['\n']) = (match r.store with | .ascii _ => false | .binary _ => true) ∧
    idEntries58 (idl r ++ ['\n']) = .ok r.storeBack := by
  unfold idl storeBack
  cases hs : r.store with
  | ascii dd =>
    have h : isBinary58 (idLine 58 ++ ['\n']) = false := by decide
    unfold idEntries58
    simp only
    rw [h]
    exact ⟨rfl, rfl⟩
  | binary le =>
    obtain ⟨h1, h2⟩ := read_binLine le _ (fits_bytes r ok)
    refine ⟨h1, h2.trans ?_⟩
    unfold binBack
    have hc : ((8 * r.count : Nat) : Int) = 8 * (r.count : Int) := by push_cast; rfl
    rw [hc]

theorem headBack_eq (r : DS58) : r.headBack = r.storeBack ++ (r.idBack ++ (r.formBack ++ r.axesBack)) := rfl

/-- Keys of the header in order. -/
theorem storeBack_keys (r : DS58) : r.storeBack.map (·.1) = ([.s "type", .s "binary"] : List Key) ∨
    r.storeBack.map (·.1)
      = ([.s "type", .s "binary", .s "byte_ordering", .s "fp_format", .s "n_ascii_lines", .s "n_bytes"] : List Key) := by
  unfold storeBack
  cases r.store with
  | ascii dd => left; rfl
  | binary le => right; rfl

theorem axes_eq (r : DS58) : r.axesBack
    = axisBack abscissaKeys.spec abscissaKeys.len abscissaKeys.force abscissaKeys.temp abscissaKeys.lab abscissaKeys.units r.abscissa ++
      (axisBack ordinateKeys.spec ordinateKeys.len ordinateKeys.force ordinateKeys.temp ordinateKeys.lab ordinateKeys.units r.ordinate ++
      (axisBack orddenomKeys.spec orddenomKeys.len orddenomKeys.force orddenomKeys.temp orddenomKeys.lab orddenomKeys.units r.orddenom ++
       axisBack zAxisKeys.spec zAxisKeys.len zAxisKeys.force zAxisKeys.temp zAxisKeys.lab zAxisKeys.units r.zAxis)) := rfl

theorem read_head_core (r : DS58) (ok : Fit r) (l : Text) (b : Bool) (st : Dict) (hb : isBinary58 (l ++ ['\n']) = b)
    (hd : idEntries58 (l ++ ['\n']) = .ok st)
    (hk : st.map (·.1) = ([.s "type", .s "binary"] : List Key) ∨ st.map (·.1)
      = ([.s "type", .s "binary", .s "byte_ordering", .s "fp_format", .s "n_ascii_lines", .s "n_bytes"] : List Key)) :
    readHead58 ((tagText ++ ['\n']) :: (l :: head r).map (· ++ ['\n']))
      = .ok (b, st ++ (r.idBack ++ (r.formBack ++ r.axesBack))) := by
  have ids : ∀ (t : Text) (k : Key), LineText 80 t → parseHeader (padRight 80 t ++ ['\n']) 1 [80] [.str] [k]
      = .ok [(k, .str (strip t))] := fun t k h => parseHeader_str 80 t _ k h.fits
  unfold readHead58
  simp only [head, List.map_cons, List.map_nil, List.getElem?_cons_succ, List.getElem?_cons_zero, orIndex, ok_bind]
  rw [hd, ok_bind]
  simp only [ok_bind, ids _ _ ok.id1, ids _ _ ok.id2, ids _ _ ok.id3, ids _ _ ok.id4, ids _ _ ok.id5, read_rec r ok, read_form r ok,
    read_axis abscissaKeys _ ok.abscissa (by decide), read_axis ordinateKeys _ ok.ordinate (by decide),
    read_axis orddenomKeys _ ok.orddenom (by decide), read_axis zAxisKeys _ ok.zAxis (by decide)]
  rw [hb]
  simp only [Dict.update_update]
  rw [Dict.update_fresh]
  · rw [axes_eq, idBack]
    simp only [List.cons_append, List.nil_append, List.append_assoc]
  · rw [List.map_append]
    rcases hk with h | h <;> rw [h] <;>
      (simp only [formBack, axisBack, abscissaKeys, ordinateKeys, orddenomKeys, zAxisKeys, List.map_cons, List.map_nil,
        List.cons_append, List.nil_append]; decide +kernel)

theorem read_head (r : DS58) (ok : Fit r) :
    readHead58 ((tagText ++ ['\n']) :: (idl r :: head r).map (· ++ ['\n']))
      = .ok ((match r.store with | .ascii _ => false | .binary _ => true), r.headBack) := by
  obtain ⟨hb, hd⟩ := read_store r ok
  exact read_head_core r ok _ _ _ hb hd (storeBack_keys r)

/-! Reading. -/

theorem block_lines (r : DS58) (ok : Fit r) (p : Bytes) :
    ((splitLinesKeepB (encode (blockText r.lines) ++ p)).take 13).flatten
      = encode (joinLines (tagText :: idl r :: head r)) ∧
    ((splitLinesKeepB (encode (blockText r.lines) ++ p)).drop 13).flatten
      = encode (joinLines r.body) ++ p := by
  have hs := safe r ok
  have e : splitLinesKeepB (encode (blockText r.lines) ++ p)
      = (tagText :: idl r :: head r).map (fun l => encode (l ++ ['\n'])) ++
        (r.body.map (fun l => encode (l ++ ['\n'])) ++ splitLinesKeepB p) := by
    unfold blockText
    rw [splitLinesKeepB_lines _ (by
      intro l hl
      rcases List.mem_cons.1 hl with rfl | hl
      · exact noBreak_tagText
      · exact (hs l hl).1)]
    simp [lines]
  have hl : ((tagText :: idl r :: head r).map (fun l => encode (l ++ ['\n']))).length = 13 := by simp [head]
  rw [e]
  constructor
  · rw [List.take_append_of_le_length (by rw [hl]), List.take_of_length_le (by rw [hl]), joinLines_encode]
  · rw [List.drop_append_of_le_length (by rw [hl]), List.drop_of_length_le (by rw [hl]), List.nil_append,
      List.flatten_append, joinLines_encode, splitLinesKeepB_flatten]

theorem head_lines (r : DS58) (ok : Fit r) :
    splitLinesKeep (decode (encode (joinLines (tagText :: idl r :: head r))))
      = (tagText ++ ['\n']) :: (idl r :: head r).map (· ++ ['\n']) := by
  rw [decode_encode, splitLinesKeep_joinLines]
  · rfl
  · intro l hl
    rcases List.mem_cons.1 hl with rfl | hl
    · exact noBreak_tagText
    · exact (safe r ok l (by unfold lines; rw [← List.cons_append]; exact List.mem_append_left _ hl)).1

theorem get?_left {a b : Dict} {k : Key} {v : Val} (h : Dict.get? a k = some v) : Dict.get? (a ++ b) k = some v := by
  induction a with
  | nil => cases h
  | cons p a ih =>
    obtain ⟨q, w⟩ := p
    simp only [Dict.get?] at h
    show (if q = k then some w else Dict.get? (a ++ b) k) = some v
    by_cases hq : q = k
    · rw [if_pos hq] at h ⊢; exact h
    · rw [if_neg hq] at h ⊢; exact ih h

theorem head_get (r : DS58) (k : Key) (v : Val) (h : Dict.get? r.formBack k = some v)
    (h2 : k ∉ ([.s "type", .s "binary", .s "byte_ordering", .s "fp_format", .s "n_ascii_lines", .s "n_bytes", .s "id1",
      .s "id2", .s "id3", .s "id4", .s "id5", .s "func_type", .s "func_id", .s "ver_num", .s "load_case_id",
      .s "rsp_ent_name", .s "rsp_node", .s "rsp_dir", .s "ref_ent_name", .s "ref_node", .s "ref_dir"] : List Key)) :
    Dict.get r.headBack k = .ok v := by
  have e : Dict.get? r.headBack k = some v := by
    rw [headBack_eq, DS55.get?_fresh, DS55.get?_fresh, get?_left h]
    · intro hk
      apply h2
      simp only [idBack, List.map_cons, List.map_nil] at hk
      simp only [List.mem_cons] at hk ⊢
      tauto
    · intro hk
      apply h2
      rcases storeBack_keys r with e | e <;> rw [e] at hk <;> simp only [List.mem_cons, List.not_mem_nil, or_false] at hk ⊢ <;> tauto
  unfold Dict.get
  rw [e]

theorem bodyArgs_eq (r : DS58) :
    bodyArgs r.headBack = .ok (r.ordType, if r.even then 1 else 0, r.min.quant 5, r.inc.quant 5) := by
  unfold bodyArgs
  rw [head_get r "ord_data_type" (.int r.ordType) rfl (by decide +kernel),
    head_get r "abscissa_spacing" (.int (if r.even then 1 else 0)) rfl (by decide +kernel),
    head_get r "abscissa_min" (.float (r.min.quant 5)) rfl (by decide +kernel),
    head_get r "abscissa_inc" (.float (r.inc.quant 5)) rfl (by decide +kernel)]

theorem littleOf_eq (r : DS58) (le : Bool) (hs : r.store = .binary le) : littleOf r.headBack = .ok le := by
  have e : Dict.get r.headBack "byte_ordering" = .ok (.int (if le then 1 else 2)) := by
    unfold Dict.get
    rw [headBack_eq]
    have : Dict.get? r.storeBack "byte_ordering" = some (.int (if le then 1 else 2)) := by
      unfold storeBack
      rw [hs]
      rfl
    rw [get?_left this]
  unfold littleOf
  rw [e]
  cases le
  · exact congrArg Except.ok (show Val.numEq (.int 2) 1 = false by decide)
  · exact congrArg Except.ok (show Val.numEq (.int 1) 1 = true by decide)

/-- The dictionary of all entries. -/
theorem assign_back (r : DS58) (ok : Fit r) :
    assign58 r.headBack r.ordType (if r.even then 1 else 0) (r.min.quant 5) (r.inc.quant 5)
      ((r.pts.map (keep r.store)).flatMap (nums (isReal r.ord) r.even)) = r.readBack := by
  rw [code_eq, assign_eq, Dict.update_fresh]
  · unfold readBack
    have hx : (if r.even = true then arange58 (r.min.quant 5) (r.inc.quant 5) (r.pts.map (keep r.store)).length
        else (r.pts.map (keep r.store)).map (·.1)) = r.xBack := by
      unfold xBack
      rw [List.length_map, pts_length r ok.length]
      cases he : r.even with
      | true => rfl
      | false =>
        have hl := ok.length he
        simp only [Bool.false_eq_true, if_false, pts, he, List.map_map]
        have : ((·.1) ∘ keep r.store : Pt58 → F64) = keepX r.store ∘ Prod.fst := rfl
        rw [this, ← List.map_map, List.map_fst_zip (by rw [hl, count_eq])]
    have hsnd : r.pts.map (·.2) = ys r.ord := by
      unfold pts
      cases he : r.even with
      | true => simp
      | false =>
        have hl := ok.length he
        simp only [Bool.false_eq_true, if_false]
        rw [List.map_snd_zip (by rw [hl, count_eq])]
    have hd : (if isReal r.ord = true then Val.arrF ((r.pts.map (keep r.store)).map (·.2.1))
        else .arrC ((r.pts.map (keep r.store)).map fun p => cplxOf p.2.1 p.2.2)) = r.ordBack := by
      have hfin := pts_fin r ok
      unfold ordBack
      cases ho : r.ord with
      | real l =>
        rw [ho] at hsnd
        simp only [isReal, if_true, List.map_map]
        have : ((fun p => p.2.1) ∘ keep r.store : Pt58 → F64) = (fun z => keepY r.store z.1) ∘ Prod.snd := rfl
        rw [this, ← List.map_map, hsnd]
        simp [ys]
      | cplx l =>
        rw [ho] at hsnd
        simp only [isReal, Bool.false_eq_true, if_false, List.map_map]
        have : l.map (fun z => Cplx.unsigned (keepY r.store z.1, keepY r.store z.2))
            = r.pts.map fun p => Cplx.unsigned (keepY r.store p.2.1, keepY r.store p.2.2) := by
          have : l = r.pts.map (·.2) := hsnd.symm
          rw [this, List.map_map]; rfl
        rw [this]
        congr 1
        apply List.map_congr_left
        intro p hp
        obtain ⟨_, h1, h2⟩ := keep_fin r.store p (hfin p hp)
        exact cplxOf_eq _ _ h1 h2
    rw [hx, hd]
  · rw [headBack_eq]
    simp only [List.map_append]
    rcases storeBack_keys r with h | h <;> rw [h] <;>
      (simp only [idBack, formBack, axesBack, axisBack, List.map_cons, List.map_nil,
        List.cons_append, List.nil_append]; decide +kernel)

theorem pts_ne (r : DS58) (ok : Fit r) : r.pts ≠ [] := by
  intro h
  have := pts_length r ok.length
  rw [h] at this
  have := ok.pos
  simp at *
  omega

/-- The block between the opening and the closing delimiter. -/
def block (r : DS58) : Bytes := encode (blockText r.lines) ++ r.extra

theorem read_eq (r : DS58) (ok : Fit r) : extract58 r.block false = .ok r.readBack := by
  obtain ⟨h1, h2⟩ := block_lines r ok r.extra
  unfold extract58 block
  rw [h1, head_lines r ok, read_head r ok, h2]
  simp only [ok_bind, bodyArgs_eq, Bool.false_eq_true, if_false]
  have hv : (match r.store with | .ascii _ => false | .binary _ => true : Bool) = true ∧ (∃ le, r.store = .binary le) ∨
      (match r.store with | .ascii _ => false | .binary _ => true : Bool) = false ∧ (∃ dd, r.store = .ascii dd) := by
    cases r.store with
    | ascii dd => right; exact ⟨rfl, dd, rfl⟩
    | binary le => left; exact ⟨rfl, le, rfl⟩
  have hb := assign_back r ok
  rcases hv with ⟨hv, le, hs⟩ | ⟨hv, dd, hs⟩
  · rw [hv, if_pos rfl, littleOf_eq r le hs]
    have hbody : r.body = [] := by unfold body; rw [hs]
    have hex : r.extra = payload le r := by unfold extra; rw [hs]
    have hk : ∀ p ∈ r.pts, keep r.store p = p := by intro p _; rw [hs]; rfl
    have hc : decide (r.ordType = 2 ∨ r.ordType = 5) = false := by
      rw [code_eq, hs, show dbl (.binary le) = true from rfl]
      cases isReal r.ord <;> decide
    rw [List.map_id'' (f := keep r.store) (by intro p; rw [hs]; rfl)] at hb
    simp only [hc, hbody, hex]
    rw [show encode (joinLines []) = [] from rfl, List.nil_append, payload_eq, binValues_pack, stored_eq, hb]
    rfl
  · rw [hv, if_neg (by decide)]
    have hbody : r.body = numLinesOf dd r := by unfold body; rw [hs]
    have hex : r.extra = [] := by unfold extra; rw [hs]
    have hl : (splitLinesKeep (decode (encode (blockText r.lines) ++ r.extra))).drop 13 = (numLinesOf dd r).map (· ++ ['\n']) := by
      rw [hex, List.append_nil, decode_encode, splitKeep_block _ (safe r ok)]
      unfold lines
      rw [hbody]
      rfl
    rw [hl, code_eq, hs]
    unfold numLinesOf
    rw [show dbl (.ascii dd) = dd from rfl, asciiValues_eq dd _ _ _ (pts_fin r ok) (pts_ne r ok), ok_bind]
    rw [code_eq, hs] at hb
    rw [show dbl (.ascii dd) = dd from rfl] at hb
    rw [hb]
    rfl

theorem readHeader_eq (r : DS58) (ok : Fit r) : extract58 r.block true = .ok r.headerBack := by
  obtain ⟨h1, h2⟩ := block_lines r ok r.extra
  unfold extract58 block
  rw [h1, head_lines r ok, read_head r ok]
  simp only [ok_bind, if_true, Dict.set_eq_update, Dict.update_update]
  rw [Dict.update_fresh]
  · rfl
  · rw [headBack_eq]
    simp only [List.map_append]
    rcases storeBack_keys r with h | h <;> rw [h] <;>
      (simp only [idBack, formBack, axesBack, axisBack, List.map_cons, List.map_nil,
        List.cons_append, List.nil_append]; decide +kernel)

theorem idl_type (r : DS58) : (parseIntB ((encode (idl r)).take 6)).getD 0 = 58 := by
  unfold idl
  cases hs : r.store with
  | ascii dd => simp only; decide +kernel
  | binary le =>
    simp only
    rw [encode_append, List.take_append_of_le_length (by decide +kernel)]
    decide +kernel

theorem framed (r : DS58) (ok : Ok r) : Framed 58 r.block := by
  unfold block lines
  cases hs : r.store with
  | ascii dd =>
    have hex : r.extra = [] := by unfold extra; rw [hs]
    rw [hex, List.append_nil]
    exact framed_text _ _ _ (safe r ok) (idl_type r)
  | binary le =>
    have hex : r.extra = payload le r := by unfold extra; rw [hs]
    have hp := ok.store
    unfold StoreOk at hp
    rw [hs] at hp
    rw [hex]
    exact framed_payload _ _ _ (safe r ok) (idl_type r) _ hp

end DS58
end Verif
