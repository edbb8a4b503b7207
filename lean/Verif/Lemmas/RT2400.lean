import Verif.Lemmas.Row
import Verif.Model.DS2400
import Verif.Spec.S2400
/-
Round trip of data-set 2400.
-/
namespace Verif

namespace DS2400

/-- The printed status mask. -/
def maskFields (l : List Int) : List Text := l.map fun n => padLeft 2 (intRepr n)

/-- The lines between the delimiters. -/
def lines (r : DS2400) : List Text :=
  [idLine 2400,
   [padLeft 12 (intRepr r.uid), padLeft 6 (intRepr r.entityType), padLeft 6 (intRepr r.subtype),
    padLeft 12 (intRepr r.version)].flatten,
   [padRight 80 r.name].flatten, [padRight 80 r.part].flatten, [(maskFields r.mask).flatten].flatten,
   [padRight 10 r.date, padRight 10 r.time, padLeft 12 (intRepr r.idmVersion), padLeft 12 (intRepr r.idmItem),
    padLeft 12 (intRepr r.parent)].flatten,
   [padLeft 12 (intRepr r.switches)].flatten]

theorem mask_fld {d : Dict} {l : List Int} (h : HasInts d "status_mask" l) :
    FldOk d ⟨fun d => d.get "status_mask", maskText⟩ (maskFields l).flatten := by
  obtain ⟨v, g, xs, h1, h2, h3⟩ := h
  refine ⟨v, by simp [Dict.get, g], ?_⟩
  show maskText v = _
  unfold maskText
  rw [h1, ok_bind, mapRes_get (fmtI 2) xs (maskFields l) (by simp [maskFields, h2])]
  · rfl
  · intro i a b
    rw [fmtI_eq (h3 i a (by rw [← h2]; exact a))]
    simp [maskFields]

theorem write_eq (d : Dict) (r : DS2400) (h : Rep d r) :
    write2400 d = ⟨frameText r.lines, optFields d opt2400, .ok ()⟩ := by
  unfold write2400
  apply W.guarded_ok
  simp only [W.bind_eq, W.bind_opt, W.bind_emit]
  rw [W.bind_row (.cons ((h.uid.opt rfl).fld _) (.cons ((h.entityType.opt rfl).fld _) (.cons ((h.subtype.opt rfl).fld _)
      (.cons ((h.version.opt rfl).fld _) .nil)))),
    W.bind_row (.cons ((h.name.opt rfl).fldL _) .nil), W.bind_row (.cons ((h.part.opt rfl).fldL _) .nil),
    W.bind_row (.cons (mask_fld (h.mask.opt rfl)) .nil),
    W.bind_row (.cons ((h.date.opt rfl).fldL _) (.cons ((h.time.opt rfl).fldL _) (.cons ((h.idmVersion.opt rfl).fld _)
      (.cons ((h.idmItem.opt rfl).fld _) (.cons ((h.parent.opt rfl).fld _) .nil))))),
    W.bind_row (.cons ((h.switches.opt rfl).fld _) .nil)]
  simp only [W.emit_eq]
  simp [frameText, lines, headText_eq, tailText, tagText]
  rfl

theorem mask_len (r : DS2400) (ok : Ok r) : ∀ t ∈ maskFields r.mask, t.length = 2 := by
  intro t ht
  obtain ⟨n, hn, rfl⟩ := List.mem_map.1 ht
  exact len_int 2 n (ok.mask n hn) (by decide)

theorem mask_tagFree (r : DS2400) (ok : Ok r) : TagFree (maskFields r.mask).flatten := by
  have hl := flatten_length 2 (maskFields r.mask) (mask_len r ok)
  have h32 : (maskFields r.mask).length = 32 := by simp [maskFields, ok.mask32]
  apply tagFree_of_lt
  · rw [hl, h32]; decide
  · intro hs
    obtain ⟨l, a, b, c, e⟩ : ∃ l a b c, r.mask = l ++ [a, b, c] := by
      refine ⟨r.mask.take 29, r.mask[29]'(by rw [ok.mask32]; decide), r.mask[30]'(by rw [ok.mask32]; decide),
        r.mask[31]'(by rw [ok.mask32]; decide), ?_⟩
      apply List.ext_getElem
      · simp [ok.mask32]
      · intro i h1 h2
        rw [ok.mask32] at h1
        rcases Nat.lt_or_ge i 29 with hi | hi
        · rw [List.getElem_append_left (by simp [ok.mask32]; omega)]; simp
        · rw [List.getElem_append_right (by simp [ok.mask32]; omega)]
          simp only [List.length_take, ok.mask32]
          have : i = 29 ∨ i = 30 ∨ i = 31 := by omega
          rcases this with rfl | rfl | rfl <;> simp
    rw [e] at hs
    have ha : Fits 2 a := ok.mask a (by simp [e])
    have hb : Fits 2 b := ok.mask b (by simp [e])
    have hc : Fits 2 c := ok.mask c (by simp [e])
    have e2 : (maskFields (l ++ [a, b, c])).flatten = (maskFields l).flatten ++ (padLeft 2 (intRepr a)
        ++ (padLeft 2 (intRepr b) ++ padLeft 2 (intRepr c))) := by simp [maskFields]
    rw [e2] at hs
    have h6 := List.suffix_of_suffix_length_le hs (List.suffix_append _ _) (by
      simp [tagText, len_int 2 _ ha, len_int 2 _ hb, len_int 2 _ hc])
    have h7 := h6.eq_of_length (by simp [tagText, len_int 2 _ ha, len_int 2 _ hb, len_int 2 _ hc])
    have h8 : padLeft 2 (intRepr a) = [' ', ' '] := by
      have h8 : List.take 2 tagText = _ := congrArg (List.take 2) h7
      have l2 := len_int 2 _ ha (by decide)
      rw [List.take_append_of_le_length (by omega : 2 ≤ (padLeft 2 (intRepr a)).length),
        List.take_of_length_le (l := padLeft 2 (intRepr a)) (by omega)] at h8
      rw [← h8]; rfl
    have h9 := parseInt_padLeft 2 a
    rw [h8] at h9
    exact absurd h9 (by rw [show parseInt [' ', ' '] = none by decide]; simp)

theorem safe (r : DS2400) (ok : Ok r) : Safe r.lines := by
  have hs : ∀ {t : Text}, LineText 80 t → ∀ {ls}, Safe ls → Safe ([padRight 80 t].flatten :: ls) := by
    intro t ht ls hl
    simp only [List.flatten_cons, List.flatten_nil, List.append_nil]
    exact Safe.cons ht.noBreak.padRight ht.tagFree hl
  refine safe_idLine 2400 (by decide) (by decide) (by decide) (by decide)
    (Safe.cons ?_ ?_ (hs ok.name (hs ok.part (Safe.cons ?_ ?_ (Safe.cons ?_ ?_ (Safe.cons ?_ ?_ Safe.nil))))))
  · apply noBreak_fields
    all_mem
    exact ⟨noBreak_int _ _, noBreak_int _ _, noBreak_int _ _, noBreak_int _ _⟩
  · refine tagFree_int [_, _, _] 12 _ ?_ ok.version ok.version1 (by decide)
    simp [len_int 12 _ ok.uid, len_int 6 _ ok.entityType, len_int 6 _ ok.subtype]
  · simp only [List.flatten_cons, List.flatten_nil, List.append_nil]
    apply noBreak_fields
    intro t ht
    obtain ⟨n, hn, rfl⟩ := List.mem_map.1 ht
    exact noBreak_int _ _
  · simp only [List.flatten_cons, List.flatten_nil, List.append_nil]
    exact mask_tagFree r ok
  · apply noBreak_fields
    all_mem
    exact ⟨ok.date.noBreak.padRight, ok.time.noBreak.padRight, noBreak_int _ _, noBreak_int _ _, noBreak_int _ _⟩
  · refine tagFree_int [_, _, _, _] 12 _ ?_ ok.parent ok.parent1 (by decide)
    simp [ok.date.lenR, ok.time.lenR, len_int 12 _ ok.idmVersion, len_int 12 _ ok.idmItem]
  · apply noBreak_fields
    all_mem
    exact noBreak_int _ _
  · exact tagFree_int [] 12 _ (by decide) ok.switches ok.switches1 (by decide)

theorem read1 (r : DS2400) (ok : Ok r) :
    parseHeader ([padLeft 12 (intRepr r.uid), padLeft 6 (intRepr r.entityType), padLeft 6 (intRepr r.subtype),
      padLeft 12 (intRepr r.version)].flatten ++ ['\n']) 4 [12, 6, 6, 12] [.int, .int, .int, .int]
      ["model_uid", "entity_type", "entity_subtype", "version_number"]
      = .ok [("model_uid", .int r.uid), ("entity_type", .int r.entityType), ("entity_subtype", .int r.subtype),
        ("version_number", .int r.version)] := by
  rw [parseHeader_fields _ _ _ _ _ _ (by simp [len_int 12 _ ok.uid, len_int 6 _ ok.entityType, len_int 6 _ ok.subtype,
    len_int 12 _ ok.version]) (by simp) (by simp)]
  simp only [List.map_cons, List.map_nil, headerLoop_cons, headerField_int]
  simp only [headerLoop]
  build_dict

theorem read_str {t : Text} (k : Key) (ht : LineText 80 t) :
    parseHeader ([padRight 80 t].flatten ++ ['\n']) 1 [80] [.str] [k] = .ok [(k, .str (strip t))] := by
  have := parseHeader_str 80 t ['\n'] k ht.fits
  simpa using this

theorem read_mask (r : DS2400) (ok : Ok r) :
    mapRes (fun i => pyInt (slice ([(maskFields r.mask).flatten].flatten ++ ['\n']) (i * 2) (i * 2 + 2))) (List.range 32)
      = .ok r.mask := by
  apply mapRes_get
  · simp [ok.mask32]
  · intro i h1 h2
    have h3 : i < (maskFields r.mask).length := by simpa [maskFields] using h2
    simp only [List.getElem_range, List.flatten_cons, List.flatten_nil, List.append_nil]
    rw [slice_fields (maskFields r.mask) 2 (mask_len r ok) _ i h3]
    simp only [maskFields, List.getElem_map]
    unfold pyInt
    rw [parseInt_padLeft]; rfl

theorem read5 (r : DS2400) (ok : Ok r) :
    parseHeader ([padRight 10 r.date, padRight 10 r.time, padLeft 12 (intRepr r.idmVersion),
      padLeft 12 (intRepr r.idmItem), padLeft 12 (intRepr r.parent)].flatten ++ ['\n']) 5 [10, 10, 12, 12, 12]
      [.str, .str, .int, .int, .int] ["date", "time", "idm_version_id", "idm_item_id", "primary_parent_uid"]
      = .ok [("date", .str (strip r.date)), ("time", .str (strip r.time)), ("idm_version_id", .int r.idmVersion),
        ("idm_item_id", .int r.idmItem), ("primary_parent_uid", .int r.parent)] := by
  rw [parseHeader_fields _ _ _ _ _ _ (by simp [ok.date.lenR, ok.time.lenR, len_int 12 _ ok.idmVersion,
    len_int 12 _ ok.idmItem, len_int 12 _ ok.parent]) (by simp) (by simp)]
  simp only [List.map_cons, List.map_nil, headerLoop_cons, headerField_int, headerField_strR]
  simp only [headerLoop]
  build_dict

theorem read6 (r : DS2400) (ok : Ok r) :
    parseHeader ([padLeft 12 (intRepr r.switches)].flatten ++ ['\n']) 1 [12] [.int] ["optimization_switches"]
      = .ok [("optimization_switches", .int r.switches)] := by
  rw [parseHeader_fields _ _ _ _ _ _ (by simp [len_int 12 _ ok.switches]) (by simp) (by simp)]
  simp only [List.map_cons, List.map_nil, headerLoop_cons, headerField_int]
  simp only [headerLoop]
  build_dict

theorem read_eq (r : DS2400) (ok : Ok r) : extract2400 (blockText r.lines) = .ok r.readBack := by
  unfold extract2400
  rw [splitKeep_block _ (safe r ok)]
  simp only [lines, List.map_cons, List.map_nil, List.getElem?_cons_succ, List.getElem?_cons_zero, orIndex]
  simp only [ok_bind, read1 r ok, read_str _ ok.name, read_str _ ok.part, read_mask r ok, read5 r ok, read6 r ok]
  simp only [readGuard]
  build_dict

theorem roundTrip (d : Dict) (r : DS2400) (h : Rep d r) (ok : Ok r) :
    RoundTrip 2400 write2400 extract2400 d r.readBack r.lines :=
  ⟨safe r ok, ⟨_, write_eq d r h⟩, (blockType_block _ _ (by decide)).trans (by decide +kernel), read_eq r ok⟩

end DS2400
end Verif
