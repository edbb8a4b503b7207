import Verif.Lemmas.Row
import Verif.Model.DS151
import Verif.Spec.S151
/-
Round trip of data-set 151.
-/
namespace Verif
namespace DS151

/-- The lines between the delimiters. -/
def lines (r : DS151) : List Text :=
  [idLine 151, [padRight 80 r.model].flatten, [padRight 80 r.descr].flatten, [padRight 80 r.dbApp].flatten,
   [padRight 10 r.dateCreated, padRight 10 r.timeCreated, padLeft 10 r.version1, padLeft 10 r.version2,
    padLeft 10 r.fileType].flatten,
   [padRight 10 r.dateSaved, padRight 10 r.timeSaved].flatten, [padRight 80 r.program].flatten,
   [padRight 10 r.dateWritten, padRight 10 r.timeWritten].flatten]

theorem hasOpt {ds ts : Text} {d : Dict} {k : Key} {v : Val} {s : Text} (h : IsStr (d.getOr k v) s)
    (hf : Dict.get? (opt151 ds ts) k = some v) : HasStr (optFields d (opt151 ds ts)) k s :=
  ⟨_, get?_opt_default hf, h⟩

theorem write_eq (ds ts : Text) (d : Dict) (r : DS151) (h : Rep ds ts d r) :
    write151 ds ts d = ⟨frameText r.lines, optFields d (opt151 ds ts), .ok ()⟩ := by
  unfold write151
  apply W.guarded_ok
  simp only [W.bind_eq, W.bind_opt, W.bind_emit]
  rw [W.bind_row (.cons (h.model.opt.fldL _) .nil), W.bind_row (.cons (h.descr.opt.fldL _) .nil),
    W.bind_row (.cons (h.dbApp.opt.fldL _) .nil),
    W.bind_row (.cons ((hasOpt h.dateCreated rfl).fldL _) (.cons ((hasOpt h.timeCreated rfl).fldL _)
      (.cons ((hasOpt h.version1 rfl).fldR _) (.cons ((hasOpt h.version2 rfl).fldR _)
      (.cons ((hasOpt h.fileType rfl).fldR _) .nil))))),
    W.bind_row (.cons ((hasOpt h.dateSaved rfl).fldL _) (.cons ((hasOpt h.timeSaved rfl).fldL _) .nil)),
    W.bind_row (.cons (h.program.opt.fldL _) .nil),
    W.bind_row (.cons ((hasOpt h.dateWritten rfl).fldL _) (.cons ((hasOpt h.timeWritten rfl).fldL _) .nil))]
  simp only [W.emit_eq]
  simp [frameText, lines, headText_eq, tailText, tagText]
  rfl

theorem safe (r : DS151) (ok : Ok r) : Safe r.lines := by
  have hs : ∀ {t : Text}, LineText 80 t → ∀ {ls}, Safe ls → Safe ([padRight 80 t].flatten :: ls) := by
    intro t ht ls hl
    simp only [List.flatten_cons, List.flatten_nil, List.append_nil]
    exact Safe.cons ht.noBreak.padRight ht.tagFree hl
  refine safe_idLine 151 (by decide) (by decide) (by decide) (by decide) (hs ok.model (hs ok.descr (hs ok.dbApp
    (Safe.cons ?_ ?_ (Safe.cons ?_ ?_ (hs ok.program (Safe.cons ?_ ?_ Safe.nil)))))))
  · apply noBreak_fields
    all_mem
    exact ⟨ok.dateCreated.noBreak.padRight, ok.timeCreated.noBreak.padRight, ok.version1.noBreak.padLeft,
      ok.version2.noBreak.padLeft, ok.fileType.noBreak.padLeft⟩
  · refine tagFree_last [_, _, _, _] _ ?_ ?_ ok.fileTypeEnd
    · simp [ok.dateCreated.lenR, ok.timeCreated.lenR, ok.version1.lenL, ok.version2.lenL, ok.fileType.lenL]
    · simp [ok.fileType.lenL]
  · apply noBreak_fields
    all_mem
    exact ⟨ok.dateSaved.noBreak.padRight, ok.timeSaved.noBreak.padRight⟩
  · refine tagFree_last [_] _ ?_ ?_ ok.timeSavedEnd
    · simp [ok.dateSaved.lenR, ok.timeSaved.lenR]
    · simp [ok.timeSaved.lenR]
  · apply noBreak_fields
    all_mem
    exact ⟨ok.dateWritten.noBreak.padRight, ok.timeWritten.noBreak.padRight⟩
  · refine tagFree_last [_] _ ?_ ?_ ok.timeWrittenEnd
    · simp [ok.dateWritten.lenR, ok.timeWritten.lenR]
    · simp [ok.timeWritten.lenR]

theorem loop_number (w : Nat) (t : Text) (tys : List FTy) (k : Key) (ks : List Key) (ss : List Text) (acc : Dict) :
    headerLoop 0 (.int :: tys) (k :: ks) (strip (padLeft w t) :: ss) acc
      = headerLoop 0 tys ks ss (acc.set k (.int (number t))) := by
  have e : parseInt (strip (padLeft w t)) = parseInt (strip t) := by
    rw [strip_padLeft]
  rw [headerLoop_cons]
  unfold headerField pyInt
  rw [e]
  unfold number orValue
  cases parseInt (strip t) <;> simp [Except.map, headerDefault]

theorem read_str {t : Text} (k : Key) (ht : LineText 80 t) : parseHeader ([padRight 80 t].flatten ++ ['\n']) 1 [80] [.str] [k]
      = .ok [(k, .str (strip t))] := by
  have := parseHeader_str 80 t ['\n'] k ht.fits
  simpa using this

theorem read_dates (r : DS151) (ok : Ok r) : parseHeader ([padRight 10 r.dateCreated, padRight 10 r.timeCreated, padLeft 10 r.version1,
    padLeft 10 r.version2, padLeft 10 r.fileType].flatten ++ ['\n']) 2 [10, 10, 10, 10, 10]
    [.str, .str, .int, .int, .int]
    ["date_db_created", "time_db_created", "version_db1", "version_db2", "file_type"]
    = .ok [("date_db_created", .str (strip r.dateCreated)), ("time_db_created", .str (strip r.timeCreated)),
      ("version_db1", .int (number r.version1)), ("version_db2", .int (number r.version2)),
      ("file_type", .int (number r.fileType))] := by
  rw [parseHeader_fields _ _ _ _ _ _ (by simp [ok.dateCreated.lenR, ok.timeCreated.lenR, ok.version1.lenL,
    ok.version2.lenL, ok.fileType.lenL]) (by simp) (by simp)]
  simp only [List.map_cons, List.map_nil]
  rw [headerLoop_cons, headerField_strR]
  simp only [Nat.reduceSub]
  rw [headerLoop_cons, headerField_strR]
  simp only [Nat.reduceSub]
  rw [loop_number, loop_number, loop_number]
  simp [headerLoop, Dict.set]

theorem read_two {a b : Text} (k k' : Key) (hk : k ≠ k') (ha : FieldText 10 a) (hb : FieldText 10 b) :
    parseHeader ([padRight 10 a, padRight 10 b].flatten ++ ['\n']) 1 [10, 10] [.str, .str] [k, k']
    = .ok [(k, .str (strip a)), (k', .str (strip b))] := by
  rw [parseHeader_fields _ _ _ _ _ _ (by simp [ha.lenR, hb.lenR]) (by simp) (by simp)]
  simp [headerLoop, Dict.set, hk]

theorem read_eq (r : DS151) (ok : Ok r) : extract151 (blockText r.lines) = .ok r.readBack := by
  unfold extract151
  rw [splitKeep_block _ (safe r ok)]
  simp only [lines, List.map_cons, List.map_nil, List.getElem?_cons_succ, List.getElem?_cons_zero, orIndex]
  simp only [ok_bind, read_dates r ok, read_two "date_db_saved" "time_db_saved" (by decide) ok.dateSaved ok.timeSaved,
    read_two "date_file_written" "time_file_written" (by decide) ok.dateWritten ok.timeWritten,
    read_str _ ok.model, read_str _ ok.descr, read_str _ ok.dbApp, read_str _ ok.program]
  simp only [readGuard]
  build_dict

theorem roundTrip (ds ts : Text) (d : Dict) (r : DS151) (h : Rep ds ts d r) (ok : Ok r) :
    RoundTrip 151 (write151 ds ts) extract151 d r.readBack r.lines :=
  ⟨safe r ok, ⟨_, write_eq ds ts d r h⟩, (blockType_block _ _ (by decide)).trans (by decide +kernel), read_eq r ok⟩

end DS151
end Verif
