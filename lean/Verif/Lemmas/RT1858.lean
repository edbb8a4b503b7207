import Verif.Lemmas.Row
import Verif.Model.DS1858
import Verif.Spec.S1858
/-
Round trip of data-set 1858.
-/
namespace Verif

theorem W.guardedAny_ok {α} {n : Nat} {m : W α} {d d' : Dict} {o : Text} {a : α} (h : m d = ⟨o, d', .ok a⟩) :
    W.guardedAny n m d = ⟨o, d', .ok a⟩ := by
  unfold W.guardedAny; rw [h]

theorem padLeft_more (k w : Nat) (t : Text) (h : t.length ≤ w) : padLeft (k + w) t = blanks k ++ padLeft w t := by
  unfold padLeft blanks
  rw [← List.append_assoc, List.replicate_append_replicate]
  congr 2; omega

theorem finite_zero : (F64.ofInt 0).finite = true := by decide +kernel

namespace DS1858

/-- The lines between the delimiters. -/
def lines (r : DS1858) : List Text :=
  [idLine 1858,
   [padLeft 10 (intRepr r.recordNum), padLeft 10 (intRepr r.octave), padLeft 10 (intRepr r.run),
    padLeft 10 ['0'], padLeft 10 ['0'], padLeft 10 ['0']].flatten,
   [padLeft 6 (intRepr r.weighting), padLeft 6 (intRepr r.window), padLeft 6 (intRepr r.ampUnits),
    padLeft 6 (intRepr r.normMethod), padLeft 6 (intRepr r.absQual), padLeft 6 (intRepr r.numQual),
    padLeft 6 (intRepr r.denQual), padLeft 6 (intRepr r.zQual), padLeft 6 (intRepr r.sampling),
    padLeft 6 ['0'], padLeft 6 ['0'], padLeft 6 ['0']].flatten,
   [padLeft 15 (fmtE 7 r.rpm), padLeft 15 (fmtE 7 r.ztime), padLeft 15 (fmtE 7 r.order),
    padLeft 15 (fmtE 7 r.samples), padLeft 15 (fmtE 7 (F64.ofInt 0))].flatten,
   [padLeft 15 (fmtE 7 r.user1), padLeft 15 (fmtE 7 r.user2), padLeft 15 (fmtE 7 r.user3),
    padLeft 15 (fmtE 7 r.user4), padLeft 15 (fmtE 7 r.damping)].flatten,
   [padLeft 15 (fmtE 7 (F64.ofInt 0)), padLeft 15 (fmtE 7 (F64.ofInt 0)), padLeft 15 (fmtE 7 (F64.ofInt 0)),
    padLeft 15 (fmtE 7 (F64.ofInt 0)), padLeft 15 (fmtE 7 (F64.ofInt 0))].flatten,
   [padRight 4 r.response, [' ', ' '], padRight 4 r.reference].flatten,
   [padRight 80 "NONE".toList].flatten]

theorem fld_zero (d : Dict) (w p : Nat) : FldOk d (.c (fmtEV w p) (.int 0)) (padLeft w (fmtE p (F64.ofInt 0))) :=
  fld_c (by unfold fmtEV Val.toFloat; simp only [finite_zero]; rfl)

theorem write_eq (d : Dict) (r : DS1858) (h : Rep d r) :
    write1858 d = ⟨frameText r.lines, optFields d [], .ok ()⟩ := by
  unfold write1858
  apply W.guardedAny_ok
  simp only [W.bind_eq, W.bind_opt, W.bind_emit]
  rw [W.bind_row (.cons (h.recordNum.opt.fld 10) (.cons (h.octave.opt.fld 10) (.cons (h.run.opt.fld 10) (.cons (fld_c (t := padLeft 10 ['0']) rfl) (.cons (fld_c (t := padLeft 10 ['0']) rfl) (.cons (fld_c (t := padLeft 10 ['0']) rfl) .nil)))))),
    W.bind_row (.cons (h.weighting.opt.fld 6) (.cons (h.window.opt.fld 6) (.cons (h.ampUnits.opt.fld 6) (.cons (h.normMethod.opt.fld 6) (.cons (h.absQual.opt.fld 6) (.cons (h.numQual.opt.fld 6) (.cons (h.denQual.opt.fld 6) (.cons (h.zQual.opt.fld 6) (.cons (h.sampling.opt.fld 6) (.cons (fld_c (t := padLeft 6 ['0']) rfl) (.cons (fld_c (t := padLeft 6 ['0']) rfl) (.cons (fld_c (t := padLeft 6 ['0']) rfl) .nil)))))))))))),
    W.bind_row (.cons (h.rpm.opt.fld 15 7) (.cons (h.ztime.opt.fld 15 7) (.cons (h.order.opt.fld 15 7) (.cons (h.samples.opt.fld 15 7) (.cons (fld_zero _ 15 7) .nil))))),
    W.bind_row (.cons (h.user1.opt.fld 15 7) (.cons (h.user2.opt.fld 15 7) (.cons (h.user3.opt.fld 15 7) (.cons (h.user4.opt.fld 15 7) (.cons (h.damping.opt.fld 15 7) .nil))))),
    W.bind_row (.cons (fld_zero _ 15 7) (.cons (fld_zero _ 15 7) (.cons (fld_zero _ 15 7) (.cons (fld_zero _ 15 7) (.cons (fld_zero _ 15 7) .nil))))),
    W.bind_row (.cons (h.response.opt.fldL 4) (.cons (fld_c (t := [' ', ' ']) rfl) (.cons (h.reference.opt.fldL 4) .nil))),
    W.bind_row (.cons (fld_c (t := padRight 80 "NONE".toList) rfl) .nil)]
  simp only [W.emit_eq]
  simp [frameText, lines, headText_eq, tailText, tagText]
  rfl

theorem safe (r : DS1858) (ok : Fit r) : Safe r.lines := by
  refine safe_idLine 1858 (by decide) (by decide) (by decide) (by decide)
    (Safe.cons ?_ ?_ (Safe.cons ?_ ?_ (Safe.cons ?_ ?_ (Safe.cons ?_ ?_ (Safe.cons ?_ ?_ (Safe.cons ?_ ?_
    (Safe.cons (by decide) (tagFree_of_short' _ (by decide) (by decide) (by decide)) Safe.nil)))))))
  · apply noBreak_fields
    simp only [List.forall_mem_cons, noBreak_padLeft_iff, noBreak_intRepr, true_and]
    all_mem
    decide
  · refine tagFree_int [_, _, _, _, _] 10 0 ?_ (by decide) (by decide) (by decide)
    simp [len_int 10 _ ok.recordNum, len_int 10 _ ok.octave10, len_int 10 _ ok.run10]
    decide
  · apply noBreak_fields
    simp only [List.forall_mem_cons, noBreak_padLeft_iff, noBreak_intRepr, true_and]
    all_mem
    decide
  · refine tagFree_int [_, _, _, _, _, _, _, _, _, _, _] 6 0 ?_ (by decide) (by decide) (by decide)
    simp [len_int 6 _ ok.weighting, len_int 6 _ ok.window, len_int 6 _ ok.ampUnits, len_int 6 _ ok.normMethod, len_int 6 _ ok.absQual, len_int 6 _ ok.numQual, len_int 6 _ ok.denQual, len_int 6 _ ok.zQual, len_int 6 _ ok.sampling]
    decide
  · apply noBreak_fields
    all_mem
    exact ⟨noBreak_flt _ _ _ ok.rpm, noBreak_flt _ _ _ ok.ztime, noBreak_flt _ _ _ ok.order, noBreak_flt _ _ _ ok.samples, noBreak_flt _ _ _ finite_zero⟩
  · refine tagFree_flt [_, _, _, _] 15 7 _ ?_ finite_zero (by decide)
    simp [len_flt 15 7 _ ok.rpm, len_flt 15 7 _ ok.ztime, len_flt 15 7 _ ok.order, len_flt 15 7 _ ok.samples]
  · apply noBreak_fields
    all_mem
    exact ⟨noBreak_flt _ _ _ ok.user1, noBreak_flt _ _ _ ok.user2, noBreak_flt _ _ _ ok.user3, noBreak_flt _ _ _ ok.user4, noBreak_flt _ _ _ ok.damping⟩
  · refine tagFree_flt [_, _, _, _] 15 7 _ ?_ ok.damping (by decide)
    simp [len_flt 15 7 _ ok.user1, len_flt 15 7 _ ok.user2, len_flt 15 7 _ ok.user3, len_flt 15 7 _ ok.user4]
  · apply noBreak_fields
    all_mem
    have := noBreak_flt 15 7 _ finite_zero
    exact ⟨this, this, this, this, this⟩
  · refine tagFree_flt [_, _, _, _] 15 7 _ ?_ finite_zero (by decide)
    simp [len_flt 15 7 _ finite_zero]
  · apply noBreak_fields
    all_mem
    exact ⟨ok.response.noBreak.padRight, by decide, ok.reference.noBreak.padRight⟩
  · apply tagFree_of_lt
    · simp [ok.response.lenR, ok.reference.lenR]
    · intro hs
      have hs' : tagText <:+ padRight 4 r.response ++ ([' ', ' '] ++ padRight 4 r.reference) := by simpa using hs
      have h6 := List.suffix_of_suffix_length_le hs' (List.suffix_append _ _) (by simp [tagText, ok.reference.lenR])
      have h7 := h6.eq_of_length (by simp [tagText, ok.reference.lenR])
      have h8 : padRight 4 r.reference = [' ', ' ', '-', '1'] := by
        simpa [tagText] using h7.symm
      apply ok.noDelim
      have hf := ok.reference.fits
      unfold padRight at h8
      rcases Nat.lt_or_ge r.reference.length 4 with hlt | hge
      · obtain ⟨k, hk⟩ : ∃ k, 4 - r.reference.length = k + 1 := ⟨3 - r.reference.length, by omega⟩
        rw [hk, List.replicate_succ', ← List.append_assoc] at h8
        have := congrArg List.getLast? h8
        simp at this
      · have e : 4 - r.reference.length = 0 := by omega
        rw [e] at h8; simpa using h8

theorem headerField_wide (w k : Nat) (n : Int) :
    headerField .int (strip (padLeft w (intRepr n) ++ blanks k)) = .ok (some (.int n)) := by
  unfold headerField pyInt
  rw [strip_append_blanks, parseInt_strip_padLeft]; rfl

theorem read1 (r : DS1858) (ok : Ok r) :
    parseHeader ([padLeft 10 (intRepr r.recordNum), padLeft 10 (intRepr r.octave), padLeft 10 (intRepr r.run),
    padLeft 10 ['0'], padLeft 10 ['0'], padLeft 10 ['0']].flatten ++ ['\n']) 6 [12, 12, 12, 12, 12, 12] [.int, .int, .int, .ign, .ign, .ign]
      ["record_num", "octave_format", "measurement_run", "", "", ""]
      = .ok [("record_num", .int r.recordNum), ("octave_format", .int r.octave), ("measurement_run", .int r.run)] := by
  have l1 := intRepr_length 10 _ ok.recordNum (by decide)
  have l2 := intRepr_length 8 _ ok.octave (by decide)
  have l3 := intRepr_length 6 _ ok.run (by decide)
  rw [parseHeader_padded]
  have e : ([padLeft 10 (intRepr r.recordNum), padLeft 10 (intRepr r.octave), padLeft 10 (intRepr r.run),
    padLeft 10 ['0'], padLeft 10 ['0'], padLeft 10 ['0']].flatten ++ ['\n']) ++ blanks (80 - ([padLeft 10 (intRepr r.recordNum), padLeft 10 (intRepr r.octave), padLeft 10 (intRepr r.run),
    padLeft 10 ['0'], padLeft 10 ['0'], padLeft 10 ['0']].flatten ++ ['\n']).length)
      = [padLeft 10 (intRepr r.recordNum) ++ blanks 2, padLeft 8 (intRepr r.octave) ++ blanks 4,
         padLeft 6 (intRepr r.run) ++ blanks 6, blanks 3 ++ '0' :: blanks 8, blanks 1 ++ '0' :: blanks 9 ++ ['0'],
         '\n' :: blanks 11].flatten ++ blanks 8 := by
    have hl : ([padLeft 10 (intRepr r.recordNum), padLeft 10 (intRepr r.octave), padLeft 10 (intRepr r.run),
    padLeft 10 ['0'], padLeft 10 ['0'], padLeft 10 ['0']].flatten ++ ['\n']).length = 61 := by
      simp [len_int 10 _ ok.recordNum, len_int 10 _ (ok.octave.mono (by decide)), len_int 10 _ (ok.run.mono (by decide))]
      decide
    rw [hl]
    rw [padLeft_more 2 8 _ l2, padLeft_more 4 6 _ l3]
    simp only [List.flatten_cons, List.flatten_nil, List.append_assoc, List.append_nil]
    rfl
  rw [e, parseHeader_fields _ _ _ _ _ _ (by simp [padLeft_length _ _ l1, padLeft_length _ _ l2, padLeft_length _ _ l3]; decide) (by simp) (by simp)]
  simp only [List.map_cons, List.map_nil, headerLoop_cons, headerField_wide, headerField_ign]
  simp only [headerLoop]
  build_dict

theorem read2 (r : DS1858) (ok : Ok r) :
    parseHeader ([padLeft 6 (intRepr r.weighting), padLeft 6 (intRepr r.window), padLeft 6 (intRepr r.ampUnits),
    padLeft 6 (intRepr r.normMethod), padLeft 6 (intRepr r.absQual), padLeft 6 (intRepr r.numQual),
    padLeft 6 (intRepr r.denQual), padLeft 6 (intRepr r.zQual), padLeft 6 (intRepr r.sampling),
    padLeft 6 ['0'], padLeft 6 ['0'], padLeft 6 ['0']].flatten ++ ['\n']) 12 [6, 6, 6, 6, 6, 6, 6, 6, 6, 6, 6, 6]
      [.int, .int, .int, .int, .int, .int, .int, .int, .int, .ign, .ign, .ign]
      ["weighting_type", "window_type", "amplitude_units", "normalization_method", "abscissa_data_type_qualifier", "ordinate_numerator_data_type_qualifier", "ordinate_denominator_data_type_qualifier", "z_axis_data_type_qualifier", "sampling_type", "", "", ""]
      = .ok [("weighting_type", .int r.weighting), ("window_type", .int r.window), ("amplitude_units", .int r.ampUnits), ("normalization_method", .int r.normMethod), ("abscissa_data_type_qualifier", .int r.absQual), ("ordinate_numerator_data_type_qualifier", .int r.numQual), ("ordinate_denominator_data_type_qualifier", .int r.denQual), ("z_axis_data_type_qualifier", .int r.zQual), ("sampling_type", .int r.sampling)] := by
  rw [parseHeader_fields _ _ _ _ _ _ (by simp [len_int 6 _ ok.weighting, len_int 6 _ ok.window, len_int 6 _ ok.ampUnits, len_int 6 _ ok.normMethod, len_int 6 _ ok.absQual, len_int 6 _ ok.numQual, len_int 6 _ ok.denQual, len_int 6 _ ok.zQual, len_int 6 _ ok.sampling]; decide) (by simp) (by simp)]
  simp only [List.map_cons, List.map_nil, headerLoop_cons, headerField_int, headerField_ign]
  simp only [headerLoop]
  build_dict

theorem read3 (r : DS1858) (ok : Ok r) :
    parseHeader ([padLeft 15 (fmtE 7 r.rpm), padLeft 15 (fmtE 7 r.ztime), padLeft 15 (fmtE 7 r.order),
    padLeft 15 (fmtE 7 r.samples), padLeft 15 (fmtE 7 (F64.ofInt 0))].flatten ++ ['\n']) 5 [15, 15, 15, 15, 15] [.flt, .flt, .flt, .flt, .ign]
      ["z_rpm_value", "z_time_value", "z_order_value", "num_of_samples", ""]
      = .ok [("z_rpm_value", .float (r.rpm.quant 7)), ("z_time_value", .float (r.ztime.quant 7)), ("z_order_value", .float (r.order.quant 7)), ("num_of_samples", .float (r.samples.quant 7))] := by
  rw [parseHeader_fields _ _ _ _ _ _ (by simp [len_flt 15 7 _ ok.rpm, len_flt 15 7 _ ok.ztime, len_flt 15 7 _ ok.order, len_flt 15 7 _ ok.samples, len_flt 15 7 _ finite_zero]) (by simp) (by simp)]
  simp only [List.map_cons, List.map_nil, headerLoop_cons, headerField_flt 15 7 _ ok.rpm, headerField_flt 15 7 _ ok.ztime, headerField_flt 15 7 _ ok.order, headerField_flt 15 7 _ ok.samples, headerField_ign]
  simp only [headerLoop]
  build_dict

theorem read4 (r : DS1858) (ok : Ok r) :
    parseHeader ([padLeft 15 (fmtE 7 r.user1), padLeft 15 (fmtE 7 r.user2), padLeft 15 (fmtE 7 r.user3),
    padLeft 15 (fmtE 7 r.user4), padLeft 15 (fmtE 7 r.damping)].flatten ++ ['\n']) 5 [15, 15, 15, 15, 15] [.flt, .flt, .flt, .flt, .flt]
      ["user_value_1", "user_value_2", "user_value_3", "user_value_4", "exponential_window_damping_factor"]
      = .ok [("user_value_1", .float (r.user1.quant 7)), ("user_value_2", .float (r.user2.quant 7)), ("user_value_3", .float (r.user3.quant 7)), ("user_value_4", .float (r.user4.quant 7)), ("exponential_window_damping_factor", .float (r.damping.quant 7))] := by
  rw [parseHeader_fields _ _ _ _ _ _ (by simp [len_flt 15 7 _ ok.user1, len_flt 15 7 _ ok.user2, len_flt 15 7 _ ok.user3, len_flt 15 7 _ ok.user4, len_flt 15 7 _ ok.damping]) (by simp) (by simp)]
  simp only [List.map_cons, List.map_nil, headerLoop_cons, headerField_flt 15 7 _ ok.user1, headerField_flt 15 7 _ ok.user2, headerField_flt 15 7 _ ok.user3, headerField_flt 15 7 _ ok.user4, headerField_flt 15 7 _ ok.damping]
  simp only [headerLoop]
  build_dict

theorem read5 (r : DS1858) (ok : Ok r) :
    parseHeader ([padRight 4 r.response, [' ', ' '], padRight 4 r.reference].flatten ++ ['\n']) 3 [4, 2, 4] [.str, .ign, .str]
      ["response_direction", "", "reference_direction"]
      = .ok [("response_direction", .str (strip r.response)), ("reference_direction", .str (strip r.reference))] := by
  rw [parseHeader_fields _ _ _ _ _ _ (by simp [ok.response.lenR, ok.reference.lenR]) (by simp) (by simp)]
  simp only [List.map_cons, List.map_nil, headerLoop_cons, headerField_strR, headerField_ign]
  simp only [headerLoop]
  build_dict

theorem read_eq (r : DS1858) (ok : Ok r) : extract1858 (blockText r.lines) = .ok r.readBack := by
  unfold extract1858
  rw [splitKeep_block _ (safe r ok.toFit)]
  simp only [lines, List.map_cons, List.map_nil, List.take_succ_cons, List.take_zero, List.getElem?_cons_succ, List.getElem?_cons_zero, orIndex]
  simp only [ok_bind, read1 r ok, read2 r ok, read3 r ok, read4 r ok, read5 r ok]
  simp only [readGuard]
  build_dict

theorem roundTrip (d : Dict) (r : DS1858) (h : Rep d r) (ok : Ok r) :
    RoundTrip 1858 write1858 extract1858 d r.readBack r.lines :=
  ⟨safe r ok.toFit, ⟨_, write_eq d r h⟩, (blockType_block _ _ (by decide)).trans (by decide +kernel), read_eq r ok⟩

end DS1858
end Verif
