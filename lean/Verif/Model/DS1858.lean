import Verif.Model.Row
/-
Data-set 1858, `/repo/pyuff/datasets/dataset_1858.py`.
-/
namespace Verif

/-- `try: m; except: raise Exception('Error writing data-set #n')` without a clause for `KeyError`
(`/repo/pyuff/datasets/dataset_1858.py:166-167`). -/
def W.guardedAny {α} (set : Nat) (m : W α) : W α := fun d =>
  match m d with
  | ⟨o, d', .ok a⟩ => ⟨o, d', .ok a⟩
  | ⟨o, d', .error .unmodelled⟩ => ⟨o, d', .error .unmodelled⟩
  | ⟨o, d', .error _⟩ => ⟨o, d', .error (.writing set)⟩

/-- `_write1858` (`/repo/pyuff/datasets/dataset_1858.py:108-167`). -/
def write1858 : W Unit := W.guardedAny 1858 do
  W.opt []
  W.emit (headText 1858)
  W.row [.i 10 "record_num", .i 10 "octave_format", .i 10 "measurement_run", .c (fmtI 10) (.int 0),
    .c (fmtI 10) (.int 0), .c (fmtI 10) (.int 0)]
  W.row [.i 6 "weighting_type", .i 6 "window_type", .i 6 "amplitude_units", .i 6 "normalization_method",
    .i 6 "abscissa_data_type_qualifier", .i 6 "ordinate_numerator_data_type_qualifier",
    .i 6 "ordinate_denominator_data_type_qualifier", .i 6 "z_axis_data_type_qualifier", .i 6 "sampling_type",
    .c (fmtI 6) (.int 0), .c (fmtI 6) (.int 0), .c (fmtI 6) (.int 0)]
  W.row [.e 15 7 "z_rpm_value", .e 15 7 "z_time_value", .e 15 7 "z_order_value", .e 15 7 "num_of_samples",
    .c (fmtEV 15 7) (.int 0)]
  W.row [.e 15 7 "user_value_1", .e 15 7 "user_value_2", .e 15 7 "user_value_3", .e 15 7 "user_value_4", .e 15 7 "exponential_window_damping_factor"]
  W.row [.c (fmtEV 15 7) (.int 0), .c (fmtEV 15 7) (.int 0), .c (fmtEV 15 7) (.int 0), .c (fmtEV 15 7) (.int 0),
    .c (fmtEV 15 7) (.int 0)]
  W.row [.sl 4 "response_direction", .c (fmtSR 2) (.str []), .sl 4 "reference_direction"]
  W.row [.c (fmtSL 80) (.str "NONE".toList)]
  W.emit tailText

/-- `_extract1858` (`/repo/pyuff/datasets/dataset_1858.py:170-251`). -/
def extract1858 (block : Text) : Res Dict := readGuard 1858 do
  let sh := (splitLinesKeep block).take 8
  let h1 ← parseHeader (← orIndex sh[2]?) 6 [12, 12, 12, 12, 12, 12] [.int, .int, .int, .ign, .ign, .ign]
    ["record_num", "octave_format", "measurement_run", "", "", ""]
  let h2 ← parseHeader (← orIndex sh[3]?) 12 [6, 6, 6, 6, 6, 6, 6, 6, 6, 6, 6, 6]
    [.int, .int, .int, .int, .int, .int, .int, .int, .int, .ign, .ign, .ign]
    ["weighting_type", "window_type", "amplitude_units", "normalization_method", "abscissa_data_type_qualifier",
      "ordinate_numerator_data_type_qualifier", "ordinate_denominator_data_type_qualifier",
      "z_axis_data_type_qualifier", "sampling_type", "", "", ""]
  let h3 ← parseHeader (← orIndex sh[4]?) 5 [15, 15, 15, 15, 15] [.flt, .flt, .flt, .flt, .ign]
    ["z_rpm_value", "z_time_value", "z_order_value", "num_of_samples", ""]
  let h4 ← parseHeader (← orIndex sh[5]?) 5 [15, 15, 15, 15, 15] [.flt, .flt, .flt, .flt, .flt]
    ["user_value_1", "user_value_2", "user_value_3", "user_value_4", "exponential_window_damping_factor"]
  let h5 ← parseHeader (← orIndex sh[7]?) 3 [4, 2, 4] [.str, .ign, .str]
    ["response_direction", "", "reference_direction"]
  .ok (((((Dict.update [("type", .int 1858)] h1).update h2).update h3).update h4).update h5)

end Verif
