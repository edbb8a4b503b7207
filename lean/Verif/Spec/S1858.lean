import Verif.Spec.Basic
import Verif.Lemmas.Num
/-
What a data-set 1858 means: qualifiers of data-sets 58.
-/
namespace Verif

/-- The information in a data-set 1858. -/
structure DS1858 where
  recordNum : Int
  octave : Int
  run : Int
  weighting : Int
  window : Int
  ampUnits : Int
  normMethod : Int
  absQual : Int
  numQual : Int
  denQual : Int
  zQual : Int
  sampling : Int
  rpm : F64
  ztime : F64
  order : F64
  samples : F64
  user1 : F64
  user2 : F64
  user3 : F64
  user4 : F64
  damping : F64
  response : Text
  reference : Text

namespace DS1858

/-- The dictionary given to `write_sets` carries this information. -/
structure Rep (d : Dict) (r : DS1858) : Prop where
  type : d.get? "type" = some (.int 1858)
  recordNum : HasInt d "record_num" r.recordNum
  octave : HasInt d "octave_format" r.octave
  run : HasInt d "measurement_run" r.run
  weighting : HasInt d "weighting_type" r.weighting
  window : HasInt d "window_type" r.window
  ampUnits : HasInt d "amplitude_units" r.ampUnits
  normMethod : HasInt d "normalization_method" r.normMethod
  absQual : HasInt d "abscissa_data_type_qualifier" r.absQual
  numQual : HasInt d "ordinate_numerator_data_type_qualifier" r.numQual
  denQual : HasInt d "ordinate_denominator_data_type_qualifier" r.denQual
  zQual : HasInt d "z_axis_data_type_qualifier" r.zQual
  sampling : HasInt d "sampling_type" r.sampling
  rpm : HasFloat d "z_rpm_value" r.rpm
  ztime : HasFloat d "z_time_value" r.ztime
  order : HasFloat d "z_order_value" r.order
  samples : HasFloat d "num_of_samples" r.samples
  user1 : HasFloat d "user_value_1" r.user1
  user2 : HasFloat d "user_value_2" r.user2
  user3 : HasFloat d "user_value_3" r.user3
  user4 : HasFloat d "user_value_4" r.user4
  damping : HasFloat d "exponential_window_damping_factor" r.damping
  response : HasStr d "response_direction" r.response
  reference : HasStr d "reference_direction" r.reference

/-- It fits the fields of the writer. -/
structure Fit (r : DS1858) : Prop where
  recordNum : Fits 10 r.recordNum
  octave10 : Fits 10 r.octave
  run10 : Fits 10 r.run
  weighting : Fits 6 r.weighting
  window : Fits 6 r.window
  ampUnits : Fits 6 r.ampUnits
  normMethod : Fits 6 r.normMethod
  absQual : Fits 6 r.absQual
  numQual : Fits 6 r.numQual
  denQual : Fits 6 r.denQual
  zQual : Fits 6 r.zQual
  sampling : Fits 6 r.sampling
  rpm : r.rpm.finite = true
  ztime : r.ztime.finite = true
  order : r.order.finite = true
  samples : r.samples.finite = true
  user1 : r.user1.finite = true
  user2 : r.user2.finite = true
  user3 : r.user3.finite = true
  user4 : r.user4.finite = true
  damping : r.damping.finite = true
  response : FieldText 4 r.response
  reference : FieldText 4 r.reference
  noDelim : r.reference ≠ [' ', ' ', '-', '1']

/-- It fits the fields, where for `octave_format` and `measurement_run` the usable width is what the
12-column reader leaves of the 10-column fields of the writer. -/
structure Ok (r : DS1858) : Prop extends Fit r where
  octave : Fits 8 r.octave
  run : Fits 6 r.run

/-- The dictionary returned by `read_sets`. -/
def readBack (r : DS1858) : Dict :=
  [("type", .int 1858),
   ("record_num", .int r.recordNum),
   ("octave_format", .int r.octave),
   ("measurement_run", .int r.run),
   ("weighting_type", .int r.weighting),
   ("window_type", .int r.window),
   ("amplitude_units", .int r.ampUnits),
   ("normalization_method", .int r.normMethod),
   ("abscissa_data_type_qualifier", .int r.absQual),
   ("ordinate_numerator_data_type_qualifier", .int r.numQual),
   ("ordinate_denominator_data_type_qualifier", .int r.denQual),
   ("z_axis_data_type_qualifier", .int r.zQual),
   ("sampling_type", .int r.sampling),
   ("z_rpm_value", .float (r.rpm.quant 7)),
   ("z_time_value", .float (r.ztime.quant 7)),
   ("z_order_value", .float (r.order.quant 7)),
   ("num_of_samples", .float (r.samples.quant 7)),
   ("user_value_1", .float (r.user1.quant 7)),
   ("user_value_2", .float (r.user2.quant 7)),
   ("user_value_3", .float (r.user3.quant 7)),
   ("user_value_4", .float (r.user4.quant 7)),
   ("exponential_window_damping_factor", .float (r.damping.quant 7)),
   ("response_direction", .str (strip r.response)),
   ("reference_direction", .str (strip r.reference))]

end DS1858
end Verif
