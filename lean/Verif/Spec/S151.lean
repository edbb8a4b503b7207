import Verif.Spec.Basic
/-
What a data-set 151 means: file header.
-/
namespace Verif

/-- The information in a data-set 151. -/
structure DS151 where
  model : Text
  descr : Text
  dbApp : Text
  dateCreated : Text
  timeCreated : Text
  version1 : Text
  version2 : Text
  fileType : Text
  dateSaved : Text
  timeSaved : Text
  program : Text
  dateWritten : Text
  timeWritten : Text

namespace DS151

/-- The dictionary given to `write_sets` carries this information.  `ds` and `ts` are the date and time of
the call, used for missing dates and times; the versions and the file type may be given as integers or
strings and default to `'0'`. -/
structure Rep (ds ts : Text) (d : Dict) (r : DS151) : Prop where
  type : d.get? "type" = some (.int 151)
  model : HasStr d "model_name" r.model
  descr : HasStr d "description" r.descr
  dbApp : HasStr d "db_app" r.dbApp
  dateCreated : IsStr (d.getOr "date_db_created" (.str ds)) r.dateCreated
  timeCreated : IsStr (d.getOr "time_db_created" (.str ts)) r.timeCreated
  version1 : IsStr (d.getOr "version_db1" (.str ['0'])) r.version1
  version2 : IsStr (d.getOr "version_db2" (.str ['0'])) r.version2
  fileType : IsStr (d.getOr "file_type" (.str ['0'])) r.fileType
  dateSaved : IsStr (d.getOr "date_db_saved" (.str ds)) r.dateSaved
  timeSaved : IsStr (d.getOr "time_db_saved" (.str ts)) r.timeSaved
  program : HasStr d "program" r.program
  dateWritten : IsStr (d.getOr "date_file_written" (.str ds)) r.dateWritten
  timeWritten : IsStr (d.getOr "time_file_written" (.str ts)) r.timeWritten

/-- It fits the fields of the format, and no line is mistaken for a delimiter. -/
structure Ok (r : DS151) : Prop where
  model : LineText 80 r.model
  descr : LineText 80 r.descr
  dbApp : LineText 80 r.dbApp
  dateCreated : FieldText 10 r.dateCreated
  timeCreated : FieldText 10 r.timeCreated
  version1 : FieldText 10 r.version1
  version2 : FieldText 10 r.version2
  fileType : FieldText 10 r.fileType
  fileTypeEnd : ¬ delim <:+ padLeft 10 r.fileType
  dateSaved : FieldText 10 r.dateSaved
  timeSaved : FieldText 10 r.timeSaved
  timeSavedEnd : ¬ delim <:+ padRight 10 r.timeSaved
  program : LineText 80 r.program
  dateWritten : FieldText 10 r.dateWritten
  timeWritten : FieldText 10 r.timeWritten
  timeWrittenEnd : ¬ delim <:+ padRight 10 r.timeWritten

/-- The integer read from a version field: `int()` of the text without blanks around it, 0 when it is not an integer. -/
def number (t : Text) : Int := (parseInt (strip t)).getD 0

/-- The dictionary returned by `read_sets`. -/
def readBack (r : DS151) : Dict :=
  [("type", .int 151), ("model_name", .str (strip r.model)), ("description", .str (strip r.descr)),
   ("db_app", .str (strip r.dbApp)), ("date_db_created", .str (strip r.dateCreated)),
   ("time_db_created", .str (strip r.timeCreated)), ("version_db1", .int (number r.version1)),
   ("version_db2", .int (number r.version2)), ("file_type", .int (number r.fileType)),
   ("date_db_saved", .str (strip r.dateSaved)), ("time_db_saved", .str (strip r.timeSaved)),
   ("program", .str (strip r.program)), ("date_file_written", .str (strip r.dateWritten)),
   ("time_file_written", .str (strip r.timeWritten))]

end DS151
end Verif
