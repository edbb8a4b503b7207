import Verif.Model.Row
/-
Data-set 151, `/repo/pyuff/datasets/dataset_151.py`.
-/
namespace Verif

/-- The optional fields and their defaults (`/repo/pyuff/datasets/dataset_151.py:50-61`); `ds` and `ts` are
today's date and the time of the call as formatted by `time.strftime`, which are parameters of the model. -/
def opt151 (ds ts : Text) : List (Key × Val) :=
  [("version_db1", .str ['0']), ("version_db2", .str ['0']), ("file_type", .str ['0']),
   ("date_db_created", .str ds), ("time_db_created", .str ts), ("date_db_saved", .str ds),
   ("time_db_saved", .str ts), ("date_file_written", .str ds), ("time_file_written", .str ts)]

/-- `_write151` (`/repo/pyuff/datasets/dataset_151.py:47-77`). -/
def write151 (ds ts : Text) : W Unit := W.guarded 151 do
  W.opt (opt151 ds ts)
  W.emit (headText 151)
  W.row [.sl 80 "model_name"]
  W.row [.sl 80 "description"]
  W.row [.sl 80 "db_app"]
  W.row [.sl 10 "date_db_created", .sl 10 "time_db_created", .sr 10 "version_db1", .sr 10 "version_db2",
    .sr 10 "file_type"]
  W.row [.sl 10 "date_db_saved", .sl 10 "time_db_saved"]
  W.row [.sl 80 "program"]
  W.row [.sl 10 "date_file_written", .sl 10 "time_file_written"]
  W.emit tailText

/-- `_extract151` (`/repo/pyuff/datasets/dataset_151.py:80-97`). -/
def extract151 (block : Text) : Res Dict := readGuard 151 do
  let sd := splitLinesKeep block
  let h1 ← parseHeader (← orIndex sd[2]?) 1 [80] [.str] ["model_name"]
  let h2 ← parseHeader (← orIndex sd[3]?) 1 [80] [.str] ["description"]
  let h3 ← parseHeader (← orIndex sd[4]?) 1 [80] [.str] ["db_app"]
  let h4 ← parseHeader (← orIndex sd[5]?) 2 [10, 10, 10, 10, 10] [.str, .str, .int, .int, .int]
    ["date_db_created", "time_db_created", "version_db1", "version_db2", "file_type"]
  let h5 ← parseHeader (← orIndex sd[6]?) 1 [10, 10] [.str, .str] ["date_db_saved", "time_db_saved"]
  let h6 ← parseHeader (← orIndex sd[7]?) 1 [80] [.str] ["program"]
  let h7 ← parseHeader (← orIndex sd[8]?) 1 [10, 10] [.str, .str] ["date_file_written", "time_file_written"]
  .ok (((((((Dict.update [("type", .int 151)] h1).update h2).update h3).update h4).update h5).update h6).update h7)

end Verif
