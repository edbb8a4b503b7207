import Verif.Model.Row
/-
Data-set 2400, `/repo/pyuff/datasets/dataset_2400.py`.
-/
namespace Verif

/-- The optional fields and their defaults (`/repo/pyuff/datasets/dataset_2400.py:49-63`). -/
def opt2400 : List (Key × Val) :=
  [("model_uid", .int 0), ("entity_type", .int 0), ("entity_subtype", .int 0), ("version_number", .int 0),
   ("entity_name", .str []), ("part_number", .str []), ("status_mask", .list (List.replicate 32 (.int 0))),
   ("date", .str []), ("time", .str []), ("idm_version_id", .int 0), ("idm_item_id", .int 0),
   ("primary_parent_uid", .int 0), ("optimization_switches", .int 0)]

/-- `'%s' % ''.join(['%2i' % v for v in dset['status_mask']])` (`/repo/pyuff/datasets/dataset_2400.py:69`). -/
def maskText (v : Val) : Res Text := do
  let l ← v.items
  let ts ← mapRes (fmtI 2) l
  .ok ts.flatten

/-- `_write2400` (`/repo/pyuff/datasets/dataset_2400.py:46-78`). -/
def write2400 : W Unit := W.guarded 2400 do
  W.opt opt2400
  W.emit (headText 2400)
  W.row [.i 12 "model_uid", .i 6 "entity_type", .i 6 "entity_subtype", .i 12 "version_number"]
  W.row [.sl 80 "entity_name"]
  W.row [.sl 80 "part_number"]
  W.row [⟨fun d => d.get "status_mask", maskText⟩]
  W.row [.sl 10 "date", .sl 10 "time", .i 12 "idm_version_id", .i 12 "idm_item_id", .i 12 "primary_parent_uid"]
  W.row [.i 12 "optimization_switches"]
  W.emit tailText

/-- `_extract2400` (`/repo/pyuff/datasets/dataset_2400.py:81-98`). -/
def extract2400 (block : Text) : Res Dict := readGuard 2400 do
  let sd := splitLinesKeep block
  let h1 ← parseHeader (← orIndex sd[2]?) 4 [12, 6, 6, 12] [.int, .int, .int, .int]
    ["model_uid", "entity_type", "entity_subtype", "version_number"]
  let h2 ← parseHeader (← orIndex sd[3]?) 1 [80] [.str] ["entity_name"]
  let h3 ← parseHeader (← orIndex sd[4]?) 1 [80] [.str] ["part_number"]
  let sl ← orIndex sd[5]?
  let mask ← mapRes (fun i => pyInt (slice sl (i * 2) (i * 2 + 2))) (List.range 32)
  let h5 ← parseHeader (← orIndex sd[6]?) 5 [10, 10, 12, 12, 12] [.str, .str, .int, .int, .int]
    ["date", "time", "idm_version_id", "idm_item_id", "primary_parent_uid"]
  let h6 ← parseHeader (← orIndex sd[7]?) 1 [12] [.int] ["optimization_switches"]
  .ok ((((((Dict.update [("type", .int 2400)] h1).update h2).update h3).set "status_mask"
    (.list (mask.map .int))).update h5).update h6)

end Verif
