import Verif.Model.Row
/-
Data-set 82, `/repo/pyuff/datasets/dataset_82.py`.
-/
namespace Verif

/-- Number of neighbours that differ. -/
def changes {α : Type} (ne : α → α → Bool) : List α → Nat
  | a :: b :: r => (if ne a b then 1 else 0) + changes ne (b :: r)
  | _ => 0

/-- `np.sum((nodes[1:] - nodes[:-1]) != 0) + 1` and the items of the array
(`/repo/pyuff/datasets/dataset_82.py:57`).  Lists cannot be subtracted (`TypeError`); a difference of
`int64` values is zero exactly when they are equal. -/
def nodes82 : Val → Res (Nat × List Val)
  | .arrI l => .ok (changes (fun a b => decide (b ≠ a)) l + 1, l.map .int)
  | .arrF l => .ok (changes (fun a b => decide ((F64.sub b a).mag ≠ 0)) l + 1, l.map .float)
  | .arrC _ | .mat _ => .error .unmodelled
  | _ => .error .type

/-- `''.join(['%10i' % line_n for line_n in ...]) + '\n'` (`/repo/pyuff/datasets/dataset_82.py:67`). -/
def nodeLine (l : List Val) : W Unit := do
  let ts ← W.lift (mapRes (fmtI 10) l)
  W.emit (ts.flatten ++ ['\n'])

/-- `_write82` (`/repo/pyuff/datasets/dataset_82.py:46-76`). -/
def write82 : W Unit := W.guarded 82 do
  W.opt [("id", .str "NONE".toList), ("color", .int 0)]
  let v ← W.key "nodes"
  let nv ← W.lift (nodes82 v)
  W.emit (headText 82)
  W.row [.i 10 "trace_num", .c (fmtI 10) (.int nv.1), .i 10 "color"]
  W.row [.sl 80 "id"]
  W.forL (List.range (nv.1 / 8)) fun i => nodeLine (slice nv.2 (8 * i) (8 * i + 8))
  W.when (0 < nv.1 % 8) (nodeLine (nv.2.drop (8 * (nv.1 / 8))))
  W.emit tailText

/-- `_extract82` (`/repo/pyuff/datasets/dataset_82.py:79-92`). -/
def extract82 (block : Text) : Res Dict := readGuard 82 do
  let ls := splitLinesKeep block
  let h1 ← parseHeader (← orIndex ls[2]?) 3 [10, 10, 10] [.int, .int, .int] ["trace_num", "n_nodes", "color"]
  let h2 ← parseHeader (← orIndex ls[3]?) 1 [80] [.str] ["id"]
  let nodes ← mapRes pyFloat (splitWs (ls.drop 4).flatten)
  .ok ((((Dict.update [("type", .int 82)] h1).update h2).set "nodes" (.arrF nodes)))

end Verif
