import Verif.Model.Tools
/-
Data-set 164, `/repo/pyuff/datasets/dataset_164.py`.
-/
namespace Verif

/-- `t.replace('e' + s, 'D' + s)` for a one-character `s`
(`/repo/pyuff/datasets/dataset_164.py:58-59`). -/
def replED (s : Char) : Text → Text
  | [] => []
  | [c] => [c]
  | c :: c' :: r => if c = 'e' ∧ c' = s then 'D' :: c' :: replED s r else c :: replED s (c' :: r)

/-- The optional fields and their defaults (`/repo/pyuff/datasets/dataset_164.py:51-52`). -/
def opt164 : List (Key × Val) :=
  [("units_description", .str "User unit system".toList), ("temp_mode", .int 1)]

/-- `_write164` (`/repo/pyuff/datasets/dataset_164.py:47-65`). -/
def write164 : W Unit := W.guarded 164 do
  W.opt opt164
  W.emit (headText 164)
  let code ← W.key "units_code"
  let descr ← W.key "units_description"
  let mode ← W.key "temp_mode"
  let t ← W.lift (record [fmtI 10 code, fmtSR 20 descr, fmtI 10 mode])
  W.emit t
  let len ← W.key "length"
  let force ← W.key "force"
  let temp ← W.key "temp"
  let off ← W.key "temp_offset"
  let t1 ← W.lift (record [fmtEV 25 16 len, fmtEV 25 16 force, fmtEV 25 16 temp])
  let t2 ← W.lift (record [fmtEV 25 16 off])
  W.emit (replED '-' (replED '+' (t1 ++ t2)))
  W.emit tailText

/-- `float(s.lower().replace('d', 'e'))` (`/repo/pyuff/datasets/dataset_164.py:77`). -/
def dFloat (t : Text) : Res F64 := pyFloat (replaceChar 'd' 'e' (lower t))

/-- `_extract164` (`/repo/pyuff/datasets/dataset_164.py:68-83`). -/
def extract164 (block : Text) : Res Dict := readGuard 164 do
  let sd := splitLinesKeep block
  let h ← parseHeader (← orIndex sd[2]?) 1 [10, 20, 10] [.int, .str, .int]
    ["units_code", "units_description", "temp_mode"]
  let toks := splitWs (sd.drop 3).flatten
  let a ← dFloat (← orIndex toks[0]?)
  let b ← dFloat (← orIndex toks[1]?)
  let c ← dFloat (← orIndex toks[2]?)
  let e ← dFloat (← orIndex toks[3]?)
  .ok (((((Dict.update [("type", .int 164)] h).set "length" (.float a)).set "force" (.float b)).set
    "temp" (.float c)).set "temp_offset" (.float e))

end Verif
