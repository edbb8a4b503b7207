import Verif.Py.Val
/-
`/repo/pyuff/tools.py`.
-/
namespace Verif

/-- `_opt_fields(dict, fields_dict)` (`/repo/pyuff/tools.py:4-17`): the dictionary is updated in place
with every default whose key is missing, in the order of `fields_dict`. -/
def optFields (d : Dict) : List (Key × Val) → Dict
  | [] => d
  | (k, v) :: r => optFields (if d.has k then d else d.set k v) r

/-- `_opt_fields(dset, ...)` inside a writer: `dset` is the caller's dictionary
(`/repo/pyuff/datasets/dataset_164.py:51`). -/
def W.opt (fs : List (Key × Val)) : W Unit := fun d => ⟨[], optFields d fs, .ok ()⟩

/-- The cutting loop of `_parse_header_line` (`/repo/pyuff/tools.py:47-50`). -/
def cutFields (line : Text) : Nat → List Nat → List Text
  | _, [] => []
  | si, w :: ws => strip (slice line si (si + w)) :: cutFields line (si + w) ws

/-- Field types of `_parse_header_line` (`/repo/pyuff/tools.py:34`, the tests on `types[n]` at lines
58-65): `1` string, `2` int, `-1` ignored, anything else float. -/
inductive FTy where
  | str | int | flt | ign
deriving DecidableEq, Repr

/-- The `try` body for one field (`/repo/pyuff/tools.py:58-65` and `69-76`). -/
def headerField (ty : FTy) (s : Text) : Res (Option Val) :=
  match ty with
  | .ign => .ok none
  | .str => .ok (some (.str s))
  | .int => (pyInt s).map fun n => some (.int n)
  | .flt => (pyFloat s).map fun x => some (.float x)

/-- The value stored when an optional field raises `ValueError` (`/repo/pyuff/tools.py:78-83`). -/
def headerDefault (ty : FTy) : Val :=
  match ty with
  | .str => .str []
  | .int => .int 0
  | _ => .float F64.zero

/-- The two loops over the fields (`/repo/pyuff/tools.py:57-83`): the first `mand` fields are mandatory,
the others optional.  `zip` stops at the shorter list, and `types[n]` raises `IndexError` past its end. -/
def headerLoop : Nat → List FTy → List Key → List Text → Dict → Res Dict
  | _, _, [], _, acc => .ok acc
  | _, _, _ :: _, [], acc => .ok acc
  | _, [], _ :: _, _ :: _, _ => .error .index
  | mand, ty :: tys, k :: ks, s :: ss, acc =>
    match headerField ty s with
    | .ok none => headerLoop (mand - 1) tys ks ss acc
    | .ok (some v) => headerLoop (mand - 1) tys ks ss (acc.set k v)
    | .error e =>
      if mand = 0 then headerLoop 0 tys ks ss (acc.set k (headerDefault ty))
      else .error e

/-- `_parse_header_line(line, min_values, widths, types, names)` (`/repo/pyuff/tools.py:19-84`). -/
def parseHeader (line : Text) (minValues : Nat) (widths : List Nat) (types : List FTy)
    (names : List Key) : Res Dict :=
  let line := if line.length < 80 then line ++ blanks (80 - line.length) else line
  let fields := cutFields line 0 widths
  if names.length < fields.length ∨ minValues > fields.length then
    .error (.exc "Error parsing header section; too many or to less fields found")
  else headerLoop minValues types names fields []

/-- Formats used with `_write_record` (`/repo/pyuff/datasets/dataset_15.py:41-52`):
`'{w}.0f'` and `'{w}.{p}E'`. -/
inductive RFmt where
  | f0 (w : Nat)
  | eU (w p : Nat)

/-- `f'{v:{align}{f}}'` (`/repo/pyuff/tools.py:106-111`); a string value with a numeric format raises
`ValueError`. -/
def recField (v : Val) : RFmt → Res Text
  | .f0 w => match v with
    | .str _ => .error .value
    | v => (v.toFloat).map fun x => padLeft w (fmtF0 x)
  | .eU w p => match v with
    | .str _ => .error .value
    | v => (v.toFloat).map fun x => padLeft w (fmtEU p x)

/-- The loop of `_write_record` (`/repo/pyuff/tools.py:105-114`). -/
def recLoop (multiline : Bool) : List Val → List RFmt → Res Text
  | v :: vs, f :: fs =>
    match recField v f with
    | .error e => .error e
    | .ok t => match recLoop multiline vs fs with
      | .error e => .error e
      | .ok r => .ok (t ++ ((if multiline then ['\n'] else []) ++ r))
  | _, _ => .ok []

/-- `_write_record(fh, values, formats, multiline)` (`/repo/pyuff/tools.py:86-119`), values and formats
given as lists. -/
def writeRecord (vs : List Val) (fs : List RFmt) (multiline : Bool) : W Unit :=
  W.bind (W.lift (recLoop multiline vs fs)) fun t =>
    W.emit (t ++ (if multiline then [] else ['\n']))

/-- `check_dict_for_none(dataset)` (`/repo/pyuff/tools.py:121-127`). -/
def checkDictForNone (d : Dict) : Dict :=
  d.filter fun kv => decide (kv.2 ≠ .none)

end Verif
