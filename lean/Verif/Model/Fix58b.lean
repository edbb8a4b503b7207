import Verif.Model.Scan
/-
`fix_58b` (`/repo/pyuff/datasets/dataset_58.py:1504-1563`).
-/
namespace Verif

/-- The bytes removed by `bytes.strip()` (`/repo/pyuff/datasets/dataset_58.py:1527,1541`): tab, LF, VT, FF, CR, blank. -/
def isSpaceB (c : UInt8) : Bool := c == 32 || (9 ≤ c && c ≤ 13)

/-- `b.strip()` (`/repo/pyuff/datasets/dataset_58.py:1527,1541`). -/
def stripB (b : Bytes) : Bytes := ((b.dropWhile isSpaceB).reverse.dropWhile isSpaceB).reverse

/-- `b.rstrip(b'\r\n')` (`/repo/pyuff/datasets/dataset_58.py:1530,1543`). -/
def rstripEol (b : Bytes) : Bytes := (b.reverse.dropWhile fun c => c == 13 || c == 10).reverse

/-- `line.strip() == b'-1'` (`/repo/pyuff/datasets/dataset_58.py:1527,1541`). -/
def loneTag (l : Bytes) : Bool := stripB l == [45, 49]

/-- `l.rstrip(b'\r\n') + b'    -1' + t[-1:]` (`/repo/pyuff/datasets/dataset_58.py:1530-1531,1543-1544`). -/
def moveUp (l t : Bytes) : Bytes := rstripEol l ++ tagPat ++ t.drop (t.length - 1)

/-- Fix 1 (`/repo/pyuff/datasets/dataset_58.py:1526-1536`): a delimiter alone on the last line. -/
def fixLast : List Bytes → List Bytes
  | [] => []
  | [l] => [l]
  | [l, t] => if loneTag t then [moveUp l t] else [l, t]
  | l :: l' :: t :: r => l :: fixLast (l' :: t :: r)

/-- Fix 2 (`/repo/pyuff/datasets/dataset_58.py:1538-1550`): `l` is `lines[i]`, then the following lines; there must be
three of them (`i < len(lines) - 3`). -/
def fixFrom (l : Bytes) : List Bytes → List Bytes
  | a :: b :: c :: r =>
    if loneTag a && loneTag b then fixFrom (moveUp l a) (b :: c :: r) else l :: fixFrom a (b :: c :: r)
  | ls => l :: ls

/-- Fix 2 from the first line (`/repo/pyuff/datasets/dataset_58.py:1538-1550`). -/
def fixPairs : List Bytes → List Bytes
  | [] => []
  | l :: ls => fixFrom l ls

/-- What is written for the content `data` (`/repo/pyuff/datasets/dataset_58.py:1524-1553`). -/
def fixBytes (data : Bytes) : Bytes := (fixPairs (fixLast (splitLinesKeepB data))).flatten

/-- `p.rfind(c)`; `none` is `-1` (`os.path.splitext`, used at `/repo/pyuff/datasets/dataset_58.py:1557`). -/
def rfind (c : Char) (p : Text) : Option Nat := (List.range p.length).reverse.find? fun i => p[i]? = some c

/-- Where the last component of a path starts (`os.path.splitext`, used at `/repo/pyuff/datasets/dataset_58.py:1557`). -/
def compStart (p : Text) : Nat :=
  match rfind '/' p with
  | none => 0
  | some i => i + 1

/-- `os.path.splitext` on a system with `/` as separator (`/repo/pyuff/datasets/dataset_58.py:1557`): the extension starts
at the last dot, if the dot belongs to the last component and this component has something else than dots before it. -/
def splitExt (p : Text) : Text × Text :=
  match rfind '.' p with
  | none => (p, [])
  | some dot => if compStart p ≤ dot ∧ (slice p (compStart p) dot).any (· ≠ '.') then (p.take dot, p.drop dot) else (p, [])

/-- The default name (`/repo/pyuff/datasets/dataset_58.py:1556-1558`). -/
def fixedName (name : Text) : Text := (splitExt name).1 ++ ("_fixed".toList ++ (splitExt name).2)

/-- The files, by name.  Simplification: different names are different files. -/
abbrev Files := Text → Option Bytes

/-- `fix_58b(filename, fixed_filename)` (`/repo/pyuff/datasets/dataset_58.py:1504-1563`).  Failures of the operating system
are not modelled. -/
def fix58b (fs : Files) (name : Text) (fixed : Option Text) : Files × Res Unit :=
  match fs name with
  | none => (fs, .error (.exc "Filename does not exist"))
  | some data =>
    let new := match fixed with
      | none => fixedName name
      | some n => n
    (fun n => if n = new then some (fixBytes data) else fs n, .ok ())

end Verif
