import Verif.Py.Val
/-
The delimiter scan of `UFF.refresh` (`/repo/pyuff/pyuff.py:180-237`).
-/
namespace Verif

/-- `b'    -1'` (`/repo/pyuff/pyuff.py:188`). -/
def tagPat : Bytes := [32, 32, 32, 32, 45, 49]

/-- Search loop of `bytes.find(pat, start)` on the suffix `s` that starts at offset `i`. -/
def findAux (pat : Bytes) : Bytes → Nat → Option Nat
  | [], i => if pat.isPrefixOf [] then some i else none
  | c :: r, i => if pat.isPrefixOf (c :: r) then some i else findAux pat r (i + 1)

/-- `data.find(pat, start)` (`/repo/pyuff/pyuff.py:188`); `none` is `-1`. -/
def bytesFind (data pat : Bytes) (start : Nat) : Option Nat :=
  if start ≤ data.length then findAux pat (data.drop start) start else none

/-- The three acceptance tests for a hit at `ind` (`/repo/pyuff/pyuff.py:191-199`). -/
def tagOk (data : Bytes) (ind : Nat) : Bool :=
  if ind + 6 = data.length then true
  else if ind + 6 < data.length ∧ (data[ind + 6]? = some 10 ∨ data[ind + 6]? = some 13) then true
  else if ind + 80 < data.length ∧ slice data (ind + 6) (ind + 80) = List.replicate 74 32 then true
  else false

/-- The `while True` loop (`/repo/pyuff/pyuff.py:187-199`), `start` is `ind + 1`.  The loop advances by
at least one offset per round, so `data.length + 1` rounds suffice (`fuel`). -/
def scanLoop (data : Bytes) : Nat → Nat → List Nat
  | 0, _ => []
  | fuel + 1, start =>
    match bytesFind data tagPat start with
    | none => []
    | some ind => (if tagOk data ind then [ind] else []) ++ scanLoop data fuel (ind + 1)

/-- The accepted offsets (`block_ind`, `/repo/pyuff/pyuff.py:183-201`). -/
def scanTags (data : Bytes) : List Nat := scanLoop data (data.length + 1) 0

/-- `block_ind[:-1:2]` and `block_ind[1::2] - 1` for `floor(len/2)` blocks
(`/repo/pyuff/pyuff.py:207-216`).  The second component is the exclusive end `ei + 1`. -/
def pairUp : List Nat → List (Nat × Nat)
  | a :: b :: r => (a, b) :: pairUp r
  | _ => []

/-- `int(b)` for a `bytes` argument: only ASCII blanks are skipped
(`/repo/pyuff/pyuff.py:229`). -/
def parseIntB (b : Bytes) : Option Int :=
  if b.any fun c => c ≥ 128 || (28 ≤ c && c ≤ 31) then none
  else parseInt (b.map fun c => Char.ofNat c.toNat)

/-- `self._set_types[ii]` (`/repo/pyuff/pyuff.py:226-235`): `int(block.splitlines()[1][0:6])`, or the
initial 0 when this raises. -/
def blockType (block : Bytes) : Int :=
  match (splitLinesB block)[1]? with
  | none => 0
  | some l => (parseIntB (l.take 6)).getD 0

/-- `self._set_formats[ii]` (`/repo/pyuff/pyuff.py:230-235`): `block_data[1][6]` is an `int`, which has no
method `lower`, so the statement always raises and the initial 0 stays. -/
def blockFormat (_block : Bytes) : Nat := 0

/-- Bytes of a block: `data[si:ei+1]` (`/repo/pyuff/pyuff.py:228,355`). -/
def blockBytes (data : Bytes) (p : Nat × Nat) : Bytes := slice data p.1 p.2

end Verif
