/-
Python text primitives used by pyuff.  Core Lean only.

Each definition cites the places in /repo that rely on the primitive.
-/
namespace Verif

/-- A python `str`: the list of its code points.  Simplification: lone surrogates are excluded
(`Char` has none).  Used by every writer/reader in `/repo/pyuff/datasets/*.py`. -/
abbrev Text := List Char

/-- A python `bytes` object / the content of a file (`/repo/pyuff/pyuff.py:183`). -/
abbrev Bytes := List UInt8

/-- `str.isspace` for one character, the set removed by `str.strip()` and separated on by
`str.split()` (`/repo/pyuff/tools.py:49`, `/repo/pyuff/datasets/dataset_15.py:64`). -/
def isSpace (c : Char) : Bool :=
  let n := c.toNat
  (9 ≤ n && n ≤ 13) || (28 ≤ n && n ≤ 32) || n == 0x85 || n == 0xa0 || n == 0x1680 ||
  (0x2000 ≤ n && n ≤ 0x200a) || n == 0x2028 || n == 0x2029 || n == 0x202f || n == 0x205f ||
  n == 0x3000

/-- Line boundary characters of `str.splitlines` (`/repo/pyuff/datasets/dataset_15.py:63` and every
other extract function). -/
def isBreak (c : Char) : Bool :=
  let n := c.toNat
  (10 ≤ n && n ≤ 13) || (28 ≤ n && n ≤ 30) || n == 0x85 || n == 0x2028 || n == 0x2029

/-- `str.strip()` (`/repo/pyuff/tools.py:49`). -/
def lstrip (t : Text) : Text := t.dropWhile isSpace
/-- Right half of `str.strip()` (`/repo/pyuff/tools.py:49`). -/
def rstrip (t : Text) : Text := (t.reverse.dropWhile isSpace).reverse
/-- `str.strip()` (`/repo/pyuff/tools.py:49`). -/
def strip (t : Text) : Text := rstrip (lstrip t)

/-- The blanks that `int()` and `float()` skip: not the separators 28 to 31, which `str.strip()` removes
(`/repo/pyuff/datasets/dataset_58.py:1102`). -/
def isNumSpace (c : Char) : Bool := isSpace c && !(28 ≤ c.toNat && c.toNat ≤ 31)
/-- What `int()` and `float()` do to blanks at both ends (`/repo/pyuff/datasets/dataset_58.py:1102`). -/
def numStrip (t : Text) : Text := ((t.dropWhile isNumSpace).reverse.dropWhile isNumSpace).reverse

/-- `splitlines` for `str` (breaks = `isBreak`) and for `bytes` (breaks = LF, CR); CR LF counts as
one boundary.  `keep` is the `keepends` argument; `acc` is the reversed current line.
Used at `/repo/pyuff/pyuff.py:228` (bytes), `/repo/pyuff/datasets/dataset_164.py:72` (`True`),
`/repo/pyuff/datasets/dataset_18.py:80` (no keep). -/
def splitLinesGen {α : Type} [DecidableEq α] (cr lf : α) (brk : α → Bool) (keep : Bool) :
    List α → List α → List (List α)
  | acc, [] => if acc.isEmpty then [] else [acc.reverse]
  | acc, [c] =>
      if brk c then [if keep then (c :: acc).reverse else acc.reverse]
      else [(c :: acc).reverse]
  | acc, c :: d :: cs =>
      if c = cr ∧ d = lf then
        (if keep then (d :: c :: acc).reverse else acc.reverse)
          :: splitLinesGen cr lf brk keep [] cs
      else if brk c then
        (if keep then (c :: acc).reverse else acc.reverse)
          :: splitLinesGen cr lf brk keep [] (d :: cs)
      else splitLinesGen cr lf brk keep (c :: acc) (d :: cs)

/-- `str.splitlines()` (`/repo/pyuff/datasets/dataset_18.py:80`). -/
def splitLines (t : Text) : List Text := splitLinesGen '\r' '\n' isBreak false [] t
/-- `str.splitlines(True)` (`/repo/pyuff/datasets/dataset_164.py:72`). -/
def splitLinesKeep (t : Text) : List Text := splitLinesGen '\r' '\n' isBreak true [] t
/-- `bytes.splitlines()` (`/repo/pyuff/pyuff.py:228`). -/
def splitLinesB (b : Bytes) : List Bytes :=
  splitLinesGen 13 10 (fun c => c == 10 || c == 13) false [] b
/-- `bytes.splitlines(True)` (`/repo/pyuff/datasets/dataset_58.py:1034`). -/
def splitLinesKeepB (b : Bytes) : List Bytes :=
  splitLinesGen 13 10 (fun c => c == 10 || c == 13) true [] b

/-- Worker of `str.split()`; `acc` is the reversed current token. -/
def splitWsAux : Text → Text → List Text
  | acc, [] => if acc.isEmpty then [] else [acc.reverse]
  | acc, c :: cs =>
      if isSpace c then
        if acc.isEmpty then splitWsAux [] cs else acc.reverse :: splitWsAux [] cs
      else splitWsAux (c :: acc) cs

/-- `str.split()` (`/repo/pyuff/datasets/dataset_15.py:65`). -/
def splitWs (t : Text) : List Text := splitWsAux [] t

/-- Python slice `t[i:j]` for `0 ≤ i` (`/repo/pyuff/tools.py:49`). -/
def slice {α : Type} (t : List α) (i j : Nat) : List α := (t.drop i).take (j - i)

/-- Python `[line[w*i : w*(i+1)] for i in range(len(line)//w)]`
(`/repo/pyuff/datasets/dataset_18.py:97`, `/repo/pyuff/datasets/dataset_58.py:1101`). -/
def chunks (w : Nat) (t : Text) : List Text :=
  (List.range (t.length / w)).map fun i => slice t (w * i) (w * (i + 1))

/-- Worker of `everyN`: emit an element when the counter is 0 and restart it at `step - 1`. -/
def everyAux {α : Type} (step : Nat) : Nat → List α → List α
  | _, [] => []
  | 0, a :: r => a :: everyAux step (step - 1) r
  | k + 1, _ :: r => everyAux step k r

/-- Python extended slice `t[start::step]`, `step ≥ 1` (`/repo/pyuff/datasets/dataset_18.py:85`). -/
def everyN {α : Type} (start step : Nat) (t : List α) : List α := everyAux step start t

/-- Left padding with blanks to width `w`: what `'%{w}s'`, `'%{w}i'` and `'%{w}.{p}e'` do
(`/repo/pyuff/datasets/dataset_164.py:55`). -/
def padLeft (w : Nat) (t : Text) : Text := List.replicate (w - t.length) ' ' ++ t
/-- Right padding with blanks to width `w`: what `'%-{w}s'` does
(`/repo/pyuff/datasets/dataset_2400.py:67`). -/
def padRight (w : Nat) (t : Text) : Text := t ++ List.replicate (w - t.length) ' '

/-- The decimal digit `d < 10` as a character. -/
def digitChar (d : Nat) : Char := Char.ofNat (48 + d)
/-- The zeros of the decimal digits outside ASCII that `int()` and `float()` accept (Unicode 14, python 3.11; the other nine
digits follow each zero).  Reachable through `/repo/pyuff/tools.py:63,65`. -/
def digitZeros : List Nat :=
  [0x660, 0x6f0, 0x7c0, 0x966, 0x9e6, 0xa66, 0xae6, 0xb66, 0xbe6, 0xc66, 0xce6, 0xd66, 0xde6, 0xe50, 0xed0, 0xf20, 0x1040, 0x1090,
   0x17e0, 0x1810, 0x1946, 0x19d0, 0x1a80, 0x1a90, 0x1b50, 0x1bb0, 0x1c40, 0x1c50, 0xa620, 0xa8d0, 0xa900, 0xa9d0, 0xa9f0, 0xaa50,
   0xabf0, 0xff10, 0x104a0, 0x10d30, 0x11066, 0x110f0, 0x11136, 0x111d0, 0x112f0, 0x11450, 0x114d0, 0x11650, 0x116c0, 0x11730,
   0x118e0, 0x11950, 0x11c50, 0x11d50, 0x11da0, 0x16a60, 0x16ac0, 0x16b50, 0x1d7ce, 0x1d7d8, 0x1d7e2, 0x1d7ec, 0x1d7f6, 0x1e140,
   0x1e2f0, 0x1e950, 0x1fbf0]
/-- Value of a decimal digit in `int()` and `float()` (`/repo/pyuff/tools.py:63,65`). -/
def digitVal (c : Char) : Option Nat :=
  if 48 ≤ c.toNat ∧ c.toNat ≤ 57 then some (c.toNat - 48)
  else if c.toNat < 128 then none
  else (digitZeros.find? fun z => z ≤ c.toNat && c.toNat ≤ z + 9).map fun z => c.toNat - z

/-- Worker of `natRepr` (fuel `f`, correct when `n < 2 ^ f`). -/
def natReprAux : Nat → Nat → Text
  | 0, n => [digitChar (n % 10)]
  | f + 1, n => if n < 10 then [digitChar n] else natReprAux f (n / 10) ++ [digitChar (n % 10)]
/-- Decimal digits of a natural number: `str(n)` (`'%6i'` etc., `/repo/pyuff/pyuff.py:345`). -/
def natRepr (n : Nat) : Text := natReprAux (n.log2 + 1) n
/-- `'%i' % n` without padding (`/repo/pyuff/datasets/dataset_18.py:57`). -/
def intRepr (n : Int) : Text :=
  if n < 0 then '-' :: natRepr n.natAbs else natRepr n.natAbs

/-- Exactly `k` decimal digits of `n` (leading zeros kept; high digits dropped): the fractional
digits of `%e`. -/
def digitsW : Nat → Nat → Text
  | 0, _ => []
  | k + 1, n => digitsW k (n / 10) ++ [digitChar (n % 10)]

/-- Underscore rule of `int()`/`float()`: an underscore is legal only between two digits and is then
ignored.  `prev` tells whether the previous character was a digit; the result is `none` when the
rule is violated.  (CPython semantics; reachable through `/repo/pyuff/tools.py:63`.) -/
def dropUnders : Bool → Text → Option Text
  | _, [] => some []
  | prev, c :: cs =>
      if c = '_' then
        match cs with
        | d :: _ => if prev ∧ (digitVal d).isSome then dropUnders false cs else none
        | [] => none
      else (dropUnders (digitVal c).isSome cs).map (c :: ·)

/-- Value of a nonempty run of digits, `none` if any other character occurs. -/
def parseNatAux : Nat → Text → Option Nat
  | acc, [] => some acc
  | acc, c :: cs => match digitVal c with
      | some d => parseNatAux (acc * 10 + d) cs
      | none => none
/-- Value of a digit string. -/
def parseNat (t : Text) : Option Nat := if t.isEmpty then none else parseNatAux 0 t

/-- Optional sign followed by decimal digits. -/
def parseSigned : Text → Option Int
  | [] => none
  | c :: r =>
    if c = '-' then (parseNat r).map fun (n : Nat) => -(n : Int)
    else if c = '+' then (parseNat r).map fun (n : Nat) => (n : Int)
    else (parseNat (c :: r)).map fun (n : Nat) => (n : Int)

/-- `int(s)` on a `str`: strip blanks, optional sign, decimal digits; `none` is `ValueError`
(`/repo/pyuff/tools.py:63`). -/
def parseInt (t : Text) : Option Int :=
  match dropUnders false (numStrip t) with
  | none => none
  | some s => parseSigned s

/-- `str.lower()` restricted to ASCII letters.  Simplification: other letters are unchanged; the results are only compared with
`b`, `add`, `overwrite`, or given to `float()`, and no other letter becomes one of these (the Kelvin sign becomes `k`)
(`/repo/pyuff/datasets/dataset_164.py:77`, `/repo/pyuff/pyuff.py:311`). -/
def lowerChar (c : Char) : Char :=
  if 65 ≤ c.toNat ∧ c.toNat ≤ 90 then Char.ofNat (c.toNat + 32) else c
/-- `str.lower()` (`/repo/pyuff/datasets/dataset_164.py:77`). -/
def lower (t : Text) : Text := t.map lowerChar

/-- `s.replace(a, b)` for single characters (`/repo/pyuff/datasets/dataset_164.py:77`). -/
def replaceChar (a b : Char) (t : Text) : Text := t.map fun c => if c = a then b else c

end Verif
