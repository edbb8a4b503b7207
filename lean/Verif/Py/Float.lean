import Verif.Py.Text
/-
IEEE-754 binary64 numbers, their decimal printing (`%e`, `%f`) and parsing (`float()`), and the few
arithmetic operations pyuff performs on them.  Everything is defined on natural numbers:
a finite double is a multiple of `2 ^ -1074`, and `units` is that multiple.
-/
namespace Verif

/-- A binary64: sign bit and the remaining 63 bits (exponent and fraction) read as one number.
Python `float` / numpy `float64` as used in all of `/repo/pyuff`. -/
structure F64 where
  neg : Bool
  mag : Nat
  lt : mag < 2 ^ 63
deriving DecidableEq

namespace F64

/-- Number of units in `1.0`. -/
@[irreducible] def scale : Nat := 2 ^ 1074

/-- Magnitude bits of infinity. -/
def infMag : Nat := 2047 * 2 ^ 52

/-- The absolute value of a finite double with magnitude bits `mag`, as a multiple of `2 ^ -1074`. -/
def unitsOf (mag : Nat) : Nat :=
  if mag < 2 ^ 52 then mag else (2 ^ 52 + mag % 2 ^ 52) * 2 ^ (mag / 2 ^ 52 - 1)

/-- Absolute value in units of `2 ^ -1074` (meaningful for finite doubles). -/
def units (x : F64) : Nat := unitsOf x.mag

/-- Not infinite and not NaN. -/
def finite (x : F64) : Bool := x.mag < infMag
/-- NaN test (`np.isnan`). -/
def isNaN (x : F64) : Bool := infMag < x.mag
/-- Infinity test (`np.isinf`). -/
def isInf (x : F64) : Bool := x.mag == infMag

/-- `n / d` rounded to the nearest integer, ties to even. -/
def rhe (n d : Nat) : Nat :=
  let q := n / d
  let r := n % d
  if 2 * r < d then q else if d < 2 * r then q + 1 else if q % 2 = 0 then q else q + 1

/-- Magnitude bits of the double nearest to `n / d` units (ties to even, overflow to infinity). -/
def roundMag (n d : Nat) : Nat :=
  let s := Nat.log2 (n / d) - 52
  let m := s * 2 ^ 52 + rhe n (d * 2 ^ s)
  if infMag ≤ m then infMag else m

theorem roundMag_lt (n d : Nat) : roundMag n d < 2 ^ 63 := by
  unfold roundMag infMag
  simp only
  split <;> omega

/-- The double nearest to `± n / d` units. -/
def ofRat (neg : Bool) (n d : Nat) : F64 := ⟨neg, roundMag n d, roundMag_lt n d⟩

/-- `+0.0`. -/
def zero : F64 := ⟨false, 0, by decide⟩
/-- `1.0`. -/
def one : F64 := ⟨false, 1023 * 2 ^ 52, by decide⟩
/-- The NaN produced by `float('nan')` and by invalid operations. -/
def nan : F64 := ⟨false, infMag + 2 ^ 51, by decide⟩
/-- `± inf`. -/
def inf (neg : Bool) : F64 := ⟨neg, infMag, by decide⟩
/-- `± sys.float_info.max`, what `np.nan_to_num` substitutes for infinities
(`/repo/pyuff/pyuff.py:442`). -/
def maxFinite (neg : Bool) : F64 := ⟨neg, infMag - 1, by decide⟩

/-- `np.nan_to_num` on one double (`/repo/pyuff/pyuff.py:442`). -/
def nanToNum (x : F64) : F64 :=
  if x.isNaN then zero else if x.isInf then maxFinite x.neg else x

/-- Number of decimal digits of `n` (fuel `f`, correct when `n < 2 ^ f`). -/
def ndigAux : Nat → Nat → Nat
  | 0, _ => 1
  | f + 1, n => if n < 10 then 1 else ndigAux f (n / 10) + 1
/-- Number of decimal digits of `n`. -/
def ndig (n : Nat) : Nat := ndigAux (n.log2 + 1) n

/-- Scaling exponent used to find the decimal exponent of doubles below 1. -/
def decShift : Nat := 400
/-- `10 ^ decShift`. -/
@[irreducible] def decScale : Nat := 10 ^ 400

/-- Decimal exponent of the positive number of `u` units, plus `decShift`:
`10 ^ decExp u ≤ u * 2 ^ -1074 * 10 ^ decShift < 10 ^ (decExp u + 1)`. -/
def decExp (u : Nat) : Nat := ndig (u * decScale / scale) - 1

/-- The `p + 1` leading decimal digits of `u` units, rounded half to even (may be `10 ^ (p + 1)`). -/
def decSig (p u : Nat) : Nat := rhe (u * decScale * 10 ^ p) (scale * 10 ^ decExp u)

/-- The decimal `(t, e)` with `p + 1` significant digits nearest to the positive number of `u`
units: value `t * 10 ^ (e - p)`, `10 ^ p ≤ t < 10 ^ (p + 1)`; ties to even.  For `u = 0` the pair is
`(0, 0)`.  This is the correctly rounded conversion performed by `'%.{p}e'`. -/
def toDec (p u : Nat) : Nat × Int :=
  if u = 0 then (0, 0)
  else if decSig p u = 10 ^ (p + 1) then (10 ^ p, (decExp u : Int) + 1 - decShift)
  else (decSig p u, (decExp u : Int) - decShift)

/-- Magnitude bits of the double nearest to the decimal `t * 10 ^ e`. -/
def ofDecMag (t : Nat) (e : Int) : Nat :=
  if 0 ≤ e then roundMag (t * 10 ^ e.toNat * scale) 1 else roundMag (t * scale) (10 ^ (-e).toNat)

theorem ofDecMag_lt (t : Nat) (e : Int) : ofDecMag t e < 2 ^ 63 := by
  unfold ofDecMag
  split <;> exact roundMag_lt _ _

/-- The double nearest to `± t * 10 ^ e`. -/
def ofDec (neg : Bool) (t : Nat) (e : Int) : F64 := ⟨neg, ofDecMag t e, ofDecMag_lt t e⟩

end F64

open F64

/-- Sign and at least two digits of the exponent, as printed by `%e`. -/
def expRepr (e : Int) : Text :=
  (if e < 0 then '-' else '+') :: (if e.natAbs < 10 then '0' :: natRepr e.natAbs else natRepr e.natAbs)

/-- `'%.{p}e' % x` without padding, `p ≥ 1` (`/repo/pyuff/datasets/dataset_164.py:56`,
`/repo/pyuff/datasets/dataset_18.py:64`). -/
def fmtE (p : Nat) (x : F64) : Text :=
  if x.isNaN then ['n', 'a', 'n']
  else
    let sgn : Text := if x.neg then ['-'] else []
    if x.isInf then sgn ++ ['i', 'n', 'f']
    else
      let d := toDec p x.units
      sgn ++ digitChar (d.1 / 10 ^ p) :: '.' :: (digitsW p d.1 ++ 'e' :: expRepr d.2)

/-- ASCII upper-casing of a formatted number: what the `E` presentation type changes
(`/repo/pyuff/datasets/dataset_15.py:47`). -/
def upperChar (c : Char) : Char :=
  if 97 ≤ c.toNat ∧ c.toNat ≤ 122 then Char.ofNat (c.toNat - 32) else c
/-- `f'{x:.{p}E}'` without padding (`/repo/pyuff/datasets/dataset_15.py:47`). -/
def fmtEU (p : Nat) (x : F64) : Text := (fmtE p x).map upperChar

/-- `f'{x:.0f}'` without padding: nearest integer, ties to even
(`/repo/pyuff/datasets/dataset_15.py:47`). -/
def fmtF0 (x : F64) : Text :=
  if x.isNaN then ['n', 'a', 'n']
  else
    let sgn : Text := if x.neg then ['-'] else []
    if x.isInf then sgn ++ ['i', 'n', 'f']
    else sgn ++ natRepr (rhe x.units scale)

/-- Longest prefix of digits and the rest. -/
def digitsPrefix : Text → Text × Text
  | [] => ([], [])
  | c :: cs =>
    if (digitVal c).isSome then
      let r := digitsPrefix cs
      (c :: r.1, r.2)
    else ([], c :: cs)

/-- Optional exponent: `[]` or `e`/`E` followed by an integer. -/
def parseExpOpt (t : Text) : Option Int :=
  match t with
  | [] => some 0
  | c :: r => if c = 'e' ∨ c = 'E' then parseSigned r else none

/-- Unsigned decimal literal of `float()`: value `t * 10 ^ e`. -/
def parseDec (t : Text) : Option (Nat × Int) :=
  let ar := digitsPrefix t
  let br := match ar.2 with
    | '.' :: r => digitsPrefix r
    | _ => ([], ar.2)
  match parseNat (ar.1 ++ br.1), parseExpOpt br.2 with
  | some n, some e => some (n, e - br.1.length)
  | _, _ => none

/-- Unsigned body of a `float()` literal. -/
def parseFloatBody (neg : Bool) (t : Text) : Option F64 :=
  let l := lower t
  if l = ['i', 'n', 'f'] ∨ l = ['i', 'n', 'f', 'i', 'n', 'i', 't', 'y'] then some (F64.inf neg)
  else if l = ['n', 'a', 'n'] then some F64.nan
  else (parseDec t).map fun d => F64.ofDec neg d.1 d.2

/-- Optional sign followed by an unsigned `float()` literal. -/
def parseSignedFloat : Text → Option F64
  | [] => none
  | c :: r =>
    if c = '-' then parseFloatBody true r
    else if c = '+' then parseFloatBody false r
    else parseFloatBody false (c :: r)

/-- `float(s)`: strip blanks, optional sign, decimal literal / inf / nan; `none` is `ValueError`
(`/repo/pyuff/tools.py:65`).  Simplification: NaN payload and sign are
canonical. -/
def parseFloat (t : Text) : Option F64 :=
  match dropUnders false (numStrip t) with
  | none => none
  | some s => parseSignedFloat s

namespace F64

/-- Signed value of a finite double in units. -/
def sval (x : F64) : Int := if x.neg then -(x.units : Int) else (x.units : Int)

/-- Sign flip. -/
def negate (x : F64) : F64 := ⟨!x.neg, x.mag, x.lt⟩

/-- IEEE addition (`/repo/pyuff/datasets/dataset_58.py:1133`, `min_val + np.arange(n_val) * d`). -/
def add (x y : F64) : F64 :=
  if x.isNaN || y.isNaN then nan
  else if x.isInf then (if y.isInf && x.neg != y.neg then nan else x)
  else if y.isInf then y
  else
    let s := x.sval + y.sval
    if s = 0 then ⟨x.neg && y.neg, 0, by decide⟩
    else ofRat (s < 0) s.natAbs 1

/-- IEEE subtraction (`/repo/pyuff/datasets/dataset_58.py:906`). -/
def sub (x y : F64) : F64 := if y.isNaN then nan else add x (negate y)

/-- IEEE multiplication (`/repo/pyuff/datasets/dataset_58.py:1133`). -/
def mul (x y : F64) : F64 :=
  if x.isNaN || y.isNaN then nan
  else
    let neg := x.neg != y.neg
    if x.isInf || y.isInf then (if x.mag = 0 || y.mag = 0 then nan else inf neg)
    else ofRat neg (x.units * y.units) scale

/-- `float(n)` for a natural number. -/
def ofNat (n : Nat) : F64 := ofRat false (n * scale) 1
/-- `float(n)` for an integer; the result is infinite exactly when python raises `OverflowError`. -/
def ofInt (n : Int) : F64 := ofRat (n < 0) (n.natAbs * scale) 1

/-- `int(x)` for a float: truncation; `none` for NaN and infinities (`ValueError`/`OverflowError`)
(`'%i' % x`, `/repo/pyuff/datasets/dataset_82.py:65`). -/
def toInt (x : F64) : Option Int :=
  if x.finite then
    let n : Int := (x.units / scale : Nat)
    some (if x.neg then -n else n)
  else none

/-- The 64 bits of a double as a number. -/
def bits (x : F64) : Nat := (if x.neg then 2 ^ 63 else 0) + x.mag
/-- The double with the given 64 bits. -/
def ofBits (b : Nat) : F64 := ⟨2 ^ 63 ≤ b % 2 ^ 64, b % 2 ^ 63, Nat.mod_lt _ (by decide)⟩

/-- The double equal to the binary32 number with bits `b` (`struct.unpack('f')`,
`/repo/pyuff/datasets/dataset_58.py:1090`).  NaN payloads are canonicalised. -/
def ofBits32 (b : Nat) : F64 :=
  let neg : Bool := 2 ^ 31 ≤ b % 2 ^ 32
  let e := b / 2 ^ 23 % 2 ^ 8
  let f := b % 2 ^ 23
  if e = 255 then (if f = 0 then inf neg else nan)
  else ofRat neg ((if e = 0 then f else (2 ^ 23 + f) * 2 ^ (e - 1)) * 2 ^ 925) 1

end F64
end Verif
