import Mathlib.Algebra.Order.Field.Basic
import Mathlib.Data.Rat.Defs
import Mathlib.Algebra.Order.Ring.Rat
import Verif.Py.Float
/-
The rational number a finite double stands for.
-/
namespace Verif

/-- The value of a finite double: with exponent bits `k` and fraction bits `f` it is `f * 2^-1074` for `k = 0` and
`(2^52 + f) * 2^(k - 1075)` otherwise. -/
def F64.value (x : F64) : ℚ :=
  (if x.neg then -1 else 1) *
    (if x.mag / 2 ^ 52 = 0 then (x.mag % 2 ^ 52 : Nat) * (2 : ℚ) ^ (-1074 : ℤ)
     else (2 ^ 52 + x.mag % 2 ^ 52 : Nat) * (2 : ℚ) ^ ((x.mag / 2 ^ 52 : Nat) - 1075 : ℤ))

end Verif
