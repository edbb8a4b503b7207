import Verif.Spec.Value
/-
What a number written as text looks like, and what it stands for: the literals accepted by `int()` and `float()`, told as a
grammar rather than as a program.
-/
namespace Verif

/-- A blank that may stand around a number. -/
def IsBlank (c : Char) : Prop :=
  (9 ≤ c.toNat ∧ c.toNat ≤ 13) ∨
  c.toNat ∈ [32, 0x85, 0xa0, 0x1680, 0x2028, 0x2029, 0x202f, 0x205f, 0x3000] ∨ (0x2000 ≤ c.toNat ∧ c.toNat ≤ 0x200a)

/-- `c` is the decimal digit `d` of some script. -/
def IsDecimal (c : Char) (d : Nat) : Prop := d < 10 ∧ ∃ z ∈ 48 :: digitZeros, c.toNat = z + d

/-- A run of digits; a single underscore may stand between two digits. -/
inductive Run : Text → List Nat → Prop
  | one {c d} (h : IsDecimal c d) : Run [c] [d]
  | next {c d t ds} (h : IsDecimal c d) (r : Run t ds) : Run (c :: t) (d :: ds)
  | under {c d t ds} (h : IsDecimal c d) (r : Run t ds) : Run (c :: '_' :: t) (d :: ds)

/-- The number with the given decimal digits, most significant first. -/
def decimal (ds : List Nat) : Nat := ds.foldl (fun a d => 10 * a + d) 0

/-- An optional sign; the second argument tells whether it is a minus. -/
inductive Sign : Text → Bool → Prop
  | absent : Sign [] false
  | plus : Sign ['+'] false
  | minus : Sign ['-'] true

/-- `t` is the integer `n` written in decimal. -/
def IntText (t : Text) (n : Int) : Prop :=
  ∃ a s r b neg ds, t = a ++ s ++ r ++ b ∧ (∀ c ∈ a, IsBlank c) ∧ (∀ c ∈ b, IsBlank c) ∧ Sign s neg ∧ Run r ds ∧
    n = if neg then -(decimal ds : Int) else decimal ds

/-- Digits with an optional decimal point: the text, all digits, and how many of them come after the point. -/
inductive Mantissa : Text → List Nat → Nat → Prop
  | whole {r ds} (h : Run r ds) : Mantissa r ds 0
  | point {r ds} (h : Run r ds) : Mantissa (r ++ ['.']) ds 0
  | both {r ds f fs} (h : Run r ds) (g : Run f fs) : Mantissa (r ++ '.' :: f) (ds ++ fs) fs.length
  | frac {f fs} (g : Run f fs) : Mantissa ('.' :: f) fs fs.length

/-- An optional exponent. -/
inductive Exponent : Text → Int → Prop
  | absent : Exponent [] 0
  | given {c s r neg ds} (hc : c = 'e' ∨ c = 'E') (hs : Sign s neg) (hr : Run r ds) :
      Exponent (c :: (s ++ r)) (if neg then -(decimal ds : Int) else decimal ds)

/-- `t` is the decimal number `q`, with a minus sign when `neg`. -/
def DecText (t : Text) (neg : Bool) (q : ℚ) : Prop :=
  ∃ a s m x b ds k e, t = a ++ s ++ m ++ x ++ b ∧ (∀ c ∈ a, IsBlank c) ∧ (∀ c ∈ b, IsBlank c) ∧ Sign s neg ∧ Mantissa m ds k ∧
    Exponent x e ∧ q = decimal ds * (10 : ℚ) ^ (e - k)

/-- `t` is the word `w` in capital or small letters, with an optional sign. -/
def WordText (w t : Text) (neg : Bool) : Prop :=
  ∃ a s u b, t = a ++ s ++ u ++ b ∧ (∀ c ∈ a, IsBlank c) ∧ (∀ c ∈ b, IsBlank c) ∧ Sign s neg ∧
    List.Forall₂ (fun c l => c = l ∨ c.toNat + 32 = l.toNat) u w

/-- `x` is the double that stands for `q` (`-q` when `neg`): the nearest one, on a tie the one with an even last bit, and infinity from
halfway between the greatest double and the next power of two on. -/
def Rounded (x : F64) (neg : Bool) (q : ℚ) : Prop :=
  x.neg = neg ∧
  if q < 2 ^ 1024 - 2 ^ 970 then
    x.finite = true ∧ ∀ z : F64, z.finite = true →
      |(|x.value|) - q| ≤ |(|z.value|) - q| ∧ (|(|x.value|) - q| = |(|z.value|) - q| → |x.value| ≠ |z.value| → x.mag % 2 = 0)
  else x = F64.inf neg

end Verif
