import Verif.Spec.Basic
/-
The texts inside a value, and the characters that end a line.
-/
namespace Verif

/-- The blanks of Python. -/
def blankChars : List Char :=
  ([9, 10, 11, 12, 13, 28, 29, 30, 31, 32, 0x85, 0xa0, 0x1680, 0x2000, 0x2001, 0x2002, 0x2003, 0x2004, 0x2005, 0x2006, 0x2007,
    0x2008, 0x2009, 0x200a, 0x2028, 0x2029, 0x202f, 0x205f, 0x3000] : List Nat).map Char.ofNat

/-- The text occurs in the value: it is the value, or it occurs in an item of a list or an entry of a dictionary. -/
inductive HasText : Val → Text → Prop
  | str (s : Text) : HasText (.str s) s
  | list {l : List Val} {v : Val} {s : Text} : v ∈ l → HasText v s → HasText (.list l) s
  | dict {d : List (Key × Val)} {k : Key} {v : Val} {s : Text} : (k, v) ∈ d → HasText v s → HasText (.dict d) s

end Verif
