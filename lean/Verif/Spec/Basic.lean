import Verif.Py.Val
/-
Vocabulary of the property statements: which python values a dictionary holds, and what fits a
fixed-width field.  Nothing here refers to the writers or readers of pyuff.
-/
namespace Verif

/-- The value of an optional key: the user's, or the documented default. -/
def Dict.getOr (d : Dict) (k : Key) (dflt : Val) : Val := (d.get? k).getD dflt

/-- `v` is a number whose `int()` is `n`. -/
def IsInt (v : Val) (n : Int) : Prop := v.toInt = .ok n
/-- `v` is a number whose `float()` is `x`. -/
def IsFloat (v : Val) (x : F64) : Prop := v.toFloat = .ok x
/-- `v` prints as the text `s` under `%s`. -/
def IsStr (v : Val) (s : Text) : Prop := v.toStr = .ok s

/-- `v` is a list, tuple or array of as many items as `l`, related one by one. -/
def IsSeq {α} (P : Val → α → Prop) (v : Val) (l : List α) : Prop :=
  ∃ xs, v.items = .ok xs ∧ xs.length = l.length ∧
    ∀ i, (h1 : i < xs.length) → (h2 : i < l.length) → P xs[i] l[i]

/-- The dictionary has a key `k` holding an integer. -/
def HasInt (d : Dict) (k : Key) (n : Int) : Prop := ∃ v, d.get? k = some v ∧ IsInt v n
/-- The dictionary has a key `k` holding a float. -/
def HasFloat (d : Dict) (k : Key) (x : F64) : Prop := ∃ v, d.get? k = some v ∧ IsFloat v x
/-- The dictionary has a key `k` holding a string. -/
def HasStr (d : Dict) (k : Key) (s : Text) : Prop := ∃ v, d.get? k = some v ∧ IsStr v s
/-- The dictionary has a key `k` holding a sequence of integers. -/
def HasInts (d : Dict) (k : Key) (l : List Int) : Prop := ∃ v, d.get? k = some v ∧ IsSeq IsInt v l
/-- The dictionary has a key `k` holding a sequence of floats. -/
def HasFloats (d : Dict) (k : Key) (l : List F64) : Prop := ∃ v, d.get? k = some v ∧ IsSeq IsFloat v l
/-- The dictionary has a key `k` holding a sequence of strings. -/
def HasStrs (d : Dict) (k : Key) (l : List Text) : Prop := ∃ v, d.get? k = some v ∧ IsSeq IsStr v l
/-- The dictionary has a key `k` holding a sequence of rows of floats (2-d array or list of lists). -/
def HasRows (d : Dict) (k : Key) (l : List (List F64)) : Prop :=
  ∃ v, d.get? k = some v ∧ IsSeq (IsSeq IsFloat) v l

/-- Optional keys: the value, or the default when the key is missing. -/
def HasIntOr (d : Dict) (k : Key) (dflt n : Int) : Prop := IsInt (d.getOr k (.int dflt)) n
/-- Optional keys: the value, or the default when the key is missing. -/
def HasFloatOr (d : Dict) (k : Key) (dflt : Val) (x : F64) : Prop := IsFloat (d.getOr k dflt) x
/-- Optional keys: the value, or the default when the key is missing. -/
def HasStrOr (d : Dict) (k : Key) (dflt : String) (s : Text) : Prop := IsStr (d.getOr k (.str dflt.toList)) s
/-- Optional keys: the value, or the default when the key is missing. -/
def HasIntsOr (d : Dict) (k : Key) (dflt : Val) (l : List Int) : Prop := IsSeq IsInt (d.getOr k dflt) l
/-- Optional keys: the value, or the default when the key is missing. -/
def HasFloatsOr (d : Dict) (k : Key) (dflt : Val) (l : List F64) : Prop := IsSeq IsFloat (d.getOr k dflt) l
/-- Optional keys: the value, or the default when the key is missing. -/
def HasStrsOr (d : Dict) (k : Key) (dflt : Val) (l : List Text) : Prop := IsSeq IsStr (d.getOr k dflt) l

/-- The integer can be printed in `w` columns. -/
def Fits (w : Nat) (n : Int) : Prop := -(10 ^ (w - 1) : Int) < n ∧ n < 10 ^ w

instance (w : Nat) (n : Int) : Decidable (Fits w n) := by unfold Fits; infer_instance

/-- The characters at which Python ends a line of a text: line feed, vertical tab, form feed, carriage return, the file, group
and record separators, next line, line separator, paragraph separator. -/
def lineBreaks : List Char := [10, 11, 12, 13, 28, 29, 30, 0x85, 0x2028, 0x2029].map Char.ofNat

/-- No line break character in the text. -/
def OneLine (t : Text) : Prop := ∀ c ∈ t, c ∉ lineBreaks

instance (t : Text) : Decidable (OneLine t) := by unfold OneLine; infer_instance

/-- The delimiter. -/
def delim : Text := [' ', ' ', ' ', ' ', '-', '1']

/-- A line that contains a delimiter as understood by the file scanner: it ends with `'    -1'`, or
`'    -1'` and 74 blanks occur in it. -/
def HasDelim (l : Text) : Prop := ∃ s, s <:+ l ∧ (s = delim ∨ delim ++ List.replicate 74 ' ' <+: s)

/-- A text that fits a string field of `w` columns on one line, and that alone on a line (padded to the
width) is not mistaken for a delimiter. -/
structure LineText (w : Nat) (t : Text) : Prop where
  oneLine : OneLine t
  fits : t.length ≤ w
  noDelim : ¬ HasDelim (padRight w t)

/-- A text that fits a string field of `w` columns inside a line. -/
structure FieldText (w : Nat) (t : Text) : Prop where
  oneLine : OneLine t
  fits : t.length ≤ w

end Verif
