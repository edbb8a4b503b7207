import Verif.Model.Scan
/-
What a universal file holds, stated directly on its bytes: the delimiters, the data-sets between them and their types.
-/
namespace Verif

/-- The six bytes of a delimiter. -/
def delimBytes : Bytes := [32, 32, 32, 32, 45, 49]

/-- There is a delimiter at offset `i`: the six bytes are there, followed by the end of the file, a line feed, a
carriage return, or 74 blanks and at least one more byte. -/
def DelimAt (f : Bytes) (i : Nat) : Prop :=
  (∀ j < 6, f[i + j]? = delimBytes[j]?) ∧
    (f.length = i + 6 ∨ f[i + 6]? = some 10 ∨ f[i + 6]? = some 13 ∨
      (i + 80 < f.length ∧ ∀ j < 74, f[i + 6 + j]? = some 32))

instance (f : Bytes) (i : Nat) : Decidable (DelimAt f i) := by unfold DelimAt; infer_instance

/-- The offsets of all delimiters, in order. -/
def delims (f : Bytes) : List Nat := (List.range f.length).filter fun i => DelimAt f i

/-- The number of data-sets: delimiters come in pairs, a last one without partner is ignored. -/
def setCount (f : Bytes) : Nat := (delims f).length / 2

/-- The offset of the `i`-th delimiter. -/
def delimPos (f : Bytes) (i : Nat) : Nat := (delims f)[i]?.getD 0

/-- Data-set `k`: the bytes from the `2k`-th delimiter up to (excluding) the `2k+1`-th. -/
def setBytes (f : Bytes) (k : Nat) : Bytes :=
  (f.take (delimPos f (2 * k + 1))).drop (delimPos f (2 * k))

/-- All data-sets. -/
def sets (f : Bytes) : List Bytes := (List.range (setCount f)).map (setBytes f)

/-- Every opening delimiter has its closing one. -/
def Balanced (f : Bytes) : Prop := (delims f).length % 2 = 0

/-- The file is empty or its last byte is a line feed. -/
def Terminated (f : Bytes) : Prop := f = [] ∨ f.getLast? = some 10

instance (f : Bytes) : Decidable (Balanced f) := by unfold Balanced; infer_instance
instance (f : Bytes) : Decidable (Terminated f) := by unfold Terminated; infer_instance

/-- The type of a data-set: the number in the first six bytes of its second line (lines end with LF, CR or CR LF), 0 when
there is no second line or these bytes are not a python integer literal. -/
def TypeIs (block : Bytes) (n : Int) : Prop :=
  (∃ l, (splitLinesB block)[1]? = some l ∧
    ((parseIntB (l.take 6) = some n) ∨ (parseIntB (l.take 6) = none ∧ n = 0))) ∨
  ((splitLinesB block)[1]? = none ∧ n = 0)

end Verif
