import Verif.Model.Uff
import Verif.Spec.File
/-
Files whose lines end with CR LF.
-/
namespace Verif

/-- The bytes with a carriage return before every line feed: the file as a text editor on Windows saves it, and what text
mode writes there. -/
def crlf (b : Bytes) : Bytes := b.flatMap fun c => if c = 10 then [13, 10] else [c]

/-- No carriage return. -/
def NoCr (b : Bytes) : Prop := ∀ c ∈ b, c ≠ 13

instance (b : Bytes) : Decidable (NoCr b) := by unfold NoCr; infer_instance

/-- Width of the columns in which the lines of data-set 58 are cut up, by the ordinate data type and the abscissa spacing;
the lines of unevenly spaced double precision complex data are not cut up by their length. -/
def cellWidth (odt sp : Int) : Option Nat :=
  if odt = 2 ∨ odt = 5 then some 13
  else if (odt = 4 ∨ odt = 6) ∧ sp = 1 then some 20
  else if odt = 4 ∧ sp = 0 then some 33
  else none

/-- The ends of the lines do not matter to the reader of the data-set `b`: no cell of a data line could be filled up with a
carriage return and a line feed, and the values of a data-set 58 are not binary (they are not looked at when only the header
is read). -/
structure EolSafe (header : Bool) (b : Bytes) : Prop where
  /-- Every second line from line 11 on of a data-set 55 is cut up in columns of width 13. -/
  cells55 : TypeIs b 55 → ∀ l ∈ everyN 11 2 (splitLines (decode b)), l.length % 13 ≠ 11
  ascii58 : TypeIs b 58 → header = false → ∀ d, readBlock 58 true b = .ok d → d.get? "binary" = some (.int 0)
  cells58 : TypeIs b 58 → header = false → ∀ d odt sp w, readBlock 58 true b = .ok d →
    d.get? "ord_data_type" = some (.int odt) → d.get? "abscissa_spacing" = some (.int sp) → cellWidth odt sp = some w →
    ∀ l ∈ (splitLines (decode b)).drop 13, l.length % w ≠ w - 2

end Verif
