import Verif.Spec.S58
import Verif.Py.Float
/-
The values of a data-set 58 as any program may have written them: fixed columns of text, or binary numbers.
-/
namespace Verif

/-- A point: abscissa and ordinate (with imaginary part, when the data are complex). -/
structure Sample where
  x : F64
  re : F64
  im : F64

/-- The form of the data: precision, real or complex, even or uneven abscissa. -/
structure Form58 where
  double : Bool
  real : Bool
  even : Bool

namespace Form58

/-- `ord_data_type`. -/
def code (f : Form58) : Int := match f.double, f.real with
  | false, true => 2
  | true, true => 4
  | false, false => 5
  | true, false => 6

/-- `abscissa_spacing`. -/
def spacing (f : Form58) : Int := if f.even then 1 else 0

/-- The numbers stored for a point. -/
def numbers (f : Form58) (s : Sample) : List F64 :=
  (if f.even then [] else [s.x]) ++ (s.re :: if f.real then [] else [s.im])

/-- The abscissa: stored, or given by the first value and the increment. -/
def abscissa (f : Form58) (mn inc : F64) (l : List Sample) : List F64 :=
  if f.even then (List.range l.length).map fun i => mn.add ((F64.ofNat i).mul inc) else l.map Sample.x

/-- The ordinate.  Complex numbers are put together as `re + 1j * im`. -/
def ordinate (f : Form58) (l : List Sample) : Val :=
  if f.real then .arrF (l.map Sample.re) else .arrC (l.map fun s => Cplx.unsigned (s.re, s.im))

end Form58

/-- A line of values: its cells, and what follows (the line end, blanks). -/
structure Line58 where
  cells : List Text
  rest : Text

/-- The line. -/
def Line58.text (l : Line58) : Text := l.cells.flatten ++ l.rest

/-- The columns of the standard: `6E13.5`, `4E20.12`, `2(E13.5,E20.12)`, `E13.5,2E20.12`.  The number of cells on a line does
not matter, except in the last case.  On the last line of the first case cells of blanks may follow. -/
def Form58.LineOk (f : Form58) (last : Bool) (l : Line58) : Prop :=
  if f.double = false then (∀ c ∈ l.cells, c.length = 13) ∧
    (if last then (∃ k t, l.rest = List.replicate (13 * k) ' ' ++ t ∧ t.length < 13) ∧ ∀ c ∈ l.cells, ∃ x ∈ c, x ≠ ' '
      else l.rest.length < 13)
  else if f.even = true then (∀ c ∈ l.cells, c.length = 20) ∧ l.rest.length < 20
  else if f.real = true then (∃ k, l.cells.map List.length = (List.replicate k [13, 20]).flatten) ∧ l.rest.length < 33
  else l.cells.map List.length = [13, 20, 20]

/-- All lines are like that.  In single precision there is at least one. -/
def Form58.LinesOk (f : Form58) (ls : List Line58) : Prop :=
  (f.double = true ∧ ls = []) ∨
  ∃ front last, ls = front ++ [last] ∧ (∀ l ∈ front, f.LineOk false l) ∧ f.LineOk true last

/-- The number written by eight bytes, or by four. -/
def Form58.Word (f : Form58) (little : Bool) (b : Bytes) (x : F64) : Prop :=
  let n := (if little then b.reverse else b).foldl (fun n c => n * 256 + c.toNat) 0
  if f.double then b.length = 8 ∧ x = F64.ofBits n else b.length = 4 ∧ x = F64.ofBits32 n

/-- A line of bytes, ended by LF or CR LF. -/
def ByteLine (l : Bytes) : Prop := ∃ c : Bytes, (∀ b ∈ c, b ≠ 10 ∧ b ≠ 13) ∧ (l = c ++ [10] ∨ l = c ++ [13, 10])

/-- What the header of a data-set 58, read alone, says about the values. -/
structure Header58 (d : Dict) (binary : Bool) (f : Form58) (mn inc : F64) : Prop where
  binary : d.get? "binary" = some (.int (if binary then 1 else 0))
  type : d.get? "ord_data_type" = some (.int f.code)
  spacing : d.get? "abscissa_spacing" = some (.int f.spacing)
  min : d.get? "abscissa_min" = some (.float mn)
  inc : d.get? "abscissa_inc" = some (.float inc)

/-- The size of a word. -/
def Form58.size (f : Form58) : Nat := if f.double then 8 else 4

end Verif
