import Verif.Spec.Tokens
import Verif.Spec.S18
/-
Coordinate systems as any program may have written them.
-/
namespace Verif

/-- The words of a line are these numbers. -/
def FloatLine (line : Text) (l : List F64) : Prop := ∃ ws, Words line ws ∧ OneByOne (fun t x => pyFloat t = .ok x) ws l

/-- A line of cells of `w` characters, without anything behind them. -/
def CellLine (w : Nat) (line : Text) (l : List F64) : Prop :=
  ∃ cells, line = cells.flatten ∧ (∀ c ∈ cells, c.length = w) ∧ OneByOne (fun t x => pyFloat t = .ok x) cells l

/-- A number whose exponent letter is E or D, capital or small. -/
def DNumber (t : Text) (x : F64) : Prop := pyFloat (t.map fun c => if c = 'D' then 'E' else if c = 'd' then 'e' else c) = .ok x

/-- A line of such numbers. -/
def DLine (line : Text) (l : List F64) : Prop := ∃ ws, Words line ws ∧ OneByOne DNumber ws l

/-- The four lines of a coordinate system in data-set 18 and what they say. -/
structure SysLines where
  head : Text
  name : Text
  axes : Text
  plane : Text
  num : F64
  type : F64
  ref : F64
  color : F64
  method : F64
  o : Pt
  x : Pt
  xz : Pt

/-- The lines. -/
def SysLines.lines (s : SysLines) : List Text := [s.head, s.name, s.axes, s.plane]

/-- The first line begins with a blank and has five numbers, in any layout; the third and the fourth line are exactly six and three
cells of 13 characters. -/
structure SysLines.Good (s : SysLines) : Prop where
  blank : ∀ c, s.head.head? = some c → isSpace c = true
  head : FloatLine s.head [s.num, s.type, s.ref, s.color, s.method]
  axes : CellLine 13 s.axes [s.o.x, s.o.y, s.o.z, s.x.x, s.x.y, s.x.z]
  plane : CellLine 13 s.plane [s.xz.x, s.xz.y, s.xz.z]

/-- The dictionary read from data-set 18. -/
def systemsDict18 (l : List SysLines) : Dict :=
  [("type", .int 18), ("cs_num", .arrF (l.map (·.num))), ("cs_type", .arrF (l.map (·.type))), ("ref_cs_num", .arrF (l.map (·.ref))),
   ("color", .arrF (l.map (·.color))), ("method", .arrF (l.map (·.method))), ("cs_name", .list (l.map fun s => .str (strip s.name))),
   ("ref_o", .mat (l.map (·.o.row))), ("x_point", .mat (l.map (·.x.row))), ("xz_point", .mat (l.map (·.xz.row)))]

/-- The six lines of a coordinate system in data-set 2420 and what they say. -/
structure MatLines where
  head : Text
  name : Text
  row1 : Text
  row2 : Text
  row3 : Text
  row4 : Text
  label : Int
  type : Int
  color : Int
  a : Pt
  b : Pt
  c : Pt
  o : Pt

/-- The lines. -/
def MatLines.lines (s : MatLines) : List Text := [s.head, s.name, s.row1, s.row2, s.row3, s.row4]

/-- The line ends with a blank or a line end. -/
def BlankEnd (l : Text) : Prop := ∃ t c, l = t ++ [c] ∧ isSpace c = true

/-- Every line but that of the name has three numbers in any layout, and ends. -/
structure MatLines.Good (s : MatLines) : Prop where
  head : IntLine s.head [s.label, s.type, s.color]
  row1 : DLine s.row1 s.a.row
  row2 : DLine s.row2 s.b.row
  row3 : DLine s.row3 s.c.row
  row4 : DLine s.row4 s.o.row
  ended : ∀ l ∈ s.lines, BlankEnd l

/-- The dictionary read from data-set 2420. -/
def systemsDict2420 (uid : Int) (part : Text) (l : List MatLines) : Dict :=
  [("type", .int 2420), ("Part_UID", .int uid), ("Part_Name", .str (rstrip part)), ("CS_sys_labels", .list (l.map fun s => .int s.label)),
   ("CS_types", .list (l.map fun s => .int s.type)), ("CS_colors", .list (l.map fun s => .int s.color)),
   ("CS_names", .list (l.map fun s => .str (rstrip s.name))),
   ("CS_matrices", .list (l.map fun s => .mat [s.a.row, s.b.row, s.c.row, s.o.row]))]

end Verif
