import Verif.Spec.DataSet
/-
Nodes, trace lines and elements as any program may have written them: words separated by blanks.
-/
namespace Verif

/-- The words of a text: what is between the blanks (spaces, line ends). -/
inductive Words : Text → List Text → Prop
  | blank {g : Text} : (∀ c ∈ g, isSpace c = true) → Words g []
  | word {g w t : Text} {ws : List Text} : (∀ c ∈ g, isSpace c = true) → w ≠ [] → (∀ c ∈ w, isSpace c = false) →
      (∀ c, t.head? = some c → isSpace c = true) → Words t ws → Words (g ++ (w ++ t)) (w :: ws)

/-- A number as Fortran may write it: the exponent letter is E or D. -/
def FortranNumber (t : Text) (x : F64) : Prop := pyFloat (t.map fun c => if c = 'D' ∨ c = 'd' then 'E' else c) = .ok x

/-- A node as it is read: everything is a floating point number. -/
structure NodeF where
  num : F64
  defCs : F64
  dispCs : F64
  color : F64
  x : F64
  y : F64
  z : F64

/-- The numbers of a node in the order of the file. -/
def NodeF.numbers (n : NodeF) : List F64 := [n.num, n.defCs, n.dispCs, n.color, n.x, n.y, n.z]

/-- The dictionary with the nodes; `pack` makes an array or a list. -/
def nodesDict (type : Int) (pack : List F64 → Val) (l : List NodeF) : Dict :=
  [("type", .int type), ("node_nums", pack (l.map (·.num))), ("def_cs", pack (l.map (·.defCs))),
   ("disp_cs", pack (l.map (·.dispCs))), ("color", pack (l.map (·.color))),
   ("x", pack (l.map (·.x))), ("y", pack (l.map (·.y))), ("z", pack (l.map (·.z)))]

/-- A line of integers. -/
def IntLine (line : Text) (l : List Int) : Prop := ∃ ws, Words line ws ∧ OneByOne (fun t n => pyInt t = .ok n) ws l

/-- A line that begins with these integers; other words may follow. -/
def IntLineStart (line : Text) (l : List Int) : Prop :=
  ∃ ws more, Words line (ws ++ more) ∧ OneByOne (fun t n => pyInt t = .ok n) ws l

/-- The lines of an element: the six numbers, for the descriptors 11, 21, 22, 23 and 24 a line with the three beam numbers, and
*one* line with the nodes. -/
inductive ElemLines : Elem → List Text → Prop
  | rod {e : Elem} {h b n : Text} : e.fe ∈ [11, 21, 22, 23, 24] →
      IntLineStart h [e.num, e.fe, e.phys, e.mat, e.color, e.numNodes] → IntLineStart b [e.beam.1, e.beam.2.1, e.beam.2.2] →
      IntLine n e.nodes → ElemLines e [h, b, n]
  | other {e : Elem} {h n : Text} : e.fe ∉ [11, 21, 22, 23, 24] →
      IntLineStart h [e.num, e.fe, e.phys, e.mat, e.color, e.numNodes] → IntLine n e.nodes → ElemLines e [h, n]

end Verif
