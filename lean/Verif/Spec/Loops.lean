import Verif.Props.Header
/-
The records that drive the reading loops of data-sets 2429, 2467 and 2414.
-/
namespace Verif

/-- The eight columns of ten characters of the first line of a group are integers, and the last one, the number of entities, is
`n`. -/
def GroupLine (l : Text) (n : Int) : Prop :=
  (∀ i < 8, parseInt (fieldText l [10, 10, 10, 10, 10, 10, 10, 10] i) ≠ none) ∧
  parseInt (fieldText l [10, 10, 10, 10, 10, 10, 10, 10] 7) = some n

instance (l : Text) (n : Int) : Decidable (GroupLine l n) := by
  unfold GroupLine
  infer_instance

/-- The first four words of the line of an element are integers: its number, `IEXP`, the number of nodes and the number of values
at each. -/
def ElementLine (l : Text) (e iexp nodes vals : Int) : Prop :=
  (splitWs l)[0]?.bind parseInt = some e ∧ (splitWs l)[1]?.bind parseInt = some iexp ∧
  (splitWs l)[2]?.bind parseInt = some nodes ∧ (splitWs l)[3]?.bind parseInt = some vals

instance (l : Text) (a b c d : Int) : Decidable (ElementLine l a b c d) := by
  unfold ElementLine
  infer_instance

end Verif
