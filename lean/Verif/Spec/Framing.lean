import Verif.Model.DS2412
/-
The first thirteen and the last seven characters of every data-set.
-/
namespace Verif

/-- The opening of a data-set of type `n`: the delimiter line and the type in six columns. -/
def opening (n : Nat) : Text := padLeft 6 ['-', '1'] ++ '\n' :: padLeft 6 (natRepr n)

/-- The bytes of a data-set of type `n`: the opening, anything, and the closing delimiter line. -/
def FramedAs (n : Int) (b : Bytes) : Prop :=
  ∃ mid, b = encode (opening n.toNat) ++ (mid ++ [32, 32, 32, 32, 45, 49, 10])

/-- Nothing, or the opening of a data-set of type `n` and anything. -/
def StartedAs (n : Int) (b : Bytes) : Prop := b = [] ∨ ∃ mid, b = encode (opening n.toNat) ++ mid

/-- Results (data-set 2414) other than a frequency response, at location 5: the one case in which no closing delimiter is
written (`/repo/pyuff/datasets/dataset_2414.py:668-705`). -/
def NeverClosed (d : Dict) : Prop :=
  d.get? "type" = some (.int 2414) ∧ ∃ v a, d.get? "dataset_location" = some v ∧ d.get? "analysis_type" = some a ∧
    v.numEq 5 = true ∧ a.numEq 5 = false

end Verif
