import Verif.Spec.File
/-
Binary data and the delimiters of the file.
-/
namespace Verif

/-- No delimiter begins inside the data, when the closing delimiter line follows. -/
def NoDelim (p : Bytes) : Prop := ∀ i < p.length, ¬ DelimAt (p ++ delimBytes ++ [10]) i

instance (p : Bytes) : Decidable (NoDelim p) := by unfold NoDelim; infer_instance

end Verif
